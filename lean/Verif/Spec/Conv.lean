import Verif.Model.Classes
import Verif.Spec.Layout
/-- Conventions of the five protocols: SSE, SZSE and risk control use network byte order,
BJSE and the sample protocol little-endian; counts are 16-bit except for SZSE lists and risk-control strings. -/
def FinProto.conv : FinProto.Mod → FinProto.Conv
  | .sample => ⟨.le, .i16, .i16⟩
  | .sse    => ⟨.be, .i16, .i16⟩
  | .szse   => ⟨.be, .i32, .i32⟩
  | .bjse   => ⟨.le, .i16, .i16⟩
  | .risk   => ⟨.be, .i32, .i32⟩
