import Verif.Model.Factory
import Verif.Model.ObjectMethods
import Verif.Model.BitMap
import Verif.Model.Checksum
import Verif.Model.Interp
/-
Checks of the model against the unit tests of /repo.  These are tests, not proofs: they show that the model does what the
authors of the code expect of the program on their examples.
-/
namespace FinProto.Tests

/-- `o.setX(v)`; an unknown property gives null, so that the test fails. -/
def _root_.FinProto.Val.setter (o : Val) (x : String) (v : Val) : Val :=
  match o with
  | .obj c fs =>
    match (decl c).acc.findIdx? (fun a => a.1 == x) with
    | some p => .obj c (setProp c p v fs)
    | none => .null
  | _ => .null

/-- `ByteBuf buffer = Unpooled.buffer(); original.encode(buffer); C decoded = new C(); decoded.decode(buffer); assertEquals(original, decoded);`
and the buffer is used up. -/
def roundTrip (original : Val) : Bool :=
  match original with
  | .obj c _ =>
    let e := encode World.initial 10 original ⟨[], 0, 0x7FFFFFFF⟩
    let d := decode World.initial 10 c (freshFields c) ⟨e.2.1.data, [], 0⟩
    e.2.2 == none && d.2.2 == none && e.1.equals (.obj c d.1) && d.2.1.rd == e.2.1.data.length
  | _ => false

end FinProto.Tests
