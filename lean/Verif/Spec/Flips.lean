import Verif.Spec.Crc
/- Which bits of a message were flipped in transit. -/
namespace FinProto

/-- The positions, in transmission order, of the bits in which two byte strings differ. -/
def flips (m1 m2 : List Byte) : List Nat :=
  (List.range (8 * m1.length)).filter fun k => (msgBits m1)[k]? != (msgBits m2)[k]?

end FinProto
