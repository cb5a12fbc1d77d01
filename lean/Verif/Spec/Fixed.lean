import Verif.Spec.Wire
/-
Specification: fields of fixed width and where they are.
-/
namespace FinProto

/-- Width in bytes of a field whose width does not depend on its value. -/
def WTy.width? : WTy → Option Nat
  | .num t | .len t | .cksum t _ => some t.size
  | .text n _ _ => some n
  | _ => none

/-- Offset of field `i`, if all fields before it have a fixed width. -/
def offset? : List WTy → Nat → Option Nat
  | _, 0 => some 0
  | [], _ + 1 => none
  | t :: ts, i + 1 =>
    match t.width?, offset? ts i with
    | some w, some o => some (w + o)
    | _, _ => none

/-- Size of a message of class `c`, if all its fields have a fixed width. -/
def size? (c : Cls) : Option Nat := offset? (wire c) (wire c).length

/-- Value of a fixed-width field with content `bs`. -/
def fieldValue (k : Conv) (t : WTy) (bs : List Byte) : Val :=
  match t with
  | .num p | .len p | .cksum p _ => .num ⟨p, BitVec.ofNat p.bits (ofBytes k.order bs)⟩
  | .text _ pad left => .str (stripPad pad left (utf8Dec bs))
  | _ => .null

/-- Values of the first fixed-width fields of a record with content `bs`. -/
def headValues (k : Conv) : List WTy → List Byte → List Val
  | [], _ => []
  | t :: ts, bs =>
    match t.width? with
    | some w => fieldValue k t (bs.take w) :: headValues k ts (bs.drop w)
    | none => []

/-- `bs` is the UTF-8 form of some text (every sequence complete, shortest and no surrogate). -/
def validUtf8 (bs : List Byte) : Prop := ∃ s : JStr, validUtf16 s = true ∧ utf8Enc s = bs

/-- All texts of a record with content `bs` are valid UTF-8, and left-padded ones do not consist of padding only. -/
def textsNormal : List WTy → List Byte → Prop
  | [], _ => True
  | t :: ts, bs =>
    match t with
    | .text n pad left =>
      validUtf8 (bs.take n) ∧ (left = true → ∃ x ∈ bs.take n, x ≠ pad.setWidth 8) ∧ textsNormal ts (bs.drop n)
    | .num p => textsNormal ts (bs.drop p.size)
    | _ => False

end FinProto
