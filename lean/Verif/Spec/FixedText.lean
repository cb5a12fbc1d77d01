import Verif.Model.Utf8
/-
Specification of fixed-width text fields, independent of the code.
-/
namespace FinProto

/-- The `n`-byte field that represents text `s`: the first `n` bytes of its UTF-8 form, filled up with the pad byte on the
left or on the right. -/
def fixedField (n : Nat) (pad : JChar) (left : Bool) (s : JStr) : List Byte :=
  let text := (utf8Enc s).take n
  let fill := List.replicate (n - text.length) (pad.setWidth 8)
  if left then fill ++ text else text ++ fill

/-- `s` without the run of `pad` characters at its left / right end. -/
def stripPad (pad : JChar) (left : Bool) (s : JStr) : JStr :=
  if left then s.dropWhile (· == pad) else (s.reverse.dropWhile (· == pad)).reverse

/-- Does `s` start (left) / end (right) with the pad character? -/
def touchesPad (pad : JChar) (left : Bool) (s : JStr) : Bool :=
  if left then s.head? == some pad else s.getLast? == some pad

/-- Well-formed UTF-16: every surrogate is part of a high-low pair. -/
def validUtf16 : JStr → Bool
  | [] => true
  | [c] => !(isHigh c || isLow c)
  | c :: d :: t =>
    if isHigh c then isLow d && validUtf16 t
    else !isLow c && validUtf16 (d :: t)

end FinProto
