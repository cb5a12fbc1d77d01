import Verif.Spec.Wire
/-
Which byte strings a receiver takes for a message, and as what.  Written from the wire layouts only: no buffer, no reader index, no
order of execution, no recursion depth.
-/
namespace FinProto

/-- The text in a fixed-width field: what the bytes say in UTF-8, without the run of pad characters on the padded side. -/
def Unpadded (pad : JChar) (left : Bool) (bytes : List Byte) (s : JStr) : Prop :=
  (∃ n, utf8Dec bytes = if left then List.replicate n pad ++ s else s ++ List.replicate n pad) ∧ touchesPad pad left s = false

namespace Grammar

/-- `bytes` are a signed number of Java type `t` with the value `z`. -/
def Count (k : Conv) (t : PTy) (z : Int) (bytes : List Byte) : Prop := ∃ n : Num, n.ty = t ∧ n.bits.toInt = z ∧ bytes = n.bytes k.order

mutual
/-- Received for a message of class `c`, the bytes turn the field values `olds` into `news`. -/
inductive Msg (w : World) : (c : Cls) → (olds : List Val) → (bytes : List Byte) → (news : List Val) → Prop
  | mk {c olds bytes news} (h : Fields w (conv c.mod) [] (wire c) olds bytes news) : Msg w c olds bytes news
/-- Consecutive fields of the wire types `ts`; `front` are the new values of the fields in front of them. -/
inductive Fields (w : World) : (k : Conv) → (front : List Val) → (ts : List WTy) → (olds : List Val) → (bytes : List Byte) →
    (news : List Val) → Prop
  | nil {k front} : Fields w k front [] [] [] []
  | cons {k front t ts old olds bytes bytes' new news} (h : Field w k front t old bytes new)
      (hs : Fields w k (front ++ [new]) ts olds bytes' news) :
      Fields w k front (t :: ts) (old :: olds) (bytes ++ bytes') (new :: news)
/-- One field. -/
inductive Field (w : World) : (k : Conv) → (front : List Val) → (t : WTy) → (old : Val) → (bytes : List Byte) → (new : Val) → Prop
  /-- a number -/
  | num {k front old} (n : Num) : Field w k front (.num n.ty) old (n.bytes k.order) (.num n)
  /-- a length: any number -/
  | len {k front old} (n : Num) : Field w k front (.len n.ty) old (n.bytes k.order) (.num n)
  /-- a checksum: any number -/
  | cksum {k front old alg} (n : Num) : Field w k front (.cksum n.ty alg) old (n.bytes k.order) (.num n)
  /-- a text of `n` bytes -/
  | text {k front old n pad left bytes s} (hl : bytes.length = n) (hs : Unpadded pad left bytes s) :
      Field w k front (.text n pad left) old bytes (.str s)
  /-- a string: a positive length and as many bytes -/
  | str {k front old p bytes} (hp : Count k k.strLen bytes.length p) (hne : bytes ≠ []) :
      Field w k front .vstr old (p ++ bytes) (.str (utf8Dec bytes))
  /-- a string with a length of zero or below: the length only, the field stays as it is -/
  | strNone {k front old p z} (hp : Count k k.strLen z p) (hz : z ≤ 0) : Field w k front .vstr old p old
  /-- a list: a positive count and as many elements -/
  | list {k front e old p bytes xs} {m : Nat} (hp : Count k k.listLen m p) (hm : 0 < m) (h : Elems w k e m bytes xs) :
      Field w k front (.list e) old (p ++ bytes) (.list xs)
  /-- a list with a count of zero or below: the count only, the field stays as it is -/
  | listNone {k front e old p z} (hp : Count k k.listLen z p) (hz : z ≤ 0) : Field w k front (.list e) old p old
  /-- an embedded message, when there was none: a new one -/
  | subNew {k front c bytes fs} (h : Msg w c (freshFields c) bytes fs) : Field w k front (.sub c) .null bytes (.obj c fs)
  /-- an embedded message: received into the one that is there -/
  | subOld {k front c d olds bytes fs} (h : Msg w d olds bytes fs) : Field w k front (.sub c) (.obj d olds) bytes (.obj d fs)
  /-- a message of the class registered for the key in field number `key` -/
  | ext {k front fac key old kv d olds bytes fs} (hk : front[key]? = some kv) (hr : w.fac fac (keyOf kv) = some (.obj d olds))
      (h : Msg w d olds bytes fs) : Field w k front (.ext fac key) old bytes (.obj d fs)
/-- `m` list elements.  Strings with a length of zero or below add nothing to the list. -/
inductive Elems (w : World) : (k : Conv) → (e : EWTy) → (m : Nat) → (bytes : List Byte) → (xs : List Val) → Prop
  | nil {k e} : Elems w k e 0 [] []
  | cons {k e m bytes bytes' x xs} (h : Elem w k e bytes x) (hs : Elems w k e m bytes' xs) :
      Elems w k e (m + 1) (bytes ++ bytes') (x :: xs)
  | skip {k m p z bytes' xs} (hp : Count k k.strLen z p) (hz : z ≤ 0) (hs : Elems w k .vstr m bytes' xs) :
      Elems w k .vstr (m + 1) (p ++ bytes') xs
/-- One list element. -/
inductive Elem (w : World) : (k : Conv) → (e : EWTy) → (bytes : List Byte) → (x : Val) → Prop
  | num {k} (n : Num) : Elem w k (.num n.ty) (n.bytes k.order) (.num n)
  | text {k n pad left bytes s} (hl : bytes.length = n) (hs : Unpadded pad left bytes s) : Elem w k (.text n pad left) bytes (.str s)
  | str {k p bytes} (hp : Count k k.strLen bytes.length p) (hne : bytes ≠ []) : Elem w k .vstr (p ++ bytes) (.str (utf8Dec bytes))
  | sub {k c bytes fs} (h : Msg w c (freshFields c) bytes fs) : Elem w k (.sub c) bytes (.obj c fs)
end

mutual
/-- The bytes lead to a key for which no class is registered, somewhere in the message. -/
inductive MsgStuck (w : World) : (c : Cls) → (olds : List Val) → (bytes : List Byte) → Prop
  | mk {c olds ts t ts' old olds' olds'' bytes bytes' news} (hw : wire c = ts ++ t :: ts') (ho : olds = olds' ++ old :: olds'')
      (hlen : olds''.length = ts'.length)
      (h : Fields w (conv c.mod) [] ts olds' bytes news) (hs : FieldStuck w (conv c.mod) news t old bytes') :
      MsgStuck w c olds (bytes ++ bytes')
inductive FieldStuck (w : World) : (k : Conv) → (front : List Val) → (t : WTy) → (old : Val) → (bytes : List Byte) → Prop
  /-- nothing is registered for the key -/
  | ext {k front fac key old kv} (hk : front[key]? = some kv) (hr : w.fac fac (keyOf kv) = none) :
      FieldStuck w k front (.ext fac key) old []
  /-- a message is registered for the key, and the unknown key is inside that message -/
  | extIn {k front fac key old kv d olds bytes} (hk : front[key]? = some kv) (hr : w.fac fac (keyOf kv) = some (.obj d olds))
      (h : MsgStuck w d olds bytes) : FieldStuck w k front (.ext fac key) old bytes
  | subNew {k front c bytes} (h : MsgStuck w c (freshFields c) bytes) : FieldStuck w k front (.sub c) .null bytes
  | subOld {k front c d olds bytes} (h : MsgStuck w d olds bytes) : FieldStuck w k front (.sub c) (.obj d olds) bytes
  /-- in the element behind the first `i` of the `m` elements of a list -/
  | list {k front c old p bytes bytes' xs} {m i : Nat} (hp : Count k k.listLen m p) (hi : i < m) (h : Elems w k (.sub c) i bytes xs)
      (hs : MsgStuck w c (freshFields c) bytes') : FieldStuck w k front (.list (.sub c)) old (p ++ bytes ++ bytes')
end

end Grammar

end FinProto
