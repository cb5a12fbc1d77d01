import Verif.Model.Basic
/-
Unicode text, independent of the model of the JDK: a text is a list of Lean's `Char`s (Unicode scalar values), and its UTF-8 form is the one
Lean's own `String` is made of.
-/
namespace FinProto

/-- The UTF-8 bytes of a text, as in Lean's `String.toByteArray`. -/
def stdUtf8 (t : String) : List Byte := t.toByteArray.data.toList.map (·.toBitVec)

/-- The 16-bit code units `s` spell the text `cs` in UTF-16 (Unicode standard, D91). -/
inductive Spells : JStr → List Char → Prop
  | nil : Spells [] []
  | unit (u : JChar) (c : Char) (s : JStr) (cs : List Char) (h : c.toNat = u.toNat) (hs : Spells s cs) : Spells (u :: s) (c :: cs)
  | pair (hi lo : JChar) (c : Char) (s : JStr) (cs : List Char) (hh : 0xD800 ≤ hi.toNat ∧ hi.toNat < 0xDC00)
      (hl : 0xDC00 ≤ lo.toNat ∧ lo.toNat < 0xE000)
      (h : c.toNat = 0x10000 + (hi.toNat - 0xD800) * 0x400 + (lo.toNat - 0xDC00)) (hs : Spells s cs) :
      Spells (hi :: lo :: s) (c :: cs)

/-- As `Spells`, for code units with surrogates that are not part of a pair: each of them counts as a question mark. -/
inductive SpellsLoosely : JStr → List Char → Prop
  | nil : SpellsLoosely [] []
  | unit (u : JChar) (c : Char) (s : JStr) (cs : List Char) (h : c.toNat = u.toNat) (hs : SpellsLoosely s cs) :
      SpellsLoosely (u :: s) (c :: cs)
  | pair (hi lo : JChar) (c : Char) (s : JStr) (cs : List Char) (hh : 0xD800 ≤ hi.toNat ∧ hi.toNat < 0xDC00)
      (hl : 0xDC00 ≤ lo.toNat ∧ lo.toNat < 0xE000)
      (h : c.toNat = 0x10000 + (hi.toNat - 0xD800) * 0x400 + (lo.toNat - 0xDC00)) (hs : SpellsLoosely s cs) :
      SpellsLoosely (hi :: lo :: s) (c :: cs)
  | loneHigh (u : JChar) (s : JStr) (cs : List Char) (hu : 0xD800 ≤ u.toNat ∧ u.toNat < 0xDC00)
      (hn : ∀ lo s', s = lo :: s' → ¬ (0xDC00 ≤ lo.toNat ∧ lo.toNat < 0xE000)) (hs : SpellsLoosely s cs) :
      SpellsLoosely (u :: s) ('?' :: cs)
  | loneLow (u : JChar) (s : JStr) (cs : List Char) (hu : 0xDC00 ≤ u.toNat ∧ u.toNat < 0xE000) (hs : SpellsLoosely s cs) :
      SpellsLoosely (u :: s) ('?' :: cs)

/-- The shortest UTF-8-like form of a code point below 0x110000, surrogates included (Unicode standard, table 3-6): the sequences a decoder
recognises. -/
inductive Form : Nat → List Byte → Prop
  | one (u : Nat) (a : Byte) (h : u < 0x80) (ha : a.toNat = u) : Form u [a]
  | two (u : Nat) (a b : Byte) (h : 0x80 ≤ u ∧ u < 0x800) (x y : Nat) (hy : y < 64) (hu : u = x * 64 + y)
      (ha : a.toNat = 0xC0 + x) (hb : b.toNat = 0x80 + y) : Form u [a, b]
  | three (u : Nat) (a b c : Byte) (h : 0x800 ≤ u ∧ u < 0x10000) (x y z : Nat) (hy : y < 64) (hz : z < 64) (hu : u = (x * 64 + y) * 64 + z)
      (ha : a.toNat = 0xE0 + x) (hb : b.toNat = 0x80 + y) (hc : c.toNat = 0x80 + z) : Form u [a, b, c]
  | four (u : Nat) (a b c d : Byte) (h : 0x10000 ≤ u ∧ u < 0x110000) (x y z v : Nat) (hy : y < 64) (hz : z < 64) (hv : v < 64)
      (hu : u = ((x * 64 + y) * 64 + z) * 64 + v)
      (ha : a.toNat = 0xF0 + x) (hb : b.toNat = 0x80 + y) (hc : c.toNat = 0x80 + z) (hd : d.toNat = 0x80 + v) : Form u [a, b, c, d]

/-- What bytes that need not be UTF-8 are read as.  From left to right: the form of a character is that character, the form of a surrogate is
one U+FFFD, and where no form starts, the longest run of bytes that could have begun one (at least one byte) is one U+FFFD. -/
inductive ReadAs : List Byte → List Char → Prop
  | nil : ReadAs [] []
  | char (c : Char) (f rest : List Byte) (cs : List Char) (hf : Form c.toNat f) (hr : ReadAs rest cs) : ReadAs (f ++ rest) (c :: cs)
  | surrogate (u : Nat) (f rest : List Byte) (cs : List Char) (hu : 0xD800 ≤ u ∧ u < 0xE000) (hf : Form u f) (hr : ReadAs rest cs) :
      ReadAs (f ++ rest) ('�' :: cs)
  | malformed (bad rest : List Byte) (cs : List Char) (h0 : bad ≠ [])
      (hno : ∀ u f, Form u f → ¬ f <+: bad ++ rest)
      (hpre : bad.length = 1 ∨ ∃ u f, Form u f ∧ bad <+: f)
      (hmax : ∀ u f p, Form u f → p <+: f → p <+: bad ++ rest → p.length ≤ bad.length)
      (hr : ReadAs rest cs) : ReadAs (bad ++ rest) ('�' :: cs)

end FinProto
