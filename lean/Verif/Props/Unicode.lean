import Verif.Proofs.ReadAs
import Verif.Proofs.BinaryCodec
import Verif.Model.Interp
/-
C69: text on the wire is standard UTF-8.  `stdUtf8` is the UTF-8 form of Lean's own strings, `Spells` is UTF-16, `ReadAs` says what bytes that
need not be UTF-8 mean (Spec/Unicode.lean).
-/
namespace FinProto

/-- **C69.** Every text has exactly one Java string that spells it, and a Java string spells a text iff it has no unpaired surrogate. -/
theorem C69_spelling (t : String) : (∃ s, Spells s t.toList ∧ ∀ s', Spells s' t.toList → s' = s)
    ∧ ∀ s : JStr, (∃ cs, Spells s cs) ↔ validUtf16 s = true :=
  ⟨⟨_, spelling_spells _, fun _ h => h.unique⟩, spells_valid⟩

/-- **C69.** `writeFixedString` writes the standard UTF-8 form of the text, cut to the width or filled up with the pad byte. -/
theorem C69_write_fixed (b : WBuf) (s : JStr) (t : String) (len : Nat) (pad : JChar) (left : Bool) (h : Spells s t.toList)
    (hne : left = true → s ≠ []) (hcap : b.data.length + len ≤ b.maxCap) :
    writeFixedString b (some s) len pad left =
      ({ b with data := b.data ++
          (if left then List.replicate (len - (stdUtf8 t).length) (pad.setWidth 8) ++ (stdUtf8 t).take len
          else (stdUtf8 t).take len ++ List.replicate (len - (stdUtf8 t).length) (pad.setWidth 8)) }, none) := by
  have hw := writeFixedString_fits b (some s) len pad left (by
    cases left
    · simp
    · cases s with
      | nil => exact absurd rfl (hne rfl)
      | cons c cs => simp [isNullOrEmpty]) hcap
  rw [hw]
  have hl : len - ((stdUtf8 t).take len).length = len - (stdUtf8 t).length := by
    rw [List.length_take]; omega
  simp only [fixedField, Option.getD_some, utf8Enc_spells h.loosely, hl]

/-- **C69.** `readFixedString` gives the Java string that spells the text the bytes stand for, without its padding, whatever the bytes are. -/
theorem C69_read_fixed (b : RBuf) (len : Nat) (pad : JChar) (left : Bool) (h : b.rd + len ≤ b.data.length) :
    ∃ cs s, ReadAs ((b.data.drop b.rd).take len) cs ∧ Spells s cs
      ∧ readFixedString b len pad left = ({ b with rd := b.rd + len }, .ok (stripPad pad left s)) := by
  obtain ⟨cs, h1, h2⟩ := utf8Dec_readAs ((b.data.drop b.rd).take len)
  exact ⟨cs, _, h1, h2, readFixedString_within b len pad left h⟩

/-- **C69.** What bytes are read as is unique, and for standard UTF-8 it is the text itself. -/
theorem C69_read_as (bs : List Byte) :
    (∃ cs, ReadAs bs cs ∧ ∀ cs', ReadAs bs cs' → cs' = cs) ∧ ∀ t : String, bs = stdUtf8 t → ReadAs bs t.toList := by
  constructor
  · obtain ⟨cs, h, _⟩ := utf8Dec_readAs bs
    exact ⟨cs, h, fun _ h' => h'.unique h⟩
  · intro t ht
    rw [ht, stdUtf8_eq]
    generalize t.toList = cs
    induction cs with
    | nil => exact .nil
    | cons c cs ih =>
      have hc := char_isScalar c
      unfold isScalar at hc
      exact .char c _ _ _ (form_utf8Scalar _ (by omega)) ih

/-- **C69.** A length-prefixed string is the number of its UTF-8 bytes (in the width and byte order of the field) and these bytes. -/
theorem C69_write_prefixed (b : WBuf) (zt ty : PTy) (e : Endian) (s : JStr) (t : String) (h : Spells s t.toList) (hs : s ≠ []) :
    (∀ b', writeInt b ty e (stdUtf8 t).length = (b', none) → writeDyn b zt ty e (some s) = b'.write (stdUtf8 t))
      ∧ ∀ b' err, writeInt b ty e (stdUtf8 t).length = (b', some err) → writeDyn b zt ty e (some s) = (b', some err) := by
  cases s with
  | nil => exact absurd rfl hs
  | cons c cs =>
    constructor
    · intro b' h'
      rw [writeDyn, utf8Enc_spells h.loosely]
      simp only [h']
    · intro b' err h'
      rw [writeDyn, utf8Enc_spells h.loosely]
      simp only [h']

/-- **C69.** A length-prefixed string of positive length is read as the text its bytes stand for. -/
theorem C69_read_prefixed (b b' : RBuf) (ty : PTy) (e : Endian) (n : Num) (h : b.readNum e ty = (b', .ok n)) (hpos : 0 < n.bits.toInt)
    (hb : b'.rd + n.bits.toNat ≤ b'.data.length) :
    ∃ cs s, ReadAs ((b'.data.drop b'.rd).take n.bits.toNat) cs ∧ Spells s cs
      ∧ readDyn b ty e = ({ b' with rd := b'.rd + n.bits.toNat }, .ok (some s)) := by
  obtain ⟨cs, h1, h2⟩ := utf8Dec_readAs ((b'.data.drop b'.rd).take n.bits.toNat)
  refine ⟨cs, _, h1, h2, ?_⟩
  have hn : n.bits.toNat ≠ 0 := by
    intro h0
    have : n.bits.toInt = 0 := by rw [BitVec.toInt_eq_toNat_cond, h0]; simp
    omega
  have ht : b'.readText n.bits.toNat
      = ({ b' with rd := b'.rd + n.bits.toNat }, .ok (utf8Dec ((b'.data.drop b'.rd).take n.bits.toNat))) := by
    rw [RBuf.readText, if_neg hn, if_pos (by rw [List.length_append]; omega), List.drop_append_of_le_length (by omega),
      List.take_append_of_le_length (by rw [List.length_drop]; omega)]
  rw [readDyn, h]
  simp only [hpos, if_true, ht]

/-- **C69.** Java strings with unpaired surrogates go out with a question mark for each of them. -/
theorem C69_unpaired (s : JStr) :
    ∃ cs, SpellsLoosely s cs ∧ (∀ cs', SpellsLoosely s cs' → cs' = cs) ∧ utf8Enc s = stdUtf8 (String.ofList cs) := by
  refine ⟨_, spellsLoosely_exists s, ?_, ?_⟩
  · intro cs' h
    have e := h.scalars
    rw [e, List.map_map]
    conv => lhs; rw [← List.map_id cs']
    apply List.map_congr_left
    intro c _
    exact (char_eq _ _ (ofScalar_toNat _ (char_isScalar c))).symm
  · exact utf8Enc_spells (by rw [String.toList_ofList]; exact spellsLoosely_exists s)

/-- **C69.** Bytes survive being read as text and written again exactly if they are standard UTF-8. -/
theorem C69_bytes_survive (bs : List Byte) : utf8Enc (utf8Dec bs) = bs ↔ ∃ t : String, bs = stdUtf8 t := by
  constructor
  · intro h
    obtain ⟨cs, _, h2⟩ := C69_unpaired (utf8Dec bs)
    exact ⟨String.ofList cs, by rw [← h2.2, h]⟩
  · rintro ⟨t, rfl⟩
    have hs := spelling_spells t.toList
    rw [utf8Dec_spells hs, utf8Enc_spells hs.loosely]

/-! Concrete cases: one to four bytes per character, an unpaired surrogate, and malformed input of every kind. -/

example : stdUtf8 "aé€𝄞" = [0x61, 0xC3, 0xA9, 0xE2, 0x82, 0xAC, 0xF0, 0x9D, 0x84, 0x9E] := by decide
example : Spells [0x61, 0xE9, 0x20AC, 0xD834, 0xDD1E] "aé€𝄞".toList :=
  .unit _ _ _ _ (by decide) (.unit _ _ _ _ (by decide) (.unit _ _ _ _ (by decide)
    (.pair _ _ _ _ _ (by decide) (by decide) (by decide) .nil)))
example : SpellsLoosely [0xD834, 0x61, 0xDD1E] "?a?".toList :=
  .loneHigh _ _ _ (by decide) (by intro lo s' h; cases h; decide) (.unit _ _ _ _ (by decide) (.loneLow _ _ _ (by decide) .nil))
example : writeFixedString ⟨[9], 0, 20⟩ (some [0x61, 0xE9, 0x20AC, 0xD834, 0xDD1E]) 12 0x20 false
    = (⟨[9, 0x61, 0xC3, 0xA9, 0xE2, 0x82, 0xAC, 0xF0, 0x9D, 0x84, 0x9E, 0x20, 0x20], 0, 20⟩, none) := by decide
example : utf8Dec [0xC3, 0x41, 0xE2, 0x82, 0x41, 0xED, 0xA0, 0x80, 0xF5, 0xF0, 0x9D] =
    [0xFFFD, 0x41, 0xFFFD, 0x41, 0xFFFD, 0xFFFD, 0xFFFD] := by decide
example : writeInt ⟨[9], 0, 20⟩ .i16 .be (stdUtf8 "é").length = (⟨[9, 0, 2], 0, 20⟩, none) := by decide
example : RBuf.readNum ⟨[0, 2, 0xC3, 0xA9], [], 0⟩ .be .i16 = (⟨[0, 2, 0xC3, 0xA9], [], 2⟩, .ok ⟨.i16, 2⟩) := by rfl

private theorem exSpells : Spells [0x61, 0xE9, 0x20AC, 0xD834, 0xDD1E] "aé€𝄞".toList :=
  .unit _ _ _ _ (by decide) (.unit _ _ _ _ (by decide) (.unit _ _ _ _ (by decide)
    (.pair _ _ _ _ _ (by decide) (by decide) (by decide) .nil)))

/-- The theorems on that text. -/
example := C69_write_fixed ⟨[9], 0, 20⟩ _ "aé€𝄞" 12 0x20 false exSpells (by decide) (by decide)
example := C69_read_fixed ⟨[0xC3, 0x41, 0xE2, 0x82, 0x41], [], 1⟩ 4 0x20 false (by decide)
example := C69_write_prefixed ⟨[9], 0, 20⟩ .i16 .i16 .be _ "aé€𝄞" exSpells (by decide)
example := C69_read_prefixed ⟨[0, 2, 0xC3, 0xA9], [], 0⟩ ⟨[0, 2, 0xC3, 0xA9], [], 2⟩ .i16 .be ⟨.i16, 2⟩ rfl (by decide) (by decide)

end FinProto
