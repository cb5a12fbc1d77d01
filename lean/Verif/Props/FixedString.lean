import Verif.Proofs.BinaryCodec
/-
Properties C01, C02, C03, C05, C06: fixed-width text fields (BinaryCodec).
`fixedField`, `stripPad`, `touchesPad` are the specification (`Verif/Spec/FixedText.lean`).
-/
namespace FinProto

/-- **C01 (part that holds).** Whenever the field fits into the buffer, `writeFixedString` appends exactly `len` bytes: the first
`len` bytes of the UTF-8 form, filled up with the pad byte on the chosen side; nothing else changes.
Missing: left-padded null/empty values, see `C01_fixed_width_violated`. -/
theorem C01_fixed_width_partial (b : WBuf) (value : Option JStr) (len : Nat) (pad : JChar) (left : Bool)
    (hne : left = true → value.getD [] ≠ []) (hcap : b.data.length + len ≤ b.maxCap) :
    writeFixedString b value len pad left =
        ({ b with data := b.data ++ fixedField len pad left (value.getD []) }, none)
      ∧ (fixedField len pad left (value.getD [])).length = len := by
  refine ⟨writeFixedString_fits b value len pad left ?_ hcap, fixedField_length _ _ _ _⟩
  cases left
  · simp
  · right
    match value with
    | none => simp at hne
    | some [] => simp at hne
    | some (c :: cs) => rfl

example : writeFixedString ⟨[1], 0, 9⟩ (some (js "ab")) 4 0x20 false = (⟨[1, 0x61, 0x62, 0x20, 0x20], 0, 9⟩, none) := by decide
example : writeFixedString ⟨[1], 0, 9⟩ (some (js "ab")) 4 0x30 true = (⟨[1, 0x30, 0x30, 0x61, 0x62], 0, 9⟩, none) := by decide

/-- The three-argument form pads with blanks on the right and has no exception. -/
theorem C01_default_padding (b : WBuf) (value : Option JStr) (len : Nat) (hcap : b.data.length + len ≤ b.maxCap) :
    writeFixedString3 b value len = ({ b with data := b.data ++ fixedField len 0x20 false (value.getD []) }, none)
      ∧ (fixedField len 0x20 false (value.getD [])).length = len :=
  C01_fixed_width_partial b value len 0x20 false (by simp) hcap

/-- When the field does not fit, an index error is thrown and only a prefix of the field was written. -/
theorem C01_fixed_width_overflow (b : WBuf) (value : Option JStr) (len : Nat) (pad : JChar) (left : Bool)
    (hb : b.data.length ≤ b.maxCap) (hne : left = true → value.getD [] ≠ []) (hcap : ¬ b.data.length + len ≤ b.maxCap) :
    ∃ part, writeFixedString b value len pad left = ({ b with data := b.data ++ part }, some .indexOutOfBounds)
      ∧ part <+: fixedField len pad left (value.getD []) := by
  refine writeFixedString_full b value len pad left hb ?_ hcap
  cases left
  · simp
  · right
    match value with
    | none => simp at hne
    | some [] => simp at hne
    | some (c :: cs) => rfl

example : (writeFixedString ⟨[1], 0, 3⟩ (some (js "ab")) 4 0x20 false).2 = some .indexOutOfBounds := by decide

/-- **C01 violated.** A null or empty value with left padding writes no byte at all, whatever the width. -/
theorem C01_left_empty_writes_nothing (b : WBuf) (value : Option JStr) (len : Nat) (pad : JChar)
    (h : value.getD [] = []) : writeFixedString b value len pad true = (b, none) := by
  apply writeFixedString_left_empty
  match value with
  | none => rfl
  | some [] => rfl
  | some (c :: cs) => simp at h

/-- **C01 violated.** So the full property is false. -/
theorem C01_fixed_width_violated :
    ¬ ∀ (b : WBuf) (value : Option JStr) (len : Nat) (pad : JChar) (left : Bool),
        b.data.length + len ≤ b.maxCap →
          (writeFixedString b value len pad left).1.data.length = b.data.length + len := by
  intro h
  have := h ⟨[], 0, 10⟩ none 10 0x30 true (by simp)
  revert this
  decide

/-- **C02.** Reading back a field right after writing it, whatever surrounds it: the reader consumes the field and
returns the pad-stripped decoding of the field's bytes; if the text fits this is the pad-stripped text itself
(unpaired surrogates having become `'?'`). -/
theorem C02_read_back (b : WBuf) (value : Option JStr) (len : Nat) (pad : JChar) (left : Bool)
    (hne : left = true → value.getD [] ≠ []) (hcap : b.data.length + len ≤ b.maxCap) (post spare : List Byte) :
    readFixedString ⟨(writeFixedString b value len pad left).1.data ++ post, spare, b.data.length⟩ len pad left =
      (⟨(writeFixedString b value len pad left).1.data ++ post, spare, b.data.length + len⟩,
        .ok (stripPad pad left (utf8Dec (fixedField len pad left (value.getD []))))) := by
  have hw := (C01_fixed_width_partial b value len pad left hne hcap)
  rw [hw.1]
  dsimp only
  rw [readFixedString_within _ _ _ _ (by simp [hw.2])]
  dsimp only
  rw [List.append_assoc, List.drop_left, List.take_left' hw.2]

/-- **C02.** For text that fits its width and is valid UTF-16, with an ASCII pad character: the text read back is the
original exactly if the original does not begin (left) / end (right) with the pad character. -/
theorem C02_round_trip (b : WBuf) (s : JStr) (len : Nat) (pad : JChar) (left : Bool)
    (hne : left = true → s ≠ []) (hcap : b.data.length + len ≤ b.maxCap)
    (hpad : pad.toNat < 0x80) (hfit : (utf8Enc s).length ≤ len) (hvalid : validUtf16 s = true)
    (post spare : List Byte) :
    (readFixedString ⟨(writeFixedString b (some s) len pad left).1.data ++ post, spare, b.data.length⟩ len pad left).2 = .ok s
      ↔ touchesPad pad left s = false := by
  rw [C02_read_back b (some s) len pad left (by simpa using hne) hcap]
  simp only [Option.getD_some]
  rw [strip_dec_fixedField _ _ _ _ hpad hfit, sanitize_eq s hvalid]
  constructor
  · intro h
    simp only [Except.ok.injEq] at h
    cases left
    · simp only [stripPad, touchesPad, Bool.false_eq_true, if_false] at *
      rcases List.eq_nil_or_concat s with rfl | ⟨t, c, rfl⟩
      · rfl
      · simp only [List.concat_eq_append] at *
        by_cases hc : c = pad
        · exfalso
          subst hc
          have h2 := congrArg List.length h
          have h3 := (List.dropWhile_suffix (l := t.reverse) (· == c)).length_le
          simp at h2 h3
          omega
        · simp [hc]
    · simp only [stripPad, touchesPad, if_true] at *
      cases s with
      | nil => rfl
      | cons c cs =>
        by_cases hc : c = pad
        · exfalso
          subst hc
          have h2 := congrArg List.length h
          have h3 := (List.dropWhile_suffix (l := cs) (· == c)).length_le
          simp at h2 h3
          omega
        · simp [hc]
  · intro h
    rw [stripPad_of_not_touches _ _ _ h]

example : let s := [0x4E2D#16, 0x0041, 0xD83D, 0xDE00]  -- "中A😀": 3 + 1 + 4 bytes
    validUtf16 s = true ∧ (utf8Enc s).length ≤ 10 ∧ touchesPad 0x20 false s = false ∧ s ≠ [] := by decide

/-- The short forms agree with each other: what the three-argument write stored, the two-argument read returns, for every
well-formed text that fits and does not end with a blank. -/
theorem C02_default_round_trip (b : WBuf) (s : JStr) (len : Nat) (hcap : b.data.length + len ≤ b.maxCap)
    (hfit : (utf8Enc s).length ≤ len) (hvalid : validUtf16 s = true) (post spare : List Byte) :
    (readFixedString2 ⟨(writeFixedString3 b (some s) len).1.data ++ post, spare, b.data.length⟩ len).2 = .ok s
      ↔ touchesPad 0x20 false s = false :=
  C02_round_trip b s len 0x20 false (by simp) hcap (by decide) hfit hvalid post spare

example : (readFixedString2 ⟨(writeFixedString3 ⟨[7], 0, 9⟩ (some (js " ab")) 5).1.data ++ [8], [], 1⟩ 5).2 = .ok (js " ab") := by rfl

/-- **C03.** A text longer than the field is cut to its first `len` bytes, and what is read back never has more than `len`
characters. -/
theorem C03_truncation (b : WBuf) (s : JStr) (len : Nat) (pad : JChar) (left : Bool)
    (hcap : b.data.length + len ≤ b.maxCap) (hlong : len < (utf8Enc s).length) (post spare : List Byte) :
    (writeFixedString b (some s) len pad left).1.data = b.data ++ (utf8Enc s).take len
      ∧ ∃ t, (readFixedString ⟨(writeFixedString b (some s) len pad left).1.data ++ post, spare, b.data.length⟩ len pad left).2
          = .ok t ∧ t.length ≤ len := by
  have hne : left = true → (some s).getD [] ≠ [] := by
    intro _ h
    simp at h
    subst h
    simp at hlong
  have hw := (C01_fixed_width_partial b (some s) len pad left hne hcap)
  constructor
  · rw [hw.1]
    have : len - ((utf8Enc s).take len).length = 0 := by simp; omega
    simp only [fixedField, Option.getD_some, this]
    cases left <;> simp
  · rw [C02_read_back b (some s) len pad left hne hcap]
    refine ⟨_, rfl, ?_⟩
    have h1 := utf8Dec_length (fixedField len pad left ((some s).getD []))
    rw [hw.2] at h1
    have h2 : ∀ t : JStr, (stripPad pad left t).length ≤ t.length := by
      intro t
      cases left
      · simpa [stripPad] using (List.dropWhile_suffix (l := t.reverse) (· == pad)).length_le
      · simpa [stripPad] using (List.dropWhile_suffix (l := t) (· == pad)).length_le
    exact Nat.le_trans (h2 _) h1

/-- **C03.** For ASCII text the first `len` characters survive (minus pad characters at the padded end). -/
theorem C03_truncation_ascii (b : WBuf) (s : JStr) (len : Nat) (pad : JChar) (left : Bool)
    (hcap : b.data.length + len ≤ b.maxCap) (hascii : ∀ c ∈ s, c.toNat < 0x80) (hlong : len < s.length)
    (post spare : List Byte) :
    (readFixedString ⟨(writeFixedString b (some s) len pad left).1.data ++ post, spare, b.data.length⟩ len pad left).2
      = .ok (stripPad pad left (s.take len)) := by
  have hne : left = true → (some s).getD [] ≠ [] := by
    intro _ h
    simp at h
    subst h
    simp at hlong
  rw [C02_read_back b (some s) len pad left hne hcap]
  have he := utf8Enc_ascii s hascii
  have h0 : len - ((s.map (·.setWidth 8)).take len : List Byte).length = 0 := by simp; omega
  have hf : fixedField len pad left ((some s).getD []) = (s.take len).map (·.setWidth 8) := by
    simp only [fixedField, Option.getD_some, he, h0]
    cases left <;> simp [List.map_take]
  rw [hf]
  have hd := utf8Dec_enc (s.take len)
  have ha : ∀ c ∈ s.take len, c.toNat < 0x80 := fun c hc => hascii c (List.mem_of_mem_take hc)
  rw [utf8Enc_ascii _ ha, sanitize_eq _ (validUtf16_ascii _ ha)] at hd
  rw [hd]

example : (readFixedString ⟨(writeFixedString ⟨[], 0, 9⟩ (some (js "ab cd")) 3 0x20 false).1.data, [], 0⟩ 3 0x20 false).2
    = .ok (js "ab") := by rfl
/-- A cut in the middle of a character yields U+FFFD. -/
example : (readFixedString ⟨(writeFixedString ⟨[], 0, 9⟩ (some [0x4E2D]) 2 0x20 false).1.data, [], 0⟩ 2 0x20 false).2
    = .ok [0xFFFD] := by rfl

/-- **C05.** What `trimByChar` removes is a run of the character at the chosen end, and what remains neither is longer than
necessary nor touches that character any more: it is the unique such split. -/
theorem C05_trim (s : JStr) (ch : JChar) (left : Bool) :
    (∃ n, s = if left then List.replicate n ch ++ trimByChar s ch left else trimByChar s ch left ++ List.replicate n ch)
      ∧ touchesPad ch left (trimByChar s ch left) = false := by
  rw [trimByChar_eq]
  have key : ∀ r : JStr, (∃ n, r = List.replicate n ch ++ r.dropWhile (· == ch))
      ∧ (r.dropWhile (· == ch)).head? ≠ some ch := by
    intro r
    induction r with
    | nil => exact ⟨⟨0, rfl⟩, by simp⟩
    | cons c cs ih =>
      by_cases hc : c = ch
      · subst hc
        obtain ⟨⟨n, hn⟩, h2⟩ := ih
        refine ⟨⟨n + 1, ?_⟩, ?_⟩
        · simp only [List.dropWhile_cons, beq_self_eq_true, if_true, List.replicate_succ, List.cons_append]
          rw [← hn]
        · simpa using h2
      · exact ⟨⟨0, by simp [hc]⟩, by simp [hc]⟩
  cases left
  · simp only [stripPad, touchesPad, Bool.false_eq_true, if_false]
    obtain ⟨⟨n, hn⟩, h2⟩ := key s.reverse
    refine ⟨⟨n, ?_⟩, ?_⟩
    · have := congrArg List.reverse hn
      simpa using this
    · simpa [List.getLast?_reverse] using h2
  · simp only [stripPad, touchesPad, if_true]
    obtain ⟨h1, h2⟩ := key s
    exact ⟨h1, by simpa using h2⟩

/-- **C05.** Any split of `s` into a run of `ch` and a rest that does not touch `ch` is the one `trimByChar` finds. -/
theorem C05_trim_unique (t : JStr) (ch : JChar) (left : Bool) (n : Nat) (h : touchesPad ch left t = false) :
    trimByChar (if left then List.replicate n ch ++ t else t ++ List.replicate n ch) ch left = t := by
  rw [trimByChar_eq]
  cases left
  · simp only [Bool.false_eq_true, if_false]
    rw [stripPad_fill_right, stripPad_of_not_touches _ _ _ h]
  · simp only [if_true]
    rw [stripPad_fill_left, stripPad_of_not_touches _ _ _ h]

/-- **C05.** `trimByChar` is idempotent. -/
theorem C05_trim_idempotent (s : JStr) (ch : JChar) (left : Bool) :
    trimByChar (trimByChar s ch left) ch left = trimByChar s ch left := by
  have h := (C05_trim s ch left).2
  rw [trimByChar_eq (trimByChar s ch left), stripPad_of_not_touches _ _ _ h]

example : trimByChar (js "  a b  ") 0x20 false = js "  a b" ∧ trimByChar (js "  a b  ") 0x20 true = js "a b  " := by decide

/-- **C06.** With at least `len` readable bytes `readFixedString` succeeds, advances the reader index by exactly `len`, leaves the
bytes alone, returns at most `len` characters, and its result is a function of those `len` bytes only. -/
theorem C06_consumption (len : Nat) (pad : JChar) (left : Bool) :
    ∃ f : List Byte → JStr, ∀ b : RBuf, b.rd + len ≤ b.data.length →
      readFixedString b len pad left = ({ b with rd := b.rd + len }, .ok (f ((b.data.drop b.rd).take len)))
        ∧ (f ((b.data.drop b.rd).take len)).length ≤ len := by
  refine ⟨fun bs => stripPad pad left (utf8Dec bs), fun b h => ⟨readFixedString_within b len pad left h, ?_⟩⟩
  have h1 := utf8Dec_length ((b.data.drop b.rd).take len)
  have h2 : ∀ t : JStr, (stripPad pad left t).length ≤ t.length := by
    intro t
    cases left
    · simpa [stripPad] using (List.dropWhile_suffix (l := t.reverse) (· == pad)).length_le
    · simpa [stripPad] using (List.dropWhile_suffix (l := t) (· == pad)).length_le
  refine Nat.le_trans (h2 _) (Nat.le_trans h1 ?_)
  simp
  omega

/-- The two-argument read: exactly the text with its trailing blanks removed. -/
theorem C06_default_read (b : RBuf) (len : Nat) (h : b.rd + len ≤ b.data.length) :
    readFixedString2 b len =
      ({ b with rd := b.rd + len }, .ok (stripPad 0x20 false (utf8Dec ((b.data.drop b.rd).take len)))) :=
  readFixedString_within b len 0x20 false h

example : (readFixedString ⟨[9, 0xC3, 0x28, 0x20, 7], [], 1⟩ 3 0x20 false) =
    (⟨[9, 0xC3, 0x28, 0x20, 7], [], 4⟩, .ok [0xFFFD, 0x28]) := by rfl

/-- `C01_default_padding`, `C01_left_empty_writes_nothing`, `C02_read_back`, `C03_truncation`, `C05_trim_unique`. -/
example := C01_default_padding ⟨[1], 0, 9⟩ (some (js "ab")) 4 (by decide)
example := C01_left_empty_writes_nothing ⟨[1], 0, 9⟩ (some []) 4 0x30 rfl
example := C02_read_back ⟨[1], 0, 9⟩ (some (js "ab")) 4 0x30 true (by decide) (by decide) [8] [9]
example := C03_truncation ⟨[1], 0, 9⟩ (js "ab cd") 3 0x20 false (by decide) (by decide) [8] [9]
example := C05_trim_unique (js " a b") 0x20 false 3 (by decide)

end FinProto
