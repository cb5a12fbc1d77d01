import Verif.Proofs.OpenObjects
import Verif.Props.Objects
/-
C107: `equals`, `hashCode` and `toString` of messages whose field of interface type holds an object of the application.

`m.fs` are the fields of a message, with null standing in the field of interface type (number `p`), and `m.part` is the object in
that field.
-/
namespace FinProto

variable {U : Type}

/-- **C107.** Two messages of one class are equal exactly if all fields but the one of interface type have the same values and the
objects there are the same object or equal as the first one's `equals` sees it. -/
theorem C107_equals (L : Likeness U) (c : Cls) (p : Nat) (hp : partField c = some p) (m m' : OMsg U)
    (hm : wellTyped (.obj c m.fs) = true) (hm' : wellTyped (.obj c m'.fs) = true) :
    oequals L false c m c m' = .ok true ↔
      (∀ i, i < (layout c).length → i ≠ p → SameAt m.fs m'.fs i) ∧ PartsEqual L m.part m'.part := by
  have s := shaped_of_wellTyped _ hm
  have s' := shaped_of_wellTyped _ hm'
  have f := part_facts c p hp
  simp only [oequals, Bool.false_eq_true, if_false, ne_eq, not_true_eq_false, oeqAll_true, eqs_table, List.mem_map, List.mem_range]
  constructor
  · intro h
    refine ⟨fun i hi hne => ((oeqField_same L c p hp m m' s s' i hne hi).1).mp (h _ ⟨i, hi, rfl⟩), ?_⟩
    have := h _ ⟨p, f.2.1, rfl⟩
    rw [oeqField_part L c p hp] at this
    exact (oeqPart_true L _ _).mp this
  · rintro ⟨h1, h2⟩ q ⟨i, hi, rfl⟩
    by_cases e : i = p
    · subst e
      rw [oeqField_part L c i hp]
      exact (oeqPart_true L _ _).mpr h2
    · exact ((oeqField_same L c p hp m m' s s' i e hi).1).mpr (h1 i hi e)

/-- **C107.** `equals` throws exactly if the fields in front of the one of interface type have the same values and the `equals` of
the object there is called and throws; what it throws is what the caller gets. -/
theorem C107_equals_throws (L : Likeness U) (c : Cls) (p : Nat) (hp : partField c = some p) (m m' : OMsg U)
    (hm : wellTyped (.obj c m.fs) = true) (hm' : wellTyped (.obj c m'.fs) = true) (t : Thrown) :
    oequals L false c m c m' = .error t ↔ (∀ i, i < p → SameAt m.fs m'.fs i) ∧ PartsThrow L t m.part m'.part := by
  have s := shaped_of_wellTyped _ hm
  have s' := shaped_of_wellTyped _ hm'
  have f := part_facts c p hp
  simp only [oequals, Bool.false_eq_true, if_false, ne_eq, not_true_eq_false, oeqAll_error, eqs_table]
  constructor
  · rintro ⟨a, q, b, e, ha, hq⟩
    obtain ⟨a', r, e1, e2, e3⟩ := List.map_eq_append_iff.mp e
    obtain ⟨i, b', e4, e5, e6⟩ := List.map_eq_cons_iff.mp e3
    subst e5 e4
    have hi : i < (layout c).length := by
      have : i ∈ List.range (layout c).length := by rw [e1]; simp
      exact List.mem_range.mp this
    have hip : i = p := Decidable.byContradiction fun hne => (oeqField_same L c p hp m m' s s' i hne hi).2 t hq
    subst hip
    rw [oeqField_part L c i hp] at hq
    refine ⟨fun j hj => ?_, (oeqPart_error L t _ _).mp hq⟩
    have hr := range_split _ _ hi _ _ e1
    refine ((oeqField_same L c i hp m m' s s' j (Nat.ne_of_lt hj) (Nat.lt_trans hj hi)).1).mp (ha _ ?_)
    rw [← e2, hr]
    exact List.mem_map.mpr ⟨j, List.mem_range.mpr hj, rfl⟩
  · rintro ⟨h1, h2⟩
    obtain ⟨k, hk⟩ : ∃ k, (layout c).length = p + 1 + k := ⟨_, (Nat.add_sub_of_le f.2.1).symm⟩
    refine ⟨(List.range p).map fun i => (i, i), (p, p), ((List.range' (p + 1) k)).map fun i => (i, i), ?_, ?_, ?_⟩
    · rw [hk, ← List.map_cons (f := fun i => (i, i)), ← List.map_append, List.range_eq_range', List.range_eq_range']
      congr 1
      have := List.range'_append_1 (s := 0) (m := p) (n := k + 1)
      rw [List.range'_succ, Nat.zero_add] at this
      rw [this]; congr 1; omega
    · intro q hq
      obtain ⟨i, hi, rfl⟩ := List.mem_map.mp hq
      have hi := List.mem_range.mp hi
      exact ((oeqField_same L c p hp m m' s s' i (Nat.ne_of_lt hi) (Nat.lt_trans hi f.2.1)).1).mpr (h1 i hi)
    · rw [oeqField_part L c p hp]
      exact (oeqPart_error L t _ _).mpr h2

/-- **C107.** An object equals itself and messages of different classes are different, whatever the application's objects do: their
`equals` is not called. -/
theorem C107_not_asked (L : Likeness U) (c d : Cls) (m m' : OMsg U) :
    oequals L true c m d m' = .ok true ∧ (c ≠ d → oequals L false c m d m' = .ok false) := by
  refine ⟨rfl, fun h => ?_⟩
  simp [oequals, h]

theorem same_refl_at (c : Cls) (fs : List Val) (h : wellTyped (.obj c fs) = true) (i : Nat) (hi : i < (layout c).length) : SameAt fs fs i := by
  obtain ⟨v, hv, sv⟩ := shaped_at c fs (shaped_of_wellTyped _ h) i hi
  exact ⟨v, v, hv, hv, same_refl v⟩

/-- **C107.** If the application's objects keep the contract of `Object.equals`, messages that hold them do: `equals` returns, and
is reflexive, symmetric and transitive. -/
theorem C107_equivalence (L : Likeness U) (hL : Contract L) (c : Cls) (p : Nat) (hp : partField c = some p) (m1 m2 m3 : OMsg U)
    (h1 : wellTyped (.obj c m1.fs) = true) (h2 : wellTyped (.obj c m2.fs) = true) (h3 : wellTyped (.obj c m3.fs) = true) :
    (∃ r, oequals L false c m1 c m2 = .ok r) ∧ oequals L false c m1 c m1 = .ok true ∧
      (oequals L false c m1 c m2 = .ok true → oequals L false c m2 c m1 = .ok true) ∧
      (oequals L false c m1 c m2 = .ok true → oequals L false c m2 c m3 = .ok true → oequals L false c m1 c m3 = .ok true) := by
  have psymm : ∀ a b, PartsEqual L a b → PartsEqual L b a := by
    intro a b h
    cases a with
    | none => simp only [PartsEqual] at h; subst h; rfl
    | some a =>
      cases b with
      | none => simp [PartsEqual, hL.null] at h
      | some b =>
        rcases h with h | h
        · have e := hL.ident a b h; subst e; exact Or.inl h
        · exact Or.inr (hL.symm a b h)
  refine ⟨?_, ?_, ?_, ?_⟩
  · cases h : oequals L false c m1 c m2 with
    | ok r => exact ⟨r, rfl⟩
    | error t =>
      have := ((C107_equals_throws L c p hp m1 m2 h1 h2 t).mp h).2
      revert this
      cases m1.part with
      | none => simp [PartsThrow]
      | some a =>
        cases m2.part with
        | none => obtain ⟨r, hr⟩ := hL.total a none; simp [PartsThrow, hr]
        | some b => obtain ⟨r, hr⟩ := hL.total a (some b); simp [PartsThrow, hr]
  · refine (C107_equals L c p hp m1 m1 h1 h1).mpr ⟨fun i hi _ => same_refl_at c _ h1 i hi, ?_⟩
    cases m1.part with
    | none => rfl
    | some a => exact Or.inr (hL.refl a)
  · intro h
    obtain ⟨ha, hb⟩ := (C107_equals L c p hp m1 m2 h1 h2).mp h
    refine (C107_equals L c p hp m2 m1 h2 h1).mpr ⟨fun i hi hne => ?_, psymm _ _ hb⟩
    obtain ⟨x, y, hx, hy, hs⟩ := ha i hi hne
    exact ⟨y, x, hy, hx, same_symm _ _ hs⟩
  · intro h h'
    obtain ⟨ha, hb⟩ := (C107_equals L c p hp m1 m2 h1 h2).mp h
    obtain ⟨ha', hb'⟩ := (C107_equals L c p hp m2 m3 h2 h3).mp h'
    refine (C107_equals L c p hp m1 m3 h1 h3).mpr ⟨fun i hi hne => ?_, ?_⟩
    · obtain ⟨x, y, hx, hy, hs⟩ := ha i hi hne
      obtain ⟨y', z, hy', hz, hs'⟩ := ha' i hi hne
      rw [hy] at hy'; cases hy'
      exact ⟨x, z, hx, hz, same_trans _ _ _ hs hs'⟩
    · revert hb hb'
      cases m1.part with
      | none => intro hb hb'; simp only [PartsEqual] at hb; rw [hb] at hb'; exact hb'
      | some a =>
        cases m2.part with
        | none => intro hb; simp [PartsEqual, hL.null] at hb
        | some b =>
          cases m3.part with
          | none => intro _ hb'; simp [PartsEqual, hL.null] at hb'
          | some d =>
            intro hb hb'
            have hb : L.eq a (some b) = .ok true := by
              rcases hb with h | h
              · rw [← hL.ident a b h]; exact hL.refl a
              · exact h
            have hb' : L.eq b (some d) = .ok true := by
              rcases hb' with h | h
              · rw [← hL.ident b d h]; exact hL.refl b
              · exact h
            exact Or.inr (hL.trans a b d hb hb')

/-- **C107.** `hashCode` is the hash code of the message that has, in the field of interface type, an `int` of the value of the
object's hash code (0 for null), at every call-stack depth. -/
theorem C107_hash (L : Likeness U) (c : Cls) (p : Nat) (hp : partField c = some p) (m : OMsg U) (hm : wellTyped (.obj c m.fs) = true)
    (n : Nat) (h : BitVec 32) (hh : partHash L m.part = .ok h) :
    ohashCode L (n + 1) c m = ((Val.obj c (m.fs.set p (.num ⟨.i32, h⟩))).hashCode (n + 2)).mapError .java := by
  have s := shaped_of_wellTyped _ hm
  simp only [shaped, Bool.and_eq_true, decide_eq_true_eq] at s
  exact ohashCode_eq L (n + 1) c p hp m _ (by rw [hh]; rfl) s.1

/-- **C107.** If the object's `hashCode` throws, and the message without the object has a hash code, the message's throws the same. -/
theorem C107_hash_throws (L : Likeness U) (c : Cls) (p : Nat) (hp : partField c = some p) (m : OMsg U) (hm : wellTyped (.obj c m.fs) = true)
    (n : Nat) (t : Thrown) (ht : partHash L m.part = .error t) (k : BitVec 32) (hk : (Val.obj c m.fs).hashCode (n + 1) = .ok k) :
    ohashCode L n c m = .error t := by
  have s := shaped_of_wellTyped _ hm
  simp only [shaped, Bool.and_eq_true, decide_eq_true_eq] at s
  exact ohashCode_throws L n c p hp m t ht s.1 k hk

/-- **C107.** If equal objects of the application have equal hash codes, so do equal messages that hold them. -/
theorem C107_hash_equal (L : Likeness U) (hL : HashContract L) (hi : ∀ a b, L.same a b = true → a = b)
    (hnull : ∀ a, L.eq a none ≠ .ok true) (c : Cls) (p : Nat) (hp : partField c = some p)
    (m m' : OMsg U) (hm : wellTyped (.obj c m.fs) = true) (hm' : wellTyped (.obj c m'.fs) = true)
    (he : oequals L false c m c m' = .ok true) (n : Nat) : ohashCode L n c m = ohashCode L n c m' := by
  obtain ⟨h1, h2⟩ := (C107_equals L c p hp m m' hm hm').mp he
  have f := part_facts c p hp
  simp only [ohashCode, hash_table, f.2.2.1, Bool.false_eq_true, if_false]
  refine ohashSeq_congr L n c m m' _ _ fun i hil => ?_
  have hil := List.mem_range.mp hil
  by_cases e : i = p
  · subst e
    simp only [ohashField, if_pos ((f.1 i).mpr rfl)]
    revert h2
    cases m.part with
    | none => intro h; simp only [PartsEqual] at h; rw [h]
    | some a =>
      cases m'.part with
      | none => intro h; exact absurd h (hnull a)
      | some b =>
        rintro (h | h)
        · rw [hi a b h]
        · exact hL a b h
  · obtain ⟨x, y, hx, hy, hs⟩ := h1 i hil e
    obtain ⟨x', hx', sx⟩ := shaped_at c m.fs (shaped_of_wellTyped _ hm) i hil
    rw [hx] at hx'; cases hx'
    simp only [ohashField, if_neg (fun h => e ((f.1 i).mp h)), hx, hy, hashCode_same n x y sx hs]

/-- **C107.** `toString` is the text of the message that has, in the field of interface type, a string with the object's text (`null`
for null and for an object whose `toString` returns null), at every call-stack depth. -/
theorem C107_text (flt : Num → JStr) (L : Likeness U) (c : Cls) (p : Nat) (hp : partField c = some p) (m : OMsg U)
    (hm : wellTyped (.obj c m.fs) = true) (n : Nat) (s : JStr) (hs : partText L m.part = .ok s) (r : JStr) :
    otoString flt L (n + 1) c m = .ok r ↔ (Val.obj c (m.fs.set p (.str s))).toStr flt (n + 2) = some r := by
  have hw := shaped_of_wellTyped _ hm
  simp only [shaped, Bool.and_eq_true, decide_eq_true_eq] at hw
  rw [otoString_eq flt L (n + 1) c p hp m (.str s) (by rw [hs]; rfl) hw.1]
  cases (Val.obj c (m.fs.set p (.str s))).toStr flt (n + 2) <;> simp [orOverflow]

/-- **C107.** If the object's `toString` throws, and the message without the object has a text, the message's throws the same. -/
theorem C107_text_throws (flt : Num → JStr) (L : Likeness U) (c : Cls) (p : Nat) (hp : partField c = some p) (m : OMsg U)
    (hm : wellTyped (.obj c m.fs) = true) (n : Nat) (t : Thrown) (ht : partText L m.part = .error t)
    (hk : ((Val.obj c m.fs).toStr flt (n + 1)).isSome = true) : otoString flt L n c m = .error t := by
  have hw := shaped_of_wellTyped _ hm
  simp only [shaped, Bool.and_eq_true, decide_eq_true_eq] at hw
  exact otoString_throws flt L n c p hp m t ht hw.1 hk

/-- **C107.** If the object is a message of the repository, all three are what the theorems about messages made of such messages
speak of. -/
theorem C107_library (flt : Num → JStr) (c : Cls) (p : Nat) (hp : partField c = some p) (fs gs : List Val) (a b : Option Val)
    (hb : b ≠ some .null) (hf : wellTyped (.obj c fs) = true) (hg : wellTyped (.obj c gs) = true) (n : Nat) :
    oequals (libraryParts flt n) false c ⟨fs, a⟩ c ⟨gs, b⟩ =
        .ok ((Val.obj c (fs.set p (a.getD .null))).equals (.obj c (gs.set p (b.getD .null)))) ∧
      ohashCode (libraryParts flt (n + 1)) (n + 1) c ⟨fs, a⟩ = ((Val.obj c (fs.set p (a.getD .null))).hashCode (n + 2)).mapError .java ∧
      ∀ r, otoString flt (libraryParts flt (n + 1)) (n + 1) c ⟨fs, a⟩ = .ok r ↔
        (Val.obj c (fs.set p (a.getD .null))).toStr flt (n + 2) = some r := by
  have hs := shaped_of_wellTyped _ hf
  have hs' := shaped_of_wellTyped _ hg
  have f := part_facts c p hp
  have hl := hs
  have hl' := hs'
  simp only [shaped, Bool.and_eq_true, decide_eq_true_eq] at hl hl'
  refine ⟨?_, ?_, ?_⟩
  · simp only [oequals, Bool.false_eq_true, if_false, ne_eq, not_true_eq_false, Val.equals, decide_true, Bool.true_and]
    refine oeqAll_ok _ c _ _ _ _ fun q hq => ?_
    rw [eqs_table] at hq
    obtain ⟨i, hi, rfl⟩ := List.mem_map.mp hq
    have hi := List.mem_range.mp hi
    simp only [equalsFns_eq, List.getElem?_map]
    by_cases e : i = p
    · subst e
      rw [oeqField_part _ c i hp, List.getElem?_set_self (by rw [hl.1]; exact hi), List.getElem?_set_self (by rw [hl'.1]; exact hi)]
      cases a with
      | none => cases b with
        | none => rfl
        | some b => cases b <;> simp_all [oeqPart, Val.equals]
      | some a => cases b <;> rfl
    · obtain ⟨x, hx, _⟩ := shaped_at c fs hs i hi
      obtain ⟨y, hy, _⟩ := shaped_at c gs hs' i hi
      rw [oeqField_other _ c p hp _ _ i e x y hx hy, List.getElem?_set_ne (Ne.symm e), List.getElem?_set_ne (Ne.symm e), hx, hy]
      rfl
  · exact ohashCode_eq _ (n + 1) c p hp ⟨fs, a⟩ _ (by cases a <;> rfl) hl.1
  · intro r
    rw [otoString_eq flt _ (n + 1) c p hp ⟨fs, a⟩ (a.getD .null) ?_ hl.1]
    · cases (Val.obj c (fs.set p (a.getD .null))).toStr flt (n + 2) <;> simp [orOverflow]
    · cases a with
      | none => rfl
      | some a =>
        simp only [Option.getD_some, partText, libraryParts]
        cases a.toStr flt (n + 1) <;> rfl

/-- Objects that are numbers, equal if the numbers are, with the number as hash code and a text; number 0 throws whatever is called, and
number 1 thinks it is equal to every object. -/
private def exLike : Likeness Nat where
  same _ _ := false
  eq a o := if a = 0 then .error (.app 9) else .ok (match o with | none => false | some b => a == 1 || a == b)
  hash a := if a = 0 then .error (.app 9) else .ok (BitVec.ofNat 32 a)
  str a := if a = 0 then .error (.app 9) else if a = 7 then .ok none else .ok (some (js "part"))

/-- The same without the two odd ones. -/
private def exGood : Likeness Nat where
  same a b := a == b
  eq a o := .ok (match o with | none => false | some b => a == b)
  hash a := .ok (BitVec.ofNat 32 a)
  str _ := .ok (some (js "part"))

private def exOpen (sum : BitVec 32) (u : Option Nat) : OMsg Nat := ⟨Frame.sse.fields [.int 7, ⟨.i64, 5⟩] (.int 0) (.int sum), u⟩

private theorem exOpen_typed (sum : BitVec 32) (u : Option Nat) : wellTyped (.obj .sse_SseBinary (exOpen sum u).fs) = true := rfl

/-- **C107.** The contract is needed: with an object that thinks it equals every other one, `equals` of messages is not symmetric. -/
theorem C107_asymmetric : ∃ (L : Likeness Nat) (m m' : OMsg Nat), wellTyped (.obj .sse_SseBinary m.fs) = true ∧
    wellTyped (.obj .sse_SseBinary m'.fs) = true ∧ oequals L false .sse_SseBinary m .sse_SseBinary m' = .ok true ∧
    oequals L false .sse_SseBinary m' .sse_SseBinary m = .ok false :=
  ⟨exLike, exOpen 0 (some 1), exOpen 0 (some 2), rfl, rfl, rfl, rfl⟩

/-! ### Examples -/

/-- The classes these theorems speak about, and the field. -/
example : (allCls.filter fun c => (partField c).isSome).length = 19 ∧ partField .sse_SseBinary = some 3 := by decide +kernel

/-- C107_equals, C107_equals_throws: frames with equal and with different objects, with an object whose `equals` throws, and with a
difference behind the object (noticed too late) or in front of it (noticed before the object is asked). -/
example : oequals exLike false .sse_SseBinary (exOpen 3 (some 4)) .sse_SseBinary (exOpen 3 (some 4)) = .ok true ∧
    oequals exLike false .sse_SseBinary (exOpen 3 (some 4)) .sse_SseBinary (exOpen 3 (some 5)) = .ok false ∧
    oequals exLike false .sse_SseBinary (exOpen 3 (some 4)) .sse_SseBinary (exOpen 4 (some 4)) = .ok false ∧
    oequals exLike false .sse_SseBinary (exOpen 3 (some 0)) .sse_SseBinary (exOpen 4 (some 4)) = .error (.app 9) ∧
    oequals exLike false .sse_SseBinary (exOpen 3 (some 0)) .sse_SseBinary
      ⟨Frame.sse.fields [.int 8, ⟨.i64, 5⟩] (.int 0) (.int 3), some 4⟩ = .ok false ∧
    oequals exLike false .sse_SseBinary (exOpen 3 none) .sse_SseBinary (exOpen 3 (some 0)) = .ok false :=
  ⟨rfl, rfl, rfl, rfl, rfl, rfl⟩
example : (∀ i, i < 3 → SameAt (exOpen 3 (some 0)).fs (exOpen 4 (some 4)).fs i) ∧ PartsThrow exLike (.app 9) (some 0) (some 4) :=
  (C107_equals_throws exLike .sse_SseBinary 3 (by decide +kernel) _ _ (exOpen_typed 3 (some 0)) (exOpen_typed 4 (some 4)) (.app 9)).mp rfl

/-- C107_equivalence, C107_hash_equal: objects that keep the contracts. -/
example : Contract exGood ∧ HashContract exGood := by
  refine ⟨⟨fun a o => ⟨_, rfl⟩, fun a => rfl, fun a => ?_, fun a b h => ?_, fun a b h => ?_, fun a b c h h' => ?_⟩, fun a b h => ?_⟩ <;>
    simp_all [exGood]

/-- C107_hash, C107_hash_throws: a hash code with an object in it. -/
example : ohashCode exLike 1 .sse_SseBinary (exOpen 3 (some 4)) =
    ((Val.obj .sse_SseBinary ((exOpen 3 (some 4)).fs.set 3 (.num ⟨.i32, 4⟩))).hashCode 2).mapError .java :=
  C107_hash exLike .sse_SseBinary 3 (by decide +kernel) _ (exOpen_typed 3 (some 4)) 0 4 rfl
example : ohashCode exLike 1 .sse_SseBinary (exOpen 3 (some 4)) = .ok 35242880 := by rfl
example : ohashCode exLike 1 .sse_SseBinary (exOpen 3 (some 0)) = .error (.app 9) :=
  C107_hash_throws exLike .sse_SseBinary 3 (by decide +kernel) _ (exOpen_typed 3 (some 0)) 1 (.app 9) rfl _ rfl

/-- C107_text, C107_text_throws: the text, with the object's text, with null for an object without text, and an exception. -/
example (flt : Num → JStr) : otoString flt exLike 1 .sse_SseBinary (exOpen 3 (some 4)) =
    .ok (js "SseBinary [msgType=7, msgSeqNum=5, msgBodyLen=0, body=part, checksum=3]") := rfl
example (flt : Num → JStr) : otoString flt exLike 1 .sse_SseBinary (exOpen 3 (some 7)) =
    .ok (js "SseBinary [msgType=7, msgSeqNum=5, msgBodyLen=0, body=null, checksum=3]") := rfl
example (flt : Num → JStr) : otoString flt exLike 1 .sse_SseBinary (exOpen 3 (some 0)) = .error (.app 9) :=
  C107_text_throws flt exLike .sse_SseBinary 3 (by decide +kernel) _ (exOpen_typed 3 (some 0)) 1 (.app 9) rfl (by rfl)

/-- C107_library: a frame with a heartbeat. -/
example (flt : Num → JStr) := C107_library flt .sse_SseBinary 3 (by decide +kernel) (exOpen 3 none).fs (exOpen 4 none).fs
  (some (fresh .sse_Heartbeat)) none (by simp) (exOpen_typed 3 none) (exOpen_typed 4 none) 5

end FinProto
