import Verif.Spec.OpenObjects
import Verif.Proofs.ObjectMethods
import Verif.Proofs.OpenClosed
import Verif.Proofs.DecodeErrors
/-
Lemmas for `equals`, `hashCode` and `toString` of messages that hold an object of the application.
-/
namespace FinProto

theorem part_table : allCls.all (fun c => match partField c with
    | some p => (List.range (decl c).fields.length).all (fun i => isPart c i == (i == p)) && decide (p < (decl c).fields.length) &&
        (decl c).fields.length == (layout c).length &&
        !fieldLess c && (decl c).str.all (fun s => match s with | .field i => decide (i < (layout c).length) | _ => true) &&
        (decl c).str.contains (.field p)
    | none => true) = true := by decide +kernel

theorem part_facts (c : Cls) (p : Nat) (hp : partField c = some p) :
    (∀ i, isPart c i = true ↔ i = p) ∧ p < (layout c).length ∧ fieldLess c = false ∧
      (∀ i, StrPart.field i ∈ (decl c).str → i < (layout c).length) ∧ StrPart.field p ∈ (decl c).str := by
  have h := List.all_eq_true.mp part_table c (mem_allCls c)
  simp only [hp, Bool.and_eq_true, List.all_eq_true, List.mem_range, beq_iff_eq, decide_eq_true_eq, Bool.not_eq_true', List.contains_iff_mem] at h
  obtain ⟨⟨⟨⟨⟨h1, h2⟩, h3⟩, h4⟩, h5⟩, h6⟩ := h
  refine ⟨fun i => ?_, h3 ▸ h2, h4, fun i hi => by simpa using h5 _ hi, h6⟩
  by_cases hi : i < (decl c).fields.length
  · rw [h1 i hi]; simp
  · constructor
    · intro h; simp [isPart, List.getElem?_eq_none (Nat.le_of_not_lt hi)] at h
    · rintro rfl; exact absurd h2 hi

/-! ### equals -/

theorem oeqAll_true {U : Type} (L : Likeness U) (c : Cls) (m m' : OMsg U) : ∀ ps,
    oeqAll L c m m' ps = .ok true ↔ ∀ p ∈ ps, oeqField L c m m' p = .ok true
  | [] => by simp [oeqAll]
  | p :: ps => by
    have ih := oeqAll_true L c m m' ps
    simp only [oeqAll, List.forall_mem_cons]
    cases h : oeqField L c m m' p with
    | error t => simp
    | ok b => cases b <;> simp [ih]

theorem oeqAll_error {U : Type} (L : Likeness U) (c : Cls) (m m' : OMsg U) (t : Thrown) : ∀ ps,
    oeqAll L c m m' ps = .error t ↔ ∃ a p b, ps = a ++ p :: b ∧ (∀ q ∈ a, oeqField L c m m' q = .ok true) ∧ oeqField L c m m' p = .error t
  | [] => by simp [oeqAll]
  | p :: ps => by
    have ih := oeqAll_error L c m m' t ps
    simp only [oeqAll]
    cases h : oeqField L c m m' p with
    | error t' =>
      constructor
      · intro e; exact ⟨[], p, ps, rfl, by simp, by rw [h]; simpa using e⟩
      · rintro ⟨a, q, b, e, ha, hq⟩
        cases a with
        | nil => simp only [List.nil_append, List.cons.injEq] at e; rw [← e.1, h] at hq; simpa using hq
        | cons x a =>
          simp only [List.cons_append, List.cons.injEq] at e
          have := ha x (by simp)
          rw [← e.1, h] at this; simp at this
    | ok r =>
      cases r with
      | true =>
        simp only [ih]
        constructor
        · rintro ⟨a, q, b, e, ha, hq⟩
          exact ⟨p :: a, q, b, by simp [e], by simpa [h] using ha, hq⟩
        · rintro ⟨a, q, b, e, ha, hq⟩
          cases a with
          | nil => simp only [List.nil_append, List.cons.injEq] at e; rw [← e.1, h] at hq; simp at hq
          | cons x a =>
            simp only [List.cons_append, List.cons.injEq] at e
            exact ⟨a, q, b, e.2, fun z hz => ha z (by simp [hz]), hq⟩
      | false =>
        constructor
        · intro e; simp at e
        · rintro ⟨a, q, b, e, ha, hq⟩
          cases a with
          | nil => simp only [List.nil_append, List.cons.injEq] at e; rw [← e.1, h] at hq; simp at hq
          | cons x a =>
            simp only [List.cons_append, List.cons.injEq] at e
            have := ha x (by simp)
            rw [← e.1, h] at this; simp at this

theorem oeqPart_true {U : Type} (L : Likeness U) (a b : Option U) : oeqPart L a b = .ok true ↔ PartsEqual L a b := by
  cases a with
  | none => cases b <;> simp [oeqPart, PartsEqual]
  | some a =>
    cases b with
    | none => simp [oeqPart, PartsEqual]
    | some b =>
      cases h : L.same a b <;> simp [oeqPart, PartsEqual, h]

theorem oeqPart_error {U : Type} (L : Likeness U) (t : Thrown) (a b : Option U) : oeqPart L a b = .error t ↔ PartsThrow L t a b := by
  cases a with
  | none => cases b <;> simp [oeqPart, PartsThrow]
  | some a =>
    cases b with
    | none => simp [oeqPart, PartsThrow]
    | some b =>
      cases h : L.same a b <;> simp [oeqPart, PartsThrow, h]

theorem oeqField_part {U : Type} (L : Likeness U) (c : Cls) (p : Nat) (hp : partField c = some p) (m m' : OMsg U) :
    oeqField L c m m' (p, p) = oeqPart L m.part m'.part := by
  have := ((part_facts c p hp).1 p).mpr rfl
  simp [oeqField, this]

theorem oeqField_other {U : Type} (L : Likeness U) (c : Cls) (p : Nat) (hp : partField c = some p) (m m' : OMsg U) (i : Nat) (hi : i ≠ p)
    (x y : Val) (hx : m.fs[i]? = some x) (hy : m'.fs[i]? = some y) : oeqField L c m m' (i, i) = .ok (x.equals y) := by
  have : isPart c i = false := by
    cases h : isPart c i with
    | false => rfl
    | true => exact absurd (((part_facts c p hp).1 i).mp h) hi
  simp [oeqField, this, hx, hy]

theorem shaped_at (c : Cls) (fs : List Val) (h : shaped (.obj c fs) = true) (i : Nat) (hi : i < (layout c).length) :
    ∃ v, fs[i]? = some v ∧ shaped v = true := by
  simp only [shaped, Bool.and_eq_true, decide_eq_true_eq] at h
  have hl : i < fs.length := by rw [h.1]; exact hi
  refine ⟨fs[i], List.getElem?_eq_getElem hl, ?_⟩
  exact (shapeds_iff fs).mp h.2 _ (List.getElem_mem hl)

theorem oeqField_same {U : Type} (L : Likeness U) (c : Cls) (p : Nat) (hp : partField c = some p) (m m' : OMsg U)
    (hm : shaped (.obj c m.fs) = true) (hm' : shaped (.obj c m'.fs) = true) (i : Nat) (hi : i ≠ p) (hl : i < (layout c).length) :
    (oeqField L c m m' (i, i) = .ok true ↔ SameAt m.fs m'.fs i) ∧ ∀ t, oeqField L c m m' (i, i) ≠ .error t := by
  obtain ⟨x, hx, sx⟩ := shaped_at c m.fs hm i hl
  obtain ⟨y, hy, sy⟩ := shaped_at c m'.fs hm' i hl
  rw [oeqField_other L c p hp m m' i hi x y hx hy]
  refine ⟨?_, by simp⟩
  simp only [Except.ok.injEq, equals_same x y sx sy, SameAt, hx, hy, Option.some.injEq]
  constructor
  · exact fun h => ⟨x, y, rfl, rfl, h⟩
  · rintro ⟨_, _, rfl, rfl, h⟩; exact h

theorem range_split (n p : Nat) (hp : p < n) (a b : List Nat) (h : List.range n = a ++ p :: b) : a = List.range p := by
  have hl : a.length < n := by
    have := congrArg List.length h
    simp at this; omega
  have h1 : (List.range n)[a.length]? = some p := by rw [h]; simp
  have h2 : a.length = p := by simpa [List.getElem?_range hl] using h1
  have h3 : (List.range n).take a.length = a := by rw [h]; simp
  rw [h2, List.take_range, Nat.min_eq_left (Nat.le_of_lt hp)] at h3
  exact h3.symm

theorem oeqAll_ok {U : Type} (L : Likeness U) (c : Cls) (m m' : OMsg U) (g : Nat × Nat → Bool) : ∀ ps,
    (∀ p ∈ ps, oeqField L c m m' p = .ok (g p)) → oeqAll L c m m' ps = .ok (ps.all g)
  | [], _ => rfl
  | p :: ps, h => by
    have ih := oeqAll_ok L c m m' g ps (fun q hq => h q (by simp [hq]))
    simp only [oeqAll, h p (by simp), List.all_cons]
    cases g p <;> simp [ih]

/-! ### hashCode -/

theorem ohashSeq_congr {U : Type} (L : Likeness U) (n : Nat) (c : Cls) (m m' : OMsg U) : ∀ (is : List Nat) (h : BitVec 32),
    (∀ i ∈ is, ohashField L n c m i = ohashField L n c m' i) → ohashSeq L n c m h is = ohashSeq L n c m' h is
  | [], _, _ => rfl
  | i :: is, h, e => by
    simp only [ohashSeq, e i (by simp)]
    cases ohashField L n c m' i with
    | ok k => exact ohashSeq_congr L n c m m' is _ (fun j hj => e j (by simp [hj]))
    | error t => rfl

theorem ohashSeq_eq {U : Type} (L : Likeness U) (n : Nat) (c : Cls) (p : Nat) (hp : partField c = some p) (m : OMsg U) (v : Val)
    (hv : (v.hashCode n).mapError Thrown.java = partHash L m.part) (hl : m.fs.length = (layout c).length) :
    ∀ (is : List Nat) (h : BitVec 32), (∀ i ∈ is, i < (layout c).length) →
      ohashSeq L n c m h is = (hashSeq (Val.hashCode n) h (is.filterMap fun i => (m.fs.set p v)[i]?)).mapError .java
  | [], h, _ => rfl
  | i :: is, h, hi => by
    have ih := fun h => ohashSeq_eq L n c p hp m v hv hl is h (fun j hj => hi j (by simp [hj]))
    have hli : i < m.fs.length := by rw [hl]; exact hi i (by simp)
    have f := part_facts c p hp
    have key : ∃ x, (m.fs.set p v)[i]? = some x ∧ ohashField L n c m i = (x.hashCode n).mapError .java := by
      by_cases e : i = p
      · subst e
        refine ⟨v, by simp [hli], ?_⟩
        rw [hv, ohashField, if_pos ((f.1 i).mpr rfl)]
        cases m.part <;> rfl
      · refine ⟨m.fs[i], by rw [List.getElem?_set_ne (Ne.symm e), List.getElem?_eq_getElem hli], ?_⟩
        rw [ohashField, if_neg (fun h => e ((f.1 i).mp h)), List.getElem?_eq_getElem hli]
    obtain ⟨x, hx, hk⟩ := key
    simp only [ohashSeq, hk, List.filterMap_cons, hx, hashSeq]
    cases x.hashCode n with
    | ok k => simp only [Except.mapError]; rw [ih]; rfl
    | error e => rfl

theorem filterMap_range (fs : List Val) : ((List.range fs.length).filterMap fun i => fs[i]?) = fs := by
  induction fs with
  | nil => rfl
  | cons x xs ih =>
    simp only [List.length_cons, List.range_succ_eq_map, List.filterMap_cons, List.getElem?_cons_zero, List.filterMap_map, Function.comp_def,
      List.getElem?_cons_succ, ih]

theorem ohashCode_eq {U : Type} (L : Likeness U) (n : Nat) (c : Cls) (p : Nat) (hp : partField c = some p) (m : OMsg U) (v : Val)
    (hv : (v.hashCode n).mapError Thrown.java = partHash L m.part) (hl : m.fs.length = (layout c).length) :
    ohashCode L n c m = ((Val.obj c (m.fs.set p v)).hashCode (n + 1)).mapError .java := by
  have f := part_facts c p hp
  have hl' : (m.fs.set p v).length = (layout c).length := by simpa using hl
  simp only [ohashCode, Val.hashCode, hash_table, f.2.2.1, Bool.false_eq_true, if_false]
  rw [ohashSeq_eq L n c p hp m v hv hl _ _ (by simp), ← hl', pick_range, filterMap_range]

/-- If the object's `hashCode` throws and no other field's does, the message's does. -/
theorem ohashSeq_throws {U : Type} (L : Likeness U) (n : Nat) (c : Cls) (p : Nat) (hp : partField c = some p) (m : OMsg U) (t : Thrown)
    (ht : partHash L m.part = .error t) (hl : m.fs.length = (layout c).length) :
    ∀ (is : List Nat) (h h' k : BitVec 32), p ∈ is → (∀ i ∈ is, i < (layout c).length) →
      hashSeq (Val.hashCode n) h' (is.filterMap fun i => m.fs[i]?) = .ok k → ohashSeq L n c m h is = .error t
  | [], _, _, _, hmem, _, _ => by simp at hmem
  | i :: is, h, h', k, hmem, hi, hk => by
    have f := part_facts c p hp
    have hli : i < m.fs.length := by rw [hl]; exact hi i (by simp)
    by_cases e : i = p
    · subst e
      have : ohashField L n c m i = .error t := by
        rw [ohashField, if_pos ((f.1 i).mpr rfl), ← ht]
        cases m.part <;> rfl
      simp only [ohashSeq, this]
    · simp only [List.filterMap_cons, List.getElem?_eq_getElem hli, hashSeq] at hk
      cases hx : Val.hashCode n m.fs[i] with
      | error e => rw [hx] at hk; simp at hk
      | ok y =>
        rw [hx] at hk
        have : ohashField L n c m i = .ok y := by
          rw [ohashField, if_neg (fun h => e ((f.1 i).mp h)), List.getElem?_eq_getElem hli]
          simp [hx, Except.mapError]
        simp only [ohashSeq, this]
        refine ohashSeq_throws L n c p hp m t ht hl is _ _ k ?_ (fun j hj => hi j (by simp [hj])) hk
        rcases List.mem_cons.mp hmem with h | h
        · exact absurd h.symm e
        · exact h

theorem ohashCode_throws {U : Type} (L : Likeness U) (n : Nat) (c : Cls) (p : Nat) (hp : partField c = some p) (m : OMsg U) (t : Thrown)
    (ht : partHash L m.part = .error t) (hl : m.fs.length = (layout c).length) (k : BitVec 32)
    (hk : (Val.obj c m.fs).hashCode (n + 1) = .ok k) : ohashCode L n c m = .error t := by
  have f := part_facts c p hp
  simp only [Val.hashCode, hash_table, f.2.2.1, Bool.false_eq_true, if_false] at hk
  rw [← hl, pick_range] at hk
  simp only [ohashCode, hash_table, f.2.2.1, Bool.false_eq_true, if_false]
  refine ohashSeq_throws L n c p hp m t ht hl _ _ 1 k (List.mem_range.mpr f.2.1) (by simp) ?_
  rw [← hl, filterMap_range]; exact hk

/-! ### toString -/

/-- A text, or the `StackOverflowError` that no text stands for. -/
def orOverflow : Option JStr → Except Thrown JStr
  | some s => .ok s
  | none => .error (.java .stackOverflow)

/-- The operand of a string concatenation, as in `Val.toStr`. -/
def strOperand (flt : Num → JStr) (n : Nat) (fs : List Val) : StrPart → Option JStr
  | .lit s => some (js s)
  | .field i => match fs[i]? with | some v => Val.toStr flt n v | none => none

theorem toStr_operands (flt : Num → JStr) (n : Nat) (c : Cls) (fs : List Val) :
    (Val.obj c fs).toStr flt (n + 1) = (allSome (strOperand flt n fs) (decl c).str).map List.flatten := by
  simp only [Val.toStr]
  congr 2

theorem ostrParts_eq {U : Type} (flt : Num → JStr) (L : Likeness U) (n : Nat) (c : Cls) (p : Nat) (hp : partField c = some p) (m : OMsg U) (v : Val)
    (hv : orOverflow (v.toStr flt n) = partText L m.part) (hl : m.fs.length = (layout c).length) :
    ∀ (ps : List StrPart), (∀ i, StrPart.field i ∈ ps → i < (layout c).length) →
      ostrParts flt L n c m ps = orOverflow ((allSome (strOperand flt n (m.fs.set p v)) ps).map List.flatten)
  | [], _ => rfl
  | q :: ps, hi => by
    have ih := ostrParts_eq flt L n c p hp m v hv hl ps (fun j hj => hi j (by simp [hj]))
    have f := part_facts c p hp
    have key : ostrPart flt L n c m q = orOverflow (strOperand flt n (m.fs.set p v) q) := by
      cases q with
      | lit s => rfl
      | field i =>
        have hli : i < m.fs.length := by rw [hl]; exact hi i (by simp)
        by_cases e : i = p
        · subst e
          simp only [ostrPart, strOperand, if_pos ((f.1 i).mpr rfl), List.getElem?_set_self hli]
          rw [hv]
          cases m.part with
          | none => rfl
          | some u =>
            simp only [partText]
            cases L.str u with
            | error t => rfl
            | ok s => cases s <;> rfl
        · simp only [ostrPart, strOperand, if_neg (fun h => e ((f.1 i).mp h)), List.getElem?_set_ne (Ne.symm e), List.getElem?_eq_getElem hli]
          cases Val.toStr flt n m.fs[i] <;> rfl
    simp only [ostrParts, allSome, key, ih]
    generalize (strOperand flt n (m.fs.set p v) q) = o
    generalize allSome _ ps = r
    cases o with
    | none => rfl
    | some s => cases r <;> rfl

theorem otoString_eq {U : Type} (flt : Num → JStr) (L : Likeness U) (n : Nat) (c : Cls) (p : Nat) (hp : partField c = some p) (m : OMsg U) (v : Val)
    (hv : orOverflow (v.toStr flt n) = partText L m.part) (hl : m.fs.length = (layout c).length) :
    otoString flt L n c m = orOverflow ((Val.obj c (m.fs.set p v)).toStr flt (n + 1)) := by
  rw [otoString, ostrParts_eq flt L n c p hp m v hv hl _ (part_facts c p hp).2.2.2.1, toStr_operands]

theorem ostrParts_throws {U : Type} (flt : Num → JStr) (L : Likeness U) (n : Nat) (c : Cls) (p : Nat) (hp : partField c = some p) (m : OMsg U) (t : Thrown)
    (ht : partText L m.part = .error t) (hl : m.fs.length = (layout c).length) :
    ∀ (ps : List StrPart), (∀ i, StrPart.field i ∈ ps → i < (layout c).length) → StrPart.field p ∈ ps →
      (allSome (strOperand flt n m.fs) ps).isSome = true →
      ostrParts flt L n c m ps = .error t
  | [], _, hmem, _ => by simp at hmem
  | q :: ps, hi, hmem, hk => by
    have f := part_facts c p hp
    by_cases e : q = .field p
    · subst e
      have : ostrPart flt L n c m (.field p) = .error t := by
        simp only [ostrPart, if_pos ((f.1 p).mpr rfl)]
        cases hpt : m.part with
        | none => rw [hpt] at ht; simp [partText] at ht
        | some u =>
          rw [hpt] at ht
          simp only [partText] at ht
          cases hs : L.str u with
          | error t' => rw [hs] at ht; simp only [Except.map, Except.error.injEq] at ht; simp [hs, ht]
          | ok s => rw [hs] at ht; simp [Except.map] at ht
      simp only [ostrParts, this]
    · have hmem' : StrPart.field p ∈ ps := by
        rcases List.mem_cons.mp hmem with h | h
        · exact absurd h.symm e
        · exact h
      have key : ∀ s, strOperand flt n m.fs q = some s →
          ostrPart flt L n c m q = .ok s := by
        intro s hs
        cases q with
        | lit s' => simp only [strOperand, Option.some.injEq] at hs; rw [← hs]; rfl
        | field i =>
          have e' : i ≠ p := fun h => e (by rw [h])
          have hli : i < m.fs.length := by rw [hl]; exact hi i (by simp)
          simp only [strOperand, List.getElem?_eq_getElem hli] at hs
          simp only [ostrPart, if_neg (fun h => e' ((f.1 i).mp h)), List.getElem?_eq_getElem hli, hs]
      simp only [allSome] at hk
      split at hk
      · rename_i s ss hs hss
        have ih := ostrParts_throws flt L n c p hp m t ht hl ps (fun j hj => hi j (by simp [hj])) hmem' (by simp only [hss]; rfl)
        simp only [ostrParts, key s hs, ih]
      · simp at hk

theorem otoString_throws {U : Type} (flt : Num → JStr) (L : Likeness U) (n : Nat) (c : Cls) (p : Nat) (hp : partField c = some p) (m : OMsg U) (t : Thrown)
    (ht : partText L m.part = .error t) (hl : m.fs.length = (layout c).length)
    (hk : ((Val.obj c m.fs).toStr flt (n + 1)).isSome = true) : otoString flt L n c m = .error t := by
  have f := part_facts c p hp
  simp only [toStr_operands, Option.isSome_map] at hk
  exact ostrParts_throws flt L n c p hp m t ht hl _ f.2.2.2.1 f.2.2.2.2 hk

end FinProto
