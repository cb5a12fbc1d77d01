import Verif.Spec.Hop
import Verif.Proofs.HopText
/-
Helper lemmas: a message that was received is received unchanged when it is sent on.
-/
namespace FinProto

/-- Facts about one value of a message. -/
def HopP (v : Val) : Prop :=
  (∀ k t, hasType t.java v = true → padsOk [t] = true → completeField t v = true → everyField relayable k t v →
      receivedField t (receivedField t v) = receivedField t v
        ∧ ∀ w got, legibleField w k got t v → legibleField w k got t (receivedField t v)) ∧
  (∀ k e, elemHasType e.java v = true → padsOk [.list e] = true → completeElem e v = true → everyElem relayable k e v →
      (∀ v', receivedElem e v = some v' → receivedElem e v' = some v' ∧ ∀ w, legibleElem w k e v → legibleElem w k e v')
        ∧ (e ≠ .vstr ∨ v.text ≠ [] → receivedElem e v ≠ none))

theorem hopFields (ts : List WTy) (fs : List Val) (h : ∀ x ∈ fs, HopP x) (k : Conv) :
    fieldsHaveType (ts.map WTy.java) fs = true → padsOk ts = true → completeFields ts fs = true → everyFields relayable k ts fs →
      receivedFields ts (receivedFields ts fs) = receivedFields ts fs
        ∧ ∀ w got, legibleFields w k got ts fs → legibleFields w k got ts (receivedFields ts fs) := by
  induction ts generalizing fs with
  | nil =>
    intro ht
    cases fs with
    | nil => intro _ _ _; exact ⟨rfl, fun _ _ _ => trivial⟩
    | cons v vs => simp [fieldsHaveType] at ht
  | cons t ts ih =>
    intro ht hp hc hr
    cases fs with
    | nil => simp [fieldsHaveType] at ht
    | cons v vs =>
      simp only [List.map_cons, fieldsHaveType, Bool.and_eq_true] at ht
      simp only [padsOk, Bool.and_eq_true] at hp
      simp only [completeFields, Bool.and_eq_true] at hc
      simp only [everyFields] at hr
      obtain ⟨a1, a2⟩ := (h v (by simp)).1 k t ht.1 (by simpa [padsOk] using hp.1) hc.1 hr.1
      obtain ⟨b1, b2⟩ := ih vs (fun x hx => h x (by simp [hx])) ht.2 hp.2 hc.2 hr.2
      refine ⟨?_, ?_⟩
      · simp only [receivedFields, a1, b1]
      · intro w got hl
        simp only [legibleFields] at hl
        exact ⟨a2 w got hl.1, b2 w got hl.2⟩

theorem hopElems (e : EWTy) (fs : List Val) (h : ∀ x ∈ fs, HopP x) (k : Conv) :
    elemsHaveType e.java fs = true → padsOk [.list e] = true → completeElems e fs = true → everyElems relayable k e fs →
      receivedElems e (receivedElems e fs) = receivedElems e fs
        ∧ (∀ w, legibleElems w k e fs → legibleElems w k e (receivedElems e fs))
        ∧ (receivedElems e fs).length ≤ fs.length
        ∧ ((∃ x ∈ fs, e ≠ .vstr ∨ x.text ≠ []) → receivedElems e fs ≠ []) := by
  induction fs with
  | nil => intro _ _ _ _; exact ⟨rfl, fun _ _ => trivial, Nat.le_refl _, by simp⟩
  | cons v vs ih =>
    intro ht hp hc hr
    simp only [elemsHaveType, Bool.and_eq_true] at ht
    simp only [completeElems, Bool.and_eq_true] at hc
    simp only [everyElems] at hr
    obtain ⟨a1, a2⟩ := (h v (by simp)).2 k e ht.1 hp hc.1 hr.1
    obtain ⟨b1, b2, b3, b4⟩ := ih (fun x hx => h x (by simp [hx])) ht.2 hp hc.2 hr.2
    simp only [receivedElems]
    cases hv : receivedElem e v with
    | none =>
      dsimp only
      refine ⟨b1, fun w hl => b2 w hl.2, by simp only [List.length_cons]; omega, ?_⟩
      rintro ⟨x, hx, hx'⟩
      rcases List.mem_cons.mp hx with rfl | hx
      · exact absurd hv (a2 hx')
      · exact b4 ⟨x, hx, hx'⟩
    | some v' =>
      dsimp only
      obtain ⟨a3, a4⟩ := a1 v' hv
      refine ⟨?_, fun w hl => ⟨a4 w hl.1, b2 w hl.2⟩, by simp only [List.length_cons]; omega, by simp⟩
      simp only [receivedElems, a3, b1]

theorem hopObj (c : Cls) (fs : List Val) (h : ∀ x ∈ fs, HopP x) (ht : fieldsHaveType (javaTypes c) fs = true)
    (hc : completeFields (wire c) fs = true) (hr : everyFields relayable (conv c.mod) (wire c) fs) :
    receivedFields (wire c) (receivedFields (wire c) fs) = receivedFields (wire c) fs
      ∧ ∀ w, legibleFields w (conv c.mod) (receivedFields (wire c) fs) (wire c) fs →
          legibleFields w (conv c.mod) (receivedFields (wire c) (receivedFields (wire c) fs)) (wire c) (receivedFields (wire c) fs) := by
  obtain ⟨h1, h2⟩ := hopFields (wire c) fs h (conv c.mod) (by rw [← type_table]; exact ht) (padsOk_table c) hc hr
  exact ⟨h1, fun w hl => by rw [h1]; exact h2 w _ hl⟩

theorem dec_enc_idem (s : JStr) (hs : s ≠ []) :
    utf8Dec (utf8Enc s) ≠ [] ∧ utf8Enc (utf8Dec (utf8Enc s)) = utf8Enc s := by
  have h : utf8Enc (utf8Dec (utf8Enc s)) = utf8Enc s := by
    rw [utf8Dec_enc]
    unfold utf8Enc sanitize
    rw [scalars_flatMap _ (scalars_isScalar s)]
  refine ⟨?_, h⟩
  intro h0
  rw [h0] at h
  exact hs ((utf8Enc_eq_nil s).mp (by rw [← h]; rfl))

theorem hopP (v : Val) : HopP v := by
  refine Val.ind ?_ ?_ ?_ ?_ ?_ v
  · constructor
    · intro k t ht hp hc hr
      cases t with
      | text n pad left =>
        simp only [padsOk, Bool.and_true, decide_eq_true_eq] at hp
        refine ⟨?_, ?_⟩
        · simp only [receivedField, textReceived_idem n pad left [] hp]
        · intro w got hl
          simp only [legibleField] at hl
          subst hl
          simp [legibleField, receivedField]
      | _ => exact ⟨rfl, fun _ _ h => h⟩
    · intro k e ht hp hc hr
      cases e with
      | text n pad left =>
        simp only [padsOk, Bool.and_true, decide_eq_true_eq] at hp
        refine ⟨?_, by simp [receivedElem]⟩
        intro v' hv'
        simp only [receivedElem, Option.some.injEq, Val.text] at hv'
        subst hv'
        refine ⟨by simp only [receivedElem, Val.text, textReceived_idem n pad left [] hp], ?_⟩
        intro w hl
        simp only [legibleElem, Val.text] at hl ⊢
        intro hleft
        exact absurd rfl (hl hleft)
      | vstr => exact ⟨by simp [receivedElem, Val.text], by simp [Val.text]⟩
      | _ => simp [completeElem] at hc
  · intro m
    exact ⟨fun k t _ _ _ _ => ⟨rfl, fun _ _ _ => trivial⟩,
      fun k e _ _ _ _ => ⟨fun v' hv' => by simp only [receivedElem, Option.some.injEq] at hv'; subst hv'; exact ⟨rfl, fun _ _ => trivial⟩,
        fun _ => by simp [receivedElem]⟩⟩
  · intro s
    constructor
    · intro k t ht hp hc hr
      cases t with
      | text n pad left =>
        simp only [padsOk, Bool.and_true, decide_eq_true_eq] at hp
        refine ⟨?_, ?_⟩
        · simp only [receivedField, textReceived_idem n pad left s hp]
        · intro w got hl
          simp only [legibleField, receivedField] at hl ⊢
          intro hleft
          subst hleft
          exact hr
      | vstr =>
        by_cases hs : s = []
        · subst hs
          exact ⟨rfl, fun _ _ _ => trivial⟩
        · obtain ⟨d1, d2⟩ := dec_enc_idem s hs
          have h1 : receivedField .vstr (.str s) = .str (utf8Dec (utf8Enc s)) := by simp only [receivedField, if_neg hs]
          have h2 : receivedField .vstr (.str (utf8Dec (utf8Enc s))) = .str (utf8Dec (utf8Enc s)) := by
            simp only [receivedField, if_neg d1, d2]
          rw [h1]
          refine ⟨h2, ?_⟩
          intro w got hl
          simp only [legibleField] at hl ⊢
          rw [d2]; exact hl
      | _ => simp [hasType, WTy.java] at ht
    · intro k e ht hp hc hr
      cases e with
      | text n pad left =>
        simp only [padsOk, Bool.and_true, decide_eq_true_eq] at hp
        refine ⟨?_, by simp [receivedElem]⟩
        intro v' hv'
        simp only [receivedElem, Option.some.injEq, Val.text] at hv'
        subst hv'
        refine ⟨by simp only [receivedElem, Val.text, textReceived_idem n pad left s hp], ?_⟩
        intro w hl
        simp only [legibleElem, Val.text] at hl ⊢
        intro hleft
        subst hleft
        exact hr
      | vstr =>
        by_cases hs : s = []
        · subst hs
          exact ⟨by simp [receivedElem, Val.text], by simp [Val.text]⟩
        · obtain ⟨d1, d2⟩ := dec_enc_idem s hs
          refine ⟨?_, by simp [receivedElem, Val.text, hs]⟩
          intro v' hv'
          have hv2 : receivedElem .vstr (.str s) = some (.str (utf8Dec (utf8Enc s))) := if_neg hs
          rw [hv2, Option.some.injEq] at hv'
          subst hv'
          refine ⟨(if_neg d1).trans (by rw [Val.text, d2]), ?_⟩
          intro w hl
          simp only [legibleElem, Val.text] at hl ⊢
          rw [d2]; exact hl
      | _ => simp [elemHasType, EWTy.java] at ht
  · intro xs ih
    constructor
    · intro k t ht hp hc hr
      cases t with
      | list e =>
        simp only [hasType, WTy.java] at ht
        simp only [completeField] at hc
        simp only [everyField] at hr
        obtain ⟨h1, h2, h3, h4⟩ := hopElems e xs ih k ht hp hc hr.2
        cases xs with
        | nil => exact ⟨rfl, fun _ _ _ => trivial⟩
        | cons x xs =>
          have hne : receivedElems e (x :: xs) ≠ [] := by
            apply h4
            by_cases he : e = .vstr
            · subst he
              have h5 := hr.1
              simp only [relayable] at h5
              rcases h5 with h5 | ⟨y, hy, hy'⟩
              · simp at h5
              · exact ⟨y, hy, .inr hy'⟩
            · exact ⟨x, by simp, .inl he⟩
          have h6 : receivedField (.list e) (.list (x :: xs)) = .list (receivedElems e (x :: xs)) := by simp [receivedField]
          rw [h6]
          refine ⟨?_, ?_⟩
          · simp only [receivedField, h1]
            rw [if_neg (by simpa using hne)]
          · intro w got hl
            simp only [legibleField] at hl ⊢
            refine ⟨?_, h2 w hl.2⟩
            have := hl.1
            unfold countFits at this ⊢
            omega
      | _ => simp [hasType, WTy.java] at ht
    · intro k e ht
      simp [elemHasType] at ht
  · intro c fs ih
    constructor
    · intro k t ht hp hc hr
      simp only [hasType, Bool.and_eq_true] at ht
      simp only [completeField] at hc
      simp only [everyField] at hr
      obtain ⟨h1, h2⟩ := hopObj c fs ih ht.2 hc hr.2
      refine ⟨by simp only [receivedField, h1], ?_⟩
      intro w got hl
      simp only [legibleField, receivedField] at hl ⊢
      exact ⟨hl.1, h2 w hl.2⟩
    · intro k e ht hp hc hr
      simp only [elemHasType, Bool.and_eq_true] at ht
      simp only [completeElem] at hc
      simp only [everyElem] at hr
      obtain ⟨h1, h2⟩ := hopObj c fs ih ht.2 hc hr.2
      refine ⟨?_, by simp [receivedElem]⟩
      intro v' hv'
      simp only [receivedElem, Option.some.injEq] at hv'
      subst hv'
      refine ⟨by simp only [receivedElem, h1], ?_⟩
      intro w hl
      simp only [legibleElem] at hl ⊢
      exact h2 w hl

/-- What was received is received unchanged, and it can be followed by the next receiver. -/
theorem received_twice (c : Cls) (fs : List Val) (ht : wellTyped (.obj c fs) = true) (hc : complete (.obj c fs) = true)
    (hr : everywhere relayable (.obj c fs)) :
    received (received (.obj c fs)) = received (.obj c fs)
      ∧ ∀ w, legible w (.obj c fs) → legible w (received (.obj c fs)) := by
  simp only [wellTyped, hasType, Bool.true_and] at ht
  obtain ⟨h1, h2⟩ := hopObj c fs (fun x _ => hopP x) ht hc hr
  exact ⟨by simp only [received, h1], h2⟩

/-! ### computed fields play no part -/

/-- Blanking and receiving commute. -/
def BlankR (v : Val) : Prop :=
  (∀ t, receivedField t (blankField t v) = blankField t (receivedField t v))
    ∧ (∀ e, receivedElem e (blankElem v) = (receivedElem e v).map blankElem)

theorem blankFieldsR (ts : List WTy) (fs : List Val) (h : ∀ x ∈ fs, BlankR x) :
    receivedFields ts (blankFields ts fs) = blankFields ts (receivedFields ts fs) := by
  induction fs generalizing ts with
  | nil => rfl
  | cons v vs ih =>
    cases ts with
    | nil => rfl
    | cons t ts => simp only [blankFields, receivedFields, (h v (by simp)).1, ih ts (fun x hx => h x (by simp [hx]))]

theorem blankElemsR (e : EWTy) (xs : List Val) (h : ∀ x ∈ xs, BlankR x) :
    receivedElems e (blankElems xs) = blankElems (receivedElems e xs) := by
  induction xs with
  | nil => rfl
  | cons v vs ih =>
    simp only [blankElems, receivedElems, (h v (by simp)).2, ih (fun x hx => h x (by simp [hx]))]
    cases receivedElem e v <;> rfl

theorem blankR (v : Val) : BlankR v := by
  refine Val.ind ?_ ?_ ?_ ?_ ?_ v
  · refine ⟨fun t => ?_, fun e => ?_⟩
    · cases t <;> rfl
    · cases e <;> rfl
  · intro n
    refine ⟨fun t => ?_, fun e => rfl⟩
    cases t <;> rfl
  · intro s
    refine ⟨fun t => ?_, fun e => ?_⟩
    · cases t <;> first | rfl | (simp only [blankField, receivedField]; split <;> rfl)
    · cases e <;> first | rfl | (simp only [blankElem, receivedElem]; split <;> rfl)
  · intro xs ih
    refine ⟨fun t => ?_, fun e => ?_⟩
    · cases t with
      | list e =>
        simp only [blankField, receivedField, blankElemsR e xs ih]
        cases xs <;> rfl
      | _ => rfl
    · cases e <;> rfl
  · intro c fs ih
    have h := blankFieldsR (wire c) fs ih
    exact ⟨fun t => by simp only [blankField, receivedField, h], fun e => by simp only [blankElem, receivedElem, h, Option.map_some]⟩

theorem blank_received (v : Val) : blank (received v) = received (blank v) := by
  cases v with
  | obj c fs => simp only [blank, received, blankFieldsR (wire c) fs fun x _ => blankR x]
  | _ => rfl

/-! ### what was received is complete and well typed -/

def RecP (v : Val) : Prop :=
  (∀ t, hasType t.java v = true → completeField t v = true →
      hasType t.java (receivedField t v) = true ∧ completeField t (receivedField t v) = true ∧ depth (receivedField t v) ≤ depth v) ∧
  (∀ e v', elemHasType e.java v = true → completeElem e v = true → receivedElem e v = some v' →
      elemHasType e.java v' = true ∧ completeElem e v' = true ∧ depth v' ≤ depth v)

theorem recFields (ts : List WTy) (fs : List Val) (h : ∀ x ∈ fs, RecP x) :
    fieldsHaveType (ts.map WTy.java) fs = true → completeFields ts fs = true →
      fieldsHaveType (ts.map WTy.java) (receivedFields ts fs) = true ∧ completeFields ts (receivedFields ts fs) = true
        ∧ depthList (receivedFields ts fs) ≤ depthList fs := by
  induction ts generalizing fs with
  | nil =>
    intro ht
    cases fs with
    | nil => intro _; exact ⟨rfl, rfl, Nat.le_refl _⟩
    | cons v vs => simp [fieldsHaveType] at ht
  | cons t ts ih =>
    intro ht hc
    cases fs with
    | nil => simp [fieldsHaveType] at ht
    | cons v vs =>
      simp only [List.map_cons, fieldsHaveType, Bool.and_eq_true] at ht
      simp only [completeFields, Bool.and_eq_true] at hc
      obtain ⟨a1, a2, a3⟩ := (h v (by simp)).1 t ht.1 hc.1
      obtain ⟨b1, b2, b3⟩ := ih vs (fun x hx => h x (by simp [hx])) ht.2 hc.2
      simp only [receivedFields, List.map_cons, fieldsHaveType, completeFields, depthList, a1, a2, b1, b2, Bool.and_self, true_and]
      omega

theorem recElems (e : EWTy) (fs : List Val) (h : ∀ x ∈ fs, RecP x) :
    elemsHaveType e.java fs = true → completeElems e fs = true →
      elemsHaveType e.java (receivedElems e fs) = true ∧ completeElems e (receivedElems e fs) = true
        ∧ depthList (receivedElems e fs) ≤ depthList fs := by
  induction fs with
  | nil => intro _ _; exact ⟨rfl, rfl, Nat.le_refl _⟩
  | cons v vs ih =>
    intro ht hc
    simp only [elemsHaveType, Bool.and_eq_true] at ht
    simp only [completeElems, Bool.and_eq_true] at hc
    obtain ⟨b1, b2, b3⟩ := ih (fun x hx => h x (by simp [hx])) ht.2 hc.2
    simp only [receivedElems]
    cases hv : receivedElem e v with
    | none =>
      simp only [depthList]
      exact ⟨b1, b2, by omega⟩
    | some v' =>
      obtain ⟨a1, a2, a3⟩ := (h v (by simp)).2 e v' ht.1 hc.1 hv
      simp only [elemsHaveType, completeElems, depthList, a1, a2, b1, b2, Bool.and_self, true_and]
      omega

theorem recObj (c : Cls) (fs : List Val) (h : ∀ x ∈ fs, RecP x) (ht : fieldsHaveType (javaTypes c) fs = true)
    (hc : completeFields (wire c) fs = true) :
    fieldsHaveType (javaTypes c) (receivedFields (wire c) fs) = true ∧ completeFields (wire c) (receivedFields (wire c) fs) = true
      ∧ depthList (receivedFields (wire c) fs) ≤ depthList fs := by
  rw [type_table] at ht ⊢
  exact recFields (wire c) fs h ht hc

theorem recP (v : Val) : RecP v := by
  refine Val.ind ?_ ?_ ?_ ?_ ?_ v
  · constructor
    · intro t ht hc
      cases t with
      | text n pad left => exact ⟨rfl, rfl, Nat.le_refl _⟩
      | _ => exact ⟨ht, hc, Nat.le_refl _⟩
    · intro e v' ht hc hv
      cases e with
      | text n pad left =>
        simp only [receivedElem, Option.some.injEq] at hv
        subst hv
        exact ⟨rfl, rfl, Nat.le_refl _⟩
      | vstr => simp [receivedElem, Val.text] at hv
      | _ => simp [completeElem] at hc
  · intro n
    refine ⟨fun t ht hc => ⟨ht, hc, Nat.le_refl _⟩, fun e v' ht hc hv => ?_⟩
    simp only [receivedElem, Option.some.injEq] at hv
    subst hv
    exact ⟨ht, hc, Nat.le_refl _⟩
  · intro s
    constructor
    · intro t ht hc
      cases t with
      | text n pad left => exact ⟨rfl, rfl, Nat.le_refl _⟩
      | vstr =>
        simp only [receivedField]
        split <;> exact ⟨rfl, rfl, Nat.le_refl _⟩
      | _ => simp [hasType, WTy.java] at ht
    · intro e v' ht hc hv
      cases e with
      | text n pad left =>
        simp only [receivedElem, Option.some.injEq] at hv
        subst hv
        exact ⟨rfl, rfl, Nat.le_refl _⟩
      | vstr =>
        simp only [receivedElem] at hv
        split at hv
        · simp at hv
        · simp only [Option.some.injEq] at hv
          subst hv
          exact ⟨rfl, rfl, Nat.le_refl _⟩
      | _ => simp [elemHasType, EWTy.java] at ht
  · intro xs ih
    constructor
    · intro t ht hc
      cases t with
      | list e =>
        simp only [hasType, WTy.java] at ht
        simp only [completeField] at hc
        obtain ⟨h1, h2, h3⟩ := recElems e xs ih ht hc
        simp only [receivedField]
        split
        · exact ⟨rfl, rfl, Nat.zero_le _⟩
        · exact ⟨h1, h2, h3⟩
      | _ => simp [hasType, WTy.java] at ht
    · intro e v' ht
      simp [elemHasType] at ht
  · intro c fs ih
    constructor
    · intro t ht hc
      simp only [hasType, Bool.and_eq_true] at ht
      simp only [completeField] at hc
      obtain ⟨h1, h2, h3⟩ := recObj c fs ih ht.2 hc
      simp only [receivedField, hasType, completeField, depth, ht.1, h1, h2, Bool.and_self, true_and]
      omega
    · intro e v' ht hc hv
      simp only [elemHasType, Bool.and_eq_true] at ht
      simp only [completeElem] at hc
      simp only [receivedElem, Option.some.injEq] at hv
      subst hv
      obtain ⟨h1, h2, h3⟩ := recObj c fs ih ht.2 hc
      simp only [elemHasType, completeElem, depth, ht.1, h1, h2, Bool.and_self, true_and]
      omega

theorem received_facts (c : Cls) (fs : List Val) (ht : wellTyped (.obj c fs) = true) (hc : complete (.obj c fs) = true) :
    wellTyped (.obj c (receivedFields (wire c) fs)) = true ∧ complete (.obj c (receivedFields (wire c) fs)) = true
      ∧ depth (.obj c (receivedFields (wire c) fs)) ≤ depth (.obj c fs) := by
  simp only [wellTyped, hasType, Bool.true_and] at ht ⊢
  obtain ⟨h1, h2, h3⟩ := recObj c fs (fun x _ => recP x) ht hc
  exact ⟨h1, h2, by simp only [depth]; omega⟩

end FinProto
