import Verif.Proofs.RoundTrip
import Verif.Proofs.Settle
/-
Helper lemmas: canonical messages are legible and received unchanged; length and checksum fields are irrelevant for both notions.
-/
namespace FinProto

/-- Induction over values. -/
theorem Val.ind {P : Val → Prop} (null : P .null) (num : ∀ n, P (.num n)) (str : ∀ s, P (.str s))
    (list : ∀ xs, (∀ x ∈ xs, P x) → P (.list xs)) (obj : ∀ c fs, (∀ x ∈ fs, P x) → P (.obj c fs)) (v : Val) : P v :=
  Val.rec (motive_1 := P) (motive_2 := fun xs => ∀ x ∈ xs, P x) null num str (fun xs h => list xs h) (fun c fs h => obj c fs h)
    (by simp) (fun v vs h1 h2 x hx => by
      rcases List.mem_cons.mp hx with rfl | h
      · exact h1
      · exact h2 x h) v

/-- The pad characters are ASCII. -/
def padsOk : List WTy → Bool
  | [] => true
  | t :: ts => (match t with | .text _ pad _ | .list (.text _ pad _) => decide (pad.toNat < 0x80) | _ => true) && padsOk ts

theorem padsOk_table (c : Cls) : padsOk (wire c) = true := by cases c <;> decide

theorem textReceived_canonical (n : Nat) (pad : JChar) (left : Bool) (s : JStr) (hp : pad.toNat < 0x80)
    (h : canonicalText n pad left s) : textReceived n pad left s = s := by
  obtain ⟨h1, h2, h3, _⟩ := h
  rw [textReceived, strip_dec_fixedField n pad left s hp h2, sanitize_eq s h1, stripPad_of_not_touches _ _ _ h3]

/-- Facts about one value of a canonical message. -/
def CanonP (w : World) (v : Val) : Prop :=
  (∀ k all t, canonicalField w k all t v → hasType t.java v = true → padsOk [t] = true →
      completeField t v = true ∧ legibleField w k all t v ∧ receivedField t v = v) ∧
  (∀ k e, canonicalElem w k e v → elemHasType e.java v = true → padsOk [.list e] = true →
      completeElem e v = true ∧ legibleElem w k e v ∧ receivedElem e v = some v)

theorem canonFields (w : World) (ts : List WTy) (fs : List Val) (h : ∀ x ∈ fs, CanonP w x) (k : Conv) (all : List Val) :
    canonicalFields w k all ts fs → fieldsHaveType (ts.map WTy.java) fs = true → padsOk ts = true →
      completeFields ts fs = true ∧ legibleFields w k all ts fs ∧ receivedFields ts fs = fs := by
  induction ts generalizing fs with
  | nil =>
    intro _ ht _
    cases fs with
    | nil => exact ⟨rfl, trivial, rfl⟩
    | cons v vs => simp [fieldsHaveType] at ht
  | cons t ts ih =>
    intro hc ht hp
    cases fs with
    | nil => simp [fieldsHaveType] at ht
    | cons v vs =>
      simp only [canonicalFields] at hc
      simp only [List.map_cons, fieldsHaveType, Bool.and_eq_true] at ht
      simp only [padsOk, Bool.and_eq_true] at hp
      obtain ⟨a1, a2, a3⟩ := (h v (by simp)).1 k all t hc.1 ht.1 (by simpa [padsOk] using hp.1)
      obtain ⟨b1, b2, b3⟩ := ih vs (fun x hx => h x (by simp [hx])) hc.2 ht.2 hp.2
      refine ⟨?_, ?_, ?_⟩
      · simp only [completeFields, a1, b1, Bool.and_self]
      · exact ⟨a2, b2⟩
      · simp only [receivedFields, a3, b3]

theorem canonElems (w : World) (e : EWTy) (fs : List Val) (h : ∀ x ∈ fs, CanonP w x) (k : Conv) :
    canonicalElems w k e fs → elemsHaveType e.java fs = true → padsOk [.list e] = true →
      completeElems e fs = true ∧ legibleElems w k e fs ∧ receivedElems e fs = fs := by
  induction fs with
  | nil => intro _ _ _; exact ⟨rfl, trivial, rfl⟩
  | cons v vs ih =>
    intro hc ht hp
    simp only [canonicalElems] at hc
    simp only [elemsHaveType, Bool.and_eq_true] at ht
    obtain ⟨a1, a2, a3⟩ := (h v (by simp)).2 k e hc.1 ht.1 hp
    obtain ⟨b1, b2, b3⟩ := ih (fun x hx => h x (by simp [hx])) hc.2 ht.2 hp
    refine ⟨?_, ?_, ?_⟩
    · simp only [completeElems, a1, b1, Bool.and_self]
    · exact ⟨a2, b2⟩
    · simp only [receivedElems, a3, b3]

theorem canonObj (w : World) (c : Cls) (fs : List Val) (h : ∀ x ∈ fs, CanonP w x)
    (hc : canonicalFields w (conv c.mod) fs (wire c) fs) (ht : fieldsHaveType (javaTypes c) fs = true) :
    completeFields (wire c) fs = true ∧ legibleFields w (conv c.mod) (receivedFields (wire c) fs) (wire c) fs
      ∧ receivedFields (wire c) fs = fs := by
  obtain ⟨h1, h2, h3⟩ := canonFields w (wire c) fs h (conv c.mod) fs hc (by rw [← type_table]; exact ht) (padsOk_table c)
  rw [h3]
  exact ⟨h1, h2, rfl⟩

theorem canonP (w : World) (v : Val) : CanonP w v := by
  refine Val.ind ?_ ?_ ?_ ?_ ?_ v
  · constructor
    · intro k all t hc ht _
      cases t <;> simp [canonicalField] at hc <;> exact ⟨rfl, trivial, rfl⟩
    · intro k e hc
      simp [canonicalElem] at hc
  · intro m
    constructor
    · intro k all t _ _ _
      exact ⟨rfl, trivial, rfl⟩
    · intro k e _ ht _
      refine ⟨rfl, trivial, rfl⟩
  · intro s
    constructor
    · intro k all t hc ht hp
      cases t with
      | text n pad left =>
        simp only [canonicalField] at hc
        simp only [padsOk, Bool.and_true, decide_eq_true_eq] at hp
        refine ⟨rfl, hc.2.2.2, ?_⟩
        simp only [receivedField, textReceived_canonical n pad left s hp hc]
      | vstr =>
        simp only [canonicalField] at hc
        refine ⟨rfl, hc.2.2, ?_⟩
        simp only [receivedField, if_neg hc.1, utf8Dec_enc, sanitize_eq s hc.2.1]
      | _ => simp [hasType, WTy.java] at ht
    · intro k e hc ht hp
      cases e with
      | text n pad left =>
        simp only [canonicalElem] at hc
        simp only [padsOk, Bool.and_true, decide_eq_true_eq] at hp
        refine ⟨rfl, hc.2.2.2, ?_⟩
        simp only [receivedElem, Val.text, textReceived_canonical n pad left s hp hc]
      | vstr =>
        simp only [canonicalElem] at hc
        refine ⟨rfl, hc.2.2, ?_⟩
        simp only [receivedElem, Val.text, if_neg hc.1, utf8Dec_enc, sanitize_eq s hc.2.1]
      | _ => simp [elemHasType, EWTy.java] at ht
  · intro xs ih
    constructor
    · intro k all t hc ht hp
      cases t with
      | list e =>
        simp only [canonicalField] at hc
        simp only [hasType, WTy.java] at ht
        obtain ⟨h1, h2, h3⟩ := canonElems w e xs ih k hc.2.2 ht hp
        refine ⟨h1, ⟨hc.2.1, h2⟩, ?_⟩
        simp only [receivedField, h3]
        rw [if_neg]
        simpa using hc.1
      | _ => simp [hasType, WTy.java] at ht
    · intro k e hc
      simp [canonicalElem] at hc
  · intro c fs ih
    constructor
    · intro k all t hc ht hp
      simp only [canonicalField] at hc
      simp only [hasType, Bool.and_eq_true] at ht
      obtain ⟨h1, h2, h3⟩ := canonObj w c fs ih hc.2 ht.2
      refine ⟨h1, ⟨hc.1, h2⟩, ?_⟩
      simp only [receivedField, h3]
    · intro k e hc ht hp
      simp only [canonicalElem] at hc
      simp only [elemHasType, Bool.and_eq_true] at ht
      obtain ⟨h1, h2, h3⟩ := canonObj w c fs ih hc ht.2
      refine ⟨h1, h2, ?_⟩
      simp only [receivedElem, h3]

theorem canonical_facts (w : World) (v : Val) (hv : wellTyped v = true) (hc : canonical w v) :
    complete v = true ∧ legible w v ∧ received v = v := by
  obtain ⟨c, fs, rfl, ht⟩ := wellTyped_obj v hv
  obtain ⟨h1, h2, h3⟩ := canonObj w c fs (fun x _ => canonP w x) hc ht
  refine ⟨h1, h2, ?_⟩
  simp only [received, h3]

/-! ### blanking -/

/-- Not a computed field. -/
def WTy.plain : WTy → Bool
  | .len _ | .cksum _ _ => false
  | _ => true

/-- Every key of the layout refers to a field that the sender does not compute. -/
def keysPlain (all : List WTy) (ts : List WTy) : Bool :=
  ts.all fun t => match t with | .ext _ key => (match all[key]? with | some t => t.plain | none => false) | _ => true

theorem keysPlain_table (c : Cls) : keysPlain (wire c) (wire c) = true := by cases c <;> decide

theorem keyOf_blankField (t : WTy) (h : t.plain = true) (v : Val) : keyOf (blankField t v) = keyOf v := by
  cases v with
  | num n => cases t <;> first | rfl | simp [WTy.plain] at h
  | _ => rfl

theorem keyOf_receivedField_blank (t : WTy) (h : t.plain = true) (v : Val) :
    keyOf (receivedField t (blankField t v)) = keyOf (receivedField t v) := by
  cases v with
  | num n => cases t <;> first | rfl | simp [WTy.plain] at h
  | list xs =>
    cases t with
    | list e =>
      simp only [blankField, receivedField]
      split <;> split <;> rfl
    | _ => rfl
  | _ => rfl

theorem blankFields_get (ts : List WTy) (fs : List Val) (key : Nat) (t : WTy) (h : ts[key]? = some t) :
    (blankFields ts fs)[key]? = fs[key]?.map (blankField t) := by
  induction fs generalizing ts key with
  | nil => rfl
  | cons v vs ih =>
    cases ts with
    | nil => simp at h
    | cons s ss =>
      cases key with
      | zero => simp only [List.getElem?_cons_zero, Option.some.injEq] at h; subst h; rfl
      | succ key => simpa [blankFields] using ih ss key (by simpa using h)

theorem receivedFields_get (ts : List WTy) (fs : List Val) (key : Nat) (t : WTy) (h : ts[key]? = some t) :
    (receivedFields ts fs)[key]? = fs[key]?.map (receivedField t) := by
  induction fs generalizing ts key with
  | nil => rfl
  | cons v vs ih =>
    cases ts with
    | nil => simp at h
    | cons s ss =>
      cases key with
      | zero => simp only [List.getElem?_cons_zero, Option.some.injEq] at h; subst h; rfl
      | succ key => simpa [receivedFields] using ih ss key (by simpa using h)

/-- `all` and `all'` agree on the keys a field may look up. -/
def KeysAgree (all all' : List Val) (t : WTy) : Prop :=
  ∀ fac key, t = .ext fac key → all[key]?.map keyOf = all'[key]?.map keyOf

theorem ext_agree (w : World) (all all' : List Val) (fac : Fac) (key : Nat) (c : Cls) (h : all[key]?.map keyOf = all'[key]?.map keyOf) :
    (∃ v, all[key]? = some v ∧ w.fac fac (keyOf v) = some (fresh c)) ↔
      (∃ v, all'[key]? = some v ∧ w.fac fac (keyOf v) = some (fresh c)) := by
  have one : ∀ a b : Option Val, a.map keyOf = b.map keyOf →
      (∃ v, a = some v ∧ w.fac fac (keyOf v) = some (fresh c)) → (∃ v, b = some v ∧ w.fac fac (keyOf v) = some (fresh c)) := by
    rintro a b hab ⟨v, rfl, h2⟩
    cases b with
    | none => simp at hab
    | some b =>
      simp only [Option.map_some, Option.some.injEq] at hab
      exact ⟨b, rfl, by rw [← hab]; exact h2⟩
  exact ⟨one _ _ h, one _ _ h.symm⟩

theorem keysPlain_get (ts : List WTy) (fac : Fac) (key : Nat) (ht : WTy.ext fac key ∈ ts) (h : keysPlain ts ts = true) :
    ∃ s, ts[key]? = some s ∧ s.plain = true := by
  have := List.all_eq_true.mp h _ ht
  dsimp only at this
  cases hk : ts[key]? with
  | none => rw [hk] at this; cases this
  | some s => rw [hk] at this; exact ⟨s, rfl, this⟩

theorem keys_agree_blank (ts : List WTy) (fs : List Val) (t : WTy) (ht : t ∈ ts) (h : keysPlain ts ts = true) :
    KeysAgree fs (blankFields ts fs) t ∧ KeysAgree (receivedFields ts fs) (receivedFields ts (blankFields ts fs)) t := by
  constructor
  · rintro fac key rfl
    obtain ⟨s, hk, this⟩ := keysPlain_get ts fac key ht h
    rw [blankFields_get ts fs key s hk]
    cases fs[key]? with
    | none => rfl
    | some v => simp only [Option.map_some, keyOf_blankField s this]
  · rintro fac key rfl
    obtain ⟨s, hk, this⟩ := keysPlain_get ts fac key ht h
    rw [receivedFields_get ts _ key s hk, receivedFields_get ts _ key s hk, blankFields_get ts fs key s hk]
    cases fs[key]? with
    | none => rfl
    | some v => simp only [Option.map_some, keyOf_receivedField_blank s this]

theorem blankElems_length (xs : List Val) : (blankElems xs).length = xs.length := by
  induction xs with
  | nil => rfl
  | cons v vs ih => simp [blankElems, ih]

def BlankP (w : World) (v : Val) : Prop :=
  (∀ k all all' t, KeysAgree all all' t →
    (canonicalField w k all t v ↔ canonicalField w k all' t (blankField t v))) ∧
  (∀ k all all' t, KeysAgree all all' t →
    (legibleField w k all t v ↔ legibleField w k all' t (blankField t v))) ∧
  (∀ k e, (canonicalElem w k e v ↔ canonicalElem w k e (blankElem v))) ∧
  (∀ k e, (legibleElem w k e v ↔ legibleElem w k e (blankElem v)))

theorem blankFieldsP (w : World) (k : Conv) (all all' : List Val) (ts : List WTy) (fs : List Val) (h : ∀ x ∈ fs, BlankP w x)
    (ha : ∀ t ∈ ts, KeysAgree all all' t) :
    (canonicalFields w k all ts fs ↔ canonicalFields w k all' ts (blankFields ts fs)) ∧
    (legibleFields w k all ts fs ↔ legibleFields w k all' ts (blankFields ts fs)) := by
  induction ts generalizing fs with
  | nil => cases fs <;> exact ⟨Iff.rfl, Iff.rfl⟩
  | cons t ts ih =>
    cases fs with
    | nil => exact ⟨Iff.rfl, Iff.rfl⟩
    | cons v vs =>
      have h1 := h v (by simp)
      have h2 := ih vs (fun x hx => h x (by simp [hx])) (fun x hx => ha x (by simp [hx]))
      simp only [canonicalFields, legibleFields, blankFields]
      exact ⟨and_congr (h1.1 k all all' t (ha t (by simp))) h2.1, and_congr (h1.2.1 k all all' t (ha t (by simp))) h2.2⟩

theorem blankElemsP (w : World) (k : Conv) (e : EWTy) (fs : List Val) (h : ∀ x ∈ fs, BlankP w x) :
    (canonicalElems w k e fs ↔ canonicalElems w k e (blankElems fs)) ∧
    (legibleElems w k e fs ↔ legibleElems w k e (blankElems fs)) := by
  induction fs with
  | nil => exact ⟨Iff.rfl, Iff.rfl⟩
  | cons v vs ih =>
    have h1 := h v (by simp)
    have h2 := ih (fun x hx => h x (by simp [hx]))
    simp only [canonicalElems, legibleElems, blankElems]
    exact ⟨and_congr (h1.2.2.1 k e) h2.1, and_congr (h1.2.2.2 k e) h2.2⟩

theorem blankObjP (w : World) (c : Cls) (fs : List Val) (h : ∀ x ∈ fs, BlankP w x) :
    (canonicalFields w (conv c.mod) fs (wire c) fs ↔
      canonicalFields w (conv c.mod) (blankFields (wire c) fs) (wire c) (blankFields (wire c) fs)) ∧
    (legibleFields w (conv c.mod) (receivedFields (wire c) fs) (wire c) fs ↔
      legibleFields w (conv c.mod) (receivedFields (wire c) (blankFields (wire c) fs)) (wire c) (blankFields (wire c) fs)) :=
  ⟨(blankFieldsP w _ _ _ (wire c) fs h fun t ht => (keys_agree_blank (wire c) fs t ht (keysPlain_table c)).1).1,
    (blankFieldsP w _ _ _ (wire c) fs h fun t ht => (keys_agree_blank (wire c) fs t ht (keysPlain_table c)).2).2⟩

theorem blankP (w : World) (v : Val) : BlankP w v := by
  refine Val.ind ?_ ?_ ?_ ?_ ?_ v
  · exact ⟨fun _ _ _ _ _ => Iff.rfl, fun _ _ _ _ _ => Iff.rfl, fun _ _ => Iff.rfl, fun _ _ => Iff.rfl⟩
  · intro n
    refine ⟨fun k all all' t _ => ?_, fun k all all' t _ => ?_, fun _ _ => Iff.rfl, fun _ _ => Iff.rfl⟩ <;>
      cases t <;> exact Iff.rfl
  · intro s
    exact ⟨fun _ _ _ _ _ => Iff.rfl, fun _ _ _ _ _ => Iff.rfl, fun _ _ => Iff.rfl, fun _ _ => Iff.rfl⟩
  · intro xs ih
    refine ⟨fun k all all' t _ => ?_, fun k all all' t _ => ?_, fun _ _ => Iff.rfl, fun _ _ => Iff.rfl⟩
    · cases t with
      | list e =>
        simp only [canonicalField, blankField, blankElems_length, (blankElemsP w k e xs ih).1]
        have : xs ≠ [] ↔ blankElems xs ≠ [] := by
          cases xs <;> simp [blankElems]
        rw [this]
      | _ => exact Iff.rfl
    · cases t with
      | list e => simp only [legibleField, blankField, blankElems_length, (blankElemsP w k e xs ih).2]
      | _ => exact Iff.rfl
  · intro c fs ih
    have h := blankObjP w c fs ih
    refine ⟨fun k all all' t ha => ?_, fun k all all' t ha => ?_, fun k e => ?_, fun k e => ?_⟩
    · simp only [canonicalField, blankField, h.1]
      refine and_congr_left fun _ => ?_
      cases t with
      | ext fac key => exact ext_agree w all all' fac key c (ha fac key rfl)
      | _ => exact Iff.rfl
    · simp only [legibleField, blankField, h.2]
      refine and_congr_left fun _ => ?_
      cases t with
      | ext fac key => exact ext_agree w all all' fac key c (ha fac key rfl)
      | _ => exact Iff.rfl
    · simp only [canonicalElem, blankElem, h.1]
    · simp only [legibleElem, blankElem, h.2]

theorem canonical_blank (w : World) (v : Val) : canonical w v ↔ canonical w (blank v) := by
  cases v with
  | obj c fs => exact (blankObjP w c fs fun x _ => blankP w x).1
  | _ => exact Iff.rfl

theorem legible_blank (w : World) (v : Val) : legible w v ↔ legible w (blank v) := by
  cases v with
  | obj c fs => exact (blankObjP w c fs fun x _ => blankP w x).2
  | _ => exact Iff.rfl

theorem canonical_settle (w : World) (svc : Registry) (pre : List Byte) (v : Val) (hv : wellTyped v = true) :
    canonical w (settle svc pre v) ↔ canonical w v := by
  rw [canonical_blank, blank_settle svc pre v hv, ← canonical_blank]

theorem legible_settle (w : World) (svc : Registry) (pre : List Byte) (v : Val) (hv : wellTyped v = true) :
    legible w (settle svc pre v) ↔ legible w v := by
  rw [legible_blank, blank_settle svc pre v hv, ← legible_blank]

/-! ### blanking keeps completeness and depth -/

def BlankQ (v : Val) : Prop :=
  (∀ t, completeField t (blankField t v) = completeField t v) ∧ (∀ e, completeElem e (blankElem v) = completeElem e v)
    ∧ (∀ t, depth (blankField t v) = depth v) ∧ depth (blankElem v) = depth v

theorem blankFieldsQ (ts : List WTy) (fs : List Val) (h : ∀ x ∈ fs, BlankQ x) :
    completeFields ts (blankFields ts fs) = completeFields ts fs ∧ depthList (blankFields ts fs) = depthList fs := by
  induction fs generalizing ts with
  | nil => exact ⟨rfl, rfl⟩
  | cons v vs ih =>
    cases ts with
    | nil => exact ⟨rfl, rfl⟩
    | cons t ts =>
      obtain ⟨h1, _, h3, _⟩ := h v (by simp)
      obtain ⟨g1, g2⟩ := ih ts (fun x hx => h x (by simp [hx]))
      simp only [blankFields, completeFields, depthList, h1, h3, g1, g2, and_self]

theorem blankElemsQ (e : EWTy) (xs : List Val) (h : ∀ x ∈ xs, BlankQ x) :
    completeElems e (blankElems xs) = completeElems e xs ∧ depthList (blankElems xs) = depthList xs := by
  induction xs with
  | nil => exact ⟨rfl, rfl⟩
  | cons v vs ih =>
    obtain ⟨_, h2, _, h4⟩ := h v (by simp)
    obtain ⟨g1, g2⟩ := ih (fun x hx => h x (by simp [hx]))
    simp only [blankElems, completeElems, depthList, h2, h4, g1, g2, and_self]

theorem blankQ (v : Val) : BlankQ v := by
  refine Val.ind ?_ ?_ ?_ ?_ ?_ v
  · exact ⟨fun _ => rfl, fun _ => rfl, fun _ => rfl, rfl⟩
  · intro n
    refine ⟨fun t => ?_, fun _ => rfl, fun t => ?_, rfl⟩ <;> cases t <;> rfl
  · exact fun s => ⟨fun _ => rfl, fun _ => rfl, fun _ => rfl, rfl⟩
  · intro xs ih
    refine ⟨fun t => ?_, fun _ => rfl, fun t => ?_, rfl⟩
    · cases t with
      | list e => exact (blankElemsQ e xs ih).1
      | _ => rfl
    · exact (blankElemsQ .vstr xs ih).2
  · intro c fs ih
    have h := blankFieldsQ (wire c) fs ih
    refine ⟨fun _ => h.1, fun _ => h.1, fun _ => ?_, ?_⟩ <;> simp only [blankField, blankElem, depth, h.2]

theorem complete_blank (v : Val) : complete (blank v) = complete v := by
  cases v with
  | obj c fs => exact (blankFieldsQ (wire c) fs fun x _ => blankQ x).1
  | _ => rfl

theorem depth_blank (v : Val) : depth (blank v) = depth v := by
  cases v with
  | obj c fs => simp only [blank, depth, (blankFieldsQ (wire c) fs fun x _ => blankQ x).2]
  | _ => rfl

end FinProto
