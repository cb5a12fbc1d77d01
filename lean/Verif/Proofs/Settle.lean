import Verif.Proofs.Encode
/-
Helper lemmas about the computed fields: settling keeps types, completeness, depth and image size, is idempotent, and
only touches length and checksum fields.
-/
namespace FinProto

/-- Induction over layouts in which length fields stand in front of a body. -/
theorem lenOk_induction {P : List WTy → Prop} (nil : P [])
    (len : ∀ fac key ts, lenOk ts = true → P ts → P (.len .i32 :: .ext fac key :: ts))
    (other : ∀ t ts, (∀ lt, t ≠ .len lt) → (∀ ct alg, t = .cksum ct alg → ct = .i32) → lenOk ts = true → P ts → P (t :: ts))
    (ts : List WTy) (h : lenOk ts = true) : P ts := by
  fun_induction lenOk ts with
  | case1 => exact nil
  | case2 t fac key ts ih =>
    simp only [Bool.and_eq_true, decide_eq_true_eq] at h
    obtain ⟨rfl, h⟩ := h
    exact len _ _ _ h (ih h)
  | case3 => simp at h
  | case4 t alg ts ih =>
    simp only [Bool.and_eq_true, decide_eq_true_eq] at h
    obtain ⟨rfl, h⟩ := h
    exact other _ _ (by intro lt; simp) (by intro ct a hh; injection hh with h1 h2; exact h1.symm) h (ih h)
  | case5 t ts h1 h2 h3 ih =>
    exact other _ _ (by rintro lt rfl; exact h2 _ rfl) (by rintro ct a rfl; exact absurd rfl (h3 _ _)) h (ih h)

theorem settleFields_other (svc : Registry) (k : Conv) (pre : List Byte) (t : WTy) (ts : List WTy) (v : Val) (vs : List Val)
    (h : ∀ lt, t ≠ .len lt) :
    settleFields svc k pre (t :: ts) (v :: vs) =
      settleField svc k pre t v :: settleFields svc k (pre ++ imageField k t (settleField svc k pre t v)) ts vs := by
  cases t <;> first | rfl | exact absurd rfl (h _)

theorem settleFields_len (svc : Registry) (k : Conv) (pre : List Byte) (t : WTy) (ts : List WTy) (v b : Val) (vs : List Val) :
    settleFields svc k pre (.len .i32 :: t :: ts) (v :: b :: vs) =
      .num (.int (BitVec.ofNat 32 (imageField k t (settleField svc k (pre ++ List.replicate 4 0) t b)).length)) ::
      settleField svc k (pre ++ List.replicate 4 0) t b ::
      settleFields svc k (pre ++ countImage k .i32 (imageField k t (settleField svc k (pre ++ List.replicate 4 0) t b)).length ++
        imageField k t (settleField svc k (pre ++ List.replicate 4 0) t b)) ts vs := rfl

/-- What settling does to a list of fields. -/
structure SettleFacts (svc : Registry) (k : Conv) (pre : List Byte) (ts : List WTy) (fs : List Val) : Prop where
  typed : fieldsHaveType (ts.map WTy.java) (settleFields svc k pre ts fs) = true
  complete : completeFields ts (settleFields svc k pre ts fs) = completeFields ts fs
  depth : depthList (settleFields svc k pre ts fs) = depthList fs
  size : (imageFields k ts (settleFields svc k pre ts fs)).length = (imageFields k ts fs).length
  idem : settleFields svc k pre ts (settleFields svc k pre ts fs) = settleFields svc k pre ts fs
  blank : blankFields ts (settleFields svc k pre ts fs) = blankFields ts fs

/-- The same for a single field. -/
structure SettleFact1 (svc : Registry) (k : Conv) (pre : List Byte) (t : WTy) (v : Val) : Prop where
  typed : hasType t.java (settleField svc k pre t v) = true
  complete : completeField t (settleField svc k pre t v) = completeField t v
  depth : FinProto.depth (settleField svc k pre t v) = FinProto.depth v
  size : (imageField k t (settleField svc k pre t v)).length = (imageField k t v).length
  idem : settleField svc k pre t (settleField svc k pre t v) = settleField svc k pre t v
  blank : blankField t (settleField svc k pre t v) = blankField t v

/-- The same for list elements. -/
structure SettleFactsE (svc : Registry) (k : Conv) (pre : List Byte) (e : EWTy) (xs : List Val) : Prop where
  typed : elemsHaveType e.java (settleElems svc k pre e xs) = true
  complete : completeElems e (settleElems svc k pre e xs) = completeElems e xs
  depth : depthList (settleElems svc k pre e xs) = depthList xs
  size : (imageElems k e (settleElems svc k pre e xs)).length = (imageElems k e xs).length
  idem : settleElems svc k pre e (settleElems svc k pre e xs) = settleElems svc k pre e xs
  blank : blankElems (settleElems svc k pre e xs) = blankElems xs

def SettleIH (svc : Registry) (n : Nat) : Prop :=
  ∀ c fs pre, fieldsHaveType (javaTypes c) fs = true → depthList fs < n →
    SettleFacts svc (conv c.mod) pre (wire c) fs

theorem settleElems_facts (svc : Registry) (n : Nat) (ih : SettleIH svc n) (k : Conv) (e : EWTy) (xs : List Val)
    (pre : List Byte) (ht : elemsHaveType e.java xs = true) (hd : depthList xs ≤ n) : SettleFactsE svc k pre e xs := by
  induction xs generalizing pre with
  | nil => constructor <;> rfl
  | cons v vs ihv =>
    simp only [elemsHaveType, Bool.and_eq_true, depthList] at ht hd
    have h1 : elemHasType e.java (settleElem svc pre v) = true ∧
        completeElem e (settleElem svc pre v) = completeElem e v ∧
        FinProto.depth (settleElem svc pre v) = FinProto.depth v ∧
        (imageElem k e (settleElem svc pre v)).length = (imageElem k e v).length ∧
        settleElem svc pre (settleElem svc pre v) = settleElem svc pre v ∧
        blankElem (settleElem svc pre v) = blankElem v := by
      cases v with
      | obj c fs =>
        have ht1 := ht.1
        simp only [elemHasType, Bool.and_eq_true] at ht1
        have F := ih c fs pre ht1.2 (by simp only [FinProto.depth] at hd; omega)
        refine ⟨?_, ?_, ?_, ?_, ?_, ?_⟩
        · simp only [settleElem, elemHasType, Bool.and_eq_true]
          exact ⟨ht1.1, by rw [type_table]; exact F.typed⟩
        · simp only [settleElem, completeElem, F.complete]
        · simp only [settleElem, FinProto.depth, F.depth]
        · cases e <;> simp only [settleElem, imageElem, F.size, List.length_nil]
        · simp only [settleElem, F.idem]
        · simp only [settleElem, blankElem, F.blank]
      | _ => exact ⟨ht.1, rfl, rfl, rfl, rfl, rfl⟩
    obtain ⟨a1, a2, a3, a4, a5, a6⟩ := h1
    have R := ihv (pre ++ imageElem k e (settleElem svc pre v)) ht.2 (by omega)
    constructor
    · simp only [settleElems, elemsHaveType, a1, R.typed, Bool.and_true]
    · simp only [settleElems, completeElems, a2, R.complete]
    · simp only [settleElems, depthList, a3, R.depth]
    · simp only [settleElems, imageElems, List.length_append, a4, R.size]
    · simp only [settleElems, a5, R.idem]
    · simp only [settleElems, blankElems, a6, R.blank]

theorem settleField_facts (svc : Registry) (n : Nat) (ih : SettleIH svc n) (k : Conv) (t : WTy) (v : Val) (pre : List Byte)
    (hck : ∀ ct alg, t = .cksum ct alg → ct = .i32)
    (ht : hasType t.java v = true) (hd : depth v ≤ n) : SettleFact1 svc k pre t v := by
  cases v with
  | obj c fs =>
    simp only [hasType, Bool.and_eq_true] at ht
    have F := ih c fs pre ht.2 (by simp only [FinProto.depth] at hd; omega)
    constructor
    · simp only [settleField, hasType, Bool.and_eq_true]
      exact ⟨ht.1, by rw [type_table]; exact F.typed⟩
    · simp only [settleField, completeField, F.complete]
    · simp only [settleField, FinProto.depth, F.depth]
    · cases t <;> simp only [settleField, imageField, F.size, List.length_nil]
    · simp only [settleField, F.idem]
    · simp only [settleField, blankField, F.blank]
  | list xs =>
    cases t with
    | list e =>
      simp only [hasType, WTy.java, FinProto.depth] at ht hd
      have F := settleElems_facts svc n ih k e xs (pre ++ countImage k k.listLen xs.length) ht hd
      have L := settleElems_length svc k (pre ++ countImage k k.listLen xs.length) e xs
      constructor
      · simp only [settleField, hasType, WTy.java, F.typed]
      · simp only [settleField, completeField, F.complete]
      · simp only [settleField, FinProto.depth, F.depth]
      · simp only [settleField, imageField, List.length_append, countImage_length, F.size]
      · simp only [settleField, L, F.idem]
      · simp only [settleField, blankField, F.blank]
    | _ => simp [hasType, WTy.java] at ht
  | num m =>
    cases t with
    | cksum ct alg =>
      obtain rfl := hck ct alg rfl
      simp only [hasType, WTy.java, decide_eq_true_eq] at ht
      cases hs : svc alg with
      | none => constructor <;> simp [settleField, hs, hasType, WTy.java, ht]
      | some s =>
        constructor <;> simp [settleField, hs, hasType, WTy.java, ht, completeField, FinProto.depth, imageField, blankField]
    | _ => constructor <;> first | exact ht | rfl
  | null =>
    cases t with
    | cksum ct alg => simp [hasType, WTy.java] at ht
    | _ => constructor <;> first | exact ht | rfl
  | str s =>
    cases t with
    | cksum ct alg => simp [hasType, WTy.java] at ht
    | _ => constructor <;> first | exact ht | rfl

theorem settleFields_facts (svc : Registry) (n : Nat) (ih : SettleIH svc n) (k : Conv) (ts : List WTy) (hok : lenOk ts = true)
    (fs : List Val) (pre : List Byte) (ht : fieldsHaveType (ts.map WTy.java) fs = true) (hd : depthList fs ≤ n) :
    SettleFacts svc k pre ts fs := by
  revert fs pre
  refine lenOk_induction (P := fun ts => ∀ fs pre, fieldsHaveType (ts.map WTy.java) fs = true → depthList fs ≤ n →
    SettleFacts svc k pre ts fs) ?_ ?_ ?_ ts hok
  · intro fs pre ht hd
    cases fs with
    | nil => constructor <;> rfl
    | cons v vs => simp [fieldsHaveType] at ht
  · intro fac key ts _ ihs fs pre ht hd
    rcases fs with _ | ⟨v, _ | ⟨b, vs⟩⟩
    · simp [fieldsHaveType] at ht
    · simp [fieldsHaveType] at ht
    · simp only [List.map_cons, fieldsHaveType, Bool.and_eq_true] at ht
      simp only [depthList] at hd
      have B := settleField_facts svc n ih k (.ext fac key) b (pre ++ List.replicate 4 0) (by intro ct alg; simp) ht.2.1 (by omega)
      have hv : ∃ m : Num, v = .num m ∧ m.ty = .i32 := by
        have := ht.1
        cases v <;> simp [hasType, WTy.java] at this
        exact ⟨_, rfl, this⟩
      obtain ⟨m, rfl, hm⟩ := hv
      constructor
      · rw [settleFields_len]
        simp only [List.map_cons, fieldsHaveType, B.typed, Bool.true_and]
        rw [(ihs vs _ ht.2.2 (by omega)).typed]
        rfl
      · rw [settleFields_len]
        simp only [completeFields, B.complete, (ihs vs _ ht.2.2 (by omega)).complete]
        rfl
      · rw [settleFields_len]
        simp only [depthList, B.depth, (ihs vs _ ht.2.2 (by omega)).depth]
        rfl
      · rw [settleFields_len]
        simp only [imageFields, List.length_append, B.size, (ihs vs _ ht.2.2 (by omega)).size]
        simp [imageField, hm]
      · rw [settleFields_len, settleFields_len, B.idem, (ihs vs _ ht.2.2 (by omega)).idem]
      · rw [settleFields_len]
        simp only [blankFields, B.blank, (ihs vs _ ht.2.2 (by omega)).blank]
        simp [blankField]
  · intro t ts hnl hck _ ihs fs pre ht hd
    cases fs with
    | nil => simp [fieldsHaveType] at ht
    | cons v vs =>
      simp only [List.map_cons, fieldsHaveType, Bool.and_eq_true] at ht
      simp only [depthList] at hd
      have B := settleField_facts svc n ih k t v pre hck ht.1 (by omega)
      have R := ihs vs (pre ++ imageField k t (settleField svc k pre t v)) ht.2 (by omega)
      constructor
      · rw [settleFields_other _ _ _ _ _ _ _ hnl]
        simp only [List.map_cons, fieldsHaveType, B.typed, R.typed, Bool.true_and]
      · rw [settleFields_other _ _ _ _ _ _ _ hnl]
        simp only [completeFields, B.complete, R.complete]
      · rw [settleFields_other _ _ _ _ _ _ _ hnl]
        simp only [depthList, B.depth, R.depth]
      · rw [settleFields_other _ _ _ _ _ _ _ hnl]
        simp only [imageFields, List.length_append, B.size, R.size]
      · rw [settleFields_other _ _ _ _ _ _ _ hnl, settleFields_other _ _ _ _ _ _ _ hnl, B.idem, R.idem]
      · rw [settleFields_other _ _ _ _ _ _ _ hnl]
        simp only [blankFields, B.blank, R.blank]

theorem settle_ih (svc : Registry) (n : Nat) : SettleIH svc n := by
  induction n with
  | zero => intro c fs pre _ hd; omega
  | succ n ih =>
    intro c fs pre ht hd
    exact settleFields_facts svc n ih (conv c.mod) (wire c) (lenOk_table c) fs pre (by rw [← type_table]; exact ht) (by omega)

theorem settle_facts (svc : Registry) (c : Cls) (fs : List Val) (pre : List Byte)
    (ht : fieldsHaveType (javaTypes c) fs = true) : SettleFacts svc (conv c.mod) pre (wire c) fs :=
  settle_ih svc (depthList fs + 1) c fs pre ht (by omega)

theorem wellTyped_obj (v : Val) (h : wellTyped v = true) : ∃ c fs, v = .obj c fs ∧ fieldsHaveType (javaTypes c) fs = true := by
  cases v <;> simp [wellTyped, hasType] at h
  exact ⟨_, _, rfl, h⟩

theorem image_settle_length (svc : Registry) (pre : List Byte) (v : Val) (h : wellTyped v = true) :
    (image (settle svc pre v)).length = (image v).length := by
  obtain ⟨c, fs, rfl, ht⟩ := wellTyped_obj v h
  exact (settle_facts svc c fs pre ht).size

theorem settle_wellTyped (svc : Registry) (pre : List Byte) (v : Val) (h : wellTyped v = true) :
    wellTyped (settle svc pre v) = true := by
  obtain ⟨c, fs, rfl, ht⟩ := wellTyped_obj v h
  simp only [settle, wellTyped, hasType, Bool.true_and, type_table]
  exact (settle_facts svc c fs pre ht).typed

theorem settle_complete (svc : Registry) (pre : List Byte) (v : Val) (h : wellTyped v = true) :
    complete (settle svc pre v) = complete v := by
  obtain ⟨c, fs, rfl, ht⟩ := wellTyped_obj v h
  exact (settle_facts svc c fs pre ht).complete

theorem settle_depth (svc : Registry) (pre : List Byte) (v : Val) (h : wellTyped v = true) :
    depth (settle svc pre v) = depth v := by
  obtain ⟨c, fs, rfl, ht⟩ := wellTyped_obj v h
  simp only [settle, depth, (settle_facts svc c fs pre ht).depth]

theorem settle_idem (svc : Registry) (pre : List Byte) (v : Val) (h : wellTyped v = true) :
    settle svc pre (settle svc pre v) = settle svc pre v := by
  obtain ⟨c, fs, rfl, ht⟩ := wellTyped_obj v h
  simp only [settle, (settle_facts svc c fs pre ht).idem]

theorem blank_settle (svc : Registry) (pre : List Byte) (v : Val) (h : wellTyped v = true) :
    blank (settle svc pre v) = blank v := by
  obtain ⟨c, fs, rfl, ht⟩ := wellTyped_obj v h
  simp only [settle, blank, (settle_facts svc c fs pre ht).blank]

/-! ### objects without computed fields -/

theorem settleElems_frameless (svc : Registry) (n : Nat)
    (ih : ∀ c fs pre, hasComputed c = false → framelessList fs = true → depthList fs < n →
      settleFields svc (conv c.mod) pre (wire c) fs = fs)
    (k : Conv) (e : EWTy) (xs : List Val) (pre : List Byte) (hf : framelessList xs = true) (hd : depthList xs ≤ n) :
    settleElems svc k pre e xs = xs := by
  induction xs generalizing pre with
  | nil => rfl
  | cons v vs ihv =>
    simp only [framelessList, Bool.and_eq_true, depthList] at hf hd
    have h1 : settleElem svc pre v = v := by
      cases v with
      | obj c fs =>
        have h := hf.1
        simp only [frameless, Bool.and_eq_true, Bool.not_eq_true'] at h
        simp only [settleElem, ih c fs pre h.1 h.2 (by simp only [depth] at hd; omega)]
      | _ => rfl
    simp only [settleElems, h1, ihv _ hf.2 (by omega)]

theorem settleFields_frameless (svc : Registry) (n : Nat)
    (ih : ∀ c fs pre, hasComputed c = false → framelessList fs = true → depthList fs < n →
      settleFields svc (conv c.mod) pre (wire c) fs = fs)
    (k : Conv) (ts : List WTy) (hts : (ts.any fun t => match t with | .len _ | .cksum _ _ => true | _ => false) = false)
    (fs : List Val) (pre : List Byte) (hf : framelessList fs = true) (hd : depthList fs ≤ n) :
    settleFields svc k pre ts fs = fs := by
  induction ts generalizing fs pre with
  | nil => cases fs <;> rfl
  | cons t ts ihs =>
    cases fs with
    | nil => rfl
    | cons v vs =>
      simp only [List.any_cons, Bool.or_eq_false_iff] at hts
      have hnl : ∀ lt, t ≠ .len lt := by rintro lt rfl; simp at hts
      have hnc : ∀ ct alg, t ≠ .cksum ct alg := by rintro ct alg rfl; simp at hts
      simp only [framelessList, Bool.and_eq_true, depthList] at hf hd
      have h1 : settleField svc k pre t v = v := by
        cases v with
        | obj c fs =>
          have h := hf.1
          simp only [frameless, Bool.and_eq_true, Bool.not_eq_true'] at h
          simp only [settleField, ih c fs pre h.1 h.2 (by simp only [depth] at hd; omega)]
        | list xs =>
          cases t with
          | list e =>
            have h := hf.1
            simp only [frameless] at h
            simp only [settleField]
            rw [settleElems_frameless svc n ih k e xs _ h (by simp only [depth] at hd; omega)]
          | _ => rfl
        | _ => cases t <;> first | rfl | exact absurd rfl (hnc _ _)
      rw [settleFields_other _ _ _ _ _ _ _ hnl, h1, ihs hts.2 vs _ hf.2 (by omega)]

theorem settle_frameless (svc : Registry) (pre : List Byte) (v : Val) (h : frameless v = true) : settle svc pre v = v := by
  have key : ∀ n c fs pre, hasComputed c = false → framelessList fs = true → depthList fs < n →
      settleFields svc (conv c.mod) pre (wire c) fs = fs := by
    intro n
    induction n with
    | zero => intro c fs pre _ _ hd; omega
    | succ n ih =>
      intro c fs pre hc hf hd
      exact settleFields_frameless svc n ih _ _ hc fs pre hf (by omega)
  cases v with
  | obj c fs =>
    simp only [frameless, Bool.and_eq_true, Bool.not_eq_true'] at h
    simp only [settle, key (depthList fs + 1) c fs pre h.1 h.2 (by omega)]
  | _ => rfl

end FinProto
