import Verif.Spec.Reuse
import Verif.Proofs.DecodeErrors
import Verif.Proofs.Canonical
/-
Helper lemmas: decoding into a used object compared with decoding into a new one.
-/
namespace FinProto

/-- The call on a used object gives the overlay of the old fields and the call on a new one. -/
def CallOver (call : DecCall) : Prop :=
  ∀ c olds b, fieldsHaveType (javaTypes c) olds = true →
    (call c olds b).2 = (call c (freshFields c) b).2
      ∧ ((call c olds b).2.2 = none → (call c olds b).1 = overlayFields (wire c) olds (call c (freshFields c) b).1)

theorem overlay_null (t : WTy) (old new : Val) (h : match t with | .vstr | .list _ | .sub _ => False | _ => True) :
    overlayField t old new = new := by
  cases old <;> cases t <;> first | rfl | exact h.elim

theorem readField_over (w : World) (call : DecCall) (hc : CallOver call) (k : Conv) (done1 done2 : List Val) (t : WTy) (old : Val) (b : RBuf)
    (ho : hasType t.java old = true) (hkey : ∀ fac key, t = .ext fac key → done1[key]? = done2[key]?) :
    (readField w call k done1 t old b).2 = (readField w call k done2 t t.java.default b).2
      ∧ ((readField w call k done1 t old b).2.2 = none →
        (readField w call k done1 t old b).1 = overlayField t old (readField w call k done2 t t.java.default b).1) := by
  have hnum : ∀ p : PTy, (readField w call k done1 (.num p) old b).2 = (readField w call k done2 (.num p) (FTy.prim p).default b).2
      ∧ ((readField w call k done1 (.num p) old b).2.2 = none →
        (readField w call k done1 (.num p) old b).1 = (readField w call k done2 (.num p) (FTy.prim p).default b).1) := by
    intro p
    simp only [readField]
    rcases b.readNum (ordOf k p) p with ⟨b1, e | n⟩
    · exact ⟨rfl, fun h => by simp at h⟩
    · exact ⟨rfl, fun _ => rfl⟩
  cases t with
  | num p => rw [overlay_null _ _ _ trivial]; exact hnum p
  | len p => rw [overlay_null _ _ _ trivial]; exact hnum p
  | cksum p alg => rw [overlay_null _ _ _ trivial]; exact hnum p
  | text n pad left =>
    rw [overlay_null _ _ _ trivial]
    simp only [readField]
    rcases readFixedString b n pad left with ⟨b1, e | s⟩
    · exact ⟨rfl, fun h => by simp at h⟩
    · exact ⟨rfl, fun _ => rfl⟩
  | vstr =>
    simp only [readField]
    rcases readDyn b k.strLen k.order with ⟨b1, e | _ | s⟩
    · exact ⟨rfl, fun h => by simp at h⟩
    · refine ⟨rfl, fun _ => ?_⟩
      cases old <;> first | rfl | simp [hasType, WTy.java] at ho
    · refine ⟨rfl, fun _ => ?_⟩
      cases old <;> rfl
  | list e =>
    simp only [readField]
    rcases b.readNum k.order k.listLen with ⟨b1, er | n⟩
    · exact ⟨rfl, fun h => by simp at h⟩
    · dsimp only
      by_cases hp : 0 < n.bits.toInt
      · rw [if_pos hp, if_pos hp]
        refine ⟨rfl, fun _ => ?_⟩
        cases old <;> rfl
      · rw [if_neg hp, if_neg hp]
        refine ⟨rfl, fun _ => ?_⟩
        cases old <;> first | rfl | simp [hasType, WTy.java] at ho
  | sub c =>
    simp only [readField, WTy.java, FTy.default]
    cases old with
    | null => exact ⟨rfl, fun _ => rfl⟩
    | obj c' fs' =>
      simp only [hasType, WTy.java, Bool.and_eq_true, decide_eq_true_eq] at ho
      obtain ⟨rfl, ho⟩ := ho
      have := hc c' fs' b ho
      refine ⟨this.1, fun h => ?_⟩
      simp only [overlayField]
      rw [this.2 h]
    | _ => simp [hasType, WTy.java] at ho
  | ext fac key =>
    rw [overlay_null _ _ _ trivial]
    simp only [readField]
    rw [hkey fac key rfl]
    cases done2[key]? with
    | none => exact ⟨rfl, fun h => by simp at h⟩
    | some kv =>
      dsimp only
      cases w.fac fac (keyOf kv) with
      | none => exact ⟨rfl, fun h => by simp at h⟩
      | some v => cases v <;> exact ⟨rfl, fun _ => rfl⟩

theorem overlayFields_append (ts : List WTy) (olds news : List Val) (t : WTy) (old new : Val) (h1 : olds.length = ts.length)
    (h2 : news.length = ts.length) :
    overlayFields (ts ++ [t]) (olds ++ [old]) (news ++ [new]) = overlayFields ts olds news ++ [overlayField t old new] := by
  induction ts generalizing olds news with
  | nil =>
    have e1 : olds = [] := List.length_eq_zero_iff.mp h1
    have e2 : news = [] := List.length_eq_zero_iff.mp h2
    subst e1 e2
    simp [overlayFields]
  | cons s ts ih =>
    cases olds with
    | nil => simp at h1
    | cons o olds =>
      cases news with
      | nil => simp at h2
      | cons n news =>
        simp only [List.cons_append, overlayFields]
        rw [ih olds news (by simpa using h1) (by simpa using h2)]

/-- Types of key fields. -/
def isKeyTy : WTy → Bool
  | .num _ | .text _ _ _ => true
  | _ => false

theorem keysOk_ty {i : Nat} {all : List WTy} {fac : Fac} {key : Nat} {ts : List WTy} (h : keysOk i all (.ext fac key :: ts) = true) :
    ∃ t, all[key]? = some t ∧ isKeyTy t = true := by
  simp only [keysOk, Bool.and_eq_true] at h
  revert h
  cases all[key]? with
  | none => simp
  | some t => cases t <;> simp [isKeyTy]

theorem readFields_over (w : World) (call : DecCall) (hc : CallOver call) (k : Conv) (all : List WTy) (ts : List WTy) :
    ∀ (dts : List WTy) (dolds done1 done2 olds : List Val) (b : RBuf), all = dts ++ ts → dolds.length = dts.length → done2.length = dts.length →
      done1 = overlayFields dts dolds done2 → done1.length = dts.length →
      (∀ i t, all[i]? = some t → isKeyTy t = true → i < dts.length → done1[i]? = done2[i]?) →
      fieldsHaveType (ts.map WTy.java) olds = true → keysOk dts.length all ts = true →
      (readFields w call k done1 ts olds b).2 = (readFields w call k done2 ts (ts.map fun t => t.java.default) b).2
        ∧ ((readFields w call k done1 ts olds b).2.2 = none →
          (readFields w call k done1 ts olds b).1 =
            overlayFields all (dolds ++ olds) (readFields w call k done2 ts (ts.map fun t => t.java.default) b).1) := by
  induction ts with
  | nil =>
    intro dts dolds done1 done2 olds b hall hl1 hl2 hd _ _ ho _
    have : olds = [] := by cases olds with | nil => rfl | cons => simp [fieldsHaveType] at ho
    subst this
    simp only [readFields, List.append_nil, List.map_nil]
    rw [hall, List.append_nil]
    exact ⟨trivial, fun _ => hd⟩
  | cons t ts ih =>
    intro dts dolds done1 done2 olds b hall hl1 hl2 hd hl3 hinv ho hk
    cases olds with
    | nil => simp [fieldsHaveType] at ho
    | cons old olds =>
      simp only [List.map_cons, fieldsHaveType, Bool.and_eq_true] at ho
      obtain ⟨hk0, hk1⟩ := keysOk_head hk
      have hf := readField_over w call hc k done1 done2 t old b ho.1 (by
        intro fac key ht
        subst ht
        obtain ⟨s, hs1, hs2⟩ := keysOk_ty hk
        exact hinv key s hs1 hs2 (hk0 fac key rfl))
      simp only [readFields, List.map_cons]
      revert hf
      rcases readField w call k done1 t old b with ⟨v1, b1, e1⟩
      rcases readField w call k done2 t t.java.default b with ⟨v2, b2, e2⟩
      intro hf
      simp only [Prod.mk.injEq] at hf
      obtain ⟨⟨rfl, rfl⟩, hf⟩ := hf
      cases e1 with
      | some e => exact ⟨rfl, fun h => by simp at h⟩
      | none =>
        have hv := hf rfl
        have h1 : v1 = overlayField t old v2 := hv
        have := ih (dts ++ [t]) (dolds ++ [old]) (done1 ++ [v1]) (done2 ++ [v2]) olds b1 (by rw [hall]; simp) (by simp [hl1]) (by simp [hl2])
          (by rw [overlayFields_append dts dolds done2 t old v2 hl1 hl2, hd, h1]) (by simp [hl3])
          (by
            intro i s hs1 hs2 hi
            by_cases hlt : i < dts.length
            · rw [List.getElem?_append_left (by omega), List.getElem?_append_left (by omega)]
              exact hinv i s hs1 hs2 hlt
            · have hi' : i = dts.length := by simp at hi; omega
              subst hi'
              have e1 : (done1 ++ [v1])[dts.length]? = some v1 := by rw [← hl3]; simp
              have e2 : (done2 ++ [v2])[dts.length]? = some v2 := by rw [← hl2]; simp
              rw [e1, e2, h1]
              rw [hall] at hs1
              simp at hs1
              subst hs1
              rw [overlay_null]
              revert hs2
              cases t <;> simp [isKeyTy])
          ho.2 (by simpa using hk1)
        simpa using this

theorem freshFields_defaults (c : Cls) : freshFields c = (wire c).map fun t => t.java.default := by
  have : freshFields c = (javaTypes c).map FTy.default := by simp [freshFields, javaTypes]
  rw [this, type_table]
  simp

theorem decode_over (w : World) (n : Nat) : CallOver (decode w n) := by
  induction n with
  | zero => intro c olds b _; exact ⟨rfl, fun h => by simp [decode] at h⟩
  | succ n ih =>
    intro c olds b h
    rw [decode_eq w n c olds b (fields_length c olds h), decode_eq w n c (freshFields c) b (freshFields_length c), freshFields_defaults]
    have := readFields_over w (decode w n) ih (conv c.mod) (wire c) (wire c) [] [] [] [] olds b rfl rfl rfl rfl rfl (by simp)
      (by rw [← type_table]; exact h) (keysOk_table c)
    simpa using this

/-! ### When nothing is kept -/

def OverP (v : Val) : Prop :=
  ∀ (t : WTy) (new : Val), hasType t.java v = true → hasType t.java new = true → (overlayField t v new = new ↔ nothingKeptField t v new)

theorem overP_fields (ts : List WTy) (olds news : List Val) (h : ∀ v ∈ olds, OverP v)
    (h1 : fieldsHaveType (ts.map WTy.java) olds = true) (h2 : fieldsHaveType (ts.map WTy.java) news = true) :
    overlayFields ts olds news = news ↔ nothingKept ts olds news := by
  induction olds generalizing ts news with
  | nil => simp [overlayFields, nothingKept]
  | cons o olds ih =>
    cases ts with
    | nil => simp [fieldsHaveType] at h1
    | cons t ts =>
      cases news with
      | nil => simp [fieldsHaveType] at h2
      | cons v news =>
        simp only [List.map_cons, fieldsHaveType, Bool.and_eq_true] at h1 h2
        simp only [overlayFields, nothingKept, List.cons.injEq]
        rw [h o (by simp) t v h1.1 h2.1, ih ts news (fun x hx => h x (by simp [hx])) h1.2 h2.2]

theorem overP (v : Val) : OverP v := by
  induction v using Val.ind with
  | null => intro t new _ _; simp [overlayField, nothingKeptField]
  | num n => intro t new _ _; simp [overlayField, nothingKeptField]
  | str s =>
    intro t new h1 _
    cases t <;> simp [hasType, WTy.java] at h1
    · simp [overlayField, nothingKeptField]
    · cases new <;> simp [overlayField, nothingKeptField]
  | list xs _ =>
    intro t new h1 _
    cases t <;> simp [hasType, WTy.java] at h1
    cases new <;> simp [overlayField, nothingKeptField]
  | obj c fs ih =>
    intro t new h1 h2
    cases t with
    | sub d =>
      cases new with
      | obj c' news =>
        simp only [hasType, WTy.java, Bool.and_eq_true, decide_eq_true_eq] at h1 h2
        obtain ⟨rfl, h1⟩ := h1
        obtain ⟨rfl, h2⟩ := h2
        simp only [overlayField, nothingKeptField, Val.obj.injEq, true_and]
        exact overP_fields _ _ _ ih (by rw [← type_table]; exact h1) (by rw [← type_table]; exact h2)
      | _ => simp [overlayField, nothingKeptField]
    | _ => simp [overlayField, nothingKeptField]

end FinProto
