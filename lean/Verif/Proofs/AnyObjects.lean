import Verif.Spec.AnyObjects
import Verif.Proofs.HeapObjects
import Verif.Proofs.RacingObjects
/-
Lemmas for C115: `equals`, `hashCode` and `toString` while the memory changes.
-/
namespace FinProto

/-! ### Moments -/

/-- `a` in front of the sequence `f`. -/
def consFn {α : Type} (a : α) (f : Nat → α) : Nat → α
  | 0 => a
  | i + 1 => f i

theorem moments_nil (e : Bool) (lo hi : Nat) (look fr to : Nat → Nat) : Moments e 0 lo hi look fr to :=
  ⟨fun _ h => absurd h (Nat.not_lt_zero _), fun _ _ _ h => absurd h (Nat.not_lt_zero _)⟩

theorem moments_cons (n lo k' hi a b : Nat) (look fr to : Nat → Nat) (h1 : lo ≤ a) (h2 : a < b) (h3 : b ≤ k') (h4 : k' ≤ hi) (h : Moments false n k' hi look fr to) :
    Moments false (n + 1) lo hi (consFn a look) (consFn b fr) (consFn k' to) := by
  refine ⟨fun i hi' => ?_, fun i j hij hj => ?_⟩
  · cases i with
    | zero => exact ⟨h1, h2, h3, h4⟩
    | succ i =>
      have := h.each i (by omega)
      exact ⟨by show lo ≤ look i; omega, this.2.1, this.2.2.1, this.2.2.2⟩
  · cases j with
    | zero => omega
    | succ j =>
      cases i with
      | zero =>
        have := h.each j (by omega)
        refine ⟨?_, ?_, ?_⟩
        · show a < look j; omega
        · show k' ≤ fr j; omega
        · show k' ≤ look j; omega
      | succ i => exact h.order i j (by omega) (by omega)

theorem moments_wider {e : Bool} {n lo hi lo' : Nat} {look fr to : Nat → Nat} (h : Moments e n lo hi look fr to) (hl : lo' ≤ lo) :
    Moments e n lo' hi look fr to :=
  ⟨fun i hi => ⟨Nat.le_trans hl (h.each i hi).1, (h.each i hi).2⟩, h.order⟩

/-! ### hashCode -/

theorem gread_some (M : Memory) (r : Nat) : ∀ (m i k : Nat) ys, gread M r (List.range' i m) k = some ys →
    ys.length = m ∧ ∀ j, j < m → (M (k + j)).field r (i + j) = ys[j]? ∧ (ys[j]?).isSome := by
  intro m
  induction m with
  | zero =>
    intro i k ys h
    simp only [List.range'_zero, gread] at h
    cases h
    exact ⟨rfl, fun j hj => absurd hj (Nat.not_lt_zero _)⟩
  | succ m ih =>
    intro i k ys h
    rw [List.range'_succ, gread] at h
    split at h
    · rename_i y zs h1 h2
      cases h
      obtain ⟨e1, e2⟩ := ih (i + 1) (k + 1) zs h2
      refine ⟨by simp [e1], fun j hj => ?_⟩
      cases j with
      | zero => exact ⟨by simpa using h1, rfl⟩
      | succ j =>
        have := e2 j (by omega)
        rw [show k + 1 + j = k + (j + 1) by omega, show i + 1 + j = i + (j + 1) by omega] at this
        simpa using this
    · cases h

theorem ghashSeq_saw (f : HVal → Nat → Except JErr (BitVec 32) × Nat) (g : Val → Except JErr (BitVec 32)) (P : Nat → Nat → HVal → Val → Prop)
    (hf : ∀ x k i k', f x k = (.ok i, k') → k ≤ k' ∧ ∃ v, P k k' x v ∧ g v = .ok i) :
    ∀ xs s k i k', ghashSeq f s xs k = (.ok i, k') → k ≤ k' ∧ ∃ (vs : List Val) (fr to : Nat → Nat), vs.length = xs.length ∧ hashSeq g s vs = .ok i ∧
      (∀ j, j < xs.length → k ≤ fr j ∧ fr j ≤ to j ∧ to j ≤ k') ∧ (∀ j l, j < l → l < xs.length → to j ≤ fr l) ∧
      ∀ (j : Nat) x v, xs[j]? = some x → vs[j]? = some v → P (fr j) (to j) x v := by
  intro xs
  induction xs with
  | nil =>
    intro s k i k' h
    simp only [ghashSeq] at h
    cases h
    exact ⟨Nat.le_refl _, [], id, id, rfl, rfl, fun j hj => absurd hj (Nat.not_lt_zero _), fun j l _ hl => absurd hl (Nat.not_lt_zero _), by simp⟩
  | cons x xs ih =>
    intro s k i k' h
    rw [ghashSeq] at h
    split at h
    · rename_i j m hx
      obtain ⟨l1, v, hv, hg⟩ := hf _ _ _ _ hx
      obtain ⟨l2, vs, fr, to, e1, e2, e3, e4, e5⟩ := ih _ _ _ _ h
      refine ⟨Nat.le_trans l1 l2, v :: vs, consFn k fr, consFn m to, by simp [e1], by rw [hashSeq, hg]; exact e2, ?_, ?_, ?_⟩
      · intro j hj
        cases j with
        | zero => exact ⟨Nat.le_refl _, l1, l2⟩
        | succ j =>
          have := e3 j (by simpa using hj)
          exact ⟨Nat.le_trans l1 this.1, this.2⟩
      · intro j l hjl hl
        cases l with
        | zero => omega
        | succ l =>
          have hl' : l < xs.length := by simpa using hl
          cases j with
          | zero => exact (e3 l hl').1
          | succ j => exact e4 j l (by omega) hl'
      · intro j y u hy hu
        cases j with
        | zero =>
          simp only [List.getElem?_cons_zero, Option.some.injEq] at hy hu
          subst hy hu
          exact hv
        | succ j => exact e5 j y u (by simpa using hy) (by simpa using hu)
    · cases h

theorem ghashList_saw (M : Memory) (a : Nat) (f : HVal → Nat → Except JErr (BitVec 32) × Nat) (g : Val → Except JErr (BitVec 32)) (P : Nat → Nat → HVal → Val → Prop)
    (hf : ∀ x k i k', f x k = (.ok i, k') → k ≤ k' ∧ ∃ v, P k k' x v ∧ g v = .ok i) :
    ∀ m i s k h k', ghashList M f a m i s k = (.ok h, k') → k ≤ k' ∧ ∃ (vs : List Val) (look fr to : Nat → Nat) (ys : Nat → HVal),
      vs.length = m ∧ hashSeq g s vs = .ok h ∧ Moments false m k k' look fr to ∧
      (∀ j, j < m → (M (look j)).item a (i + j) = some (ys j)) ∧ ∀ (j : Nat) v, vs[j]? = some v → P (fr j) (to j) (ys j) v := by
  intro m
  induction m with
  | zero =>
    intro i s k h k' e
    simp only [ghashList] at e
    cases e
    exact ⟨Nat.le_refl _, [], id, id, id, fun _ => .null, rfl, rfl, moments_nil _ _ _ _ _ _, fun j hj => absurd hj (Nat.not_lt_zero _), by simp⟩
  | succ m ih =>
    intro i s k h k' e
    rw [ghashList] at e
    split at e
    · cases e
    · rename_i x hx
      split at e
      · rename_i j l hj
        obtain ⟨l1, v, hv, hg⟩ := hf _ _ _ _ hj
        obtain ⟨l2, vs, look, fr, to, ys, e1, e2, e3, e4, e5⟩ := ih _ _ _ _ _ e
        refine ⟨by omega, v :: vs, consFn k look, consFn (k + 1) fr, consFn l to, consFn x ys, by simp [e1], by rw [hashSeq, hg]; exact e2,
          moments_cons _ _ _ _ _ _ _ _ _ (Nat.le_refl _) (Nat.lt_succ_self _) l1 l2 e3, ?_, ?_⟩
        · intro j hj
          cases j with
          | zero => exact hx
          | succ j =>
            have := e4 j (by omega)
            rw [show i + 1 + j = i + (j + 1) by omega] at this
            exact this
        · intro j u hu
          cases j with
          | zero =>
            simp only [List.getElem?_cons_zero, Option.some.injEq] at hu
            subst hu
            exact hv
          | succ j => exact e5 j u (by simpa using hu)
      · cases e

theorem pick_all (vs : List Val) : pick vs (List.range vs.length) = some vs := by
  have : ∀ m i, i + m = vs.length → pick vs (List.range' i m) = some (vs.drop i) := by
    intro m
    induction m with
    | zero =>
      intro i h
      simp [pick, List.drop_of_length_le (show vs.length ≤ i by omega)]
    | succ m ih =>
      intro i h
      have hi : i < vs.length := by omega
      rw [List.range'_succ, pick, ih (i + 1) (by omega), List.getElem?_eq_getElem hi, List.drop_eq_getElem_cons hi]
  rw [List.range_eq_range', this vs.length 0 (by omega), List.drop_zero]

theorem gself (M : Memory) (c : Cls) (r : Nat) (hs : (decl c).hash = .self) : ∀ (n k : Nat) zs, (M k)[r]? = some (.msg c zs) →
    ghash M n (.ref r) k = (.error .stackOverflow, k) := by
  intro n
  induction n with
  | zero => intro k zs _; rfl
  | succ n ih =>
    intro k zs h
    rw [ghash, h]
    simp only [hs]
    exact ih k zs h

theorem ghash_saw (M : Memory) : ∀ (n : Nat) x k i k', ghash M n x k = (.ok i, k') → k ≤ k' ∧ ∃ v, Glimpse M true k k' x v ∧ v.hashCode n = .ok i := by
  intro n
  induction n with
  | zero => intro x k i k' h; simp [ghash] at h
  | succ n ih =>
    intro x k i k' h
    cases x with
    | null => simp only [ghash, Prod.mk.injEq] at h; obtain ⟨h1, rfl⟩ := h; exact ⟨Nat.le_refl _, .null, .null _ _, h1⟩
    | num m => simp only [ghash, Prod.mk.injEq] at h; obtain ⟨h1, rfl⟩ := h; exact ⟨Nat.le_refl _, .num m, .num _ _ _, h1⟩
    | str s => simp only [ghash, Prod.mk.injEq] at h; obtain ⟨h1, rfl⟩ := h; exact ⟨Nat.le_refl _, .str s, .str _ _ _, h1⟩
    | ref r =>
      rw [ghash] at h
      split at h
      · rename_i xs hr
        obtain ⟨l1, vs, look, fr, to, ys, e1, e2, e3, e4, e5⟩ := ghashList_saw M r _ (Val.hashCode n) (Glimpse M true) ih _ _ _ _ _ _ h
        refine ⟨by omega, .list vs, ?_, by rw [Val.hashCode]; exact e2⟩
        exact .list _ _ _ k xs vs look fr to ys (Nat.le_refl _) (by omega) hr e1 (moments_wider e3 (by omega)) (fun j hj => by simpa using e4 j hj) e5
      · rename_i c zs hr
        by_cases hl : fieldLess c = true
        · have hs : (decl c).hash = .self := by rw [hash_table, if_pos hl]
          rw [hs] at h
          simp only at h
          rw [gself M c r hs n k zs hr] at h
          cases h
        · have hs : (decl c).hash = .fields (List.range (layout c).length) := by rw [hash_table, if_neg hl]
          rw [hs] at h
          simp only at h
          split at h
          · rename_i ys hys
            rw [List.range_eq_range'] at hys
            obtain ⟨f1, f2⟩ := gread_some M r _ _ _ _ hys
            rw [List.length_range] at h
            obtain ⟨l1, vs, fr, to, e1, e2, e3, e4, e5⟩ := ghashSeq_saw _ (Val.hashCode n) (Glimpse M true) ih _ _ _ _ _ h
            rw [f1] at e1 e3 e4
            refine ⟨by omega, .obj c vs, ?_, ?_⟩
            · refine .msg _ _ _ k c zs vs (fun j => k + j) fr to (fun j => (ys[j]?).getD .null) (Nat.le_refl _) (by omega) hr e1 ⟨fun j hj => ?_, fun j l hjl hl => ?_⟩
                (fun j hj => ?_) (fun j v hv => ?_)
              · have := e3 j hj
                exact ⟨by omega, by omega, this.2⟩
              · have h1 := e3 j (by omega)
                refine ⟨by omega, e4 j l hjl hl, ?_⟩
                rw [if_pos rfl]
                omega
              · obtain ⟨g1, g2⟩ := f2 j hj
                rw [Nat.zero_add] at g1
                obtain ⟨y, hy⟩ := Option.isSome_iff_exists.1 g2
                rw [g1, hy]
                rfl
              · have hj : j < vs.length := (List.getElem?_eq_some_iff.1 hv).1
                obtain ⟨g1, g2⟩ := f2 j (by omega)
                obtain ⟨y, hy⟩ := Option.isSome_iff_exists.1 g2
                rw [hy]
                exact e5 j y v hy hv
            · rw [Val.hashCode, hs]
              simp only
              rw [← e1, pick_all]
              exact e2
          · cases h
      · cases h

/-! ### toString -/

theorem gitems_saw (M : Memory) (a : Nat) (f : HVal → Nat → Option JStr × Nat) (g : Val → Option JStr) (P : Nat → Nat → HVal → Val → Prop)
    (hs : ∀ k i, (M k).item a i ≠ some (.ref a))
    (hf : ∀ x k t k', f x k = (some t, k') → k ≤ k' ∧ ∃ v, P k k' x v ∧ g v = some t) :
    ∀ m i k ss k', gitems M f a m i k = (some ss, k') → k ≤ k' ∧ ∃ (vs : List Val) (look fr to : Nat → Nat) (ys : Nat → HVal),
      vs.length = m ∧ allSome g vs = some ss ∧ Moments false m k k' look fr to ∧
      (∀ j, j < m → (M (look j)).item a (i + j) = some (ys j)) ∧ ∀ (j : Nat) v, vs[j]? = some v → P (fr j) (to j) (ys j) v := by
  intro m
  induction m with
  | zero =>
    intro i k ss k' e
    simp only [gitems] at e
    cases e
    exact ⟨Nat.le_refl _, [], id, id, id, fun _ => .null, rfl, rfl, moments_nil _ _ _ _ _ _, fun j hj => absurd hj (Nat.not_lt_zero _), by simp⟩
  | succ m ih =>
    intro i k ss k' e
    rw [gitems] at e
    split at e
    · cases e
    · rename_i x hx
      rw [if_neg (fun h => hs k i (by rw [hx, h]))] at e
      split at e
      · cases e
      · rename_i t l ht
        split at e
        · rename_i ss' l' hss
          cases e
          obtain ⟨l1, v, hv, hg⟩ := hf _ _ _ _ ht
          obtain ⟨l2, vs, look, fr, to, ys, e1, e2, e3, e4, e5⟩ := ih _ _ _ _ hss
          refine ⟨by omega, v :: vs, consFn k look, consFn (k + 1) fr, consFn l to, consFn x ys, by simp [e1], by simp only [allSome, hg, e2],
            moments_cons _ _ _ _ _ _ _ _ _ (Nat.le_refl _) (Nat.lt_succ_self _) l1 l2 e3, ?_, ?_⟩
          · intro j hj
            cases j with
            | zero => exact hx
            | succ j =>
              have := e4 j (by omega)
              rw [show i + 1 + j = i + (j + 1) by omega] at this
              exact this
          · intro j u hu
            cases j with
            | zero =>
              simp only [List.getElem?_cons_zero, Option.some.injEq] at hu
              subst hu
              exact hv
            | succ j => exact e5 j u (by simpa using hu)
        · cases e

theorem gparts_lit {M : Memory} {f : HVal → Nat → Option JStr × Nat} {r : Nat} {s : String} {ps : List StrPart} {k : Nat} {ss : List JStr} {k' : Nat}
    (h : gparts M f r (.lit s :: ps) k = (some ss, k')) : ∃ ts, ss = js s :: ts ∧ gparts M f r ps k = (some ts, k') := by
  rw [gparts] at h
  split at h
  · rename_i ts l ht
    cases h
    exact ⟨ts, rfl, ht⟩
  · cases h

theorem gparts_saw (M : Memory) (r : Nat) (f : HVal → Nat → Option JStr × Nat) (g : Val → Option JStr) (P : Nat → Nat → HVal → Val → Prop)
    (hf : ∀ x k t k', f x k = (some t, k') → k ≤ k' ∧ ∃ v, P k k' x v ∧ g v = some t) (tail : String) :
    ∀ (nms : List String) (first : Bool) (i k : Nat) ss k', gparts M f r (strFields i first nms ++ [.lit tail]) k = (some ss, k') →
      k ≤ k' ∧ ∃ (vs : List Val) (look fr to : Nat → Nat) (ys : Nat → HVal), vs.length = nms.length ∧ Moments false nms.length k k' look fr to ∧
      (∀ j, j < nms.length → (M (look j)).field r (i + j) = some (ys j)) ∧ (∀ (j : Nat) v, vs[j]? = some v → P (fr j) (to j) (ys j) v) ∧
      ∀ ws : List Val, (∀ (j : Nat) v, vs[j]? = some v → ws[i + j]? = some v) → allSome (pieceOf g ws) (strFields i first nms ++ [.lit tail]) = some ss := by
  intro nms
  induction nms with
  | nil =>
    intro first i k ss k' e
    obtain ⟨ts, hss0, e'⟩ := gparts_lit e
    clear e
    subst hss0
    have e := e'
    clear e'
    simp only [gparts] at e
    cases e
    exact ⟨Nat.le_refl _, [], id, id, id, fun _ => .null, rfl, moments_nil _ _ _ _ _ _, fun j hj => absurd hj (Nat.not_lt_zero _), by simp, fun ws _ => rfl⟩
  | cons nm nms ih =>
    intro first i k ss k' e
    simp only [strFields, List.cons_append] at e
    obtain ⟨ts, hss0, e'⟩ := gparts_lit e
    clear e
    subst hss0
    have e := e'
    clear e'
    rw [gparts] at e
    split at e
    · cases e
    · rename_i x hx
      split at e
      · cases e
      · rename_i t l ht
        split at e
        · rename_i ss' l' hss
          cases e
          obtain ⟨l1, v, hv, hg⟩ := hf _ _ _ _ ht
          obtain ⟨l2, vs, look, fr, to, ys, e1, e3, e4, e5, e6⟩ := ih _ _ _ _ _ hss
          refine ⟨by omega, v :: vs, consFn k look, consFn (k + 1) fr, consFn l to, consFn x ys, by simp [e1],
            moments_cons _ _ _ _ _ _ _ _ _ (Nat.le_refl _) (Nat.lt_succ_self _) l1 l2 e3, ?_, ?_, ?_⟩
          · intro j hj
            cases j with
            | zero => exact hx
            | succ j =>
              have := e4 j (by simpa using hj)
              rw [show i + 1 + j = i + (j + 1) by omega] at this
              exact this
          · intro j u hu
            cases j with
            | zero =>
              simp only [List.getElem?_cons_zero, Option.some.injEq] at hu
              subst hu
              exact hv
            | succ j => exact e5 j u (by simpa using hu)
          · intro ws hws
            have h0 : ws[i]? = some v := hws 0 v rfl
            have h1 := e6 ws (fun j u hu => by
              have := hws (j + 1) u (by simpa using hu)
              rwa [show i + 1 + j = i + (j + 1) by omega])
            simp only [strFields, List.cons_append, allSome, pieceOf, h0, hg, h1]
        · cases e

theorem fieldLess_length (c : Cls) (h : fieldLess c = true) : (layout c).length = 0 := by
  simpa [fieldLess] using h

theorem gtoStr_saw (M : Memory) (flt : Num → JStr) (hs : ∀ k a i, (M k).item a i ≠ some (.ref a)) : ∀ (n : Nat) x k t k',
    gtoStr M flt n x k = (some t, k') → k ≤ k' ∧ ∃ v, Glimpse M false k k' x v ∧ v.toStr flt n = some t := by
  intro n
  induction n with
  | zero => intro x k i k' h; simp [gtoStr] at h
  | succ n ih =>
    intro x k t k' h
    cases x with
    | null => simp only [gtoStr, Prod.mk.injEq] at h; obtain ⟨h1, rfl⟩ := h; exact ⟨Nat.le_refl _, .null, .null _ _, h1⟩
    | num m => simp only [gtoStr, Prod.mk.injEq] at h; obtain ⟨h1, rfl⟩ := h; exact ⟨Nat.le_refl _, .num m, .num _ _ _, h1⟩
    | str s => simp only [gtoStr, Prod.mk.injEq] at h; obtain ⟨h1, rfl⟩ := h; exact ⟨Nat.le_refl _, .str s, .str _ _ _, h1⟩
    | ref r =>
      rw [gtoStr] at h
      split at h
      · rename_i xs hr
        rcases hx : gitems M (gtoStr M flt n) r xs.length 0 (k + 1) with ⟨o, l⟩
        rw [hx] at h
        simp only [Prod.mk.injEq, Option.map_eq_some_iff] at h
        obtain ⟨⟨ss, rfl, rfl⟩, rfl⟩ := h
        obtain ⟨l1, vs, look, fr, to, ys, e1, e2, e3, e4, e5⟩ := gitems_saw M r _ (Val.toStr flt n) (Glimpse M false) (fun k i => hs k r i) ih _ _ _ _ _ hx
        refine ⟨by omega, .list vs, ?_, by rw [Val.toStr, e2]; rfl⟩
        exact .list _ _ _ k xs vs look fr to ys (Nat.le_refl _) (by omega) hr e1 (moments_wider e3 (by omega)) (fun j hj => by simpa using e4 j hj) e5
      · rename_i c zs hr
        rcases hx : gparts M (gtoStr M flt n) r (decl c).str k with ⟨o, l⟩
        rw [hx] at h
        simp only [Prod.mk.injEq, Option.map_eq_some_iff] at h
        obtain ⟨⟨ss, rfl, rfl⟩, rfl⟩ := h
        have hp := str_table c
        by_cases hl : fieldLess c = true
        · rw [if_pos hl] at hp
          rw [hp] at hx
          simp only [gparts, Prod.mk.injEq, Option.some.injEq] at hx
          obtain ⟨rfl, rfl⟩ := hx
          refine ⟨Nat.le_refl _, .obj c [], ?_, ?_⟩
          · refine .msg _ _ _ k c zs [] id id id (fun _ => .null) (Nat.le_refl _) (Nat.le_refl _) hr ?_ ?_ ?_ (by simp)
            · rw [fieldLess_length c hl]; rfl
            · rw [fieldLess_length c hl]; exact moments_nil _ _ _ _ _ _
            · rw [fieldLess_length c hl]; exact fun f hf => absurd hf (Nat.not_lt_zero _)
          · rw [allSome_pieceOf, hp]
            rfl
        · rw [if_neg hl, List.cons_append] at hp
          rw [hp] at hx
          obtain ⟨ts, rfl, h1⟩ := gparts_lit hx
          obtain ⟨l1, vs, look, fr, to, ys, e1, e3, e4, e5, e6⟩ := gparts_saw M r _ (Val.toStr flt n) (Glimpse M false) ih _ _ _ _ _ _ _ h1
          rw [List.length_map] at e1 e3 e4
          refine ⟨l1, .obj c vs, .msg _ _ _ k c zs vs look fr to ys (Nat.le_refl _) l1 hr e1 e3 (fun j hj => by simpa using e4 j hj) e5, ?_⟩
          rw [allSome_pieceOf, hp]
          have := e6 vs (fun j v hv => by simpa using hv)
          simp only [allSome, pieceOf, this, Option.map_some]
      · cases h

/-! ### equals -/

theorem moments_pairs {n lo k' hi a : Nat} {look to : Nat → Nat} (h1 : lo ≤ a) (h3 : a + 2 ≤ k') (h4 : k' ≤ hi)
    (h : Moments false n k' hi look (fun i => look i + 2) to) :
    Moments false (n + 1) lo hi (consFn a look) (fun i => consFn a look i + 2) (consFn k' to) := by
  have := moments_cons n lo k' hi a (a + 2) look (fun i => look i + 2) to h1 (by omega) h3 h4 h
  have e : consFn (a + 2) (fun i => look i + 2) = fun i => consFn a look i + 2 := by
    funext i
    cases i <;> rfl
  rwa [e] at this

/-- What a comparison says. -/
def SaysOf (M : Memory) (eq : HVal → HVal → Nat → Except JErr Bool × Nat) : Prop :=
  ∀ x y k b k', eq x y k = (.ok b, k') → k ≤ k' ∧ (b = true → FoundEqual M k k' x y) ∧ (b = false → FoundDifferent M k k' x y)

theorem differs_earlier {M : Memory} {lo lo' hi : Nat} {x y : HVal} (h : FoundDifferent M lo hi x y) (hl : lo' ≤ lo) : FoundDifferent M lo' hi x y := by
  cases h with
  | plain _ _ _ _ h => exact .plain _ _ _ _ h
  | classes _ _ r q s c d us us' h0 h1 h2 h3 h4 h5 => exact .classes _ _ r q s c d us us' h0 (Nat.le_trans hl h1) h2 h3 h4 h5
  | sizes _ _ a b s xs xs' h0 h1 h2 h3 h4 h5 => exact .sizes _ _ a b s xs xs' h0 (Nat.le_trans hl h1) h2 h3 h4 h5
  | msgList _ _ r b s c us xs h0 h1 h2 h3 h4 => exact .msgList _ _ r b s c us xs h0 (Nat.le_trans hl h1) h2 h3 h4
  | listMsg _ _ a q s c us xs h0 h1 h2 h3 h4 => exact .listMsg _ _ a q s c us xs h0 (Nat.le_trans hl h1) h2 h3 h4
  | field _ _ r q f s y z h0 h1 h2 h3 h4 h5 => exact .field _ _ r q f s y z h0 (Nat.le_trans hl h1) h2 h3 h4 h5
  | item _ _ a b i s y z h0 h1 h2 h3 h4 h5 => exact .item _ _ a b i s y z h0 (Nat.le_trans hl h1) h2 h3 h4 h5

theorem gequalsFields_saw (M : Memory) (eq : HVal → HVal → Nat → Except JErr Bool × Nat) (he : SaysOf M eq) (r q : Nat) (hrq : r ≠ q) : ∀ (m i k : Nat) b k',
    gequalsFields M eq r q ((List.range' i m).map fun i => (i, i)) k = (.ok b, k') → k ≤ k' ∧
      (b = true → ∃ (look to : Nat → Nat) (ys zs : Nat → HVal), Moments false m k k' look (fun i => look i + 2) to ∧
        (∀ f, f < m → (M (look f)).field r (i + f) = some (ys f) ∧ (M (look f + 1)).field q (i + f) = some (zs f)) ∧
        ∀ f, f < m → FoundEqual M (look f + 2) (to f) (ys f) (zs f)) ∧
      (b = false → FoundDifferent M k k' (.ref r) (.ref q)) := by
  intro m
  induction m with
  | zero =>
    intro i k b k' h
    simp only [List.range'_zero, List.map_nil, gequalsFields] at h
    cases h
    exact ⟨Nat.le_refl _, fun _ => ⟨id, id, fun _ => .null, fun _ => .null, moments_nil _ _ _ _ _ _, fun f hf => absurd hf (Nat.not_lt_zero _), fun f hf => absurd hf (Nat.not_lt_zero _)⟩,
      fun h => by cases h⟩
  | succ m ih =>
    intro i k b k' h
    rw [List.range'_succ, List.map_cons, gequalsFields] at h
    split at h
    · rename_i x y hx hy
      split at h
      · rename_i l hl
        obtain ⟨l1, g1, -⟩ := he _ _ _ _ _ hl
        obtain ⟨l2, i1, i2⟩ := ih _ _ _ _ h
        refine ⟨by omega, fun hb => ?_, fun hb => ?_⟩
        · obtain ⟨look, to, ys, zs, e1, e2, e3⟩ := i1 hb
          refine ⟨consFn k look, consFn l to, consFn x ys, consFn y zs, moments_pairs (Nat.le_refl _) l1 l2 e1, fun f hf => ?_, fun f hf => ?_⟩
          · cases f with
            | zero => exact ⟨hx, hy⟩
            | succ f =>
              have := e2 f (by omega)
              rw [show i + 1 + f = i + (f + 1) by omega] at this
              exact this
          · cases f with
            | zero => exact g1 rfl
            | succ f => exact e3 f (by omega)
        · have := i2 hb
          exact differs_earlier this (by omega)
      · rename_i o hne
        obtain ⟨l1, g1, g2⟩ := he _ _ _ _ _ h
        cases b with
        | true => exact absurd h (hne _)
        | false => exact ⟨by omega, fun h => (Bool.noConfusion h), fun _ => FoundDifferent.field _ _ _ _ i k x y hrq (Nat.le_refl _) (by omega) hx hy (g2 rfl)⟩
    · cases h

theorem gequalsAll_saw (M : Memory) (eq : HVal → HVal → Nat → Except JErr Bool × Nat) (he : SaysOf M eq) (r q : Nat) (hrq : r ≠ q) : ∀ (m i k : Nat) b k',
    gequalsAll M eq r q m i k = (.ok b, k') → k ≤ k' ∧
      (b = true → ∃ (look to : Nat → Nat) (ys zs : Nat → HVal), Moments false m k k' look (fun i => look i + 2) to ∧
        (∀ f, f < m → (M (look f)).item r (i + f) = some (ys f) ∧ (M (look f + 1)).item q (i + f) = some (zs f)) ∧
        ∀ f, f < m → FoundEqual M (look f + 2) (to f) (ys f) (zs f)) ∧
      (b = false → FoundDifferent M k k' (.ref r) (.ref q)) := by
  intro m
  induction m with
  | zero =>
    intro i k b k' h
    simp only [gequalsAll] at h
    cases h
    exact ⟨Nat.le_refl _, fun _ => ⟨id, id, fun _ => .null, fun _ => .null, moments_nil _ _ _ _ _ _, fun f hf => absurd hf (Nat.not_lt_zero _), fun f hf => absurd hf (Nat.not_lt_zero _)⟩,
      fun h => by cases h⟩
  | succ m ih =>
    intro i k b k' h
    rw [gequalsAll] at h
    split at h
    · rename_i x y hx hy
      split at h
      · rename_i l hl
        obtain ⟨l1, g1, -⟩ := he _ _ _ _ _ hl
        obtain ⟨l2, i1, i2⟩ := ih _ _ _ _ h
        refine ⟨by omega, fun hb => ?_, fun hb => ?_⟩
        · obtain ⟨look, to, ys, zs, e1, e2, e3⟩ := i1 hb
          refine ⟨consFn k look, consFn l to, consFn x ys, consFn y zs, moments_pairs (Nat.le_refl _) l1 l2 e1, fun f hf => ?_, fun f hf => ?_⟩
          · cases f with
            | zero => exact ⟨hx, hy⟩
            | succ f =>
              have := e2 f (by omega)
              rw [show i + 1 + f = i + (f + 1) by omega] at this
              exact this
          · cases f with
            | zero => exact g1 rfl
            | succ f => exact e3 f (by omega)
        · have := i2 hb
          exact differs_earlier this (by omega)
      · rename_i o hne
        obtain ⟨l1, g1, g2⟩ := he _ _ _ _ _ h
        cases b with
        | true => exact absurd h (hne _)
        | false => exact ⟨by omega, fun h => (Bool.noConfusion h), fun _ => FoundDifferent.item _ _ _ _ i k x y hrq (Nat.le_refl _) (by omega) hx hy (g2 rfl)⟩
    · cases h

theorem gequals_saw (M : Memory) : ∀ n, SaysOf M (gequals M n) := by
  intro n
  induction n with
  | zero => intro x y k b k' h; simp [gequals] at h
  | succ n ih =>
    intro x y k b k' h
    cases x with
    | null =>
      simp only [gequals, Prod.mk.injEq, Except.ok.injEq] at h
      obtain ⟨h1, rfl⟩ := h
      refine ⟨Nat.le_refl _, ?_, ?_⟩ <;> intro hb <;> subst hb <;> cases y <;> simp at h1
      · exact .null _ _
      all_goals exact .plain _ _ _ _ (by simp [PlainlyDifferent])
    | num a =>
      simp only [gequals, Prod.mk.injEq, Except.ok.injEq] at h
      obtain ⟨h1, rfl⟩ := h
      refine ⟨Nat.le_refl _, ?_, ?_⟩ <;> intro hb <;> subst hb <;> cases y <;> simp at h1
      · exact .num _ _ _ _ h1
      all_goals exact .plain _ _ _ _ (by simp [PlainlyDifferent, *])
    | str s =>
      simp only [gequals, Prod.mk.injEq, Except.ok.injEq] at h
      obtain ⟨h1, rfl⟩ := h
      refine ⟨Nat.le_refl _, ?_, ?_⟩ <;> intro hb <;> subst hb <;> cases y <;> simp at h1
      · subst h1; exact .str _ _ _
      all_goals exact .plain _ _ _ _ (by simp [PlainlyDifferent, *])
    | ref r =>
      have plain : ∀ y, (∀ q, y ≠ .ref q) → PlainlyDifferent (.ref r) y := by
        intro y hy
        cases y <;> simp [PlainlyDifferent] at hy ⊢
      have other : ∀ y, (∀ q, y ≠ .ref q) → gequals M (n + 1) (.ref r) y k = (.ok b, k') →
          k ≤ k' ∧ (b = true → FoundEqual M k k' (.ref r) y) ∧ (b = false → FoundDifferent M k k' (.ref r) y) := by
        intro y hy h
        have h' : (match (M k)[r]? with | some _ => ((.ok false, k + 1) : Except JErr Bool × Nat) | none => (.error .illTyped, k + 1)) = (.ok b, k') := by
          rw [← h]
          cases y <;> first | rfl | exact absurd rfl (hy _)
        split at h'
        · cases h'
          exact ⟨by omega, fun h => (Bool.noConfusion h), fun _ => .plain _ _ _ _ (plain y hy)⟩
        · cases h'
      cases y with
      | null => exact other _ (by simp) h
      | num a => exact other _ (by simp) h
      | str s => exact other _ (by simp) h
      | ref q =>
        rw [gequals] at h
        split at h
        · rename_i hrq
          cases h
          subst hrq
          exact ⟨Nat.le_refl _, fun _ => .same _ _ _, fun h => (Bool.noConfusion h)⟩
        · rename_i hrq
          split at h
          · rename_i c us d us' hr hq
            split at h
            · rename_i hcd
              subst hcd
              rw [eqs_table, List.range_eq_range'] at h
              obtain ⟨l1, h1, h2⟩ := gequalsFields_saw M _ ih r q hrq _ _ _ _ _ h
              refine ⟨by omega, fun hb => ?_, fun hb => differs_earlier (h2 hb) (by omega)⟩
              obtain ⟨look, to, ys, zs, e1, e2, e3⟩ := h1 hb
              exact .msg _ _ _ _ k c us us' look to ys zs (Nat.le_refl _) (by omega) hr hq (moments_wider e1 (by omega)) (fun f hf => by simpa using e2 f hf) e3
            · rename_i hcd
              cases h
              exact ⟨by omega, fun h => (Bool.noConfusion h), fun _ => .classes _ _ r q k c d us us' hrq (Nat.le_refl _) (by omega) hr hq hcd⟩
          · rename_i xs xs' hr hq
            split at h
            · rename_i hl
              obtain ⟨l1, h1, h2⟩ := gequalsAll_saw M _ ih r q hrq _ _ _ _ _ h
              refine ⟨by omega, fun hb => ?_, fun hb => differs_earlier (h2 hb) (by omega)⟩
              obtain ⟨look, to, ys, zs, e1, e2, e3⟩ := h1 hb
              exact .list _ _ _ _ k xs xs' look to ys zs (Nat.le_refl _) (by omega) hr hq hl (moments_wider e1 (by omega)) (fun f hf => by simpa using e2 f hf) e3
            · rename_i hl
              cases h
              exact ⟨by omega, fun h => (Bool.noConfusion h), fun _ => .sizes _ _ r q k xs xs' hrq (Nat.le_refl _) (by omega) hr hq hl⟩
          · rename_i o o' hn1 hn2 hr hq
            cases h
            refine ⟨by omega, fun h => (Bool.noConfusion h), fun _ => ?_⟩
            cases o with
            | msg c us =>
              cases o' with
              | msg d us' => exact (hn1 _ _ _ _ rfl rfl).elim
              | arr xs => exact .msgList _ _ r q k c us xs hrq (Nat.le_refl _) (by omega) hr hq
            | arr xs =>
              cases o' with
              | msg d us' => exact .listMsg _ _ r q k d us' xs hrq (Nat.le_refl _) (by omega) hr hq
              | arr xs' => exact (hn2 _ _ rfl rfl).elim
          · cases h

/-! ### Exceptions -/

theorem there_later {M : Memory} (hM : WellKept M) {k l : Nat} {x : HVal} (h : There M k x) (hl : k ≤ l) : There M l x := by
  intro r hr
  obtain ⟨o, ho⟩ := h r hr
  cases o with
  | msg c ys =>
    obtain ⟨zs, hz⟩ := hM.msgs k l r c ys hl ho
    exact ⟨_, hz⟩
  | arr xs =>
    obtain ⟨zs, hz, -⟩ := hM.lists k l r xs hl ho
    exact ⟨_, hz⟩

theorem there_field {M : Memory} (hM : WellKept M) {k r f : Nat} {y : HVal} (h : (M k).field r f = some y) : There M k y := by
  rintro q rfl
  unfold Heap.field at h
  split at h
  · rename_i c ys hr
    exact hM.refs k r q _ hr (List.mem_of_getElem? h)
  · cases h

theorem there_item {M : Memory} (hM : WellKept M) {k a i : Nat} {y : HVal} (h : (M k).item a i = some y) : There M k y := by
  rintro q rfl
  unfold Heap.item at h
  split at h
  · rename_i ys hr
    exact hM.refs k a q _ hr (List.mem_of_getElem? h)
  · cases h

theorem field_there {M : Memory} (hM : WellKept M) {k l r f : Nat} {c : Cls} {ys : List HVal} (h : (M k)[r]? = some (.msg c ys)) (hl : k ≤ l) (hf : f < (layout c).length) :
    ∃ y, (M l).field r f = some y := by
  obtain ⟨zs, hz⟩ := hM.msgs k l r c ys hl h
  have := hM.fields l r c zs hz
  exact ⟨zs[f], by simp only [Heap.field, hz]; exact List.getElem?_eq_getElem (by omega)⟩

theorem item_there {M : Memory} (hM : WellKept M) {k l a i : Nat} {xs : List HVal} (h : (M k)[a]? = some (.arr xs)) (hl : k ≤ l) (hi : i < xs.length) :
    ∃ y, (M l).item a i = some y := by
  obtain ⟨zs, hz, hz'⟩ := hM.lists k l a xs hl h
  exact ⟨zs[i], by simp only [Heap.item, hz]; exact List.getElem?_eq_getElem (by omega)⟩

theorem gread_there {M : Memory} (hM : WellKept M) {r k0 : Nat} {c : Cls} {zs : List HVal} (hr : (M k0)[r]? = some (.msg c zs)) : ∀ (m i k : Nat), i + m = (layout c).length →
    k0 ≤ k → ∃ ys, gread M r (List.range' i m) k = some ys ∧ ∀ y ∈ ys, There M (k + m) y := by
  intro m
  induction m with
  | zero => intro i k _ _; exact ⟨[], rfl, by simp⟩
  | succ m ih =>
    intro i k hi hk
    obtain ⟨ys, h1, h2⟩ := ih (i + 1) (k + 1) (by omega) (by omega)
    obtain ⟨y, hy⟩ := field_there hM hr hk (f := i) (by omega)
    refine ⟨y :: ys, by rw [List.range'_succ, gread, hy, h1], fun z hz => ?_⟩
    rcases List.mem_cons.1 hz with rfl | hz
    · exact there_later hM (there_field hM hy) (by omega)
    · have := h2 z hz
      rwa [show k + 1 + m = k + (m + 1) by omega] at this

theorem ghashSeq_error {M : Memory} (hM : WellKept M) (f : HVal → Nat → Except JErr (BitVec 32) × Nat) (hf : ∀ x k e k', There M k x → f x k = (.error e, k') → e = .stackOverflow)
    (hm : ∀ x k i k', f x k = (.ok i, k') → k ≤ k') : ∀ xs s k e k', (∀ x ∈ xs, There M k x) → ghashSeq f s xs k = (.error e, k') → e = .stackOverflow := by
  intro xs
  induction xs with
  | nil => intro s k e k' _ h; simp [ghashSeq] at h
  | cons x xs ih =>
    intro s k e k' ht h
    rw [ghashSeq] at h
    split at h
    · rename_i i l hl
      exact ih _ _ _ _ (fun y hy => there_later hM (ht y (List.mem_cons_of_mem _ hy)) (hm _ _ _ _ hl)) h
    · rename_i e' l hl
      cases h
      exact hf _ _ _ _ (ht x (List.mem_cons_self ..)) hl

theorem ghashList_error {M : Memory} (hM : WellKept M) (f : HVal → Nat → Except JErr (BitVec 32) × Nat) (hf : ∀ x k e k', There M k x → f x k = (.error e, k') → e = .stackOverflow)
    (hm : ∀ x k i k', f x k = (.ok i, k') → k ≤ k') {a k0 : Nat} {xs : List HVal} (ha : (M k0)[a]? = some (.arr xs)) : ∀ m i s k e k', i + m = xs.length → k0 ≤ k →
    ghashList M f a m i s k = (.error e, k') → e = .stackOverflow := by
  intro m
  induction m with
  | zero => intro i s k e k' _ _ h; simp [ghashList] at h
  | succ m ih =>
    intro i s k e k' hi hk h
    obtain ⟨y, hy⟩ := item_there hM ha hk (i := i) (by omega)
    rw [ghashList, hy] at h
    simp only at h
    split at h
    · rename_i j l hl
      have := hm _ _ _ _ hl
      exact ih _ _ _ _ _ (by omega) (by omega) h
    · rename_i e' l hl
      cases h
      exact hf _ _ _ _ (there_later hM (there_item hM hy) (by omega)) hl

theorem ghash_error {M : Memory} (hM : WellKept M) : ∀ (n : Nat) x k e k', There M k x → ghash M n x k = (.error e, k') → e = .stackOverflow := by
  intro n
  induction n with
  | zero => intro x k e k' _ h; simp only [ghash] at h; cases h; rfl
  | succ n ih =>
    intro x k e k' ht h
    have hm : ∀ x k i k', ghash M n x k = (.ok i, k') → k ≤ k' := fun x k i k' h => (ghash_saw M n x k i k' h).1
    cases x with
    | null => simp [ghash] at h
    | num m => simp [ghash] at h
    | str s => simp [ghash] at h
    | ref r =>
      rw [ghash] at h
      split at h
      · rename_i xs hr
        exact ghashList_error hM _ ih hm hr _ _ _ _ _ _ (Nat.zero_add _) (by omega) h
      · rename_i c zs hr
        split at h
        · exact ih _ _ _ _ ht h
        · rename_i is his
          by_cases hl : fieldLess c = true
          · rw [hash_table, if_pos hl] at his; cases his
          · rw [hash_table, if_neg hl] at his
            cases his
            rw [List.range_eq_range'] at h
            obtain ⟨ys, h1, h2⟩ := gread_there hM hr _ 0 k (Nat.zero_add _) (Nat.le_refl _)
            rw [h1] at h
            simp only [List.length_range'] at h
            exact ghashSeq_error hM _ ih hm _ _ _ _ _ h2 h
      · rename_i hr
        obtain ⟨o, ho⟩ := ht r rfl
        rw [ho] at hr
        cases hr

theorem gequalsFields_error {M : Memory} (hM : WellKept M) (eq : HVal → HVal → Nat → Except JErr Bool × Nat)
    (hf : ∀ x y k e k', There M k x → There M k y → eq x y k = (.error e, k') → e = .stackOverflow)
    (hm : ∀ x y k b k', eq x y k = (.ok b, k') → k ≤ k') {r q k0 k1 : Nat} {c : Cls} {us us' : List HVal} (hr : (M k0)[r]? = some (.msg c us)) (hq : (M k1)[q]? = some (.msg c us')) :
    ∀ (m i k : Nat) e k', i + m = (layout c).length → k0 ≤ k → k1 ≤ k →
    gequalsFields M eq r q ((List.range' i m).map fun i => (i, i)) k = (.error e, k') → e = .stackOverflow := by
  intro m
  induction m with
  | zero => intro i k e k' _ _ _ h; simp [gequalsFields] at h
  | succ m ih =>
    intro i k e k' hi h0 h1 h
    obtain ⟨y, hy⟩ := field_there hM hr h0 (f := i) (by omega)
    obtain ⟨z, hz⟩ := field_there hM hq (l := k + 1) (by omega) (f := i) (by omega)
    rw [List.range'_succ, List.map_cons, gequalsFields, hy, hz] at h
    simp only at h
    split at h
    · rename_i l hl
      have := hm _ _ _ _ _ hl
      exact ih _ _ _ _ (by omega) (by omega) (by omega) h
    · exact hf _ _ _ _ _ (there_later hM (there_field hM hy) (by omega)) (there_later hM (there_field hM hz) (by omega)) h

theorem gequalsAll_error {M : Memory} (hM : WellKept M) (eq : HVal → HVal → Nat → Except JErr Bool × Nat)
    (hf : ∀ x y k e k', There M k x → There M k y → eq x y k = (.error e, k') → e = .stackOverflow)
    (hm : ∀ x y k b k', eq x y k = (.ok b, k') → k ≤ k') {a b k0 k1 : Nat} {xs xs' : List HVal} (ha : (M k0)[a]? = some (.arr xs)) (hb : (M k1)[b]? = some (.arr xs'))
    (hx : xs.length = xs'.length) :
    ∀ (m i k : Nat) e k', i + m = xs.length → k0 ≤ k → k1 ≤ k → gequalsAll M eq a b m i k = (.error e, k') → e = .stackOverflow := by
  intro m
  induction m with
  | zero => intro i k e k' _ _ _ h; simp [gequalsAll] at h
  | succ m ih =>
    intro i k e k' hi h0 h1 h
    obtain ⟨y, hy⟩ := item_there hM ha h0 (i := i) (by omega)
    obtain ⟨z, hz⟩ := item_there hM hb (l := k + 1) (by omega) (i := i) (by omega)
    rw [gequalsAll, hy, hz] at h
    simp only at h
    split at h
    · rename_i l hl
      have := hm _ _ _ _ _ hl
      exact ih _ _ _ _ (by omega) (by omega) (by omega) h
    · exact hf _ _ _ _ _ (there_later hM (there_item hM hy) (by omega)) (there_later hM (there_item hM hz) (by omega)) h

theorem gequals_error {M : Memory} (hM : WellKept M) : ∀ (n : Nat) x y k e k', There M k x → There M k y → gequals M n x y k = (.error e, k') → e = .stackOverflow := by
  intro n
  induction n with
  | zero => intro x y k e k' _ _ h; simp only [gequals] at h; cases h; rfl
  | succ n ih =>
    intro x y k e k' hx hy h
    have hm : ∀ x y k b k', gequals M n x y k = (.ok b, k') → k ≤ k' := fun x y k b k' h => (gequals_saw M n x y k b k' h).1
    cases x with
    | null => simp [gequals] at h
    | num m => simp [gequals] at h
    | str s => simp [gequals] at h
    | ref r =>
      obtain ⟨o, ho⟩ := hx r rfl
      cases y with
      | null => simp [gequals, ho] at h
      | num m => simp [gequals, ho] at h
      | str s => simp [gequals, ho] at h
      | ref q =>
        obtain ⟨o', ho'⟩ := there_later hM hy (Nat.le_succ k) q rfl
        rw [gequals] at h
        split at h
        · cases h
        · split at h
          · rename_i c us d us' hr hq
            split at h
            · rename_i hcd
              subst hcd
              rw [eqs_table, List.range_eq_range'] at h
              exact gequalsFields_error hM _ ih hm hr hq _ _ _ _ _ (Nat.zero_add _) (by omega) (by omega) h
            · cases h
          · rename_i xs xs' hr hq
            split at h
            · rename_i hl
              exact gequalsAll_error hM _ ih hm hr hq hl _ _ _ _ _ (Nat.zero_add _) (by omega) (by omega) h
            · cases h
          · cases h
          · rename_i hn
            exact (hn _ _ ho ho').elim

/-! ### Nobody touches what is read -/

theorem untouched_value {M : Memory} {h : Heap} {r : Nat} {o : HObj} {y : HVal} (hu : Untouched M h (.ref r)) (hr : h[r]? = some o) (hy : y ∈ o.values) : Untouched M h y :=
  fun k q hq => hu k q (.step r q o y hr hy hq)

theorem gread_untouched {M : Memory} {r : Nat} {c : Cls} {ys : List HVal} (hr : ∀ k, (M k)[r]? = some (.msg c ys)) : ∀ is k, gread M r is k = hpick ys is := by
  intro is
  induction is with
  | nil => intro k; rfl
  | cons i is ih =>
    intro k
    simp only [gread, hpick, Heap.field, hr, ih]
    cases ys[i]? <;> cases hpick ys is <;> rfl

theorem ghashSeq_untouched (f : HVal → Nat → Except JErr (BitVec 32) × Nat) (g : HVal → Except JErr (BitVec 32)) : ∀ xs s k, (∀ x ∈ xs, ∀ k, (f x k).1 = g x) →
    (ghashSeq f s xs k).1 = hhashSeq g s xs := by
  intro xs
  induction xs with
  | nil => intro s k _; rfl
  | cons x xs ih =>
    intro s k hf
    have h1 := hf x (List.mem_cons_self ..) k
    rw [ghashSeq, hhashSeq, ← h1]
    rcases f x k with ⟨(e | i), l⟩
    · rfl
    · exact ih _ _ fun y hy => hf y (List.mem_cons_of_mem _ hy)

theorem ghashList_untouched {M : Memory} {a : Nat} {xs : List HVal} (ha : ∀ k, (M k)[a]? = some (.arr xs)) (f : HVal → Nat → Except JErr (BitVec 32) × Nat)
    (g : HVal → Except JErr (BitVec 32)) (hf : ∀ x ∈ xs, ∀ k, (f x k).1 = g x) : ∀ m i s k, i + m = xs.length →
    (ghashList M f a m i s k).1 = hhashSeq g s (xs.drop i) := by
  intro m
  induction m with
  | zero => intro i s k h; rw [List.drop_of_length_le (by omega)]; rfl
  | succ m ih =>
    intro i s k h
    have hi : i < xs.length := by omega
    have h1 := hf xs[i] (List.getElem_mem hi) (k + 1)
    rw [List.drop_eq_getElem_cons hi, ghashList, hhashSeq, ← h1]
    simp only [Heap.item, ha, List.getElem?_eq_getElem hi]
    rcases f xs[i] (k + 1) with ⟨(e | j), l⟩
    · rfl
    · exact ih _ _ _ (by omega)

theorem hpick_sub (ys : List HVal) : ∀ is vs, hpick ys is = some vs → ∀ x ∈ vs, x ∈ ys := by
  intro is
  induction is with
  | nil => intro vs h; simp only [hpick, Option.some.injEq] at h; subst h; simp
  | cons i is ih =>
    intro vs h
    rw [hpick] at h
    split at h
    · rename_i v us h1 h2
      cases h
      intro x hx
      rcases List.mem_cons.1 hx with rfl | hx
      · exact List.mem_of_getElem? h1
      · exact ih us h2 x hx
    · cases h

theorem ghash_untouched {M : Memory} {h : Heap} : ∀ (n : Nat) x k, Untouched M h x → (ghash M n x k).1 = hhash h n x := by
  intro n
  induction n with
  | zero => intro x k _; rfl
  | succ n ih =>
    intro x k hu
    cases x with
    | null => rfl
    | num m => rfl
    | str s => rfl
    | ref r =>
      have hr : ∀ k, (M k)[r]? = h[r]? := fun k => hu k r (.here r)
      rw [ghash, hhash, hr]
      rcases ho : h[r]? with _ | (⟨c, ys⟩ | xs)
      · rfl
      · simp only
        cases hd : (decl c).hash with
        | self => exact ih _ _ hu
        | fields is =>
          simp only
          rw [gread_untouched (ys := ys) (c := c) (fun k => by rw [hr, ho])]
          cases hp : hpick ys is with
          | none => rfl
          | some vs =>
            refine ghashSeq_untouched _ _ _ _ _ fun x hx k => ih _ _ (untouched_value hu ho ?_)
            exact hpick_sub ys is vs hp x hx
      · simp only
        have := ghashList_untouched (M := M) (xs := xs) (fun k => by rw [hr, ho]) (ghash M n) (hhash h n) (fun x hx k => ih x k (untouched_value hu ho (y := x) hx)) xs.length 0 1 (k + 1) (Nat.zero_add _)
        rw [this, List.drop_zero]

theorem gitems_untouched {M : Memory} {a : Nat} {xs : List HVal} (ha : ∀ k, (M k)[a]? = some (.arr xs)) (f : HVal → Nat → Option JStr × Nat)
    (g : HVal → Option JStr) (hf : ∀ x ∈ xs, ∀ k, (f x k).1 = g x) : ∀ m i k, i + m = xs.length →
    (gitems M f a m i k).1 = allSome (fun x => if x = .ref a then some (js "(this Collection)") else g x) (xs.drop i) := by
  intro m
  induction m with
  | zero => intro i k h; rw [List.drop_of_length_le (by omega)]; rfl
  | succ m ih =>
    intro i k h
    have hi : i < xs.length := by omega
    have h1 := hf xs[i] (List.getElem_mem hi) (k + 1)
    rw [List.drop_eq_getElem_cons hi, gitems, allSome, ← h1]
    simp only [Heap.item, ha, List.getElem?_eq_getElem hi]
    by_cases hx : xs[i] = .ref a
    · rw [if_pos hx, if_pos hx]
      simp only
      rw [← ih (i + 1) (k + 1) (by omega)]
      rcases gitems M f a m (i + 1) (k + 1) with ⟨_ | ss, l⟩ <;> rfl
    · rw [if_neg hx, if_neg hx]
      rcases f xs[i] (k + 1) with ⟨_ | t, l⟩
      · rfl
      · simp only
        rw [← ih (i + 1) l (by omega)]
        rcases gitems M f a m (i + 1) l with ⟨_ | ss, l⟩ <;> rfl

theorem gparts_untouched {M : Memory} {r : Nat} {c : Cls} {ys : List HVal} (hr : ∀ k, (M k)[r]? = some (.msg c ys)) (f : HVal → Nat → Option JStr × Nat)
    (g : HVal → Option JStr) (hf : ∀ x ∈ ys, ∀ k, (f x k).1 = g x) : ∀ ps k,
    (gparts M f r ps k).1 = allSome (fun p => match p with
        | StrPart.lit s => some (js s)
        | .field i => match ys[i]? with | some v => g v | none => none) ps := by
  intro ps
  induction ps with
  | nil => intro k; rfl
  | cons p ps ih =>
    intro k
    cases p with
    | lit s =>
      rw [gparts, allSome, ← ih k]
      rcases gparts M f r ps k with ⟨_ | ss, l⟩ <;> rfl
    | field i =>
      rw [gparts, allSome]
      simp only [Heap.field, hr]
      cases hi : ys[i]? with
      | none => rfl
      | some y =>
        simp only
        rw [← hf y (List.mem_of_getElem? hi) (k + 1)]
        rcases f y (k + 1) with ⟨_ | t, l⟩
        · rfl
        · simp only
          rw [← ih l]
          rcases gparts M f r ps l with ⟨_ | ss, l⟩ <;> rfl

theorem gtoStr_untouched {M : Memory} {h : Heap} (flt : Num → JStr) : ∀ (n : Nat) x k, Untouched M h x → (gtoStr M flt n x k).1 = htoStr h flt n x := by
  intro n
  induction n with
  | zero => intro x k _; rfl
  | succ n ih =>
    intro x k hu
    cases x with
    | null => rfl
    | num m => rfl
    | str s => rfl
    | ref r =>
      have hr : ∀ k, (M k)[r]? = h[r]? := fun k => hu k r (.here r)
      rw [gtoStr, htoStr, hr]
      rcases ho : h[r]? with _ | (⟨c, ys⟩ | xs)
      · rfl
      · simp only
        rw [gparts_untouched (M := M) (ys := ys) (c := c) (fun k => by rw [hr, ho]) (gtoStr M flt n) (htoStr h flt n) (fun x hx k => ih x k (untouched_value hu ho (y := x) hx))]
        congr 1
      · simp only
        rw [gitems_untouched (M := M) (xs := xs) (fun k => by rw [hr, ho]) (gtoStr M flt n) (htoStr h flt n) (fun x hx k => ih x k (untouched_value hu ho (y := x) hx)) xs.length 0 (k + 1)
          (Nat.zero_add _), List.drop_zero]

theorem gequalsFields_untouched {M : Memory} {r q : Nat} {c d : Cls} {fs gs : List HVal} (hr : ∀ k, (M k)[r]? = some (.msg c fs)) (hq : ∀ k, (M k)[q]? = some (.msg d gs))
    (eq : HVal → HVal → Nat → Except JErr Bool × Nat) (g : HVal → HVal → Except JErr Bool) (he : ∀ x ∈ fs, ∀ y ∈ gs, ∀ k, (eq x y k).1 = g x y) : ∀ ps k,
    (gequalsFields M eq r q ps k).1 = hequalsFields g fs gs ps := by
  intro ps
  induction ps with
  | nil => intro k; rfl
  | cons p ps ih =>
    intro k
    rw [gequalsFields, hequalsFields]
    simp only [Heap.field, hr, hq]
    cases h1 : fs[p.1]? with
    | none => rfl
    | some x =>
      cases h2 : gs[p.2]? with
      | none => rfl
      | some y =>
        simp only
        rw [← he x (List.mem_of_getElem? h1) y (List.mem_of_getElem? h2) (k + 2)]
        rcases eq x y (k + 2) with ⟨e | (_ | _), l⟩
        · rfl
        · rfl
        · exact ih l

theorem gequalsAll_untouched {M : Memory} {a b : Nat} {xs ys : List HVal} (ha : ∀ k, (M k)[a]? = some (.arr xs)) (hb : ∀ k, (M k)[b]? = some (.arr ys)) (hl : xs.length = ys.length)
    (eq : HVal → HVal → Nat → Except JErr Bool × Nat) (g : HVal → HVal → Except JErr Bool) (he : ∀ x ∈ xs, ∀ y ∈ ys, ∀ k, (eq x y k).1 = g x y) : ∀ m i k, i + m = xs.length →
    (gequalsAll M eq a b m i k).1 = hequalsAll g (xs.drop i) (ys.drop i) := by
  intro m
  induction m with
  | zero =>
    intro i k h
    rw [List.drop_of_length_le (show xs.length ≤ i by omega)]
    rfl
  | succ m ih =>
    intro i k h
    have hi : i < xs.length := by omega
    have hj : i < ys.length := by omega
    rw [List.drop_eq_getElem_cons hi, List.drop_eq_getElem_cons hj, gequalsAll, hequalsAll]
    simp only [Heap.item, ha, hb, List.getElem?_eq_getElem hi, List.getElem?_eq_getElem hj]
    rw [← he _ (List.getElem_mem hi) _ (List.getElem_mem hj) (k + 2)]
    rcases eq xs[i] ys[i] (k + 2) with ⟨e | (_ | _), l⟩
    · rfl
    · rfl
    · exact ih _ _ (by omega)

theorem gequals_untouched {M : Memory} {h : Heap} : ∀ (n : Nat) x y k, Untouched M h x → Untouched M h y → (gequals M n x y k).1 = hequals h n x y := by
  intro n
  induction n with
  | zero => intro x y k _ _; rfl
  | succ n ih =>
    intro x y k hu hv
    cases x with
    | null => rfl
    | num m => rfl
    | str s => rfl
    | ref r =>
      have hr : ∀ k, (M k)[r]? = h[r]? := fun k => hu k r (.here r)
      have other : ∀ z : HVal, (∀ q, z ≠ .ref q) → (gequals M (n + 1) (.ref r) z k).1 = hequals h (n + 1) (.ref r) z := by
        intro z hz
        cases z with
        | ref q => exact absurd rfl (hz q)
        | _ =>
          simp only [gequals, hequals, hr]
          cases h[r]? <;> rfl
      cases y with
      | null => exact other _ (by simp)
      | num m => exact other _ (by simp)
      | str s => exact other _ (by simp)
      | ref q =>
        have hq : ∀ k, (M k)[q]? = h[q]? := fun k => hv k q (.here q)
        rw [gequals, hequals, hr, hq]
        by_cases hrq : r = q
        · rw [if_pos hrq, if_pos hrq]
        · rw [if_neg hrq, if_neg hrq]
          rcases ho : h[r]? with _ | (⟨c, us⟩ | xs)
          · rfl
          · rcases ho' : h[q]? with _ | (⟨d, us'⟩ | xs')
            · rfl
            · simp only
              by_cases hcd : c = d
              · rw [if_pos hcd, if_pos hcd]
                exact gequalsFields_untouched (M := M) (c := c) (d := d) (fs := us) (gs := us') (fun k => by rw [hr, ho]) (fun k => by rw [hq, ho']) _ _
                  (fun x hx y hy k => ih x y k (untouched_value hu ho (y := x) hx) (untouched_value hv ho' (y := y) hy)) _ _
              · rw [if_neg hcd, if_neg hcd]
            · rfl
          · rcases ho' : h[q]? with _ | (⟨d, us'⟩ | xs')
            · rfl
            · rfl
            · simp only
              by_cases hl : xs.length = xs'.length
              · rw [if_pos hl, if_pos hl]
                have := gequalsAll_untouched (M := M) (xs := xs) (ys := xs') (fun k => by rw [hr, ho]) (fun k => by rw [hq, ho']) hl (gequals M n) (hequals h n)
                  (fun x hx y hy k => ih x y k (untouched_value hu ho (y := x) hx) (untouched_value hv ho' (y := y) hy)) xs.length 0 (k + 2) (Nat.zero_add _)
                rw [this, List.drop_zero, List.drop_zero]
              · rw [if_neg hl, if_neg hl]

/-! ### Setters -/

/-- Same objects, with other values in the fields of messages. -/
def SameObjs (h h' : Heap) : Prop :=
  h'.length = h.length ∧ (∀ (r : Nat) c ys, h[r]? = some (.msg c ys) → ∃ zs, h'[r]? = some (.msg c zs) ∧ zs.length = ys.length)
  ∧ ∀ (a : Nat) xs, h[a]? = some (.arr xs) → h'[a]? = some (.arr xs)

theorem sameObjects_refl (h : Heap) : SameObjs h h := ⟨rfl, fun _ _ ys h => ⟨ys, h, rfl⟩, fun _ _ h => h⟩

theorem sameObjects_trans {h h' h'' : Heap} (a : SameObjs h h') (b : SameObjs h' h'') : SameObjs h h'' := by
  refine ⟨b.1.trans a.1, fun r c ys hr => ?_, fun q xs hq => b.2.2 q xs (a.2.2 q xs hq)⟩
  obtain ⟨zs, h1, h2⟩ := a.2.1 r c ys hr
  obtain ⟨us, h3, h4⟩ := b.2.1 r c zs h1
  exact ⟨us, h3, h4.trans h2⟩

theorem setField_sameObjs (h : Heap) (r f : Nat) (y : HVal) : SameObjs h (h.setField r f y) := by
  unfold Heap.setField
  split
  · rename_i c ys hr
    refine ⟨List.length_set, fun q d zs hq => ?_, fun a xs ha => ?_⟩
    · by_cases e : r = q
      · subst e
        rw [hr] at hq
        cases hq
        exact ⟨ys.set f y, by rw [List.getElem?_set_self (List.getElem?_eq_some_iff.1 hr).1], List.length_set⟩
      · exact ⟨zs, by rw [List.getElem?_set_ne e]; exact hq, rfl⟩
    · by_cases e : r = a
      · subst e; rw [hr] at ha; cases ha
      · rw [List.getElem?_set_ne e]; exact ha
  · exact sameObjects_refl h

theorem setField_refs {h : Heap} {r f : Nat} {y : HVal} (hh : RefsOK h) (hy : ∀ q, y = .ref q → q < h.length) : RefsOK (h.setField r f y) := by
  intro p q o hp hq
  rw [(setField_sameObjs h r f y).1]
  unfold Heap.setField at hp
  split at hp
  · rename_i c ys hr
    by_cases e : r = p
    · subst e
      rw [List.getElem?_set_self (List.getElem?_eq_some_iff.1 hr).1] at hp
      cases hp
      rcases List.mem_or_eq_of_mem_set hq with h1 | h1
      · exact hh r q _ hr h1
      · exact hy q h1.symm
    · rw [List.getElem?_set_ne e] at hp
      exact hh p q o hp hq
  · exact hh p q o hp hq

theorem hsetAll_same (ps : List (Nat × Nat × HVal)) : ∀ h, SameObjs h (hsetAll h ps) := by
  induction ps with
  | nil => exact sameObjects_refl
  | cons p ps ih => intro h; exact sameObjects_trans (setField_sameObjs h p.1 p.2.1 p.2.2) (ih _)

theorem hsetAll_refs (ps : List (Nat × Nat × HVal)) : ∀ h, RefsOK h → (∀ p ∈ ps, ∀ q, p.2.2 = .ref q → q < h.length) → RefsOK (hsetAll h ps) := by
  induction ps with
  | nil => intro h hh _; exact hh
  | cons p ps ih =>
    intro h hh hp
    refine ih _ (setField_refs hh (hp p (List.mem_cons_self ..))) fun p' hp' q hq => ?_
    rw [(setField_sameObjs h p.1 p.2.1 p.2.2).1]
    exact hp p' (List.mem_cons_of_mem _ hp') q hq

theorem memory_same (o : HOthers) (h : Heap) (k : Nat) : SameObjs h (o.memory h k) := by
  induction k with
  | zero => exact hsetAll_same _ _
  | succ k ih => exact sameObjects_trans ih (hsetAll_same _ _)

theorem memory_refs {o : HOthers} {h : Heap} (hh : RefsOK h) (ho : ∀ k, ∀ p ∈ o k, ∀ q, p.2.2 = .ref q → q < h.length) (k : Nat) : RefsOK (o.memory h k) := by
  induction k with
  | zero => exact hsetAll_refs _ _ hh (ho 0)
  | succ k ih => exact hsetAll_refs _ _ ih fun p hp q hq => by rw [(memory_same o h k).1]; exact ho _ p hp q hq

theorem memory_later (o : HOthers) (h : Heap) {k l : Nat} (hl : k ≤ l) : SameObjs (o.memory h k) (o.memory h l) := by
  induction l with
  | zero => rw [Nat.le_zero.1 hl]; exact sameObjects_refl _
  | succ l ih =>
    by_cases e : k = l + 1
    · rw [e]; exact sameObjects_refl _
    · exact sameObjects_trans (ih (by omega)) (hsetAll_same _ _)

theorem memory_kept {o : HOthers} {h : Heap} (hf : FieldsOK h) (hh : RefsOK h) (ho : ∀ k, ∀ p ∈ o k, ∀ q, p.2.2 = .ref q → q < h.length) : WellKept (o.memory h) := by
  refine ⟨fun k r c ys hr => ?_, fun k l r c ys hl hr => ?_, fun k l a xs hl ha => ?_, fun k r q x hr hq => ?_⟩
  · have hs := memory_same o h k
    have hlt : r < h.length := by rw [← hs.1]; exact (List.getElem?_eq_some_iff.1 hr).1
    rcases e : h[r] with ⟨d, zs⟩ | xs
    · have h0 : h[r]? = some (.msg d zs) := by rw [List.getElem?_eq_getElem hlt, e]
      obtain ⟨us, h1, h2⟩ := hs.2.1 r d zs h0
      rw [hr] at h1
      cases h1
      rw [h2]
      exact hf r _ zs h0
    · have h0 : h[r]? = some (.arr xs) := by rw [List.getElem?_eq_getElem hlt, e]
      have := hs.2.2 r xs h0
      rw [hr] at this
      cases this
  · obtain ⟨zs, h1, -⟩ := (memory_later o h hl).2.1 r c ys hr
    exact ⟨zs, h1⟩
  · exact ⟨xs, (memory_later o h hl).2.2 a xs ha, rfl⟩
  · exact ⟨_, List.getElem?_eq_getElem (memory_refs hh ho k r q x hr hq)⟩

end FinProto
