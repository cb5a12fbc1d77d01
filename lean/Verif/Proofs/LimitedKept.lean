import Verif.Proofs.Limited
import Verif.Proofs.Shape
import Verif.Proofs.HeapShows
import Verif.Spec.RacingHeap
/-
Helper lemmas for C119: a message that a thread keeps stays without shared parts, and its lists are the only ones that matter.
-/
namespace FinProto.Limit

theorem refsAll_same {h h' : Heap} : ∀ (vs vs' : List Val) (ys ys' : List HVal), vs.length = ys.length → vs'.length = ys'.length → ys'.length = ys.length →
    (∀ (i : Nat) v v' y y', vs[i]? = some v → vs'[i]? = some v' → ys[i]? = some y → ys'[i]? = some y' → refs h' v' y' = refs h v y) →
    refsAll h' vs' ys' = refsAll h vs ys
  | [], [], ys, ys', _, _, _, _ => by simp [refsAll]
  | v :: vs, v' :: vs', y :: ys, y' :: ys', h1, h2, h3, hi => by
    rw [refsAll, refsAll, hi 0 v v' y y' rfl rfl rfl rfl, refsAll_same vs vs' ys ys' (by simpa using h1) (by simpa using h2) (by simpa using h3)
      fun i a a' b b' e1 e2 e3 e4 => hi (i + 1) a a' b b' (by simpa using e1) (by simpa using e2) (by simpa using e3) (by simpa using e4)]
  | [], _ :: _, ys, ys', h1, h2, h3, _ => by simp at h1 h2; omega
  | _ :: _, [], ys, ys', h1, h2, h3, _ => by simp at h1 h2; omega
  | _ :: _, _ :: _, [], _, h1, _, _, _ => by simp at h1
  | _ :: _, _ :: _, _, [], _, h2, _, _ => by simp at h2

theorem computed_num {w : World} {c : Cls} {f : Nat} (hf : computed w c f = true) : f ∈ computedIn (decl c).enc := by
  unfold computed at hf
  obtain ⟨s, hs, ha⟩ := List.any_eq_true.1 hf
  refine List.mem_filterMap.2 ⟨s, hs, ?_⟩
  cases s <;> simp_all [assigns]

/-- An `encode` leaves the objects of a message where they are. -/
theorem refs_chg {w : World} {h h' : Heap} (hc : Chg w h h') : ∀ (v v' : Val) (x : HVal), intsOk v → intsOk v' → Shows h v x → Shows h' v' x →
    refs h' v' x = refs h v x := by
  intro v
  apply Val.rec
    (motive_1 := fun v => ∀ (v' : Val) (x : HVal), intsOk v → intsOk v' → Shows h v x → Shows h' v' x → refs h' v' x = refs h v x)
    (motive_2 := fun vs => ∀ v ∈ vs, ∀ (v' : Val) (x : HVal), intsOk v → intsOk v' → Shows h v x → Shows h' v' x → refs h' v' x = refs h v x)
  · intro v' x _ _ hx _; rw [Shows] at hx; subst hx; simp [refs]
  · intro n v' x _ _ hx _; rw [Shows] at hx; subst hx; simp [refs]
  · intro s v' x _ _ hx _; rw [Shows] at hx; subst hx; simp [refs]
  · intro xs ih v' x hv hv' hx hx'
    rw [Shows] at hx
    obtain ⟨a, ys, rfl, ha, hall⟩ := hx
    have ha' := hc.2.1 a ys ha
    cases v' with
    | list xs' =>
      rw [Shows] at hx'
      obtain ⟨a', ys', e, ha2, hall'⟩ := hx'
      cases e
      rw [ha'] at ha2; cases ha2
      rw [refs_list h xs a ys ha, refs_list h' xs' a ys ha']
      rw [intsOk] at hv hv'
      have i1 := (ShowsAll_iff _ _ _).1 hall
      have i2 := (ShowsAll_iff _ _ _).1 hall'
      refine congrArg _ (refsAll_same _ _ _ _ i1.1 i2.1 rfl fun i v v' y y' e1 e2 e3 e4 => ?_)
      rw [e3] at e4; cases e4
      exact ih v (List.mem_of_getElem? e1) v' y (intsOks_get _ _ _ hv e1) (intsOks_get _ _ _ hv' e2) (i1.2 i v y e1 e3) (i2.2 i v' y e2 e3)
    | obj c fs =>
      rw [Shows] at hx'
      obtain ⟨a', ys', e, ha2, _⟩ := hx'
      cases e; rw [ha'] at ha2; cases ha2
    | _ => rw [Shows] at hx'; cases hx'
  · intro c fs ih v' x hv hv' hx hx'
    rw [Shows] at hx
    obtain ⟨r, ys, rfl, hr, hall⟩ := hx
    obtain ⟨ys1, hr1, hl1, hf1⟩ := hc.2.2 r c ys hr
    cases v' with
    | obj c' fs' =>
      rw [Shows] at hx'
      obtain ⟨r', ys', e, hr2, hall'⟩ := hx'
      cases e
      rw [hr1] at hr2; cases hr2
      rw [refs_obj h c fs r c ys hr, refs_obj h' c fs' r c ys1 hr1]
      rw [intsOk] at hv hv'
      have i1 := (ShowsAll_iff _ _ _).1 hall
      have i2 := (ShowsAll_iff _ _ _).1 hall'
      refine congrArg _ (refsAll_same _ _ _ _ i1.1 i2.1 hl1 fun i v v' y y' e1 e2 e3 e4 => ?_)
      cases hcomp : computed w c i with
      | false =>
        rw [hf1 i hcomp, e3] at e4; cases e4
        exact ih v (List.mem_of_getElem? e1) v' y (intsOks_get _ _ _ hv.2 e1) (intsOks_get _ _ _ hv'.2 e2) (i1.2 i v y e1 e3) (i2.2 i v' y e2 (by rw [hf1 i hcomp, e3]))
      | true =>
        obtain ⟨n, k1, _⟩ := hv.1 i (computed_num hcomp)
        obtain ⟨n', k2, _⟩ := hv'.1 i (computed_num hcomp)
        rw [k1] at e1; rw [k2] at e2; cases e1; cases e2
        simp [refs]
    | list fs' =>
      rw [Shows] at hx'
      obtain ⟨a', ys', e, ha2, _⟩ := hx'
      cases e; rw [hr1] at ha2; cases ha2
    | _ => rw [Shows] at hx'; cases hx'
  · intro v hv; cases hv
  · intro u us h1 h2 v hv
    rcases List.mem_cons.1 hv with rfl | hv
    · exact h1
    · exact h2 v hv

theorem allListsFit_get : ∀ (vs : List Val) (f : Nat) (v : Val), allListsFit vs = true → vs[f]? = some v → listsFit v = true
  | [], f, v, _, h => by simp at h
  | x :: xs, 0, v, ho, h => by simp at h; subst h; rw [allListsFit, Bool.and_eq_true] at ho; exact ho.1
  | x :: xs, f + 1, v, ho, h => by rw [allListsFit, Bool.and_eq_true] at ho; exact allListsFit_get xs f v ho.2 (by simpa using h)

theorem reach_fit {h : Heap} {x : HVal} {q : Nat} (hr : Reach h x q) : ∀ v, Shows h v x → listsFit v = true → ∀ xs, h[q]? = some (.arr xs) → xs.length ≤ 2147483647 := by
  induction hr with
  | here r =>
    intro v hs hf xs hx
    cases v with
    | list vs =>
      rw [Shows] at hs
      obtain ⟨a, ys, e, ha, hall⟩ := hs
      cases e
      rw [ha] at hx; cases hx
      rw [listsFit, Bool.and_eq_true, decide_eq_true_eq] at hf
      rw [← ((ShowsAll_iff _ _ _).1 hall).1]
      exact hf.1
    | obj c fs =>
      rw [Shows] at hs
      obtain ⟨a, ys, e, ha, hall⟩ := hs
      cases e
      rw [ha] at hx; cases hx
    | _ => rw [Shows] at hs; cases hs
  | step r q ob y h1 h2 _ ih =>
    intro v hs hf
    obtain ⟨i, hi⟩ := List.mem_iff_getElem?.1 h2
    have key : ∀ (vs : List Val) (ys : List HVal), ob.values = ys → ShowsAll h vs ys → allListsFit vs = true → ∃ u, Shows h u y ∧ listsFit u = true := by
      intro vs ys e hall hvs
      rw [e] at hi
      have i1 := (ShowsAll_iff _ _ _).1 hall
      have hlt : i < vs.length := by rw [i1.1]; exact (List.getElem?_eq_some_iff.1 hi).1
      exact ⟨vs[i], i1.2 i _ y (List.getElem?_eq_getElem hlt) hi, allListsFit_get vs i _ hvs (List.getElem?_eq_getElem hlt)⟩
    have : ∃ u, Shows h u y ∧ listsFit u = true := by
      cases v with
      | list vs =>
        rw [Shows] at hs
        obtain ⟨a, ys, e, ha, hall⟩ := hs
        cases e
        rw [ha] at h1; cases h1
        rw [listsFit, Bool.and_eq_true] at hf
        exact key vs ys rfl hall hf.2
      | obj c fs =>
        rw [Shows] at hs
        obtain ⟨a, ys, e, ha, hall⟩ := hs
        cases e
        rw [ha] at h1; cases h1
        rw [listsFit] at hf
        exact key fs ys rfl hall hf
      | _ => rw [Shows] at hs; cases hs
    obtain ⟨u, hu, huf⟩ := this
    exact ih u hu huf

/-- The memory with nothing but the message in it. -/
def onlyOf (h : Heap) (v : Val) (x : HVal) : Heap := h.mapIdx fun q ob => if q ∈ refs h v x then ob else .arr []

theorem onlyOf_same {h : Heap} {v : Val} {x : HVal} {q : Nat} (hq : q ∈ refs h v x) : (onlyOf h v x)[q]? = h[q]? := by
  rw [onlyOf, List.getElem?_mapIdx]
  cases h[q]? <;> simp [hq]

theorem onlyOf_fit {h : Heap} {v : Val} {x : HVal} (hs : Shows h v x) (hf : listsFit v = true) : HListsFit (onlyOf h v x) := by
  intro a xs ha
  by_cases hq : a ∈ refs h v x
  · rw [onlyOf_same hq] at ha
    exact reach_fit ((refs_iff_reach h v x hs a).1 hq) v hs hf xs ha
  · rw [onlyOf, List.getElem?_mapIdx] at ha
    cases e : h[a]? with
    | none => rw [e] at ha; cases ha
    | some ob => rw [e] at ha; simp [hq] at ha; subst ha; simp

end FinProto.Limit
