import Verif.Proofs.Work
/-
Helper lemmas: the budget of a call over a history.
-/
namespace FinProto

def Worker.good (h : Heap) : Worker → Prop
  | .enc t => WidesOk (padAt h) t
  | .dec t => ReadsOk t

def Worker.budget (h : Heap) (L : Nat) : Worker → Nat
  | .enc t => t.budget (nestAt h) L
  | .dec t => t.budget

def Worker.isEnc : Worker → Bool
  | .enc _ => true
  | .dec _ => false

theorem nestAt_keep {h h' : Heap} (hk : Keeps h h') {r : Nat} {c : Cls} {ys : List HVal} (hr : h[r]? = some (.msg c ys)) :
    nestAt h' r = nestAt h r ∧ padAt h' r = padAt h r := by
  obtain ⟨ys', hr'⟩ := hk r c ys hr
  simp [nestAt, padAt, hr, hr']

theorem budget_congr {N N' : Nat → Bool} {L : Nat} {t : HThread} (h : ∀ a ∈ t.stack, N' a.this = N a.this) : t.budget N' L = t.budget N L := by
  have : t.stack.map (Activation.cost N' L) = t.stack.map (Activation.cost N L) := by
    refine List.map_congr_left fun a ha => ?_
    simp only [Activation.cost, h a ha]
  simp only [HThread.budget, HThread.base, this]

/-- What others do to the heap does not matter. -/
theorem good_keep {h h' : Heap} (hk : Keeps h h') {t : Worker} (ht : WOk h t) (L : Nat) : (t.good h → t.good h') ∧ t.budget h' L = t.budget h L := by
  cases t with
  | dec t => exact ⟨id, rfl⟩
  | enc t =>
    have ha : ∀ a ∈ t.stack, nestAt h' a.this = nestAt h a.this ∧ padAt h' a.this = padAt h a.this := by
      intro a ha
      obtain ⟨c, ys, A, h1, -⟩ := (HOk.acts ht a ha).ok
      exact nestAt_keep hk h1
    refine ⟨fun hg a ha' => ?_, budget_congr fun a h => (ha a h).1⟩
    rw [(ha a ha').2]
    exact hg a ha'

theorem budget_pos {h : Heap} {L : Nat} {t : Worker} (hn : ¬ t.finished) : 0 < t.budget h L := by
  cases t with
  | enc t =>
    simp only [Worker.finished, not_or] at hn
    rcases hs : t.stack with _ | ⟨a, as⟩
    · exact absurd hs hn.2
    · simp only [Worker.budget, HThread.budget, HThread.base, hs, List.map_cons, List.sum_cons, Activation.cost]
      omega
  | dec t =>
    simp only [Worker.finished, not_or] at hn
    rcases hs : t.stack with _ | ⟨a, as⟩
    · exact absurd hs hn.2
    · simp only [Worker.budget, DThread.budget, hs, List.map_cons, List.sum_cons, DActivation.cost]
      omega

theorem finished_step {w : World} {sup : Suppliers} {n : Nat} {h : Heap} {t : Worker} (hf : t.finished) : (t.step w sup n h).2.finished := by
  cases t with
  | enc t =>
    have : t.step w n h = (h, t) := by
      unfold HThread.step
      rcases hf with hf | hf
      · rcases he : t.err with _ | e
        · exact absurd he hf
        · rfl
      · rcases he : t.err with _ | e
        · simp only [hf]
        · rfl
    simp only [Worker.step, this]
    exact hf
  | dec t =>
    have : t.step sup n h = (h, t) := by
      unfold DThread.step
      rcases hf with hf | hf
      · rcases he : t.err with _ | e
        · exact absurd he hf
        · rfl
      · rcases he : t.err with _ | e
        · simp only [hf]
        · rfl
    simp only [Worker.step, this]
    exact hf

theorem good_step {w : World} {sup : Suppliers} {n L : Nat} {h : Heap} {t : Worker} (hh : TypedHeap h) (ht : WOk h t) (hg : t.good h)
    (hL : t.isEnc = true → ShortLists L h) (hn : ¬ t.finished) :
    (t.step w sup n h).2.finished ∨ (t.step w sup n h).2.good (t.step w sup n h).1 ∧ (t.step w sup n h).2.budget (t.step w sup n h).1 L < t.budget h L := by
  cases t with
  | enc t =>
    simp only [Worker.finished, not_or, Decidable.not_not] at hn
    rcases hstep_budget (L := L) hh (hL rfl) w n ht hg hn.1 hn.2 with h1 | ⟨h1, h2⟩
    · exact .inl (.inl h1)
    · right
      have hc := hstep_cls w n h t
      simp only [Worker.step, Worker.good, Worker.budget, clsAt_pad hc, clsAt_nest hc]
      exact ⟨h1, h2⟩
  | dec t =>
    simp only [Worker.finished, not_or, Decidable.not_not] at hn
    rcases dstep_budget hh sup n ht hg hn.1 hn.2 with h1 | h1
    · exact .inl (.inl h1)
    · exact .inr h1

theorem isEnc_step {w : World} {sup : Suppliers} {n : Nat} {h : Heap} {t : Worker} : (t.step w sup n h).2.isEnc = t.isEnc := by
  cases t <;> rfl

theorem finished_run (n i : Nat) : ∀ (ops : List Op) (p : Proc), (∀ j, .call i j ∉ ops) → (p.thr i).finished → ((p.run n ops).thr i).finished
  | [], _, _, hf => hf
  | o :: os, p, hc, hf => by
    refine finished_run n i os (p.after n o) (fun j hj => hc j (List.mem_cons_of_mem _ hj)) ?_
    cases o with
    | new c => exact hf
    | newList => exact hf
    | set r f x => exact hf
    | put a xs => exact hf
    | services svc => exact hf
    | suppliers sup => exact hf
    | call j job =>
      simp only [Proc.after]
      split
      · rename_i h
        subst h
        exact absurd (List.mem_cons_self ..) (hc job)
      · exact hf
    | step j =>
      simp only [Proc.after]
      split
      · rename_i h
        subst h
        exact finished_step hf
      · exact hf

/-- Over a history in which thread `i` makes no further call, its steps use up the budget. -/
theorem history_budget (n i L : Nat) : ∀ (ops : List Op) (p : Proc), ProcOk p → Legal n p ops → (∀ j, .call i j ∉ ops) →
    ((p.thr i).isEnc = true → ∀ pre, pre <+: ops → ShortLists L (p.run n pre).h) → (p.thr i).good p.h →
    ((p.run n ops).thr i).finished
      ∨ ((p.run n ops).thr i).good (p.run n ops).h ∧ stepsOf i ops + ((p.run n ops).thr i).budget (p.run n ops).h L ≤ (p.thr i).budget p.h L
  | [], p, _, _, _, _, hf => by
    exact .inr ⟨hf, by simp [stepsOf, Proc.run]⟩
  | o :: os, p, hp, hl, hc, hL, hf => by
    obtain ⟨hp', hkeep⟩ := proc_after n hp o hl.1
    have hrun : p.run n (o :: os) = (p.after n o).run n os := rfl
    have hc' : ∀ j, .call i j ∉ os := fun j hj => hc j (List.mem_cons_of_mem _ hj)
    have hLrec : (p.after n o).thr i = p.thr i ∨ ((p.after n o).thr i).isEnc = (p.thr i).isEnc →
        ((p.after n o).thr i).isEnc = true → ∀ pre, pre <+: os → ShortLists L ((p.after n o).run n pre).h := by
      intro he h1 pre hpre
      refine hL ?_ (o :: pre) (List.cons_prefix_cons.mpr ⟨rfl, hpre⟩)
      rcases he with he | he
      · rw [← he]; exact h1
      · rw [← he]; exact h1
    -- the thread does nothing
    have idle : (p.after n o).thr i = p.thr i → stepsOf i (o :: os) = stepsOf i os →
        ((p.run n (o :: os)).thr i).finished
          ∨ ((p.run n (o :: os)).thr i).good (p.run n (o :: os)).h ∧ stepsOf i (o :: os) + ((p.run n (o :: os)).thr i).budget (p.run n (o :: os)).h L ≤ (p.thr i).budget p.h L := by
      intro h1 h2
      obtain ⟨g1, g2⟩ := good_keep hkeep (hp.thr i) L
      have := history_budget n i L os _ hp' hl.2 hc' (hLrec (.inl h1)) (by rw [h1]; exact g1 hf)
      rw [h1, g2] at this
      rw [hrun, h2]
      exact this
    cases o with
    | new c => exact idle rfl rfl
    | newList => exact idle rfl rfl
    | set r f x => exact idle rfl rfl
    | put a xs => exact idle rfl rfl
    | services svc => exact idle rfl rfl
    | suppliers sup => exact idle rfl rfl
    | call j job =>
      refine idle ?_ rfl
      simp only [Proc.after]
      split
      · rename_i h
        subst h
        exact absurd (List.mem_cons_self ..) (hc job)
      · rfl
    | step j =>
      by_cases hj : j = i
      · subst hj
        have hthr : (p.after n (.step j)).thr j = ((p.thr j).step ⟨p.svc, fun _ _ => none⟩ p.sup n p.h).2 := by simp [Proc.after]
        have hheap : (p.after n (.step j)).h = ((p.thr j).step ⟨p.svc, fun _ _ => none⟩ p.sup n p.h).1 := rfl
        have hst : stepsOf j (.step j :: os) = stepsOf j os + 1 := by simp [stepsOf]
        have hrec := hLrec (.inr (by rw [hthr]; exact isEnc_step))
        by_cases hfin : (p.thr j).finished
        · exact .inl (finished_run n j _ p hc hfin)
        · rcases good_step (w := ⟨p.svc, fun _ _ => none⟩) (sup := p.sup) (n := n) (L := L) hp.heap (hp.thr j) hf
            (fun h => hL h [] (List.nil_prefix)) hfin with h1 | ⟨h1, h2⟩
          · exact .inl (finished_run n j os _ hc' (by rw [hthr]; exact h1))
          · rw [← hthr, ← hheap] at h1 h2
            rcases history_budget n j L os _ hp' hl.2 hc' hrec h1 with h3 | ⟨h3, h4⟩
            · exact .inl h3
            · refine .inr ⟨h3, ?_⟩
              rw [hst, hrun]
              omega
      · refine idle ?_ ?_
        · simp only [Proc.after]
          rw [if_neg (Ne.symm hj)]
        · simp [stepsOf, hj]

end FinProto
