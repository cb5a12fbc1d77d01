import Verif.Spec.ConcurrentRegistry
import Verif.Proofs.Registry
/-
Helper lemmas on threads sharing the checksum registry.
-/
namespace FinProto

/-- `CACHE.put(s.algorithm(), s)`. -/
def regPut (r : Registry) (s : Service) : Registry := fun n => if n = s.algorithm then some s else r n

/-- The kinds of step. -/
inductive RegStep (st : RegSys) (i : Nat) : RegSys → Prop
  | idle (hm : (st.thr i).mid = none) (ht : (st.thr i).todo = []) : RegStep st i st
  | enter (s : Service) (cs : List RegCall) (hm : (st.thr i).mid = none) (ht : (st.thr i).todo = .registry s :: cs)
      (hn : st.map s.algorithm = none) : RegStep st i (st.setThr i ⟨cs, some s⟩)
  | refuse (s s0 : Service) (cs : List RegCall) (hm : (st.thr i).mid = none) (ht : (st.thr i).todo = .registry s :: cs)
      (hn : st.map s.algorithm = some s0) : RegStep st i ((st.setThr i ⟨cs, none⟩).ret i (.registry s) (.bool false))
  | put (s : Service) (hm : (st.thr i).mid = some s) :
      RegStep st i (({ st with map := regPut st.map s }.setThr i ⟨(st.thr i).todo, none⟩).ret i (.registry s) (.bool true))
  | remove (n : String) (cs : List RegCall) (hm : (st.thr i).mid = none) (ht : (st.thr i).todo = .remove n :: cs) :
      RegStep st i (({ st with map := Registry.remove st.map n }.setThr i ⟨cs, none⟩).ret i (.remove n) .unit)
  | clear (cs : List RegCall) (hm : (st.thr i).mid = none) (ht : (st.thr i).todo = .clear :: cs) :
      RegStep st i (({ st with map := Registry.clear st.map }.setThr i ⟨cs, none⟩).ret i .clear .unit)
  | get (n : String) (cs : List RegCall) (hm : (st.thr i).mid = none) (ht : (st.thr i).todo = .get n :: cs) :
      RegStep st i ((st.setThr i ⟨cs, none⟩).ret i (.get n) (.service (st.map n)))

theorem regStep (st : RegSys) (i : Nat) : RegStep st i (st.step i) := by
  unfold RegSys.step
  split
  · rename_i s hm
    exact RegStep.put s hm
  · rename_i hm ht; exact RegStep.idle hm ht
  · rename_i c cs hm ht
    cases c with
    | registry s =>
      simp only [RegSys.begin]
      cases hn : st.map s.algorithm with
      | none => exact RegStep.enter s cs hm ht hn
      | some s0 => exact RegStep.refuse s s0 cs hm ht hn
    | remove n => exact RegStep.remove n cs hm ht
    | clear => exact RegStep.clear cs hm ht
    | get n => exact RegStep.get n cs hm ht

theorem regRun_snoc (st : RegSys) (sched : List Nat) (i : Nat) : st.run (sched ++ [i]) = (st.run sched).step i := by
  simp [RegSys.run]

/-- Induction over a schedule from its end. -/
theorem sched_induction {P : List Nat → Prop} (nil : P []) (snoc : ∀ l a, P l → P (l ++ [a])) (l : List Nat) : P l := by
  suffices H : ∀ l : List Nat, P l.reverse by simpa using H l.reverse
  intro l
  induction l with
  | nil => exact nil
  | cons a l ih => rw [List.reverse_cons]; exact snoc _ _ ih

/-- A property of the start that every step keeps holds after every schedule. -/
theorem reg_invariant {P : RegSys → Prop} {st : RegSys} (h0 : P st) (hs : ∀ st i, P st → P (st.step i)) (sched : List Nat) :
    P (st.run sched) := by
  induction sched generalizing st with
  | nil => exact h0
  | cons i is ih => exact ih (hs st i h0)

@[simp] theorem setThr_thr (st : RegSys) (i j : Nat) (t : RegThread) : (st.setThr i t).thr j = if j = i then t else st.thr j := rfl
@[simp] theorem setThr_map (st : RegSys) (i : Nat) (t : RegThread) : (st.setThr i t).map = st.map := rfl
@[simp] theorem setThr_log (st : RegSys) (i : Nat) (t : RegThread) : (st.setThr i t).log = st.log := rfl
@[simp] theorem ret_thr (st : RegSys) (i j : Nat) (c : RegCall) (a : RegAnswer) : (st.ret i c a).thr j = st.thr j := rfl
@[simp] theorem ret_map (st : RegSys) (i : Nat) (c : RegCall) (a : RegAnswer) : (st.ret i c a).map = st.map := rfl
@[simp] theorem ret_log (st : RegSys) (i : Nat) (c : RegCall) (a : RegAnswer) : (st.ret i c a).log = st.log ++ [⟨i, c, a⟩] := rfl

/-- The call a thread is in the middle of. -/
def RegThread.current (t : RegThread) : List RegCall := t.mid.toList.map .registry

theorem doneBy_snoc (i j : Nat) (log : List RegDone) (c : RegCall) (a : RegAnswer) :
    doneBy i (log ++ [⟨j, c, a⟩]) = if j = i then doneBy i log ++ [c] else doneBy i log := by
  unfold doneBy
  by_cases h : j = i <;> simp [h]

/-- Each thread works through its program in order. -/
theorem reg_program (r : Registry) (prog : Nat → List RegCall) (sched : List Nat) (i : Nat) :
    doneBy i ((RegSys.start r prog).run sched).log ++ (((RegSys.start r prog).run sched).thr i).current
      ++ (((RegSys.start r prog).run sched).thr i).todo = prog i := by
  refine reg_invariant (P := fun st => doneBy i st.log ++ (st.thr i).current ++ (st.thr i).todo = prog i) ?_ ?_ sched
  · rfl
  · intro st j h
    obtain ⟨st', e⟩ : ∃ st', st' = st.step j := ⟨_, rfl⟩
    have hst := regStep st j
    rw [← e] at hst ⊢
    clear e
    by_cases hij : i = j
    · subst hij
      cases hst with
      | idle => exact h
      | put s hm => simp [doneBy_snoc, RegThread.current, hm] at h ⊢; exact h
      | _ => simp_all [doneBy_snoc, RegThread.current]
    · have hji : ¬ j = i := fun e => hij e.symm
      cases hst <;> (try simp only [ret_thr, setThr_thr, ret_log, setThr_log, doneBy_snoc, if_neg hij, if_neg hji]) <;> exact h

/-- What a thread is in the middle of belongs to its program. -/
theorem reg_mid_mem {r : Registry} {prog : Nat → List RegCall} {sched : List Nat} {i : Nat} {s : Service}
    (h : (((RegSys.start r prog).run sched).thr i).mid = some s) : RegCall.registry s ∈ prog i := by
  rw [← reg_program r prog sched i]
  simp [RegThread.current, h]

theorem reg_todo_mem {r : Registry} {prog : Nat → List RegCall} {sched : List Nat} {i : Nat} {c : RegCall}
    (h : c ∈ (((RegSys.start r prog).run sched).thr i).todo) : c ∈ prog i := by
  rw [← reg_program r prog sched i]
  simp [h]

theorem reg_log_mem {r : Registry} {prog : Nat → List RegCall} {sched : List Nat} {d : RegDone}
    (h : d ∈ ((RegSys.start r prog).run sched).log) : d.call ∈ prog d.thread := by
  rw [← reg_program r prog sched d.thread]
  simp only [List.mem_append]
  exact Or.inl (Or.inl (List.mem_map.2 ⟨d, List.mem_filter.2 ⟨h, by simp⟩, rfl⟩))

theorem sequential_snoc {past : List RegCall} {log : List RegDone} {d : RegDone} (h : Sequential past log)
    (hd : d.answer = d.call.expected (past ++ log.map (·.call))) : Sequential past (log ++ [d]) := by
  intro before x after e
  rcases List.eq_nil_or_concat after with rfl | ⟨after', y, rfl⟩
  · obtain ⟨rfl, e2⟩ := List.append_inj' e rfl
    simp only [List.cons.injEq, and_true] at e2
    subst e2
    exact hd
  · have e' : log ++ [d] = (before ++ x :: after') ++ [y] := by simpa using e
    obtain ⟨rfl, -⟩ := List.append_inj' e' rfl
    exact h before x after' rfl

/-- A registered name stays registered while nothing is removed. -/
theorem registeredAfter_stays (h : List RegCall) (s : Service) (rest : List RegCall) (hr : ∀ c ∈ rest, c.resets s.algorithm = false) :
    (registeredAfter (h ++ .registry s :: rest) s.algorithm).isSome := by
  suffices H : ∀ l : List RegCall, (∀ c ∈ l, c.resets s.algorithm = false) →
      (registeredAfter (h ++ .registry s :: l.reverse) s.algorithm).isSome by
    simpa using H rest.reverse (fun c hc => hr c (by simpa using hc))
  intro l
  induction l with
  | nil =>
    intro _
    rw [List.reverse_nil, registeredAfter_snoc]
    simp only [RegCall.resets, RegCall.offers, if_true]
    cases registeredAfter h s.algorithm <;> rfl
  | cons c l ih =>
    intro hl
    have := ih (fun c hc => hl c (List.mem_cons_of_mem _ hc))
    have e : h ++ RegCall.registry s :: (c :: l).reverse = (h ++ RegCall.registry s :: l.reverse) ++ [c] := by simp
    rw [e, registeredAfter_snoc, hl c List.mem_cons_self]
    obtain ⟨x, hx⟩ := Option.isSome_iff_exists.1 this
    simp [hx]

/-- One after the other, a name cannot be registered twice without a removal in between. -/
theorem sequential_once {past : List RegCall} {log : List RegDone} (h : Sequential past log)
    (hno : ∀ d ∈ log, ∀ n, d.call.resets n = false) {before after : List RegDone} {d d' : RegDone}
    (e : log = before ++ d :: after) (hd' : d' ∈ before) {s s' : Service} (hs : d.call = .registry s) (hs' : d'.call = .registry s')
    (ha : s'.algorithm = s.algorithm) : d.answer = .bool false := by
  rw [h before d after e, hs]
  obtain ⟨b1, b2, rfl⟩ := List.append_of_mem hd'
  simp only [RegCall.expected, List.map_append, List.map_cons, hs']
  have := registeredAfter_stays (past ++ b1.map (·.call)) s' (b2.map (·.call)) (by
    intro c hc
    obtain ⟨x, hx, rfl⟩ := List.mem_map.1 hc
    exact hno x (by rw [e]; simp [hx]) _)
  rw [ha, List.append_assoc] at this
  cases hreg : registeredAfter (past ++ (b1.map (·.call) ++ RegCall.registry s' :: b2.map (·.call))) s.algorithm with
  | none => rw [hreg] at this; cases this
  | some x => rfl

/-- The state of the map is the one after the calls in the log; nobody else can be registering what a thread is about to put. -/
structure RegInv (past : List RegCall) (st : RegSys) : Prop where
  map : ∀ n, st.map n = registeredAfter (past ++ st.log.map (·.call)) n
  mid : ∀ i s, (st.thr i).mid = some s → st.map s.algorithm = none
  seq : Sequential past st.log

theorem reg_inv (past : List RegCall) (r : Registry) (hr : ∀ n, r n = registeredAfter past n) (prog : Nat → List RegCall)
    (hown : OneOwner prog) (sched : List Nat) : RegInv past ((RegSys.start r prog).run sched) := by
  induction sched using sched_induction with
  | nil =>
    refine ⟨?_, ?_, ?_⟩
    · intro n; simpa [RegSys.run, RegSys.start] using hr n
    · intro i s h; cases h
    · intro b d a e; simp [RegSys.run, RegSys.start] at e
  | snoc sched j ih =>
    rw [regRun_snoc]
    have hmem := @reg_mid_mem r prog sched
    have htodo := @reg_todo_mem r prog sched
    obtain ⟨st, est⟩ : ∃ st, st = (RegSys.start r prog).run sched := ⟨_, rfl⟩
    rw [← est] at ih hmem htodo ⊢
    obtain ⟨st', e⟩ : ∃ st', st' = st.step j := ⟨_, rfl⟩
    have hst := regStep st j
    rw [← e] at hst ⊢
    have hmap := ih.map
    cases hst with
    | idle => exact ih
    | enter s cs hm ht hnone =>
      refine ⟨hmap, ?_, ih.seq⟩
      intro i s' h
      simp only [setThr_thr] at h
      split at h
      · cases h; exact hnone
      · exact ih.mid i s' h
    | refuse s s0 cs hm ht hsome =>
      refine ⟨?_, ?_, ?_⟩
      · intro m
        simp only [ret_map, setThr_map, ret_log, setThr_log, List.map_append, List.map_cons, List.map_nil]
        rw [← List.append_assoc, registeredAfter_snoc, ← hmap]
        simp only [RegCall.resets, RegCall.offers]
        by_cases hm' : s.algorithm = m
        · subst hm'; simp [hsome]
        · simp only [if_neg hm']; cases st.map m <;> rfl
      · intro i s' h
        simp only [ret_thr, setThr_thr] at h
        split at h
        · cases h
        · exact ih.mid i s' h
      · exact sequential_snoc ih.seq (by simp only [RegCall.expected, ← hmap, setThr_log]; rw [hsome]; rfl)
    | put s hm =>
      have hnone := ih.mid j s hm
      refine ⟨?_, ?_, ?_⟩
      · intro m
        simp only [ret_map, setThr_map, ret_log, setThr_log, List.map_append, List.map_cons, List.map_nil]
        rw [← List.append_assoc, registeredAfter_snoc, ← hmap]
        simp only [RegCall.resets, RegCall.offers, regPut]
        by_cases hm' : m = s.algorithm
        · subst hm'; simp [hnone]
        · have hne : ¬ s.algorithm = m := fun e => hm' e.symm
          simp only [if_neg hm', if_neg hne]; cases st.map m <;> rfl
      · intro i s' h
        simp only [ret_thr, setThr_thr] at h
        split at h
        · cases h
        · rename_i hij
          simp only [ret_map, setThr_map, regPut]
          have hne : s'.algorithm ≠ s.algorithm := fun e => hij (hown i j s' s (hmem h) (hmem hm) e)
          rw [if_neg hne]
          exact ih.mid i s' h
      · exact sequential_snoc ih.seq (by simp only [RegCall.expected, ← hmap, setThr_log]; rw [hnone]; rfl)
    | remove name cs hm ht =>
      refine ⟨?_, ?_, ?_⟩
      · intro m
        simp only [ret_map, setThr_map, ret_log, setThr_log, List.map_append, List.map_cons, List.map_nil]
        rw [← List.append_assoc, registeredAfter_snoc, ← hmap]
        simp only [RegCall.resets, RegCall.offers, Registry.remove]
        by_cases hm' : m = name
        · subst hm'; simp
        · have hne : ¬ name = m := fun e => hm' e.symm
          simp only [if_neg hm', beq_iff_eq, if_neg hne]; cases st.map m <;> rfl
      · intro i s' h
        simp only [ret_thr, setThr_thr] at h
        split at h
        · cases h
        · simp only [ret_map, setThr_map, Registry.remove]
          split
          · rfl
          · exact ih.mid i s' h
      · exact sequential_snoc ih.seq rfl
    | clear cs hm ht =>
      refine ⟨?_, ?_, ?_⟩
      · intro m
        simp only [ret_map, setThr_map, ret_log, setThr_log, List.map_append, List.map_cons, List.map_nil]
        rw [← List.append_assoc, registeredAfter_snoc]
        rfl
      · intro i s' h; rfl
      · exact sequential_snoc ih.seq rfl
    | get name cs hm ht =>
      refine ⟨?_, ?_, ?_⟩
      · intro m
        simp only [ret_map, setThr_map, ret_log, setThr_log, List.map_append, List.map_cons, List.map_nil]
        rw [← List.append_assoc, registeredAfter_snoc, ← hmap]
        simp only [RegCall.resets, RegCall.offers]
        cases st.map m <;> rfl
      · intro i s' h
        simp only [ret_thr, setThr_thr] at h
        split at h
        · cases h
        · exact ih.mid i s' h
      · exact sequential_snoc ih.seq (by simp only [RegCall.expected, ← hmap, setThr_log])

/-- Work left for a thread, in steps. -/
def RegThread.work (t : RegThread) : Nat := 2 * t.todo.length + t.mid.toList.length

theorem reg_work_step (st : RegSys) (i j : Nat) : ((st.step j).thr i).work ≤ (st.thr i).work - (if j = i then 1 else 0) := by
  obtain ⟨st', e⟩ : ∃ st', st' = st.step j := ⟨_, rfl⟩
  have hst := regStep st j
  rw [← e] at hst ⊢
  clear e
  by_cases hij : i = j
  · subst hij
    cases hst with
    | idle hm ht => simp [RegThread.work, hm, ht]
    | put s hm => simp [RegThread.work, hm]
    | enter s cs hm ht => simp [RegThread.work, hm, ht]; omega
    | refuse s s0 cs hm ht => simp [RegThread.work, hm, ht]; omega
    | remove n cs hm ht => simp [RegThread.work, hm, ht]; omega
    | clear cs hm ht => simp [RegThread.work, hm, ht]; omega
    | get n cs hm ht => simp [RegThread.work, hm, ht]; omega
  · have hji : ¬ j = i := fun e => hij e.symm
    cases hst <;> simp [hij, hji]

theorem reg_work (st : RegSys) (sched : List Nat) (i : Nat) : ((st.run sched).thr i).work ≤ (st.thr i).work - sched.count i := by
  induction sched generalizing st with
  | nil => simp [RegSys.run]
  | cons j js ih =>
    have h1 := ih (st.step j)
    have h2 := reg_work_step st i j
    have h3 : st.run (j :: js) = (st.step j).run js := rfl
    rw [h3, List.count_cons]
    by_cases hj : j = i
    · simp only [hj, beq_self_eq_true, if_true] at h1 h2 ⊢; omega
    · have : (j == i) = false := by simpa using hj
      simp only [this, hj, if_false, Bool.false_eq_true] at h1 h2 ⊢; omega

/-- What is found under a name has that name and was registered by somebody. -/
theorem reg_origin (r : Registry) (hr : ∀ n s, r n = some s → s.algorithm = n) (prog : Nat → List RegCall) (sched : List Nat) :
    (∀ n s, ((RegSys.start r prog).run sched).map n = some s →
        s.algorithm = n ∧ (r n = some s ∨ ∃ j, RegCall.registry s ∈ prog j))
      ∧ (∀ d ∈ ((RegSys.start r prog).run sched).log, ∀ n s, d.call = .get n → d.answer = .service (some s) →
        s.algorithm = n ∧ (r n = some s ∨ ∃ j, RegCall.registry s ∈ prog j)) := by
  induction sched using sched_induction with
  | nil =>
    refine ⟨fun n s h => ⟨hr n s h, Or.inl h⟩, ?_⟩
    intro d hd; simp [RegSys.run, RegSys.start] at hd
  | snoc sched j ih =>
    rw [regRun_snoc]
    have hmem := @reg_mid_mem r prog sched
    obtain ⟨st, est⟩ : ∃ st, st = (RegSys.start r prog).run sched := ⟨_, rfl⟩
    rw [← est] at ih hmem ⊢
    obtain ⟨st', e⟩ : ∃ st', st' = st.step j := ⟨_, rfl⟩
    have hst := regStep st j
    rw [← e] at hst ⊢
    clear e
    have hlog : ∀ c a, (∀ n s, c = .get n → a = RegAnswer.service (some s) → s.algorithm = n ∧ (r n = some s ∨ ∃ j, RegCall.registry s ∈ prog j)) →
        ∀ d ∈ st.log ++ [⟨j, c, a⟩], ∀ n s, d.call = .get n → d.answer = .service (some s) →
          s.algorithm = n ∧ (r n = some s ∨ ∃ j, RegCall.registry s ∈ prog j) := by
      intro c a h d hd
      rcases List.mem_append.1 hd with hd | hd
      · exact ih.2 d hd
      · obtain rfl := List.mem_singleton.1 hd
        exact h
    cases hst with
    | idle => exact ih
    | enter s cs hm ht hnone => exact ih
    | refuse s s0 cs hm ht hsome => exact ⟨ih.1, hlog _ _ (by intro n s h; cases h)⟩
    | put s hm =>
      refine ⟨?_, hlog _ _ (by intro n s h; cases h)⟩
      intro n s' h
      simp only [ret_map, setThr_map, regPut] at h
      split at h
      · cases h; rename_i he; subst he; exact ⟨rfl, Or.inr ⟨j, hmem hm⟩⟩
      · exact ih.1 n s' h
    | remove name cs hm ht =>
      refine ⟨?_, hlog _ _ (by intro n s h; cases h)⟩
      intro n s' h
      simp only [ret_map, setThr_map, Registry.remove] at h
      split at h
      · cases h
      · exact ih.1 n s' h
    | clear cs hm ht =>
      refine ⟨?_, hlog _ _ (by intro n s h; cases h)⟩
      intro n s' h; cases h
    | get name cs hm ht =>
      refine ⟨ih.1, hlog _ _ ?_⟩
      intro n s h1 h2
      cases h1
      exact ih.1 _ s (by injection h2)

/-- Without removals: who has returned from `registry` has made the name known for good, and finds it out. -/
structure RegKeep (st : RegSys) : Prop where
  known : ∀ d ∈ st.log, ∀ s, d.call = .registry s → (st.map s.algorithm).isSome
  found : ∀ before d after, st.log = before ++ d :: after → ∀ n, d.call = .get n →
    (∃ d' ∈ before, ∃ s, d'.call = .registry s ∧ s.algorithm = n) → ∃ s, d.answer = .service (some s)
  refused : ∀ before d after, st.log = before ++ d :: after → ∀ s, d.call = .registry s →
    (∃ d' ∈ before, d'.thread = d.thread ∧ ∃ s', d'.call = .registry s' ∧ s'.algorithm = s.algorithm) → d.answer = .bool false
  mid : ∀ i s, (st.thr i).mid = some s → ∀ d ∈ st.log, d.thread = i → ∀ s', d.call = .registry s' → s'.algorithm ≠ s.algorithm

theorem split_snoc {log before after : List RegDone} {x d : RegDone} (e : log ++ [x] = before ++ d :: after) :
    (after = [] ∧ before = log ∧ d = x) ∨ ∃ after', log = before ++ d :: after' := by
  rcases List.eq_nil_or_concat after with rfl | ⟨after', y, rfl⟩
  · obtain ⟨rfl, e2⟩ := List.append_inj' e rfl
    simp only [List.cons.injEq, and_true] at e2
    exact Or.inl ⟨rfl, rfl, e2.symm⟩
  · have e' : log ++ [x] = (before ++ d :: after') ++ [y] := by simpa using e
    obtain ⟨rfl, -⟩ := List.append_inj' e' rfl
    exact Or.inr ⟨after', rfl⟩

theorem regKeep_ret {st st' : RegSys} (h : RegKeep st) (i : Nat) (c : RegCall) (a : RegAnswer) (m : Registry) (cs : List RegCall)
    (hst : st' = ({ st with map := m }.setThr i ⟨cs, none⟩).ret i c a)
    (hmap : ∀ n, (st.map n).isSome → (m n).isSome)
    (hreg : ∀ s, c = .registry s → (m s.algorithm).isSome)
    (hget : ∀ n, c = .get n → (st.map n).isSome → ∃ s, a = .service (some s))
    (hans : ∀ s, c = .registry s → (∃ d ∈ st.log, d.thread = i ∧ ∃ s', d.call = .registry s' ∧ s'.algorithm = s.algorithm) →
      a = .bool false) : RegKeep st' := by
  subst hst
  refine ⟨?_, ?_, ?_, ?_⟩
  · intro d hd s hc
    simp only [ret_log, setThr_log] at hd
    rcases List.mem_append.1 hd with hd | hd
    · exact hmap _ (h.known d hd s hc)
    · obtain rfl := List.mem_singleton.1 hd
      exact hreg s hc
  · intro before d after e n hc hb
    simp only [ret_log, setThr_log] at e
    rcases split_snoc e with ⟨rfl, rfl, rfl⟩ | ⟨after', e'⟩
    · obtain ⟨d', hd', s, hs, rfl⟩ := hb
      exact hget _ hc (h.known d' hd' s hs)
    · exact h.found before d after' e' n hc hb
  · intro before d after e s hc hb
    simp only [ret_log, setThr_log] at e
    rcases split_snoc e with ⟨rfl, rfl, rfl⟩ | ⟨after', e'⟩
    · exact hans s hc hb
    · exact h.refused before d after' e' s hc hb
  · intro j s hm d hd hdj s' hc
    simp only [ret_thr, setThr_thr] at hm
    split at hm
    · cases hm
    · rename_i hji
      simp only [ret_log, setThr_log] at hd
      rcases List.mem_append.1 hd with hd | hd
      · exact h.mid j s hm d hd hdj s' hc
      · obtain rfl := List.mem_singleton.1 hd
        exact absurd hdj.symm hji

theorem reg_keep (r : Registry) (prog : Nat → List RegCall) (hno : NoResets prog) (sched : List Nat) :
    RegKeep ((RegSys.start r prog).run sched) := by
  induction sched using sched_induction with
  | nil =>
    refine ⟨?_, ?_, ?_, ?_⟩
    · intro d hd; simp [RegSys.run, RegSys.start] at hd
    · intro b d a e; simp [RegSys.run, RegSys.start] at e
    · intro b d a e; simp [RegSys.run, RegSys.start] at e
    · intro i s h; cases h
  | snoc sched j ih =>
    rw [regRun_snoc]
    have htodo := @reg_todo_mem r prog sched
    obtain ⟨st, est⟩ : ∃ st, st = (RegSys.start r prog).run sched := ⟨_, rfl⟩
    rw [← est] at ih htodo ⊢
    obtain ⟨st', e⟩ : ∃ st', st' = st.step j := ⟨_, rfl⟩
    have hst := regStep st j
    rw [← e] at hst ⊢
    clear e
    cases hst with
    | idle => exact ih
    | enter s cs hm ht hnone =>
      refine ⟨ih.known, ih.found, ih.refused, ?_⟩
      intro i s1 h d hd hdi s' hc
      simp only [setThr_thr] at h
      split at h
      · cases h
        intro he
        have := ih.known d hd s' hc
        rw [he, hnone] at this
        cases this
      · exact ih.mid i s1 h d hd hdi s' hc
    | refuse s s0 cs hm ht hsome =>
      refine regKeep_ret ih j _ _ st.map cs rfl (fun _ h => h) ?_ (by intro n h; cases h) (fun _ _ _ => rfl)
      intro s' h; cases h; rw [hsome]; rfl
    | put s hm =>
      refine regKeep_ret ih j _ _ _ _ rfl ?_ ?_ (by intro n h; cases h) ?_
      · intro n h; simp only [regPut]; split
        · rfl
        · exact h
      · intro s' h; cases h; simp [regPut]
      · intro s' h hb
        cases h
        obtain ⟨d, hd, hdj, s'', hc, he⟩ := hb
        exact absurd he (ih.mid j s hm d hd hdj s'' hc)
    | remove name cs hm ht =>
      have := hno j name (.remove name) (htodo (by rw [ht]; simp))
      simp [RegCall.resets] at this
    | clear cs hm ht =>
      have := hno j "" .clear (htodo (by rw [ht]; simp))
      simp [RegCall.resets] at this
    | get name cs hm ht =>
      refine regKeep_ret ih j _ _ st.map cs rfl (fun _ h => h) (by intro n h; cases h) ?_ (by intro n h; cases h)
      intro n h hs
      cases h
      obtain ⟨s, hs⟩ := Option.isSome_iff_exists.1 hs
      exact ⟨s, by rw [hs]⟩

end FinProto
