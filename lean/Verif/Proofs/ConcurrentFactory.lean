import Verif.Spec.ConcurrentFactory
import Verif.Proofs.ConcurrentRegistry
import Verif.Props.Factory
/-
Helper lemmas on threads sharing the message factories.
-/
namespace FinProto

/-- `reverseMap.put(cls, t)`. -/
def revPut (F : Factories) (cls : Cls) (t : BitVec 32) : Factories :=
  { F with rev := fun c => if c = cls then some t else F.rev c }

/-- The kinds of step: nothing left to do; first half of an SSE `register`; its second half; any other call. -/
inductive FacStep (st : FacSys) (i : Nat) : FacSys → Prop
  | idle (hm : (st.thr i).mid = none) (ht : (st.thr i).todo = []) : FacStep st i st
  | first (c : Cls) (t : BitVec 32) (s : Option Val) (cs : List FacCall) (hm : (st.thr i).mid = none)
      (ht : (st.thr i).todo = .change (.registerSse c t s) :: cs) :
      FacStep st i (st.next i ⟨cs, some (c, t, s)⟩ (st.maps.put .sse_SseBinary (.int t) s) [])
  | second (c : Cls) (t : BitVec 32) (s : Option Val) (hm : (st.thr i).mid = some (c, t, s)) :
      FacStep st i (st.next i ⟨(st.thr i).todo, none⟩ (revPut st.maps c t) [⟨i, .change (.registerSse c t s), .unit⟩])
  | register (f : Fac) (k : Key) (s : Option Val) (cs : List FacCall) (hm : (st.thr i).mid = none)
      (ht : (st.thr i).todo = .change (.register f k s) :: cs) :
      FacStep st i (st.next i ⟨cs, none⟩ (st.maps.put f k s) [⟨i, .change (.register f k s), .unit⟩])
  | remove (f : Fac) (k : Key) (cs : List FacCall) (hm : (st.thr i).mid = none)
      (ht : (st.thr i).todo = .change (.remove f k) :: cs) :
      FacStep st i (st.next i ⟨cs, none⟩ (st.maps.put f k none) [⟨i, .change (.remove f k), .bool (st.maps.map f k).isSome⟩])
  | create (f : Fac) (k : Key) (cs : List FacCall) (hm : (st.thr i).mid = none) (ht : (st.thr i).todo = .create f k :: cs) :
      FacStep st i (st.next i ⟨cs, none⟩ st.maps [⟨i, .create f k, .created (st.maps.create f k)⟩])
  | getMsgType (c : Cls) (cs : List FacCall) (hm : (st.thr i).mid = none) (ht : (st.thr i).todo = .getMsgType c :: cs) :
      FacStep st i (st.next i ⟨cs, none⟩ st.maps [⟨i, .getMsgType c, .type (st.maps.rev c)⟩])

theorem facStep (st : FacSys) (i : Nat) : FacStep st i (st.step i) := by
  unfold FacSys.step
  split
  · rename_i c t s hm; exact FacStep.second c t s hm
  · rename_i hm ht; exact FacStep.idle hm ht
  · rename_i c cs hm ht
    cases c with
    | change op =>
      cases op with
      | register f k s => exact FacStep.register f k s cs hm ht
      | registerSse c t s => exact FacStep.first c t s cs hm ht
      | remove f k => exact FacStep.remove f k cs hm ht
    | create f k => exact FacStep.create f k cs hm ht
    | getMsgType c => exact FacStep.getMsgType c cs hm ht

theorem facRun_snoc (st : FacSys) (sched : List Nat) (i : Nat) : st.run (sched ++ [i]) = (st.run sched).step i := by
  simp [FacSys.run]

@[simp] theorem next_thr (st : FacSys) (i j : Nat) (t : FacThread) (F : Factories) (ds : List FacDone) :
    (st.next i t F ds).thr j = if j = i then t else st.thr j := rfl
@[simp] theorem next_maps (st : FacSys) (i : Nat) (t : FacThread) (F : Factories) (ds : List FacDone) :
    (st.next i t F ds).maps = F := rfl
@[simp] theorem next_log (st : FacSys) (i : Nat) (t : FacThread) (F : Factories) (ds : List FacDone) :
    (st.next i t F ds).log = st.log ++ ds := rfl

/-- The call a thread is in the middle of. -/
def FacThread.current (t : FacThread) : List FacCall := t.mid.toList.map fun m => .change (.registerSse m.1 m.2.1 m.2.2)

theorem facDoneBy_snoc (i j : Nat) (log : List FacDone) (c : FacCall) (a : FacAnswer) :
    facDoneBy i (log ++ [⟨j, c, a⟩]) = if j = i then facDoneBy i log ++ [c] else facDoneBy i log := by
  unfold facDoneBy
  by_cases h : j = i <;> simp [h]

theorem fac_program (F : Factories) (prog : Nat → List FacCall) (sched : List Nat) (i : Nat) :
    facDoneBy i ((FacSys.start F prog).run sched).log ++ (((FacSys.start F prog).run sched).thr i).current
      ++ (((FacSys.start F prog).run sched).thr i).todo = prog i := by
  induction sched using sched_induction with
  | nil => rfl
  | snoc sched j h =>
    rw [facRun_snoc]
    obtain ⟨st, est⟩ : ∃ st, st = (FacSys.start F prog).run sched := ⟨_, rfl⟩
    rw [← est] at h ⊢
    obtain ⟨st', e⟩ : ∃ st', st' = st.step j := ⟨_, rfl⟩
    have hst := facStep st j
    rw [← e] at hst ⊢
    clear e est
    by_cases hij : i = j
    · subst hij
      cases hst with
      | idle => exact h
      | second c t s hm => simp [facDoneBy_snoc, FacThread.current, hm] at h ⊢; exact h
      | first c t s cs hm ht => simp [FacThread.current, hm, ht] at h ⊢; exact h
      | register f k s cs hm ht => simp [facDoneBy_snoc, FacThread.current, hm, ht] at h ⊢; exact h
      | remove f k cs hm ht => simp [facDoneBy_snoc, FacThread.current, hm, ht] at h ⊢; exact h
      | create f k cs hm ht => simp [facDoneBy_snoc, FacThread.current, hm, ht] at h ⊢; exact h
      | getMsgType c cs hm ht => simp [facDoneBy_snoc, FacThread.current, hm, ht] at h ⊢; exact h
    · have hji : ¬ j = i := fun e => hij e.symm
      cases hst <;> (try simp only [next_thr, next_log, List.append_nil, facDoneBy_snoc, if_neg hij, if_neg hji]) <;> exact h

theorem fac_mid_mem {F : Factories} {prog : Nat → List FacCall} {sched : List Nat} {i : Nat} {c : Cls} {t : BitVec 32} {s : Option Val}
    (h : (((FacSys.start F prog).run sched).thr i).mid = some (c, t, s)) : FacCall.change (.registerSse c t s) ∈ prog i := by
  rw [← fac_program F prog sched i]
  simp [FacThread.current, h]

theorem fac_todo_mem {F : Factories} {prog : Nat → List FacCall} {sched : List Nat} {i : Nat} {c : FacCall}
    (h : c ∈ (((FacSys.start F prog).run sched).thr i).todo) : c ∈ prog i := by
  rw [← fac_program F prog sched i]
  simp [h]

/-! ### A type that was announced can be created -/

structure FacPub (st : FacSys) : Prop where
  mid : ∀ i c t s, (st.thr i).mid = some (c, t, s) → (st.maps.map .sse_SseBinary (.int t)).isSome
  rev : ∀ c t, st.maps.rev c = some t → (st.maps.map .sse_SseBinary (.int t)).isSome
  told : ∀ d ∈ st.log, ∀ c t, d.call = .getMsgType c → d.answer = .type (some t) → (st.maps.map .sse_SseBinary (.int t)).isSome
  log : ∀ before d after, st.log = before ++ d :: after → ∀ t, d.call = .create .sse_SseBinary (.int t) →
    (∃ d' ∈ before, ∃ c, d'.call = .getMsgType c ∧ d'.answer = .type (some t)) → ∃ v, d.answer = .created (.ok v)

theorem fac_split_snoc {log before after : List FacDone} {x d : FacDone} (e : log ++ [x] = before ++ d :: after) :
    (after = [] ∧ before = log ∧ d = x) ∨ ∃ after', log = before ++ d :: after' := by
  rcases List.eq_nil_or_concat after with rfl | ⟨after', y, rfl⟩
  · obtain ⟨rfl, e2⟩ := List.append_inj' e rfl
    simp only [List.cons.injEq, and_true] at e2
    exact Or.inl ⟨rfl, rfl, e2.symm⟩
  · have e' : log ++ [x] = (before ++ d :: after') ++ [y] := by simpa using e
    obtain ⟨rfl, -⟩ := List.append_inj' e' rfl
    exact Or.inr ⟨after', rfl⟩

/-- A step that keeps the suppliers and returns one call. -/
theorem facPub_ret {st : FacSys} (h : FacPub st) (i : Nat) (F : Factories) (cs : List FacCall) (c : FacCall) (a : FacAnswer)
    (hmap : ∀ t, (st.maps.map .sse_SseBinary (.int t)).isSome → (F.map .sse_SseBinary (.int t)).isSome)
    (hrev : ∀ c t, F.rev c = some t → (F.map .sse_SseBinary (.int t)).isSome)
    (htype : ∀ k t, c = .getMsgType k → a = .type (some t) → (F.map .sse_SseBinary (.int t)).isSome)
    (hcr : ∀ t, c = .create .sse_SseBinary (.int t) → (st.maps.map .sse_SseBinary (.int t)).isSome → ∃ v, a = .created (.ok v)) :
    FacPub (st.next i ⟨cs, none⟩ F [⟨i, c, a⟩]) := by
  refine ⟨?_, hrev, ?_, ?_⟩
  · intro j c' t s hm
    simp only [next_thr] at hm
    split at hm
    · cases hm
    · exact hmap _ (h.mid j c' t s hm)
  · intro d hd k t hc ha
    simp only [next_log] at hd
    rcases List.mem_append.1 hd with hd | hd
    · exact hmap _ (h.told d hd k t hc ha)
    · obtain rfl := List.mem_singleton.1 hd
      exact htype k t hc ha
  · intro before d after e t hc hb
    simp only [next_log] at e
    rcases fac_split_snoc e with ⟨rfl, rfl, rfl⟩ | ⟨after', e'⟩
    · obtain ⟨d', hd', k, hk, ha⟩ := hb
      exact hcr t hc (h.told d' hd' k t hk ha)
    · exact h.log before d after' e' t hc hb

theorem put_isSome {F : Factories} {f : Fac} {k : Key} {s : Option Val} {t : BitVec 32}
    (hs : f = .sse_SseBinary → k = .int t → s.isSome) (h : (F.map .sse_SseBinary (.int t)).isSome) :
    ((F.put f k s).map .sse_SseBinary (.int t)).isSome := by
  simp only [Factories.put]
  split
  · rename_i he; exact hs he.1.symm he.2.symm
  · exact h

theorem fac_pub (F : Factories) (hF : ∀ c t, F.rev c = some t → (F.map .sse_SseBinary (.int t)).isSome)
    (prog : Nat → List FacCall) (hno : ∀ i op, FacCall.change op ∈ prog i → ∀ t, op.keeps .sse_SseBinary (.int t)) (sched : List Nat) :
    FacPub ((FacSys.start F prog).run sched) := by
  induction sched using sched_induction with
  | nil =>
    refine ⟨?_, hF, ?_, ?_⟩
    · intro i c t s h; cases h
    · intro d hd; simp [FacSys.run, FacSys.start] at hd
    · intro b d a e; simp [FacSys.run, FacSys.start] at e
  | snoc sched j ih =>
    rw [facRun_snoc]
    have htodo := @fac_todo_mem F prog sched
    have hmem := @fac_mid_mem F prog sched
    obtain ⟨st, est⟩ : ∃ st, st = (FacSys.start F prog).run sched := ⟨_, rfl⟩
    rw [← est] at ih htodo hmem ⊢
    obtain ⟨st', e⟩ : ∃ st', st' = st.step j := ⟨_, rfl⟩
    have hst := facStep st j
    rw [← e] at hst ⊢
    clear e est
    cases hst with
    | idle => exact ih
    | first c t s cs hm ht =>
      have hs : s.isSome := by
        have := hno j _ (htodo (i := j) (by rw [ht]; exact List.mem_cons_self)) t
        cases s with
        | some v => rfl
        | none => simp [FacOp.keeps, FacOp.stores] at this
      have hput : ∀ t', (st.maps.map .sse_SseBinary (.int t')).isSome →
          ((st.maps.put .sse_SseBinary (.int t) s).map .sse_SseBinary (.int t')).isSome :=
        fun t' h => put_isSome (fun _ _ => hs) h
      refine ⟨?_, ?_, ?_, ?_⟩
      · intro i c' t' s' h
        simp only [next_thr] at h
        split at h
        · cases h; simpa [Factories.put] using hs
        · exact hput _ (ih.mid i c' t' s' h)
      · intro c' t' h; exact hput _ (ih.rev c' t' h)
      · intro d hd c' t' h1 h2
        simp only [next_log, List.append_nil] at hd
        exact hput _ (ih.told d hd c' t' h1 h2)
      · simpa only [next_log, List.append_nil] using ih.log
    | second c t s hm =>
      refine facPub_ret ih j _ _ _ _ (fun t h => h) ?_ (by intro k t h; cases h) (by intro t h; cases h)
      intro c' t' h
      simp only [revPut] at h
      split at h
      · cases h; exact ih.mid j c t s hm
      · exact ih.rev c' t' h
    | register f k s cs hm ht =>
      have hs : ∀ t, f = .sse_SseBinary → k = .int t → s.isSome := by
        rintro t rfl rfl
        have := hno j _ (htodo (i := j) (by rw [ht]; exact List.mem_cons_self)) t
        cases s with
        | some v => rfl
        | none => simp [FacOp.keeps, FacOp.stores] at this
      exact facPub_ret ih j _ _ _ _ (fun t h => put_isSome (hs t) h) (fun c t h => put_isSome (hs t) (ih.rev c t h))
        (by intro k t h; cases h) (by intro t h; cases h)
    | remove f k cs hm ht =>
      have hs : ∀ t, f = .sse_SseBinary → k = .int t → (none : Option Val).isSome := by
        rintro t rfl rfl
        have := hno j _ (htodo (i := j) (by rw [ht]; exact List.mem_cons_self)) t
        simp [FacOp.keeps, FacOp.stores] at this
      exact facPub_ret ih j _ _ _ _ (fun t h => put_isSome (hs t) h) (fun c t h => put_isSome (hs t) (ih.rev c t h))
        (by intro k t h; cases h) (by intro t h; cases h)
    | create f k cs hm ht =>
      refine facPub_ret ih j _ _ _ _ (fun t h => h) ih.rev (by intro k t h; cases h) ?_
      intro t h hs
      cases h
      obtain ⟨v, hv⟩ := Option.isSome_iff_exists.1 hs
      exact ⟨v, by simp only [Factories.create, hv]⟩
    | getMsgType c cs hm ht =>
      refine facPub_ret ih j _ _ _ _ (fun t h => h) ih.rev ?_ (by intro t h; cases h)
      intro k t h h2
      cases h
      exact ih.rev c t (by injection h2)

/-! ### Threads that change different entries -/

/-- The maps are those after the calls that returned, except for the keys of the `register` calls half done. -/
structure FacInv (F : Factories) (prog : Nat → List FacCall) (st : FacSys) : Prop where
  rev : ∀ c, st.maps.rev c = (runFac F (changes st.log)).rev c
  mid : ∀ i c t s, (st.thr i).mid = some (c, t, s) → st.maps.map .sse_SseBinary (.int t) = s
  map : ∀ f k, (∀ i c t s, (st.thr i).mid = some (c, t, s) → ¬ (f = .sse_SseBinary ∧ k = .int t)) →
    st.maps.map f k = (runFac F (changes st.log)).map f k
  log : ∀ before d after, st.log = before ++ d :: after →
    d.answer = d.call.expected F (changes before)
      ∨ ∃ i c t s, FacCall.change (.registerSse c t s) ∈ prog i ∧ d.call = .create .sse_SseBinary (.int t)
          ∧ d.answer = d.call.expected F (changes before ++ [.registerSse c t s])

theorem changes_snoc (log : List FacDone) (d : FacDone) : changes (log ++ [d]) = changes log ++ d.call.op.toList := by
  unfold changes
  rw [List.filterMap_append]
  cases h : d.call.op <;> simp [h]

theorem runFac_snoc_map (F : Factories) (ops : List FacOp) (op : FacOp) (f : Fac) (k : Key) :
    (runFac F (ops ++ [op])).map f k = (op.stores f k).getD ((runFac F ops).map f k) := by
  simp only [runFac_map, lastStored, List.reverse_append, List.reverse_cons, List.reverse_nil, List.nil_append, List.cons_append,
    List.findSome?_cons]
  cases op.stores f k <;> rfl

theorem runFac_snoc_rev (F : Factories) (ops : List FacOp) (op : FacOp) (c : Cls) :
    (runFac F (ops ++ [op])).rev c = (op.types c).or ((runFac F ops).rev c) := by
  simp only [runFac_rev, List.reverse_append, List.reverse_cons, List.reverse_nil, List.nil_append, List.cons_append,
    List.findSome?_cons]
  cases op.types c <;> rfl

theorem expected_create (F : Factories) (h : List FacOp) (f : Fac) (k : Key) :
    FacCall.expected F h (.create f k) = .created ((runFac F h).create f k) := by
  rw [C38_create]; rfl

theorem expected_type (F : Factories) (h : List FacOp) (c : Cls) :
    FacCall.expected F h (.getMsgType c) = .type ((runFac F h).rev c) := by
  have := C39_last_type F h c
  rw [Factories.getMsgType] at this
  rw [this]; rfl

theorem expected_remove (F : Factories) (h : List FacOp) (f : Fac) (k : Key) :
    FacCall.expected F h (.change (.remove f k)) = .bool ((runFac F h).map f k).isSome := by
  rw [runFac_map]; rfl

theorem facLog_snoc {F : Factories} {prog : Nat → List FacCall} {log : List FacDone} {x : FacDone}
    (h : ∀ before d after, log = before ++ d :: after →
      d.answer = d.call.expected F (changes before)
        ∨ ∃ i c t s, FacCall.change (.registerSse c t s) ∈ prog i ∧ d.call = .create .sse_SseBinary (.int t)
            ∧ d.answer = d.call.expected F (changes before ++ [.registerSse c t s]))
    (hx : x.answer = x.call.expected F (changes log)
        ∨ ∃ i c t s, FacCall.change (.registerSse c t s) ∈ prog i ∧ x.call = .create .sse_SseBinary (.int t)
            ∧ x.answer = x.call.expected F (changes log ++ [.registerSse c t s])) :
    ∀ before d after, log ++ [x] = before ++ d :: after →
      d.answer = d.call.expected F (changes before)
        ∨ ∃ i c t s, FacCall.change (.registerSse c t s) ∈ prog i ∧ d.call = .create .sse_SseBinary (.int t)
            ∧ d.answer = d.call.expected F (changes before ++ [.registerSse c t s]) := by
  intro before d after e
  rcases fac_split_snoc e with ⟨rfl, rfl, rfl⟩ | ⟨after', e'⟩
  · exact hx
  · exact h before d after' e'

theorem fac_inv (F : Factories) (prog : Nat → List FacCall) (hsep : Separate prog) (sched : List Nat) :
    FacInv F prog ((FacSys.start F prog).run sched) := by
  induction sched using sched_induction with
  | nil =>
    refine ⟨fun _ => rfl, ?_, fun _ _ _ => rfl, ?_⟩
    · intro i c t s h; cases h
    · intro b d a e; simp [FacSys.run, FacSys.start] at e
  | snoc sched j ih =>
    rw [facRun_snoc]
    have htodo := @fac_todo_mem F prog sched
    have hmem := @fac_mid_mem F prog sched
    obtain ⟨st, est⟩ : ∃ st, st = (FacSys.start F prog).run sched := ⟨_, rfl⟩
    rw [← est] at ih htodo hmem ⊢
    obtain ⟨st', e⟩ : ∃ st', st' = st.step j := ⟨_, rfl⟩
    have hst := facStep st j
    rw [← e] at hst ⊢
    clear e est
    -- somebody else is not in the middle of a key this thread's next change concerns
    have hother : ∀ op f k, FacCall.change op ∈ prog j → (op.stores f k).isSome → (st.thr j).mid = none →
        ∀ i c t s, (st.thr i).mid = some (c, t, s) → ¬ (f = .sse_SseBinary ∧ k = .int t) := by
      rintro op f k hop hst hm i c t s hi ⟨rfl, rfl⟩
      have := hsep i j _ _ (hmem hi) hop (Or.inl ⟨_, _, by simp [FacOp.stores], hst⟩)
      subst this
      rw [hm] at hi; cases hi
    cases hst with
    | idle => exact ih
    | first c t s cs hm ht =>
      have hop : FacCall.change (.registerSse c t s) ∈ prog j := htodo (by rw [ht]; exact List.mem_cons_self)
      refine ⟨?_, ?_, ?_, ?_⟩
      · simp only [next_log, List.append_nil]; exact ih.rev
      · intro i c' t' s' h
        simp only [next_thr] at h
        split at h
        · cases h; simp [Factories.put]
        · have := hother (.registerSse c t s) .sse_SseBinary (.int t) hop (by simp [FacOp.stores]) hm i c' t' s' h
          simp only [next_maps, Factories.put]
          rw [if_neg (by rintro ⟨-, h2⟩; exact this ⟨rfl, h2.symm⟩)]
          exact ih.mid i c' t' s' h
      · intro f k hk
        have hj := hk j c t s (by simp)
        simp only [next_log, List.append_nil, next_maps, Factories.put]
        rw [if_neg hj]
        refine ih.map f k ?_
        intro i c' t' s' h
        by_cases hij : i = j
        · subst hij; rw [hm] at h; cases h
        · exact hk i c' t' s' (by simp only [next_thr, if_neg hij]; exact h)
      · simpa only [next_log, List.append_nil] using ih.log
    | second c t s hm =>
      have hop : FacCall.change (.registerSse c t s) ∈ prog j := hmem hm
      refine ⟨?_, ?_, ?_, ?_⟩
      · intro c'
        simp only [next_log, changes_snoc, next_maps, revPut, FacCall.op, Option.toList_some]
        rw [runFac_snoc_rev, ← ih.rev]
        simp only [FacOp.types]
        by_cases h : c' = c
        · subst h; simp
        · have h' : ¬ c = c' := fun e => h e.symm
          simp [h, h']
      · intro i c' t' s' h
        simp only [next_thr] at h
        split at h
        · cases h
        · exact ih.mid i c' t' s' h
      · intro f k hk
        simp only [next_log, changes_snoc, next_maps, revPut, FacCall.op, Option.toList_some]
        rw [runFac_snoc_map]
        simp only [FacOp.stores]
        by_cases h : f = .sse_SseBinary ∧ k = .int t
        · rw [if_pos h]
          obtain ⟨rfl, rfl⟩ := h
          exact ih.mid j c t s hm
        · rw [if_neg h]
          refine ih.map f k ?_
          intro i c' t' s' h'
          by_cases hij : i = j
          · subst hij; rw [hm] at h'; cases h'; exact h
          · exact hk i c' t' s' (by simp only [next_thr, if_neg hij]; exact h')
      · exact facLog_snoc ih.log (Or.inl rfl)
    | register f k s cs hm ht =>
      have hop : FacCall.change (.register f k s) ∈ prog j := htodo (by rw [ht]; exact List.mem_cons_self)
      refine ⟨?_, ?_, ?_, ?_⟩
      · intro c'
        simp only [next_log, changes_snoc, next_maps, Factories.put, FacCall.op, Option.toList_some]
        rw [runFac_snoc_rev, ← ih.rev]; rfl
      · intro i c' t' s' h
        simp only [next_thr] at h
        split at h
        · cases h
        · have := hother (.register f k s) f k hop (by simp [FacOp.stores]) hm i c' t' s' h
          simp only [next_maps, Factories.put]
          rw [if_neg (by rintro ⟨h1, h2⟩; exact this ⟨h1.symm, h2.symm⟩)]
          exact ih.mid i c' t' s' h
      · intro f' k' hk
        simp only [next_log, changes_snoc, next_maps, Factories.put, FacCall.op, Option.toList_some]
        rw [runFac_snoc_map]
        simp only [FacOp.stores]
        by_cases h : f' = f ∧ k' = k
        · rw [if_pos h, if_pos ⟨h.1.symm, h.2.symm⟩]; rfl
        · rw [if_neg h, if_neg (fun e => h ⟨e.1.symm, e.2.symm⟩)]
          refine ih.map f' k' ?_
          intro i c' t' s' h'
          by_cases hij : i = j
          · subst hij; rw [hm] at h'; cases h'
          · exact hk i c' t' s' (by simp only [next_thr, if_neg hij]; exact h')
      · exact facLog_snoc ih.log (Or.inl rfl)
    | remove f k cs hm ht =>
      have hop : FacCall.change (.remove f k) ∈ prog j := htodo (by rw [ht]; exact List.mem_cons_self)
      refine ⟨?_, ?_, ?_, ?_⟩
      · intro c'
        simp only [next_log, changes_snoc, next_maps, Factories.put, FacCall.op, Option.toList_some]
        rw [runFac_snoc_rev, ← ih.rev]; rfl
      · intro i c' t' s' h
        simp only [next_thr] at h
        split at h
        · cases h
        · have := hother (.remove f k) f k hop (by simp [FacOp.stores]) hm i c' t' s' h
          simp only [next_maps, Factories.put]
          rw [if_neg (by rintro ⟨h1, h2⟩; exact this ⟨h1.symm, h2.symm⟩)]
          exact ih.mid i c' t' s' h
      · intro f' k' hk
        simp only [next_log, changes_snoc, next_maps, Factories.put, FacCall.op, Option.toList_some]
        rw [runFac_snoc_map]
        simp only [FacOp.stores]
        by_cases h : f' = f ∧ k' = k
        · rw [if_pos h, if_pos ⟨h.1.symm, h.2.symm⟩]; rfl
        · rw [if_neg h, if_neg (fun e => h ⟨e.1.symm, e.2.symm⟩)]
          refine ih.map f' k' ?_
          intro i c' t' s' h'
          by_cases hij : i = j
          · subst hij; rw [hm] at h'; cases h'
          · exact hk i c' t' s' (by simp only [next_thr, if_neg hij]; exact h')
      · refine facLog_snoc ih.log (Or.inl ?_)
        simp only [expected_remove]
        rw [ih.map f k (hother (.remove f k) f k hop (by simp [FacOp.stores]) hm)]
    | create f k cs hm ht =>
      refine ⟨?_, ?_, ?_, ?_⟩
      · simp only [next_log, changes_snoc, FacCall.op, Option.toList_none, List.append_nil]; exact ih.rev
      · intro i c' t' s' h
        simp only [next_thr] at h
        split at h
        · cases h
        · exact ih.mid i c' t' s' h
      · intro f' k' hk
        simp only [next_log, changes_snoc, FacCall.op, Option.toList_none, List.append_nil]
        refine ih.map f' k' ?_
        intro i c' t' s' h'
        by_cases hij : i = j
        · subst hij; rw [hm] at h'; cases h'
        · exact hk i c' t' s' (by simp only [next_thr, if_neg hij]; exact h')
      · refine facLog_snoc ih.log ?_
        by_cases hk : ∃ i c t s, (st.thr i).mid = some (c, t, s) ∧ f = .sse_SseBinary ∧ k = .int t
        · obtain ⟨i, c, t, s, hi, rfl, rfl⟩ := hk
          refine Or.inr ⟨i, c, t, s, hmem hi, rfl, ?_⟩
          simp only [expected_create, Factories.create]
          rw [runFac_snoc_map, ih.mid i c t s hi]
          simp only [FacOp.stores, and_self, if_true, Option.getD_some]
        · refine Or.inl ?_
          simp only [expected_create, Factories.create]
          rw [ih.map f k (fun i c t s h1 h2 => hk ⟨i, c, t, s, h1, h2⟩)]
    | getMsgType c cs hm ht =>
      refine ⟨?_, ?_, ?_, ?_⟩
      · simp only [next_log, changes_snoc, FacCall.op, Option.toList_none, List.append_nil]; exact ih.rev
      · intro i c' t' s' h
        simp only [next_thr] at h
        split at h
        · cases h
        · exact ih.mid i c' t' s' h
      · intro f' k' hk
        simp only [next_log, changes_snoc, FacCall.op, Option.toList_none, List.append_nil]
        refine ih.map f' k' ?_
        intro i c' t' s' h'
        by_cases hij : i = j
        · subst hij; rw [hm] at h'; cases h'
        · exact hk i c' t' s' (by simp only [next_thr, if_neg hij]; exact h')
      · refine facLog_snoc ih.log (Or.inl ?_)
        simp only [expected_type, ih.rev]

end FinProto
