import Verif.Spec.ConcurrentBitMap
import Verif.Proofs.BitMapSets
/-
Lemmas for C99.
-/
namespace FinProto
variable {σ : Type} (K : BmClass σ)

theorem runBm_snoc (s : σ) (h : List BmCall) (c : BmCall) : runBm K.set K.clear s (h ++ [c]) = K.apply (runBm K.set K.clear s h) c := by
  rw [runBm, List.foldl_append]
  cases c <;> rfl

theorem changesIn_snoc (l : List BmDone) (d : BmDone) :
    changesIn (l ++ [d]) = changesIn l ++ (match d.op with | .change c => [c] | .get _ => []) := by
  rw [changesIn, List.filterMap_append]
  cases h : d.op <;> simp [changesIn, h]

theorem oneByOne_snoc {s : σ} {l : List BmDone} (h : OneByOne K s l) (d : BmDone)
    (hd : ∀ p, d.op = .get p → d.answer = some (K.get (runBm K.set K.clear s (changesIn l)) (BitVec.ofNat 32 p))) : OneByOne K s (l ++ [d]) := by
  intro before after i p a he
  rcases List.eq_nil_or_concat after with rfl | ⟨after', d', rfl⟩
  · have := List.append_inj' he rfl
    obtain ⟨rfl, h2⟩ := this
    simp only [List.cons.injEq, and_true] at h2
    subst h2
    exact hd p rfl
  · rw [List.concat_eq_append, ← List.cons_append, ← List.append_assoc] at he
    have := List.append_inj' he rfl
    exact h before after' i p a this.1

/-- The state of the system while thread `j` is the only one that changes the bit map. -/
structure SoFar (s : σ) (prog : Nat → List BmOp) (j : Nat) (st : BmSys σ) : Prop where
  bits : st.bits = runBm K.set K.clear s (changesIn st.log)
  held : ∀ i v, (st.thr i).loaded = some v → v = st.bits ∧ i = j
  todo : ∀ i, bmDoneBy i st.log ++ (st.thr i).todo = prog i
  log : OneByOne K s st.log

theorem bmDoneBy_snoc (i : Nat) (l : List BmDone) (d : BmDone) : bmDoneBy i (l ++ [d]) = bmDoneBy i l ++ (if d.thread = i then [d.op] else []) := by
  by_cases h : d.thread = i <;> simp [bmDoneBy, List.filter_append, h]

theorem soFar_step {s : σ} {prog : Nat → List BmOp} {j : Nat} (hw : OneWriter prog j) {st : BmSys σ} (h : SoFar K s prog j st) (i : Nat) :
    SoFar K s prog j (st.step K i) := by
  have hin : ∀ op ops, (st.thr i).todo = op :: ops → op ∈ prog i := fun op ops ht => by
    rw [← h.todo i, ht]; simp
  have htodo : ∀ op ops a k, (st.thr i).todo = op :: ops → bmDoneBy k (st.log ++ [⟨i, op, a⟩]) ++ (if k = i then ops else (st.thr k).todo) = prog k := by
    intro op ops a k ht
    rw [bmDoneBy_snoc]
    by_cases hk : k = i
    · subst hk
      rw [if_pos rfl, if_pos rfl, ← h.todo k, ht]
      simp
    · rw [if_neg hk, if_neg (fun he => hk he.symm), List.append_nil, h.todo]
  unfold BmSys.step
  rcases ht : st.thr i with ⟨_ | ⟨op, ops⟩, ld⟩
  · exact h
  · rcases op with c | p
    · have hij : i = j := hw i c (hin _ _ (by rw [ht]))
      rcases ld with _ | v
      · refine ⟨h.bits, ?_, ?_, h.log⟩
        · intro k v hv
          by_cases hk : k = i
          · subst hk
            simp only [if_true] at hv
            exact ⟨by simpa using hv.symm, hij⟩
          · simp only [if_neg hk] at hv
            exact h.held k v hv
        · intro k
          by_cases hk : k = i
          · subst hk
            have := h.todo k
            rw [ht] at this
            simpa using this
          · simp only [if_neg hk]; exact h.todo k
      · obtain ⟨hv, -⟩ := h.held i v (by rw [ht])
        refine ⟨?_, ?_, ?_, ?_⟩
        · dsimp only
          rw [changesIn_snoc, hv, h.bits]
          exact (runBm_snoc K s _ c).symm
        · intro k v' hv'
          by_cases hk : k = i
          · subst hk; simp at hv'
          · simp only [if_neg hk] at hv'
            exact absurd ((h.held k v' hv').2.trans hij.symm) hk
        · intro k
          have := htodo (.change c) ops none k (by rw [ht])
          dsimp only
          split <;> rename_i hk <;> simp only [hk, if_true, if_false] at this ⊢ <;> exact this
        · exact oneByOne_snoc K h.log _ (fun p hp => by cases hp)
    · refine ⟨?_, ?_, ?_, ?_⟩
      · dsimp only
        rw [changesIn_snoc, h.bits]
        simp
      · intro k v' hv'
        by_cases hk : k = i
        · subst hk; simp at hv'
        · simp only [if_neg hk] at hv'
          exact h.held k v' hv'
      · intro k
        have := htodo (.get p) ops (some (K.get st.bits (BitVec.ofNat 32 p))) k (by rw [ht])
        dsimp only
        split <;> rename_i hk <;> simp only [hk, if_true, if_false] at this ⊢ <;> exact this
      · refine oneByOne_snoc K h.log _ (fun q hq => ?_)
        cases hq
        dsimp only
        rw [← h.bits]

theorem soFar_run {s : σ} {prog : Nat → List BmOp} {j : Nat} (hw : OneWriter prog j) (sched : List Nat) :
    SoFar K s prog j ((BmSys.start s prog).run K sched) := by
  have h0 : SoFar K s prog j (BmSys.start s prog) :=
    ⟨rfl, fun i v hv => by simp [BmSys.start] at hv, fun i => rfl, fun before after i p a he => by simp [BmSys.start] at he⟩
  have key : ∀ (sched : List Nat) (st : BmSys σ), SoFar K s prog j st → SoFar K s prog j (st.run K sched) := by
    intro sched
    induction sched with
    | nil => intro st h; exact h
    | cons i is ih => intro st h; exact ih _ (soFar_step K hw h i)
  exact key sched _ h0

/-- A set of contents that the changes do not leave is not left by racing threads. -/
theorem racing_inv (P : σ → Prop) (prog : Nat → List BmOp) (hP : ∀ i c s, BmOp.change c ∈ prog i → P s → P (K.apply s c)) (s : σ) (hs : P s)
    (sched : List Nat) :
    let end_ := (BmSys.start s prog).run K sched
    P end_.bits ∧ ∀ d ∈ end_.log, ∀ p, d.op = .get p → ∃ v, P v ∧ d.answer = some (K.get v (BitVec.ofNat 32 p)) := by
  have key : ∀ (sched : List Nat) (st : BmSys σ),
      (P st.bits ∧ (∀ i v, (st.thr i).loaded = some v → P v) ∧ (∀ i, ∀ o ∈ (st.thr i).todo, o ∈ prog i)
        ∧ ∀ d ∈ st.log, ∀ p, d.op = .get p → ∃ v, P v ∧ d.answer = some (K.get v (BitVec.ofNat 32 p))) →
      P (st.run K sched).bits ∧ ∀ d ∈ (st.run K sched).log, ∀ p, d.op = .get p → ∃ v, P v ∧ d.answer = some (K.get v (BitVec.ofNat 32 p)) := by
    intro sched
    induction sched with
    | nil => intro st h; exact ⟨h.1, h.2.2.2⟩
    | cons i is ih =>
      intro st ⟨h1, h2, h3, h4⟩
      refine ih _ ?_
      unfold BmSys.step
      rcases ht : st.thr i with ⟨_ | ⟨op, ops⟩, ld⟩
      · exact ⟨h1, h2, h3, h4⟩
      · have h3i := h3 i
        rw [ht] at h3i
        have hother : ∀ (t : BmThread σ), (∀ v, t.loaded = some v → P v) → (∀ o ∈ t.todo, o ∈ prog i) →
            (∀ k v, (if k = i then t else st.thr k).loaded = some v → P v) ∧ ∀ k, ∀ o ∈ (if k = i then t else st.thr k).todo, o ∈ prog k := by
          intro t ht1 ht2
          refine ⟨fun k v hv => ?_, fun k o hk => ?_⟩
          · split at hv
            · exact ht1 v hv
            · exact h2 k v hv
          · split at hk
            · rename_i e; subst e; exact ht2 o hk
            · exact h3 k o hk
        rcases op with c | p
        · rcases ld with _ | v
          · obtain ⟨a, b⟩ := hother ⟨.change c :: ops, some st.bits⟩ (fun v hv => by cases hv; exact h1) h3i
            exact ⟨h1, a, b, h4⟩
          · obtain ⟨a, b⟩ := hother ⟨ops, none⟩ (fun v hv => by cases hv) (fun o ho => h3i o (List.mem_cons_of_mem _ ho))
            refine ⟨hP i c v (h3i _ (by simp)) (h2 i v (by rw [ht])), a, b, fun d hd p hp => ?_⟩
            rcases List.mem_append.mp hd with hd | hd
            · exact h4 d hd p hp
            · rw [List.mem_singleton] at hd; subst hd; cases hp
        · obtain ⟨a, b⟩ := hother ⟨ops, none⟩ (fun v hv => by cases hv) (fun o ho => h3i o (List.mem_cons_of_mem _ ho))
          refine ⟨h1, a, b, fun d hd q hq => ?_⟩
          rcases List.mem_append.mp hd with hd | hd
          · exact h4 d hd q hq
          · rw [List.mem_singleton] at hd; subst hd; cases hq; exact ⟨st.bits, h1, rfl⟩
  exact key sched _ ⟨hs, fun i v hv => by simp [BmSys.start] at hv, fun i o ho => ho, fun d hd => by simp [BmSys.start] at hd⟩

/-- Racing threads whose changes on position `p` all make it `b`. -/
theorem racing_agree (val : BmCall → Bool) (n : Nat)
    (hK : ∀ s c p, p < n → c.pos < n → K.get (K.apply s c) (BitVec.ofNat 32 p) = if c.pos = p then val c else K.get s (BitVec.ofNat 32 p))
    (prog : Nat → List BmOp) (hin : ∀ i c, BmOp.change c ∈ prog i → c.pos < n) (p : Nat) (hp : p < n) (b : Bool)
    (hag : ∀ i c, BmOp.change c ∈ prog i → c.pos = p → val c = b)
    (s : σ) (hs : K.get s (BitVec.ofNat 32 p) = b) (sched : List Nat) :
    K.get ((BmSys.start s prog).run K sched).bits (BitVec.ofNat 32 p) = b
      ∧ ∀ d ∈ ((BmSys.start s prog).run K sched).log, d.op = .get p → d.answer = some b := by
  obtain ⟨h1, h2⟩ := racing_inv K (fun s => K.get s (BitVec.ofNat 32 p) = b) prog (fun i c v hc hv => by
    rw [hK v c p hp (hin i c hc)]
    split
    · rename_i e; exact hag i c hc e
    · exact hv) s hs sched
  refine ⟨h1, fun d hd hop => ?_⟩
  obtain ⟨v, hv, ha⟩ := h2 d hd p hop
  rw [ha, hv]

end FinProto
