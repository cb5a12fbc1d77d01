import Verif.Proofs.WorkHistory
import Verif.Props.History
import Verif.Props.DecodeErrors
/-
C79: every call of `encode` and `decode` ends, after a number of steps in proportion to the bytes it can read or write, whatever the application and the
other threads do meanwhile.

`Proc.run` (`Model/History.lean`): operations of the application and steps of its threads in any order; `Legal` (`Spec/History.lean`): what the Java
compiler accepts; `ahead`, `space`, `stepsOf`, `ShortLists` (`Spec/Work.lean`).
-/
namespace FinProto

theorem legal_append {n : Nat} : ∀ (xs : List Op) {ys : List Op} {p : Proc}, Legal n p (xs ++ ys) → Legal n p xs ∧ Legal n (p.run n xs) ys
  | [], _, _, h => ⟨trivial, h⟩
  | _ :: xs, _, _, h => ⟨⟨h.1, (legal_append xs h.2).1⟩, (legal_append xs h.2).2⟩

theorem run_append (n : Nat) (p : Proc) (xs ys : List Op) : p.run n (xs ++ ys) = (p.run n xs).run n ys := by simp [Proc.run]

theorem proc_start {w : World} (hw : TypedSuppliers w) : ProcOk (.start w) := ⟨typed_empty, typed_suppliers hw _, fun i => ⟨by simp, .inl rfl⟩⟩

/-- **C79.** Thread `i` calls `decode` on a buffer at some point of a history.  Once it has made `99 * b.ahead + 114` steps, the call has returned or thrown:
no input, and nothing that the application and other threads do before, between and after these steps, makes it loop, wait, or work out of
proportion to its input. -/
theorem C79_decode (w : World) (hw : TypedSuppliers w) (n : Nat) (before after : List Op) (i r : Nat) (b : RBuf)
    (hl : Legal n (.start w) (before ++ .call i (.dec r b) :: after)) (hcall : ∀ j, .call i j ∉ after)
    (hsteps : 99 * b.ahead + 114 ≤ stepsOf i after) :
    (((Proc.start w).run n (before ++ .call i (.dec r b) :: after)).thr i).finished := by
  obtain ⟨h1, h2⟩ := legal_append before hl
  have hp := (proc_run n before _ (proc_start hw) h1).1
  generalize hq : (Proc.start w).run n before = p at h2 hp
  have hp' := (proc_after n hp _ h2.1).1
  rw [run_append, hq]
  show (((p.after n (.call i (.dec r b))).run n after).thr i).finished
  have hthr : (p.after n (.call i (.dec r b))).thr i = .dec (DThread.enter n r p.h ⟨[], b, none⟩) := by simp [Proc.after, Job.start]
  obtain ⟨-, c, ys, hr⟩ := h2.1
  rcases denter_budget (t := ⟨[], b, none⟩) n r hr (by intro a ha; cases ha) with he | ⟨hg, hb, -⟩
  · exact finished_run n i after _ hcall (by rw [hthr]; exact .inl he)
  · have hbase : DThread.base ⟨[], b, none⟩ = 99 * b.ahead := by simp [DThread.base]
    have := history_budget n i 0 after _ hp' h2.2 hcall (by rw [hthr]; intro h; cases h) (by rw [hthr]; exact hg)
    rcases this with h | ⟨-, h⟩
    · exact h
    · rw [hthr] at h
      apply Classical.byContradiction
      intro hn
      have hpos := budget_pos (h := ((p.after n (.call i (.dec r b))).run n after).h) (L := 0) hn
      have : (Worker.dec (DThread.enter n r p.h ⟨[], b, none⟩)).budget (p.after n (.call i (.dec r b))).h 0 = (DThread.enter n r p.h ⟨[], b, none⟩).budget := rfl
      omega

/-- **C79.** The same for `encode` and the room in the buffer, as long as no message of the two sample classes with lists of left-padded texts holds a list
of more than `L` elements (`L = 0` will do for an application that does not use these two classes). -/
theorem C79_encode (w : World) (hw : TypedSuppliers w) (n L : Nat) (before after : List Op) (i : Nat) (x : HVal) (b : WBuf)
    (hl : Legal n (.start w) (before ++ .call i (.enc x b) :: after)) (hcall : ∀ j, .call i j ∉ after)
    (hlists : ∀ pre, pre <+: after → ShortLists L ((Proc.start w).run n (before ++ .call i (.enc x b) :: pre)).h)
    (hsteps : (99 + 2 * L) * b.space + 114 + 2 * L ≤ stepsOf i after) :
    (((Proc.start w).run n (before ++ .call i (.enc x b) :: after)).thr i).finished := by
  obtain ⟨h1, h2⟩ := legal_append before hl
  have hp := (proc_run n before _ (proc_start hw) h1).1
  have hL : ∀ pre, pre <+: after → ShortLists L ((((Proc.start w).run n before).after n (.call i (.enc x b))).run n pre).h := by
    intro pre hpre
    have := hlists pre hpre
    rw [run_append] at this
    exact this
  rw [run_append]
  generalize hq : (Proc.start w).run n before = p at h2 hp hL
  have hp' := (proc_after n hp _ h2.1).1
  show (((p.after n (.call i (.enc x b))).run n after).thr i).finished
  have hthr : (p.after n (.call i (.enc x b))).thr i = .enc (HThread.enter n x p.h ⟨[], b, none⟩) := by simp [Proc.after, Job.start]
  rcases henter_budget (t := ⟨[], b, none⟩) (h := p.h) n x L (by intro a ha; cases ha) with he | ⟨_, _, _, -, -, hg, hb, -⟩
  · exact finished_run n i after _ hcall (by rw [hthr]; exact .inl he)
  · have hbase : HThread.base (nestAt p.h) L ⟨[], b, none⟩ = (99 + 2 * L) * b.space := by simp [HThread.base]
    have := history_budget n i L after _ hp' h2.2 hcall (fun _ => hL) (by rw [hthr]; exact hg)
    rcases this with h | ⟨-, h⟩
    · exact h
    · rw [hthr] at h
      apply Classical.byContradiction
      intro hn
      have hpos := budget_pos (h := ((p.after n (.call i (.enc x b))).run n after).h) (L := L) hn
      have : (Worker.enc (HThread.enter n x p.h ⟨[], b, none⟩)).budget (p.after n (.call i (.enc x b))).h L = (HThread.enter n x p.h ⟨[], b, none⟩).budget (nestAt p.h) L := rfl
      omega

/-! ### Cases -/

theorem runs_of_steps (n i : Nat) (p : Proc) : ∀ k, Legal n p (List.replicate k (.step i)) ∧ stepsOf i (List.replicate k (.step i)) = k
  | 0 => ⟨trivial, rfl⟩
  | k + 1 => by
    have hlegal : ∀ (k : Nat) (p : Proc), Legal n p (List.replicate k (.step i)) := by
      intro k
      induction k with
      | zero => intro _; trivial
      | succ k ih => intro p; exact ⟨trivial, ih _⟩
    exact ⟨hlegal _ _, by simp [stepsOf, List.countP_replicate]⟩

/-- The list of a packet with `k + 1` texts that are null, padded on the left, and the call that encodes the packet. -/
def nullTexts (k : Nat) : List Op :=
  [.new .sample_StringPacket, .newList, .put 1 (List.replicate (k + 1) .null), .set 0 8 (.ref 1), .call 0 (.enc (.ref 0) ⟨[], 0, 100⟩)]

theorem nullTexts_legal (k : Nat) (rest : List Op) (h : Legal 9 ((Proc.start World.initial).run 9 (nullTexts k)) rest) :
    Legal 9 (.start World.initial) (nullTexts k ++ rest) := by
  have hno : ∀ (h : Heap) (a : Nat) (e : ElTy), heldIn h = [] → ¬ Holds h a e := fun h a e h1 h2 => by have := h2.mem; rw [h1] at this; cases this
  refine ⟨trivial, trivial, ⟨⟨_, rfl⟩, fun e he => absurd he (hno _ _ _ (by decide +kernel))⟩, ⟨_, _, .list .str, rfl, rfl, .list rfl ?_, ?_⟩,
    ⟨.inr rfl, .codec rfl⟩, h⟩
  · intro x hx
    rw [List.eq_of_mem_replicate hx]
    exact .null _
  · intro e a _ ha e' he'
    exact absurd he' (hno _ _ _ rfl)

/-- The packet and its list. -/
def nullHeap (xs : List HVal) : Heap :=
  [.msg .sample_StringPacket [.null, .null, .null, .null, .null, .null, .null, .null, .ref 1, .null, .null, .null], .arr xs]

/-- The call after `m` statements. -/
def nullCall (m : Nat) (b : WBuf) : HThread := ⟨[⟨0, Sample.StringPacket.enc.drop m, fun _ => none, none⟩], b, none⟩

/-- A thread that writes the list. -/
def WritesNulls (k j : Nat) (p : Proc) : Prop :=
  p.h.listAt 0 8 = some (List.replicate (k + 1) .null)
    ∧ ∃ b, p.thr 0 = .enc ⟨[⟨0, Sample.StringPacket.enc.drop 9, fun _ => none, some (8, .fixed 1 0x30 true, j)⟩], b, none⟩

theorem writesNulls_step {k j : Nat} {p : Proc} (hj : j < k + 1) (h : WritesNulls k j p) : WritesNulls k (j + 1) (p.after 9 (.step 0)) := by
  obtain ⟨h1, b, h2⟩ := h
  have hx : (List.replicate (k + 1) HVal.null)[j]? = some .null := by simp [hj]
  have : (p.thr 0).step ⟨p.svc, fun _ _ => none⟩ p.sup 9 p.h
      = (p.h, .enc ⟨[⟨0, Sample.StringPacket.enc.drop 9, fun _ => none, some (8, .fixed 1 0x30 true, j + 1)⟩], b, none⟩) := by
    rw [h2]
    simp only [Worker.step, HThread.step, HThread.iterate, h1, hx]
    rfl
  refine ⟨?_, b, ?_⟩
  · simp only [Proc.after, this]; exact h1
  · simp only [Proc.after, this]; rfl

theorem writesNulls_steps {k : Nat} : ∀ (m j : Nat) (p : Proc), j + m ≤ k + 1 → WritesNulls k j p → WritesNulls k (j + m) (p.run 9 (List.replicate m (.step 0)))
  | 0, _, _, _, h => h
  | m + 1, j, p, hm, h => by
    have := writesNulls_steps m (j + 1) (p.after 9 (.step 0)) (by omega) (writesNulls_step (by omega) h)
    rw [show j + 1 + m = j + (m + 1) by omega] at this
    exact this

theorem nulls_step {p : Proc} {h : Heap} {t t' : HThread} (hp : p.h = h ∧ p.thr 0 = .enc t) (hs : ∀ w, t.step w 9 h = (h, t')) :
    (p.after 9 (.step 0)).h = h ∧ (p.after 9 (.step 0)).thr 0 = .enc t' := by
  have : (p.thr 0).step ⟨p.svc, fun _ _ => none⟩ p.sup 9 p.h = (h, .enc t') := by rw [hp.1, hp.2]; simp only [Worker.step, hs]
  constructor
  · simp only [Proc.after, this]
  · simp only [Proc.after, this]; rfl

theorem writesNulls_start (k : Nat) (p : Proc)
    (h0 : p.h = nullHeap (.null :: List.replicate k .null) ∧ p.thr 0 = .enc (nullCall 0 ⟨[], 0, 100⟩)) : WritesNulls k 0 (p.run 9 (List.replicate 9 (.step 0))) := by
  have h1 := nulls_step (t' := nullCall 1 ⟨List.replicate 2 0, 0, 100⟩) h0 fun _ => rfl
  have h2 := nulls_step (t' := nullCall 2 ⟨List.replicate 4 0, 0, 100⟩) h1 fun _ => rfl
  have h3 := nulls_step (t' := nullCall 3 ⟨List.replicate 4 0, 0, 100⟩) h2 fun _ => rfl
  have h4 := nulls_step (t' := nullCall 4 ⟨List.replicate 4 0, 0, 100⟩) h3 fun _ => rfl
  have h5 := nulls_step (t' := nullCall 5 ⟨List.replicate 4 0, 0, 100⟩) h4 fun _ => rfl
  have h6 := nulls_step (t' := nullCall 6 ⟨List.replicate 14 0, 0, 100⟩) h5 fun _ => rfl
  have h7 := nulls_step (t' := nullCall 7 ⟨List.replicate 16 0, 0, 100⟩) h6 fun _ => rfl
  have h8 := nulls_step (t' := nullCall 8 ⟨List.replicate 18 0, 0, 100⟩) h7 fun _ => rfl
  have h9 := nulls_step (t' := ⟨[⟨0, Sample.StringPacket.enc.drop 9, fun _ => none, some (8, .fixed 1 0x30 true, 0)⟩], _, none⟩) h8 fun _ => rfl
  refine ⟨?_, _, h9.2⟩
  have : (p.run 9 (List.replicate 9 (.step 0))).h = _ := h9.1
  rw [this]
  rfl

/-- **C79: the exception.** Empty texts in a list of left-padded texts occupy no bytes (C01): no bound in the room of the buffer alone holds. -/
theorem C79_left_padded_violated (k : Nat) : ∃ before after, Legal 9 (.start World.initial) (before ++ .call 0 (.enc (.ref 0) ⟨[], 0, 100⟩) :: after)
    ∧ (∀ j, .call 0 j ∉ after) ∧ k ≤ stepsOf 0 after
    ∧ ¬ (((Proc.start World.initial).run 9 (before ++ .call 0 (.enc (.ref 0) ⟨[], 0, 100⟩) :: after)).thr 0).finished := by
  have hs : WritesNulls k 0 (((Proc.start World.initial).run 9 (nullTexts k)).run 9 (List.replicate 9 (.step 0)))  := writesNulls_start k _ ⟨rfl, rfl⟩
  have he := writesNulls_steps k 0 _ (by omega) hs
  refine ⟨(nullTexts k).dropLast, List.replicate 9 (.step 0) ++ List.replicate k (.step 0), ?_, ?_, ?_, ?_⟩
  · have hl : Legal 9 ((Proc.start World.initial).run 9 (nullTexts k)) (List.replicate 9 (.step 0) ++ List.replicate k (.step 0)) := by
      rw [List.replicate_append_replicate]
      exact (runs_of_steps _ _ _ _).1
    exact nullTexts_legal k _ hl
  · intro j hj
    rw [List.replicate_append_replicate] at hj
    cases List.eq_of_mem_replicate hj
  · rw [List.replicate_append_replicate, (runs_of_steps 9 0 (.start World.initial) _).2]
    omega
  · have : ((Proc.start World.initial).run 9 ((nullTexts k).dropLast ++ .call 0 (.enc (.ref 0) ⟨[], 0, 100⟩) :: (List.replicate 9 (.step 0) ++ List.replicate k (.step 0))))
        = ((((Proc.start World.initial).run 9 (nullTexts k)).run 9 (List.replicate 9 (.step 0))).run 9 (List.replicate k (.step 0))) := by
      rw [← run_append, ← run_append]
      rfl
    rw [this]
    obtain ⟨-, b, hb⟩ := he
    rw [hb]
    rintro (h | h)
    · exact h rfl
    · cases h

theorem steps_cls (n : Nat) : ∀ (ops : List Op) (p : Proc), (∀ o ∈ ops, ∃ j, o = .step j) → (∀ i, (p.thr i).isEnc = true) →
    clsAt (p.run n ops).h = clsAt p.h
  | [], _, _, _ => rfl
  | o :: os, p, ho, hp => by
    obtain ⟨j, rfl⟩ := ho o (List.mem_cons_self ..)
    rw [show p.run n (.step j :: os) = (p.after n (.step j)).run n os from rfl, steps_cls n os _ (fun o h => ho o (List.mem_cons_of_mem _ h)) ?_]
    · have := hp j
      simp only [Proc.after]
      cases ht : p.thr j with
      | enc t => exact hstep_cls _ n p.h t
      | dec t => rw [ht] at this; cases this
    · intro i
      simp only [Proc.after]
      split
      · rw [isEnc_step]; exact hp j
      · exact hp i

/-- C79_encode is about this: a packet with a list of two numbers; one thread encodes it (`begun`, C78), with any number of other threads, idle or stepping. -/
example (rest : List Op) (hrest : ∀ o ∈ rest, ∃ j, o = .step j) (hs : 99 * 100 + 112 ≤ stepsOf 0 rest) :
    (((Proc.start World.initial).run 9 (begun ++ rest)).thr 0).finished := by
  have hlegal : ∀ (ops : List Op) (p : Proc), (∀ o ∈ ops, ∃ j, o = .step j) → Legal 9 p ops := by
    intro ops
    induction ops with
    | nil => intro _ _; trivial
    | cons o os ih =>
      intro p ho
      obtain ⟨j, rfl⟩ := ho o (List.mem_cons_self ..)
      exact ⟨trivial, ih _ fun o h => ho o (List.mem_cons_of_mem _ h)⟩
  refine C79_encode World.initial C28_default_world.1 9 0 (begun.take 4) (.step 0 :: .step 0 :: rest) 0 (.ref 0) ⟨[], 0, 100⟩
    (begun_legal rest (hlegal _ _ hrest)) ?_ ?_ ?_
  · intro j hj
    rcases List.mem_cons.mp hj with hj | hj
    · cases hj
    · rcases List.mem_cons.mp hj with hj | hj
      · cases hj
      · obtain ⟨_, h⟩ := hrest _ hj
        cases h
  · intro pre hpre
    have hpre' : ∀ o ∈ pre, ∃ j, o = .step j := by
      intro o ho
      rcases List.mem_cons.mp (hpre.subset ho) with rfl | ho
      · exact ⟨0, rfl⟩
      · rcases List.mem_cons.mp ho with rfl | ho
        · exact ⟨0, rfl⟩
        · exact hrest o ho
    have hc := steps_cls 9 pre ((Proc.start World.initial).run 9 (begun.take 5)) hpre' (by intro i; cases i <;> rfl)
    rw [← run_append] at hc
    intro r c ys a xs h1 h2
    have h3 := congrFun hc r
    have h4 : clsAt ((Proc.start World.initial).run 9 (begun.take 5)).h r = some c := by
      rw [← h3]
      show clsAt ((Proc.start World.initial).run 9 (begun.take 4 ++ .call 0 (.enc (.ref 0) ⟨[], 0, 100⟩) :: pre)).h r = some c
      unfold clsAt
      rw [h1]
    exfalso
    rcases r with _ | _ | r
    · cases h4; cases h2
    · cases h4
    · cases h4
  · simp only [stepsOf, List.countP_cons, beq_self_eq_true, if_true, WBuf.space, List.length_nil] at hs ⊢
    omega

/-- C79_decode is about this: a thread decodes any bytes into a frame. -/
example (data : List Byte) (k : Nat) (hk : 99 * data.length + 114 ≤ k) :
    (((Proc.start World.initial).run 9 ([.new .sample_RootPacket] ++ .call 0 (.dec 0 ⟨data, [], 0⟩) :: List.replicate k (.step 0))).thr 0).finished := by
  refine C79_decode World.initial C28_default_world.1 9 _ _ 0 0 ⟨data, [], 0⟩ ⟨trivial, ⟨.inr rfl, _, _, rfl⟩, (runs_of_steps 9 0 _ k).1⟩ ?_ ?_
  · intro j hj
    cases List.eq_of_mem_replicate hj
  · rw [(runs_of_steps 9 0 (.start World.initial) k).2]
    simp only [RBuf.ahead, List.length_nil]
    omega

end FinProto
