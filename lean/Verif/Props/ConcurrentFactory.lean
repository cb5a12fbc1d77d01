import Verif.Proofs.ConcurrentFactory
/-
C59: threads sharing the message factories.
-/
namespace FinProto

/-- **C59.** Threads register message types of the SSE factory and nobody removes one or registers null: in every schedule, once any
thread was told that class `c` has type `t`, every later `create(t)` in any thread gives an object. -/
theorem C59_announced_type (prog : Nat → List FacCall)
    (hno : ∀ i op, FacCall.change op ∈ prog i → ∀ t, op.keeps .sse_SseBinary (.int t)) (sched : List Nat) :
    let end_ := (FacSys.start Factories.initial prog).run sched
    ∀ before d after, end_.log = before ++ d :: after → ∀ d' ∈ before, ∀ c t, d'.call = .getMsgType c → d'.answer = .type (some t) →
      d.call = .create .sse_SseBinary (.int t) → ∃ v, d.answer = .created (.ok v) := by
  intro end_ before d after e d' hd' c t h1 h2 h3
  refine (fac_pub Factories.initial ?_ prog hno sched).log before d after e t h3 ⟨d', hd', c, h1, h2⟩
  intro c t h
  have := (C39_default_inverse c t).mp h
  simp only [Factories.create] at this
  revert this
  cases Factories.initial.map .sse_SseBinary (.int t) with
  | none => intro h; cases h
  | some v => intro _; rfl

/-- **C59.** If changes made by different threads concern different keys and classes, then in every schedule every call answers
as if the calls that returned before it had been made one after the other — except that `create(t)` may already
see a `register` call for `t` that has not returned yet. -/
theorem C59_separate (F : Factories) (prog : Nat → List FacCall) (hsep : Separate prog) (sched : List Nat) :
    let end_ := (FacSys.start F prog).run sched
    ∀ before d after, end_.log = before ++ d :: after →
      d.answer = d.call.expected F (changes before)
        ∨ ∃ i c t s, FacCall.change (.registerSse c t s) ∈ prog i ∧ d.call = .create .sse_SseBinary (.int t)
            ∧ d.answer = d.call.expected F (changes before ++ [.registerSse c t s]) :=
  (fac_inv F prog hsep sched).log

/-- **C59.** … and when all threads have finished, every further lookup answers as after the calls made one after the other in the
order in which they returned; each thread's calls returned in program order. -/
theorem C59_settled (F : Factories) (prog : Nat → List FacCall) (hsep : Separate prog) (sched : List Nat)
    (hdone : ∀ i, facDoneBy i ((FacSys.start F prog).run sched).log = prog i) :
    let end_ := (FacSys.start F prog).run sched
    (∀ f k, .created (end_.maps.create f k) = FacCall.expected F (changes end_.log) (.create f k))
      ∧ (∀ c, .type (end_.maps.getMsgType c) = FacCall.expected F (changes end_.log) (.getMsgType c)) := by
  have h := fac_inv F prog hsep sched
  have hmid : ∀ i, (((FacSys.start F prog).run sched).thr i).mid = none := by
    intro i
    have hp := fac_program F prog sched i
    rw [hdone i] at hp
    have hl := congrArg List.length hp
    simp only [List.length_append, FacThread.current, List.length_map] at hl
    cases hm : (((FacSys.start F prog).run sched).thr i).mid with
    | none => rfl
    | some m => rw [hm] at hl; simp at hl; omega
  refine ⟨?_, ?_⟩
  · intro f k
    rw [expected_create, Factories.create, Factories.create]
    rw [h.map f k (fun i c t s hi => by rw [hmid i] at hi; cases hi)]
  · intro c
    rw [expected_type, Factories.getMsgType, h.rev]

/-- Thread 0 registers a class under SSE type 7; thread 1 creates type 7 and asks for the type of the class. -/
private def tornProg : Nat → List FacCall
  | 0 => [.change (.registerSse .sample_StringPacket 7 (some (fresh .sample_StringPacket)))]
  | 1 => [.create .sse_SseBinary (.int 7), .getMsgType .sample_StringPacket]
  | _ => []

private theorem torn_log (F : Factories) : ((FacSys.start F tornProg).run [0, 1, 1, 0]).log =
    [⟨1, .create .sse_SseBinary (.int 7), .created (.ok (fresh .sample_StringPacket))⟩,
      ⟨1, .getMsgType .sample_StringPacket, .type (F.rev .sample_StringPacket)⟩,
      ⟨0, .change (.registerSse .sample_StringPacket 7 (some (fresh .sample_StringPacket))), .unit⟩] := rfl

/-- **C59, violated.** `register` is not one step for other threads: a thread can create the new type and afterwards be told that its class has
no type, which is not explained by the `register` call having been made before, between or after the two calls. -/
theorem C59_torn_violated :
    ∃ (prog : Nat → List FacCall) (sched : List Nat) (op : FacOp) (t : BitVec 32) (c : Cls) (v : Val),
      prog 0 = [.change op] ∧ prog 1 = [.create .sse_SseBinary (.int t), .getMsgType c] ∧ (∀ i, 2 ≤ i → prog i = [])
      ∧ ((FacSys.start Factories.initial prog).run sched).log =
          [⟨1, .create .sse_SseBinary (.int t), .created (.ok v)⟩, ⟨1, .getMsgType c, .type none⟩, ⟨0, .change op, .unit⟩]
      ∧ ∀ h1 h2 h3 : List FacOp, h1 ++ h2 ++ h3 = [op] →
          ¬ (.created (.ok v) = FacCall.expected Factories.initial h1 (.create .sse_SseBinary (.int t))
            ∧ .type none = FacCall.expected Factories.initial (h1 ++ h2) (.getMsgType c)) := by
  have h0 : Factories.initial.map .sse_SseBinary (.int 7) = none := by
    have : Factories.initial.create .sse_SseBinary (.int 7) = .error .illegalArgument :=
      C41_unknown _ _ (by
        have h : ((messageTypes .sse_SseBinary).map (·.1)).contains (Key.int 7) = false := by decide +kernel
        intro name hmem
        have : (Key.int 7) ∈ (messageTypes .sse_SseBinary).map (·.1) := List.mem_map.2 ⟨_, hmem, rfl⟩
        rw [← List.contains_iff_mem, h] at this
        cases this)
    simp only [Factories.create] at this
    revert this
    cases Factories.initial.map .sse_SseBinary (.int 7) with
    | none => intro _; rfl
    | some v => intro h; cases h
  refine ⟨tornProg, [0, 1, 1, 0], _, 7, .sample_StringPacket, fresh .sample_StringPacket, rfl, rfl, ?_, ?_, ?_⟩
  · intro i hi
    match i, hi with
    | i + 2, _ => rfl
  · have hrev : Factories.initial.rev .sample_StringPacket = none := by decide +kernel
    rw [torn_log, hrev]
  · rintro h1 h2 h3 hh ⟨e1, e2⟩
    cases h1 with
    | nil =>
      simp only [FacCall.expected, lastStored, List.reverse_nil, List.findSome?_nil, Option.getD_none, h0] at e1
      injection e1 with e1
      cases e1
    | cons op h1 =>
      have : op = .registerSse .sample_StringPacket 7 (some (fresh .sample_StringPacket)) ∧ h1 = [] ∧ h2 = [] := by
        have hl := congrArg List.length hh
        simp only [List.length_append, List.length_cons, List.length_nil] at hl
        have a : h1 = [] := List.length_eq_zero_iff.1 (by omega)
        have b : h2 = [] := List.length_eq_zero_iff.1 (by omega)
        subst a b
        simp only [List.cons_append, List.nil_append, List.cons.injEq] at hh
        exact ⟨hh.1, rfl, rfl⟩
      obtain ⟨rfl, rfl, rfl⟩ := this
      simp [FacCall.expected, FacOp.types] at e2

/-- Two threads registering different types. -/
private def sepProg : Nat → List FacCall
  | 0 => [.change (.registerSse .sample_StringPacket 7 (some (fresh .sample_StringPacket))), .create .sse_SseBinary (.int 8)]
  | 1 => [.change (.registerSse .sample_SubPacket 8 (some (fresh .sample_SubPacket))), .getMsgType .sample_StringPacket, .change (.remove .szse_SzseBinary (.int 1))]
  | _ => []

private theorem sepProg_separate : Separate sepProg := by
  intro i j a b ha hb h
  match i, j with
  | 0, 0 => rfl
  | 1, 1 => rfl
  | 0, 1 =>
    simp [sepProg] at ha hb
    subst ha
    rcases hb with rfl | rfl
    · rcases h with ⟨f, k, h1, h2⟩ | ⟨c, h1, h2⟩
      · simp only [FacOp.stores] at h1 h2
        split at h1 <;> split at h2 <;> simp_all
      · simp only [FacOp.types] at h1 h2
        split at h1
        · rename_i e1
          split at h2
          · rename_i e2; rw [← e1] at e2; cases e2
          · cases h2
        · cases h1
    · rcases h with ⟨f, k, h1, h2⟩ | ⟨c, h1, h2⟩
      · simp only [FacOp.stores] at h1 h2
        split at h1 <;> split at h2 <;> simp_all
      · simp [FacOp.types] at h2
  | 1, 0 =>
    simp [sepProg] at ha hb
    subst hb
    rcases ha with rfl | rfl
    · rcases h with ⟨f, k, h1, h2⟩ | ⟨c, h1, h2⟩
      · simp only [FacOp.stores] at h1 h2
        split at h1 <;> split at h2 <;> simp_all
      · simp only [FacOp.types] at h1 h2
        split at h1
        · rename_i e1
          split at h2
          · rename_i e2; rw [← e1] at e2; cases e2
          · cases h2
        · cases h1
    · rcases h with ⟨f, k, h1, h2⟩ | ⟨c, h1, h2⟩
      · simp only [FacOp.stores] at h1 h2
        split at h1 <;> split at h2 <;> simp_all
      · simp [FacOp.types] at h1
  | _ + 2, _ => cases ha
  | _, _ + 2 => cases hb

/-- A schedule in which `create(8)` runs while type 8 is half registered, and everything finishes. -/
example (F : Factories) : ((FacSys.start F sepProg).run [0, 1, 0, 0, 1, 1, 1]).log =
    [⟨0, .change (.registerSse .sample_StringPacket 7 (some (fresh .sample_StringPacket))), .unit⟩,
      ⟨0, .create .sse_SseBinary (.int 8), .created (.ok (fresh .sample_SubPacket))⟩,
      ⟨1, .change (.registerSse .sample_SubPacket 8 (some (fresh .sample_SubPacket))), .unit⟩,
      ⟨1, .getMsgType .sample_StringPacket, .type (some 7)⟩,
      ⟨1, .change (.remove .szse_SzseBinary (.int 1)), .bool (F.map .szse_SzseBinary (.int 1)).isSome⟩] := rfl

private theorem tornProg_keeps : ∀ i op, FacCall.change op ∈ tornProg i → ∀ t, op.keeps .sse_SseBinary (.int t) := by
  intro i op h t
  match i with
  | 0 =>
    simp [tornProg] at h
    subst h
    simp only [FacOp.keeps, FacOp.stores]
    split <;> simp
  | 1 => simp [tornProg] at h
  | _ + 2 => cases h

/-- The theorems with a hypothesis on these programs. -/
example := C59_announced_type tornProg tornProg_keeps [0, 1, 1, 0]
example := C59_separate Factories.initial sepProg sepProg_separate [0, 1, 0, 0, 1, 1, 1]
example := C59_settled Factories.initial sepProg sepProg_separate [0, 1, 0, 0, 1, 1, 1] (by
  intro i
  match i with
  | 0 => rfl
  | 1 => rfl
  | _ + 2 => rfl)

end FinProto
