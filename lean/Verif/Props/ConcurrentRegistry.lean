import Verif.Proofs.ConcurrentRegistry
import Verif.Props.Checksum
/-
C58: threads sharing the checksum registry.
-/
namespace FinProto

/-- **C58.** If no algorithm is registered by two different threads, then in every schedule every call answers as if the
calls had been made one after the other in the order in which they returned (in particular a call that returned before another
was made precedes it), each thread's calls return in program order, and lookups afterwards agree with that order. -/
theorem C58_one_owner (prog : Nat → List RegCall) (hown : OneOwner prog) (sched : List Nat) :
    let end_ := (RegSys.start Registry.initial prog).run sched
    Sequential startCalls end_.log
      ∧ (∀ i, doneBy i end_.log <+: prog i)
      ∧ ∀ name, Registry.getService end_.map name = registeredAfter (startCalls ++ end_.log.map (·.call)) name := by
  have h := reg_inv startCalls Registry.initial (fun n => by rw [← runCalls_eq]; rfl) prog hown sched
  exact ⟨h.seq, fun i => ⟨_, by rw [← List.append_assoc]; exact reg_program Registry.initial prog sched i⟩, h.map⟩

/-- **C58.** No call ever waits for another thread: a thread that gets two steps per call has finished its program, whatever
the others do. -/
theorem C58_wait_free (prog : Nat → List RegCall) (sched : List Nat) (i : Nat) (h : 2 * (prog i).length ≤ sched.count i) :
    doneBy i ((RegSys.start Registry.initial prog).run sched).log = prog i := by
  have hw := reg_work (RegSys.start Registry.initial prog) sched i
  have hp := reg_program Registry.initial prog sched i
  obtain ⟨t, ht⟩ : ∃ t, t = ((RegSys.start Registry.initial prog).run sched).thr i := ⟨_, rfl⟩
  rw [← ht] at hw hp
  have h0 : t.work = 0 := by
    have : ((RegSys.start Registry.initial prog).thr i).work = 2 * (prog i).length := rfl
    omega
  have h1 : t.todo = [] := by
    cases hl : t.todo with
    | nil => rfl
    | cons c cs => simp [RegThread.work, hl] at h0
  have h2 : t.mid = none := by
    cases hl : t.mid with
    | none => rfl
    | some c => simp [RegThread.work, hl] at h0
  simpa [h1, h2, RegThread.current] using hp

/-- **C58.** Whatever the threads do, a lookup yields null or a service of that name which is a default one or was passed to
`registry` by one of the threads. -/
theorem C58_own_name (prog : Nat → List RegCall) (sched : List Nat) :
    let end_ := (RegSys.start Registry.initial prog).run sched
    ∀ d ∈ end_.log, ∀ name s, d.call = .get name → d.answer = .service (some s) →
      s.algorithm = name ∧ (Registry.getService Registry.initial name = some s ∨ ∃ i, RegCall.registry s ∈ prog i) := by
  refine (reg_origin Registry.initial ?_ prog sched).2
  intro n s h
  simp only [Registry.initial, Registry.registry] at h
  revert h
  by_cases h1 : n = "CRC32"
  · subst h1
    intro h
    simp [crc16Service, crc32Service] at h
    rw [← h]
  · by_cases h2 : n = "CRC16"
    · subst h2
      intro h
      simp [crc16Service, crc32Service] at h
      rw [← h]
    · intro h
      simp [crc16Service, crc32Service, h1, h2] at h

/-- **C58.** If no thread removes services: once some call `registry(s)` has returned, with either answer, every later lookup of
that name finds a service, and the same thread never gets `true` for that name again. -/
theorem C58_visible (prog : Nat → List RegCall) (hno : NoResets prog) (sched : List Nat) :
    let end_ := (RegSys.start Registry.initial prog).run sched
    ∀ before d after, end_.log = before ++ d :: after → ∀ d' ∈ before, ∀ s', d'.call = .registry s' →
      (d.call = .get s'.algorithm → ∃ s, d.answer = .service (some s))
        ∧ (∀ s, d.call = .registry s → s.algorithm = s'.algorithm → d.thread = d'.thread → d.answer = .bool false) := by
  intro end_ before d after e d' hd' s' hs'
  have h := reg_keep Registry.initial prog hno sched
  exact ⟨fun hc => h.found before d after e _ hc ⟨d', hd', s', hs', rfl⟩,
    fun s hc ha ht => h.refused before d after e s hc ⟨d', hd', ht.symm, s', hs', ha.symm⟩⟩

/-- Two services of the same algorithm. -/
private def zero : Service := ⟨"X", fun _ => 0⟩
private def one : Service := ⟨"X", fun _ => 1⟩

/-- Thread 0 registers one and looks it up twice, thread 1 registers the other. -/
private def raceProg : Nat → List RegCall
  | 0 => [.registry zero, .get "X", .get "X"]
  | 1 => [.registry one]
  | _ => []

/-- `containsKey` of both, `put` of thread 0, its first lookup, `put` of thread 1, second lookup. -/
private def raceSched : List Nat := [0, 1, 0, 0, 1, 0]

/-- **C58, violated.** When two threads register the same algorithm, both can be told `true`, and the service the first one
found under the name is replaced although nobody removed it.  No order in which the four calls could have been made one after
the other explains the answers. -/
theorem C58_race_violated :
    ∃ (prog : Nat → List RegCall) (sched : List Nat), NoResets prog ∧
      let log := ((RegSys.start Registry.initial prog).run sched).log
      ∃ s0 s1, s0.algorithm = s1.algorithm ∧ s0.calcOn [] ≠ s1.calcOn []
        ∧ log = [⟨0, .registry s0, .bool true⟩, ⟨0, .get s0.algorithm, .service (some s0)⟩,
            ⟨1, .registry s1, .bool true⟩, ⟨0, .get s0.algorithm, .service (some s1)⟩]
        ∧ ∀ order : List RegDone, order.Perm log → ¬ Sequential startCalls order := by
  refine ⟨raceProg, raceSched, ?_, zero, one, rfl, by decide, ?_, ?_⟩
  · intro i n c hc
    match i with
    | 0 => simp only [raceProg, List.mem_cons, List.not_mem_nil, or_false] at hc; rcases hc with rfl | rfl | rfl <;> rfl
    | 1 => simp only [raceProg, List.mem_cons, List.not_mem_nil, or_false] at hc; rcases hc with rfl; rfl
    | _ + 2 => cases hc
  · rfl
  · intro order hperm hseq
    have hlog : ((RegSys.start Registry.initial raceProg).run raceSched).log =
        [⟨0, .registry zero, .bool true⟩, ⟨0, .get "X", .service (some zero)⟩,
          ⟨1, .registry one, .bool true⟩, ⟨0, .get "X", .service (some one)⟩] := rfl
    rw [hlog] at hperm
    have hno : ∀ d ∈ order, ∀ n, d.call.resets n = false := by
      intro d hd n
      have := hperm.mem_iff.1 hd
      simp only [List.mem_cons, List.not_mem_nil, or_false] at this
      rcases this with rfl | rfl | rfl | rfl <;> rfl
    have h0 : (⟨0, .registry zero, .bool true⟩ : RegDone) ∈ order := hperm.mem_iff.2 (by simp)
    have h1 : (⟨1, .registry one, .bool true⟩ : RegDone) ∈ order := hperm.mem_iff.2 (by simp)
    obtain ⟨before, after, e⟩ := List.append_of_mem h0
    rw [e] at h1
    rcases List.mem_append.1 h1 with h1 | h1
    · exact absurd (sequential_once hseq hno e h1 rfl rfl rfl) (by simp)
    · rcases List.mem_cons.1 h1 with h1 | h1
      · injection h1 with h1; cases h1
      · obtain ⟨b2, a2, rfl⟩ := List.append_of_mem h1
        have e2 : order = (before ++ ⟨0, .registry zero, .bool true⟩ :: b2) ++ ⟨1, .registry one, .bool true⟩ :: a2 := by simp [e]
        exact absurd (sequential_once hseq hno e2 (List.mem_append_right _ List.mem_cons_self) rfl rfl rfl) (by simp)

/-- One thread registers SSE_BIN and the other SZSE_BIN and looks up both, interleaved. -/
private def fairProg : Nat → List RegCall
  | 0 => [.registry sseBinService, .registry sseBinService]
  | 1 => [.registry szseBinService, .get "SSE_BIN", .get "SZSE_BIN"]
  | _ => []

private theorem fairProg_owner : OneOwner fairProg := by
  intro i j s t hs ht h
  match i, j with
  | 0, 0 => rfl
  | 1, 1 => rfl
  | 0, 1 => simp [fairProg] at hs ht; subst hs ht; exact absurd h (by decide)
  | 1, 0 => simp [fairProg] at hs ht; subst hs ht; exact absurd h (by decide)
  | _ + 2, _ => cases hs
  | _, _ + 2 => cases ht

example : ((RegSys.start Registry.initial fairProg).run [0, 1, 0, 1, 1, 0, 1]).log
    = [⟨0, .registry sseBinService, .bool true⟩, ⟨1, .registry szseBinService, .bool true⟩,
       ⟨1, .get "SSE_BIN", .service (some sseBinService)⟩, ⟨0, .registry sseBinService, .bool false⟩,
       ⟨1, .get "SZSE_BIN", .service (some szseBinService)⟩] := rfl

/-- The theorems with a hypothesis on these programs: `fairProg` removes nothing, and its schedule lets both threads finish. -/
example := C58_one_owner fairProg fairProg_owner [0, 1, 0, 1, 1, 0, 1]
example := C58_wait_free fairProg [0, 1, 0, 1, 1, 0, 1, 0, 1, 1] 0 (by decide)
example := C58_visible fairProg (by
  intro i n c hc
  match i with
  | 0 => simp [fairProg] at hc; rcases hc with rfl | rfl <;> rfl
  | 1 => simp [fairProg] at hc; rcases hc with rfl | rfl | rfl <;> rfl
  | _ + 2 => cases hc) [0, 1, 0, 1, 1, 0, 1]

end FinProto
