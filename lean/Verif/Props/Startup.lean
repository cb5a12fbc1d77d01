import Verif.Proofs.Startup
import Verif.Props.ConcurrentFactory
import Verif.Props.ConcurrentRegistry
import Verif.Props.RoundTrip
/-
C89: several threads in a program that has just started, the registries being filled when they are first used.
-/
namespace FinProto

/-- **C89.** No thread can tell that the factories are filled while the program runs already: whatever the threads do and in whatever order, the calls return with
the same answers and in the same order as in a program whose factories were filled before it began, with the steps in the same order.
A factory whose class is initialised holds the same entries. -/
theorem C89_factories (prog : Nat → List FacCall) (sched : List Nat) :
    let end_ := (FacStart.start prog).run sched
    ∃ sched', sched'.Sublist sched ∧
      let end' := (FacSys.start Factories.initial prog).run sched'
      end_.sys.log = end'.log
        ∧ (∀ f k, end_.cls f = .ready → end_.sys.maps.create f k = end'.maps.create f k)
        ∧ (∀ c, end_.cls .sse_SseBinary = .ready → end_.sys.maps.getMsgType c = end'.maps.getMsgType c) := by
  obtain ⟨sched', h1, h⟩ := sim_run sched (start_sim prog)
  refine ⟨sched', h1, h.log, fun f k hc => ?_, fun c hc => ?_⟩
  · have := h.maps f
    rw [show ((FacStart.start prog).run sched).left f = [] from by unfold FacStart.left; rw [hc]] at this
    unfold Factories.create
    rw [show ((FacStart.start prog).run sched).sys.maps.map f k = _ from congrFun this.1 k]
  · have := h.maps .sse_SseBinary
    rw [show ((FacStart.start prog).run sched).left .sse_SseBinary = [] from by unfold FacStart.left; rw [hc]] at this
    unfold Factories.getMsgType
    rw [show ((FacStart.start prog).run sched).sys.maps.rev = _ from this.2 rfl]

/-- **C89.** Nobody sees a factory half filled: as long as no thread registers or removes message types, every lookup by any thread, the very first ones included,
gives what the completely filled factory gives. -/
theorem C89_complete (prog : Nat → List FacCall) (hread : ∀ i op, FacCall.change op ∉ prog i) (sched : List Nat) :
    ∀ d ∈ ((FacStart.start prog).run sched).sys.log,
      (∀ f k, d.call = .create f k → d.answer = .created (Factories.initial.create f k))
        ∧ (∀ c, d.call = .getMsgType c → d.answer = .type (Factories.initial.getMsgType c)) := by
  intro d hd
  obtain ⟨sched', _, hl, _, _⟩ := C89_factories prog sched
  rw [hl] at hd
  obtain ⟨before, after, e⟩ := List.append_of_mem hd
  have hch : changes before = [] := by
    unfold changes
    rw [List.filterMap_eq_nil_iff]
    intro d' hd'
    cases hc : d'.call with
    | change op =>
      exfalso
      have hm := fac_program Factories.initial prog sched' d'.thread
      have : FacCall.change op ∈ facDoneBy d'.thread ((FacSys.start Factories.initial prog).run sched').log := by
        rw [e]
        unfold facDoneBy
        exact List.mem_map.mpr ⟨d', List.mem_filter.mpr ⟨List.mem_append_left _ hd', by simp⟩, hc⟩
      exact hread d'.thread op (by rw [← hm]; simp [this])
    | _ => rfl
  have hsep : Separate prog := fun i _ a _ ha => absurd ha (hread i a)
  rcases C59_separate Factories.initial prog hsep sched' before d after e with h | ⟨i, c, t, s, h, _⟩
  · rw [hch] at h
    refine ⟨fun f k hc => ?_, fun c hc => ?_⟩
    · rw [h, hc, expected_create]
      rfl
    · rw [h, hc, expected_type]
      rfl
  · exact absurd h (hread i _)

/-- **C89.** Waiting for an initialisation cannot go wrong: of `T` threads, if every one gets a step in each round (in any order, as often as one likes), then after
a number of rounds known in advance every thread has made all its calls. -/
theorem C89_finish (T : Nat) (prog : Nat → List FacCall) (hT : ∀ i, T ≤ i → prog i = []) (rounds : List (List Nat))
    (hr : ∀ r ∈ rounds, ∀ i, i < T → i ∈ r)
    (hlong : (allFac.map fun f => (initOps f).length + 2).sum + ((List.range T).map fun i => 2 * (prog i).length).sum < rounds.length) :
    ∀ i, facDoneBy i ((FacStart.start prog).run rounds.flatten).sys.log = prog i := by
  intro i
  have hload : (FacStart.start prog).load T = (allFac.map fun f => (initOps f).length + 2).sum + ((List.range T).map fun i => 2 * (prog i).length).sum := rfl
  have hidle := rounds_finish T rounds (start_sim prog) (fun k hk => by
    show FacThread.at? ⟨prog k, none⟩ = none
    rw [hT k hk]; rfl) hr (by rw [hload]; exact hlong) i
  obtain ⟨sched', _, h⟩ := sim_run rounds.flatten (start_sim prog)
  have hp := fac_program Factories.initial prog sched' i
  rw [← h.log, ← h.thr] at hp
  revert hidle hp
  unfold FacThread.at? FacThread.current
  rcases (((FacStart.start prog).run rounds.flatten).sys.thr i).mid with _ | m
  · rcases (((FacStart.start prog).run rounds.flatten).sys.thr i).todo with _ | ⟨c, cs⟩
    · intro _ hp; simpa using hp
    · intro hidle; cases hidle
  · intro hidle; cases hidle

/-- **C89.** The same for the checksum registry, which its constructor fills: the calls return with the same answers and in the same order as in a program whose
registry was filled before it began. -/
theorem C89_registry (prog : Nat → List RegCall) (sched : List Nat) :
    let end_ := (RegStart.start prog).run sched
    ∃ sched', sched'.Sublist sched ∧
      let end' := (RegSys.start Registry.initial prog).run sched'
      end_.sys.log = end'.log ∧ (end_.cls = .ready → end_.sys.map = end'.map) := by
  obtain ⟨sched', h1, h⟩ := regSim_run sched (regStart_sim prog)
  refine ⟨sched', h1, h.log, fun hc => ?_⟩
  have := h.map
  rw [show ((RegStart.start prog).run sched).left = [] from by unfold RegStart.left; rw [hc]] at this
  exact this

/-- **C89.** … in particular threads that only ask for services find "CRC16" and "CRC32", and nothing else, from the first call on. -/
theorem C89_services (prog : Nat → List RegCall) (hread : ∀ i, ∀ c ∈ prog i, ∃ n, c = .get n) (sched : List Nat) :
    ∀ d ∈ ((RegStart.start prog).run sched).sys.log, ∀ name, d.call = .get name →
      d.answer = .service (if name = "CRC16" then some crc16Service else if name = "CRC32" then some crc32Service else none) := by
  intro d hd name hn
  obtain ⟨sched', _, hl, _⟩ := C89_registry prog sched
  rw [hl] at hd
  obtain ⟨before, after, e⟩ := List.append_of_mem hd
  have hown : OneOwner prog := by
    intro i j s t hs
    obtain ⟨n, hn⟩ := hread i _ hs
    cases hn
  have h := (C58_one_owner prog hown sched').1 before d after e
  rw [hn] at h
  rw [h]
  have hg : ∀ c ∈ before.map (·.call), ∃ n, c = RegCall.get n := by
    intro c hc
    obtain ⟨d', hd', rfl⟩ := List.mem_map.mp hc
    refine hread d'.thread _ (reg_log_mem (r := Registry.initial) (sched := sched') ?_)
    rw [e]
    exact List.mem_append_left _ hd'
  have hnone : ∀ l : List RegCall, (∀ c ∈ l, ∃ n, c = RegCall.get n) → ∀ past, registeredAfter (past ++ l) name = registeredAfter past name := by
    intro l
    induction l with
    | nil => intro _ past; rw [List.append_nil]
    | cons c l ih =>
      intro hl past
      obtain ⟨n, rfl⟩ := hl c (List.mem_cons_self ..)
      have := ih (fun c hc => hl c (List.mem_cons_of_mem _ hc)) (past ++ [.get n])
      rw [List.append_assoc] at this
      rw [show past ++ RegCall.get n :: l = past ++ ([RegCall.get n] ++ l) from rfl, this]
      simp [registeredAfter, RegCall.resets, RegCall.offers]
  simp only [RegCall.expected]
  rw [hnone _ hg]
  by_cases h16 : name = "CRC16"
  · subst h16; rfl
  · by_cases h32 : name = "CRC32"
    · subst h32; rfl
    · have e16 : crc16Service.algorithm = "CRC16" := rfl
      have e32 : crc32Service.algorithm = "CRC32" := rfl
      simp [registeredAfter, startCalls, RegCall.resets, RegCall.offers, e16, e32, h16, h32, Ne.symm h16, Ne.symm h32]

/-- **C89.** Threads waiting for the registry to be filled all get to the end of their programs. -/
theorem C89_registry_finish (T : Nat) (prog : Nat → List RegCall) (hT : ∀ i, T ≤ i → prog i = []) (rounds : List (List Nat))
    (hr : ∀ r ∈ rounds, ∀ i, i < T → i ∈ r) (hlong : 4 + ((List.range T).map fun i => 2 * (prog i).length).sum < rounds.length) :
    ∀ i, doneBy i ((RegStart.start prog).run rounds.flatten).sys.log = prog i := by
  intro i
  have hload : (RegStart.start prog).load T = 4 + ((List.range T).map fun i => 2 * (prog i).length).sum := rfl
  obtain ⟨h1, h2⟩ := reg_rounds T prog hT rounds hr (by rw [hload]; exact hlong) i
  obtain ⟨sched', _, h⟩ := regSim_run rounds.flatten (regStart_sim prog)
  have hp := reg_program Registry.initial prog sched' i
  rw [← h.log, ← h.thr] at hp
  unfold RegThread.current at hp
  rw [h1, h2] at hp
  simpa using hp

/-! ### Cases -/

/-- Three threads that look things up as soon as the program has started. -/
private def early : Nat → List FacCall
  | 0 => [.create .sample_RootPacket (.short 1), .getMsgType .sse_Heartbeat]
  | 1 => [.create .sample_RootPacket (.short 4), .create .sample_RootPacket (.short 9)]
  | 2 => [.create .sample_RootPacket (.short 2)]
  | _ => []

example : ∀ i op, FacCall.change op ∉ early i := by
  intro i op
  match i with
  | 0 | 1 | 2 => simp [early]
  | i + 3 => simp [early]

example : ∀ i, 3 ≤ i → early i = [] := fun i hi => match i, hi with | _ + 3, _ => rfl

/-- Thread 1 initialises the factory; the others wait, thread 0 being the first to be answered. -/
example : let st := (FacStart.start early).run [1, 0, 1, 2, 1, 0, 1, 2, 1, 0, 1, 0, 1, 2, 1]
    st.sys.log.map (fun d => (d.thread, match d.answer with | .created (.ok v) => v.cls? | _ => none)) =
      [(0, some Cls.sample_BasicPacket), (1, some .sample_EmptyPacket), (2, some .sample_StringPacket), (1, none)] := by
  decide +kernel

/-- While the initialiser runs the map holds a part of the entries — which no answer shows. -/
example : let st := (FacStart.start early).run [1, 1, 1, 0, 0, 2]
    st.sys.log.length = 0 ∧ (st.sys.maps.map .sample_RootPacket (.short 1)).isSome ∧ (st.sys.maps.map .sample_RootPacket (.short 4)).isNone := by
  decide +kernel

example : (List.replicate 1000 [2, 1, 0]).length = 1000 ∧ (∀ r ∈ List.replicate 1000 [2, 1, 0], ∀ i, i < 3 → i ∈ r)
    ∧ (allFac.map fun f => (initOps f).length + 2).sum + ((List.range 3).map fun i => 2 * (early i).length).sum < 1000 := by
  refine ⟨List.length_replicate, fun r hr i hi => ?_, by decide +kernel⟩
  rw [List.eq_of_mem_replicate hr]
  match i, hi with
  | 0, _ | 1, _ | 2, _ => simp

private def earlyReg : Nat → List RegCall
  | 0 => [.get "CRC16", .get "CRC8"]
  | 1 => [.get "CRC32"]
  | _ => []

example : ∀ i, ∀ c ∈ earlyReg i, ∃ n, c = RegCall.get n := by
  intro i c hc
  match i with
  | 0 => simp [earlyReg] at hc; rcases hc with rfl | rfl <;> exact ⟨_, rfl⟩
  | 1 => simp [earlyReg] at hc; exact ⟨_, hc⟩
  | i + 2 => simp [earlyReg] at hc

/-- Thread 1 comes while thread 0 is in the constructor, and waits. -/
example : ((RegStart.start earlyReg).run [0, 0, 1, 0, 1, 0, 1, 0, 0]).sys.log =
    [⟨1, .get "CRC32", .service (some crc32Service)⟩, ⟨0, .get "CRC16", .service (some crc16Service)⟩, ⟨0, .get "CRC8", .service none⟩] := rfl

/-- The theorems on these programs. -/
example := C89_complete early (by intro i op; match i with | 0 | 1 | 2 => simp [early] | i + 3 => simp [early])
  [1, 0, 1, 2, 1, 0, 1, 2, 1, 0, 1, 0, 1, 2, 1]
example := C89_finish 3 early (fun i hi => match i, hi with | _ + 3, _ => rfl) (List.replicate 1000 [2, 1, 0])
  (fun r hr i hi => by
    rw [List.eq_of_mem_replicate hr]
    match i, hi with
    | 0, _ | 1, _ | 2, _ => simp)
  (by rw [List.length_replicate]; decide +kernel)
example := C89_services earlyReg (by
  intro i c hc
  match i with
  | 0 => simp [earlyReg] at hc; rcases hc with rfl | rfl <;> exact ⟨_, rfl⟩
  | 1 => simp [earlyReg] at hc; exact ⟨_, hc⟩
  | i + 2 => simp [earlyReg] at hc) [0, 0, 1, 0, 1, 0, 1, 0, 0]

end FinProto
