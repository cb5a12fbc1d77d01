import Verif.Proofs.Footprint
import Verif.Props.Fanout
import Verif.Props.AtOnce
/-
C80: data races.

`Worker.accesses` (`Model/Access.lean`) lists the fields and lists that the next step of a thread reads and writes; `Conflict` and `Compatible`
(`Spec/Races.lean`): same place and at least one write; what two threads can reach is only encoded, and is not a frame.

The threads synchronise with each other nowhere inside `encode` and `decode`, so in the sense of the Java memory model (JLS 17.4.5) two
conflicting accesses of different threads are a data race, at whatever moments they happen.  A program without data races in its interleavings shows
on any Java machine only what its interleavings show, and those are what C74, C77 and `C80_each_alone` speak about.
-/
namespace FinProto

section
variable (w : World) (n : Nat) (h : Heap) (jobs : Nat → Job) (hc : Compatible h jobs)
include hc

/-- **C80.** Threads call `encode` and `decode` at the same time, each with its own buffer; suppliers build new objects.  No access of one thread, at
any moment of any schedule, conflicts with any access of another thread, at any later moment. -/
theorem C80_no_races (before between : List Nat) (i j : Nat) (hij : i ≠ j) :
    let now := (WSys.start n h jobs).run w w.suppliers n before
    let later := (WSys.start n h jobs).run w w.suppliers n (before ++ i :: between)
    ∀ x ∈ (now.thr i).accesses w w.suppliers n now.h, ∀ y ∈ (later.thr j).accesses w w.suppliers n later.h, ¬ Conflict x y := by
  intro now later
  obtain ⟨ρ, -, -, hi⟩ := (MInv.start w w.suppliers n h jobs hc).run (makes_suppliers w) before
  have := hi.no_race (makes_suppliers w) i j hij between
  have e : later = (now.step w w.suppliers n i).run w w.suppliers n between := by
    show WSys.run _ _ _ _ _ = _
    simp only [WSys.run, List.foldl_append, List.foldl_cons]
    rfl
  rw [e]
  exact this

/-- **C80.** Nor do the next steps of two threads conflict at any moment. -/
theorem C80_no_races_now (sched : List Nat) (i j : Nat) (hij : i ≠ j) :
    let now := (WSys.start n h jobs).run w w.suppliers n sched
    ∀ x ∈ (now.thr i).accesses w w.suppliers n now.h, ∀ y ∈ (now.thr j).accesses w w.suppliers n now.h, x.place.object < now.h.length →
      ¬ Conflict x y := by
  intro now x hx y hy hl ⟨hp, hw⟩
  obtain ⟨ρ, -, -, hi⟩ := (MInv.start w w.suppliers n h jobs hc).run (makes_suppliers w) sched
  rcases hi.access i hx with ⟨x1, -⟩ | ⟨⟨a, ha⟩, hxw⟩
  · exact absurd x1 (Nat.not_le.mpr hl)
  · rcases hi.access j hy with ⟨y1, -⟩ | ⟨⟨b, hb⟩, hyw⟩
    · rw [← hp] at y1
      exact absurd y1 (Nat.not_le.mpr hl)
    · rw [← hp] at hb hyw
      obtain ⟨h1, h2, h3⟩ := hi.share i j hij a b _ ha hb
      rcases hw with hw | hw
      · obtain ⟨c, ys, hc, hcomp⟩ := hxw h1 hw
        rw [h3 c ys hc] at hcomp
        cases hcomp
      · obtain ⟨c, ys, hc, hcomp⟩ := hyw h2 hw
        rw [h3 c ys hc] at hcomp
        cases hcomp

/-- **C80.** In every schedule each call that has ended did what it would have done alone: same buffer and indices, same exception, and its
message shows what it would show then. -/
theorem C80_each_alone (sched : List Nat) (i : Nat) :
    let end_ := (WSys.start n h jobs).run w w.suppliers n sched
    let alone := (jobs i).alone w w.suppliers n h
    (end_.thr i).finished → (end_.thr i).outcome = alone.2 ∧ ∀ v, Shows alone.1 v (jobs i).root → Shows end_.h v (jobs i).root := by
  intro end_ alone hfin
  obtain ⟨ρ, -, -, hi⟩ := (MInv.start w w.suppliers n h jobs hc).run (makes_suppliers w) sched
  simp only [Nat.zero_add] at hi
  obtain ⟨K, hK⟩ := go_alone w w.suppliers n h (jobs i)
  obtain ⟨h1, h2⟩ := (hK (sched.count i)).2 ((hi.thr i).finished.mpr hfin)
  refine ⟨?_, fun v hv => ?_⟩
  · rw [← (hi.thr i).outcome, h2]
  · exact shows_rel (hi.ren i) v _ _ (mroot_rel hi i) (h1 ▸ hv)

/-- **C80.** So a thread that decodes into a message without internal sharing gets what `decode` gives for these bytes … -/
theorem C80_decoded (sched : List Nat) (i r : Nat) (b : RBuf) (hj : jobs i = .dec r b) (c : Cls) (fs : List Val)
    (hs : Unshared h (.obj c fs) (.ref r)) :
    let end_ := (WSys.start n h jobs).run w w.suppliers n sched
    (end_.thr i).finished → (end_.thr i).outcome = .dec (decode w n c fs b).2.1 (decode w n c fs b).2.2
      ∧ Shows end_.h (.obj c (decode w n c fs b).1) (.ref r) := by
  intro end_ hfin
  obtain ⟨h1, h2⟩ := C80_each_alone w n h jobs hc sched i hfin
  rw [hj] at h1 h2
  obtain ⟨h3, h4⟩ := C66_reuse w n c fs r h b hs
  refine ⟨?_, h2 _ h4.1⟩
  rw [h1, Job.alone, h3]

/-- **C80.** … a thread that encodes a message that shows `v` writes the bytes of `v` … -/
theorem C80_encoded (sched : List Nat) (i : Nat) (x : HVal) (b : WBuf) (hj : jobs i = .enc x b) (v : Val) (hs : Shows h v x) :
    let end_ := (WSys.start n h jobs).run w w.suppliers n sched
    (end_.thr i).finished → (end_.thr i).outcome = .enc (encode w n v b).2.1 (encode w n v b).2.2 := by
  intro end_ hfin
  obtain ⟨h1, -⟩ := C80_each_alone w n h jobs hc sched i hfin
  rw [hj] at h1
  rw [h1, Job.alone, C64_shared_bytes w n h v x b hs]

/-- **C80.** … and every call ends. -/
theorem C80_finishes (i : Nat) : ∃ K, ∀ sched : List Nat, K ≤ sched.count i → (((WSys.start n h jobs).run w w.suppliers n sched).thr i).finished := by
  obtain ⟨K, hK⟩ := go_alone w w.suppliers n h (jobs i)
  refine ⟨K, fun sched hs => ?_⟩
  obtain ⟨ρ, -, -, hi⟩ := (MInv.start w w.suppliers n h jobs hc).run (makes_suppliers w) sched
  simp only [Nat.zero_add] at hi
  exact (hi.thr i).finished.mp ((hK (sched.count i)).1 hs)
end

/-! ### The accesses are all there are -/

/-- **C80.** A step of a thread changes nothing but the places it is listed to write. -/
theorem C80_writes (w : World) (sup : Suppliers) (n : Nat) (h : Heap) (t : Worker) (p : Place)
    (hp : ∀ x ∈ t.accesses w sup n h, x.write = true → x.place ≠ p) : (t.step w sup n h).1.read p = h.read p :=
  wstep_read w sup n h t p (fun hx => hp _ hx rfl rfl)

/-- **C80.** What a step does depends on nothing but the places it is listed to read: in another heap with the same objects and the same contents
of these places the thread does the same, and every place is given the same contents in both heaps or left alone in both. -/
theorem C80_reads (w : World) (sup : Suppliers) (n : Nat) (h k : Heap) (hs : SameObjects h k) (t : Worker)
    (hr : ∀ x ∈ t.accesses w sup n h, x.write = false → k.read x.place = h.read x.place) :
    (t.step w sup n k).2 = (t.step w sup n h).2 ∧ SameObjects (t.step w sup n h).1 (t.step w sup n k).1
      ∧ ∀ p, (t.step w sup n k).1.read p = (t.step w sup n h).1.read p
          ∨ ((t.step w sup n h).1.read p = h.read p ∧ (t.step w sup n k).1.read p = k.read p) := by
  obtain ⟨h1, h2, h3⟩ := wstep_same w sup n hs t hr
  exact ⟨h1, h2, h3⟩

/-! ### Cases -/

/-- Two frames with one body, and a new object. -/
def raceHeap : Heap := fanHeap ++ [newMsg .sample_NestedPacket]

/-- Two threads encode the frames, one decodes into the new object. -/
def raceJobs : Nat → Job
  | 0 => .enc (.ref 3) ⟨[], 0, 200⟩
  | 1 => .enc (.ref 4) ⟨[], 0, 200⟩
  | 2 => .dec 5 ⟨[1, 0, 0, 0, 0, 0, 1, 0, 2, 0, 0, 0, 1, 0, 8, 0, 3, 0, 0, 0, 0, 0], [], 0⟩
  | _ => .enc .null ⟨[], 0, 0⟩

theorem reach_race (S : List Nat) (x : HVal) (hx : ∀ r, x = .ref r → r ∈ S)
    (hS : (S.all fun r => match raceHeap[r]? with
      | some o => o.values.all fun v => match v with | .ref q => S.contains q | _ => true
      | none => true) = true) (q : Nat) (hq : Reach raceHeap x q) : q ∈ S := by
  induction hq with
  | here r => exact hx r rfl
  | step r q o y h1 h2 _ ih =>
    refine ih fun p hp => ?_
    have := List.all_eq_true.mp hS r (hx r rfl)
    rw [h1] at this
    have := List.all_eq_true.mp this y h2
    rw [hp] at this
    simpa using this

theorem race_compatible : Compatible raceHeap raceJobs := by
  have key : ∀ i q, Reach raceHeap (raceJobs i).root q →
      (q ∈ [0, 1, 2] ∧ (i = 0 ∨ i = 1)) ∨ (q = 3 ∧ i = 0) ∨ (q = 4 ∧ i = 1) ∨ (q = 5 ∧ i = 2) := by
    intro i q hq
    match i with
    | 0 =>
      have := reach_race [0, 1, 2, 3] (.ref 3) (by simp) (by decide +kernel) q hq
      simp at this ⊢; omega
    | 1 =>
      have := reach_race [0, 1, 2, 4] (.ref 4) (by simp) (by decide +kernel) q hq
      simp at this ⊢; omega
    | 2 =>
      have := reach_race [5] (.ref 5) (by simp) (by decide +kernel) q hq
      simp at this ⊢; omega
    | _ + 3 => cases hq
  refine ⟨fun i j hij q h1 h2 => ?_, fun i q hq => ?_⟩
  · have h1 := key i q h1
    have h2 := key j q h2
    simp only [List.mem_cons, List.not_mem_nil, or_false] at h1 h2
    have hq : q = 0 ∨ q = 1 ∨ q = 2 := by omega
    have hij : (i = 0 ∧ j = 1) ∨ (i = 1 ∧ j = 0) := by omega
    refine ⟨?_, ?_, fun c ys hc => ?_⟩
    · rcases hij with ⟨rfl, rfl⟩ | ⟨rfl, rfl⟩ <;> rfl
    · rcases hij with ⟨rfl, rfl⟩ | ⟨rfl, rfl⟩ <;> rfl
    · rcases hq with rfl | rfl | rfl
      · cases hc; decide +kernel
      · cases hc
      · cases hc; decide +kernel
  · have := key i q hq
    simp only [List.mem_cons, List.not_mem_nil, or_false] at this
    have hl : raceHeap.length = 6 := by decide +kernel
    omega

/-- All three end without exception; meanwhile the threads do read common objects and write their own. -/
example :
    let end_ := (WSys.start 3 raceHeap raceJobs).run World.initial World.initial.suppliers 3 (List.replicate 50 [0, 1, 2]).flatten
    let early := (WSys.start 3 raceHeap raceJobs).run World.initial World.initial.suppliers 3 (List.replicate 8 [0, 1, 2]).flatten
    (endsAt (end_.thr 2) = some 22)
    ∧ ([0, 1].all fun i => match end_.thr i with | .enc t => t.stack.isEmpty && t.err.isNone && t.buf.data.length == 62 | _ => false) = true
    ∧ (early.thr 0).accesses World.initial World.initial.suppliers 3 early.h = [⟨false, .field 0 0⟩]
    ∧ (early.thr 1).accesses World.initial World.initial.suppliers 3 early.h = [⟨false, .field 0 0⟩]
    ∧ (early.thr 2).accesses World.initial World.initial.suppliers 3 early.h = [⟨true, .field 8 1⟩, ⟨true, .elems 9⟩] := by decide +kernel

/-- A thread that encodes a frame writes its computed fields: here the byte count of the body. -/
example : (((WSys.start 3 raceHeap raceJobs).run World.initial World.initial.suppliers 3 (List.replicate 20 0)).thr 0).accesses World.initial
    World.initial.suppliers 3 raceHeap = [⟨true, .field 3 2⟩] := by decide +kernel

/-- **C80, violated for common frames.** Two threads that encode the same frame race for its computed fields. -/
theorem C80_common_frame_violated :
    let start := WSys.start 3 raceHeap fun _ => .enc (.ref 3) ⟨[], 0, 200⟩
    let now := start.run World.initial World.initial.suppliers 3 (List.replicate 20 0)
    let later := start.run World.initial World.initial.suppliers 3 (List.replicate 20 0 ++ 0 :: List.replicate 20 1)
    ∃ x ∈ (now.thr 0).accesses World.initial World.initial.suppliers 3 now.h, ∃ y ∈ (later.thr 1).accesses World.initial World.initial.suppliers 3 later.h,
      Conflict x y := by
  refine ⟨⟨true, .field 3 2⟩, by decide +kernel, ⟨true, .field 3 2⟩, by decide +kernel, rfl, .inl rfl⟩

/-- **C80, violated for messages that are encoded while they are decoded.** So do a thread that encodes a message and one that decodes into it. -/
theorem C80_decoded_while_encoded_violated :
    let start := WSys.start 3 raceHeap fun i => if i = 0 then .enc (.ref 0) ⟨[], 0, 200⟩ else .dec 0 ⟨List.replicate 60 0, [], 0⟩
    ∃ x ∈ (start.thr 0).accesses World.initial World.initial.suppliers 3 start.h, ∃ y ∈ (start.thr 1).accesses World.initial World.initial.suppliers 3 start.h,
      Conflict x y := by
  refine ⟨⟨false, .field 0 0⟩, by decide +kernel, ⟨true, .field 0 0⟩, by decide +kernel, rfl, .inr rfl⟩

/-- The theorems on these threads. -/
example := C80_no_races World.initial 3 raceHeap raceJobs race_compatible [0, 1, 2, 2] [1, 0] 0 2 (by decide)
example := C80_no_races_now World.initial 3 raceHeap raceJobs race_compatible [0, 1, 2, 2] 0 1 (by decide)
example := C80_each_alone World.initial 3 raceHeap raceJobs race_compatible (List.replicate 50 [0, 1, 2]).flatten 0
example := C80_decoded World.initial 3 raceHeap raceJobs race_compatible (List.replicate 50 [0, 1, 2]).flatten 2 5 _ rfl .sample_NestedPacket
  (freshFields .sample_NestedPacket) (newMsg_at .sample_NestedPacket raceHeap 5 rfl).1
example := C80_encoded World.initial 3 raceHeap raceJobs race_compatible (List.replicate 50 [0, 1, 2]).flatten 3 .null _ rfl .null (by decide +kernel)
example := C80_finishes World.initial 3 raceHeap raceJobs race_compatible 2
example := C80_writes World.initial World.initial.suppliers 3 raceHeap
  (((WSys.start 3 raceHeap raceJobs).run World.initial World.initial.suppliers 3 (List.replicate 20 0)).thr 0) (.field 3 1) (by decide +kernel)
example := C80_reads World.initial World.initial.suppliers 3 [newMsg .sample_RootPacket]
  [.msg .sample_RootPacket [.num ⟨.i16, 0⟩, .num ⟨.i32, 77⟩, .null, .num ⟨.i32, 0⟩]]
  ⟨rfl, fun q => by
    match q with
    | 0 => exact ⟨rfl, rfl⟩
    | k + 1 => trivial⟩
  ((WSys.start 3 [newMsg .sample_RootPacket] fun _ => .enc (.ref 0) ⟨[], 0, 100⟩).thr 0) (by decide +kernel)

end FinProto
