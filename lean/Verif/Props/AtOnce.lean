import Verif.Proofs.Renaming
import Verif.Proofs.HeapCheck
import Verif.Props.Heap
/-
C77: threads that decode and encode different messages at the same time.

`WSys.run` (`Model/ConcurrentDecode.lean`) executes the steps of all threads in the order of a schedule on one heap; `Job.alone` and `Apart`
(`Spec/AtOnce.lean`): the job done alone; no object is reached by two threads at the start.
-/
namespace FinProto

section
variable (w : World) (n : Nat) (h : Heap) (jobs : Nat → Job) (hap : Apart h jobs) (sched : List Nat)
include hap

theorem winv_run : ∃ ρ, WInv w w.suppliers n h (fun i => (jobs i).start n h) (fun i => Reach h (jobs i).root)
    ((WSys.start n h jobs).run w w.suppliers n sched) (fun j => sched.count j) ρ := by
  have := WInv.run (makes_suppliers w) sched _ _ _ (WInv.start w w.suppliers n h jobs hap.2 hap.1)
  simpa only [Nat.zero_add] using this

/-- **C77.** Threads call `decode` and `encode` at the same time, each with its own buffer and on its own message; suppliers build new objects.
In every schedule each call that has ended did what it would have done alone: same buffer and indices, same exception, and its message
shows what it would show then, also while the other threads go on. -/
theorem C77_apart (i : Nat) :
    let end_ := (WSys.start n h jobs).run w w.suppliers n sched
    let alone := (jobs i).alone w w.suppliers n h
    (end_.thr i).finished → (end_.thr i).outcome = alone.2 ∧ ∀ v, Shows alone.1 v (jobs i).root → Shows end_.h v (jobs i).root := by
  intro end_ alone hfin
  obtain ⟨ρ, hi⟩ := winv_run w n h jobs hap sched
  obtain ⟨K, hK⟩ := go_alone w w.suppliers n h (jobs i)
  obtain ⟨h1, h2⟩ := (hK (sched.count i)).2 ((hi.thr i).finished.mpr hfin)
  refine ⟨?_, fun v hv => ?_⟩
  · rw [← (hi.thr i).outcome, h2]
  · exact shows_rel (hi.ren i) v _ _ (root_rel hi i) (h1 ▸ hv)

/-- **C77.** So a thread that decodes into a message without internal sharing gets what `decode` gives for these bytes … -/
theorem C77_decoded (i r : Nat) (b : RBuf) (hj : jobs i = .dec r b) (c : Cls) (fs : List Val) (hs : Unshared h (.obj c fs) (.ref r)) :
    let end_ := (WSys.start n h jobs).run w w.suppliers n sched
    (end_.thr i).finished → (end_.thr i).outcome = .dec (decode w n c fs b).2.1 (decode w n c fs b).2.2
      ∧ Shows end_.h (.obj c (decode w n c fs b).1) (.ref r) := by
  intro end_ hfin
  obtain ⟨h1, h2⟩ := C77_apart w n h jobs hap sched i hfin
  rw [hj] at h1 h2
  obtain ⟨h3, h4⟩ := C66_reuse w n c fs r h b hs
  refine ⟨?_, h2 _ h4.1⟩
  rw [h1, Job.alone, h3]

/-- **C77.** … and a thread that encodes a message that shows `v` writes the bytes of `v`. -/
theorem C77_encoded (i : Nat) (x : HVal) (b : WBuf) (hj : jobs i = .enc x b) (v : Val) (hs : Shows h v x) :
    let end_ := (WSys.start n h jobs).run w w.suppliers n sched
    (end_.thr i).finished → (end_.thr i).outcome = .enc (encode w n v b).2.1 (encode w n v b).2.2 := by
  intro end_ hfin
  obtain ⟨h1, -⟩ := C77_apart w n h jobs hap sched i hfin
  rw [hj] at h1
  rw [h1, Job.alone, C64_shared_bytes w n h v x b hs]

/-- **C77.** At any moment the messages of different threads have no object in common, and objects that no thread could reach at the start
are as they were. -/
theorem C77_disjoint :
    let end_ := (WSys.start n h jobs).run w w.suppliers n sched
    (∀ i j, i ≠ j → ∀ q, Reach end_.h (jobs i).root q → ¬ Reach end_.h (jobs j).root q)
      ∧ ∀ q < h.length, (∀ i, ¬ Reach h (jobs i).root q) → end_.h[q]? = h[q]? := by
  intro end_
  obtain ⟨ρ, hi⟩ := winv_run w n h jobs hap sched
  refine ⟨fun i j hij q h1 h2 => ?_, hi.rest⟩
  obtain ⟨a, ha, -⟩ := reach_to (hi.ren i) h1 _ (root_rel hi i)
  obtain ⟨b, hb, -⟩ := reach_to (hi.ren j) h2 _ (root_rel hi j)
  exact hi.apart i j hij a b q ha hb

omit sched in
/-- **C77.** Every call ends: there is a number of steps, the same for all schedules, after which a thread has returned or thrown. -/
theorem C77_finishes (i : Nat) : ∃ K, ∀ sched : List Nat, K ≤ sched.count i → (((WSys.start n h jobs).run w w.suppliers n sched).thr i).finished := by
  obtain ⟨K, hK⟩ := go_alone w w.suppliers n h (jobs i)
  refine ⟨K, fun sched hs => ?_⟩
  obtain ⟨ρ, hi⟩ := winv_run w n h jobs hap sched
  exact (hi.thr i).finished.mp ((hK (sched.count i)).1 hs)
end

/-- **C77.** One thread alone, with any suppliers: the steps add up to `decode` (for `encode` see C74). -/
theorem C77_single (w : World) (sup : Suppliers) (n r : Nat) (h : Heap) (b : RBuf) (k : Nat) :
    let end_ := (WSys.start n h (fun i => if i = 0 then .dec r b else .enc .null ⟨[], 0, 0⟩)).run w sup n (List.replicate k 0)
    let alone := hdecode sup n r h b
    (end_.thr 0).finished → end_.h = alone.1 ∧ (end_.thr 0).outcome = .dec alone.2.1 alone.2.2 := by
  intro end_ alone hfin
  have hrun : ∀ (k : Nat) (st : WSys), ((st.run w sup n (List.replicate k 0)).h, (st.run w sup n (List.replicate k 0)).thr 0) =
      Worker.go w sup n k (st.h, st.thr 0) := by
    intro k
    induction k with
    | zero => intro st; rfl
    | succ k ih => intro st; exact ih (st.step w sup n 0)
  have h0 : (end_.h, end_.thr 0) = Worker.go w sup n k (h, (Job.dec r b).start n h) := hrun k _
  obtain ⟨K, hK⟩ := go_alone w sup n h (.dec r b)
  have := (hK k).2 (by rw [← h0]; exact hfin)
  rw [← h0] at this
  exact this

/-! ### Receivers -/

theorem newMsg_at (c : Cls) (h : Heap) (r : Nat) (hr : h[r]? = some (newMsg c)) :
    Unshared h (.obj c (freshFields c)) (.ref r) ∧ ∀ q, Reach h (.ref r) q → q = r := by
  obtain ⟨h1, h2⟩ := hdefaults_show h (decl c).fields
  have h3 : refs h (fresh c) (.ref r) = [r] := by
    rw [fresh, refs_obj _ _ _ _ _ _ hr, freshFields, h2]
  have h4 : Shows h (.obj c (freshFields c)) (.ref r) := by rw [Shows]; exact ⟨_, _, rfl, hr, h1⟩
  have h5 : Shows h (fresh c) (.ref r) := h4
  refine ⟨⟨h4, ?_⟩, fun q hq => ?_⟩
  · show (refs h (fresh c) (.ref r)).Nodup
    rw [h3]; simp
  · rw [← refs_iff_reach _ _ _ h5, h3] at hq
    simpa using hq

/-- The job of receiver `i`: decode its bytes into its new object; there are no other threads. -/
def receiver (h : Heap) (ms : List (Cls × RBuf)) (i : Nat) : Job :=
  match ms[i]? with
  | some m => .dec (h.length + i) m.2
  | none => .enc .null ⟨[], 0, 0⟩

theorem receivers_apart (h : Heap) (ms : List (Cls × RBuf)) : Apart (h ++ ms.map fun m => newMsg m.1) (receiver h ms) := by
  have key : ∀ i q, Reach (h ++ ms.map fun m => newMsg m.1) (receiver h ms i).root q → i < ms.length ∧ q = h.length + i := by
    intro i q hq
    unfold receiver at hq
    cases hm : ms[i]? with
    | none => rw [hm] at hq; cases hq
    | some m =>
      rw [hm] at hq
      refine ⟨(List.getElem?_eq_some_iff.mp hm).1, (newMsg_at m.1 _ _ ?_).2 q hq⟩
      rw [List.getElem?_append_right (by omega)]
      simp [hm]
  refine ⟨fun i j hij q h1 h2 => ?_, fun i q hq => ?_⟩
  · have := (key i q h1).2
    have := (key j q h2).2
    omega
  · have := key i q hq
    simp only [List.length_append, List.length_map]
    omega

/-- **C77.** Any number of receivers, each decoding its bytes into a new object of its class at the same time as the others: each gets the
message `decode` makes of its bytes, everything that existed before is untouched, and the messages received share nothing. -/
theorem C77_receivers (w : World) (n : Nat) (h : Heap) (ms : List (Cls × RBuf)) (sched : List Nat) :
    let end_ := (WSys.start n (h ++ ms.map fun m => newMsg m.1) (receiver h ms)).run w w.suppliers n sched
    (∀ (i : Nat) c b, ms[i]? = some (c, b) → (end_.thr i).finished →
        (end_.thr i).outcome = .dec (decode w n c (freshFields c) b).2.1 (decode w n c (freshFields c) b).2.2
        ∧ Shows end_.h (.obj c (decode w n c (freshFields c) b).1) (.ref (h.length + i)))
      ∧ (∀ q < h.length, end_.h[q]? = h[q]?)
      ∧ ∀ i j, i ≠ j → i < ms.length → j < ms.length → ∀ q, Reach end_.h (.ref (h.length + i)) q → ¬ Reach end_.h (.ref (h.length + j)) q := by
  intro end_
  have hap := receivers_apart h ms
  have hroot : ∀ i < ms.length, (receiver h ms i).root = .ref (h.length + i) := by
    intro i hi
    unfold receiver
    rw [List.getElem?_eq_getElem hi]
    rfl
  obtain ⟨h1, h2⟩ := C77_disjoint w n _ _ hap sched
  refine ⟨fun i c b hm hfin => ?_, fun q hq => ?_, fun i j hij hi hj q hq => ?_⟩
  · refine C77_decoded w n _ _ hap sched i _ b (by unfold receiver; rw [hm]) c _ (newMsg_at c _ _ ?_).1 hfin
    rw [List.getElem?_append_right (by omega)]
    simp [hm]
  · rw [h2 q (by rw [List.length_append]; omega) ?_, List.getElem?_append_left hq]
    intro i hi
    unfold receiver at hi
    cases hm : ms[i]? with
    | none => rw [hm] at hi; cases hi
    | some m =>
      rw [hm] at hi
      have := (newMsg_at m.1 _ _ (by rw [List.getElem?_append_right (by omega)]; simp [hm])).2 q hi
      omega
  · have := h1 i j hij q
    rw [hroot i hi, hroot j hj] at this
    exact this hq

/-! ### Cases -/

/-- Two receivers of nested packets and, in the same heap, messages in use. -/
def rcvBytes : List (Cls × RBuf) :=
  [(.sample_NestedPacket, ⟨[1, 0, 0, 0, 0, 0, 1, 0, 2, 0, 0, 0, 1, 0, 8, 0, 3, 0, 0, 0, 0, 0], [], 0⟩),
   (.sample_NestedPacket, ⟨[4, 0, 0, 0, 0, 0, 1, 0, 5, 0, 0, 0, 1, 0, 9, 0, 6, 0, 0, 0, 0, 0], [], 0⟩)]

/-- The reader index if the thread's `decode` has returned normally. -/
def endsAt : Worker → Option Nat
  | .dec t => if t.stack.isEmpty && t.err.isNone then some t.buf.rd else none
  | .enc _ => none

/-- Both calls return without exception; the objects of the two messages lie mixed in the heap. -/
example :
    let end_ := (WSys.start 3 (sharedHeap ++ rcvBytes.map fun m => newMsg m.1) (receiver sharedHeap rcvBytes)).run World.initial
      World.initial.suppliers 3 (List.replicate 40 [0, 1]).flatten
    (endsAt (end_.thr 0) = some 22 ∧ endsAt (end_.thr 1) = some 22)
    ∧ end_.h[5]? = some (.msg .sample_NestedPacket [.ref 7, .ref 9, .ref 15])
    ∧ end_.h[6]? = some (.msg .sample_NestedPacket [.ref 8, .ref 10, .ref 16]) := by decide +kernel

/-- One thread encodes a message, one decodes into another. -/
def mixedJobs : Nat → Job
  | 0 => .enc (.ref 0) ⟨[], 0, 100⟩
  | 1 => .dec 1 ⟨[4, 0, 0, 0, 1, 0, 9, 0], [], 0⟩
  | _ => .enc .null ⟨[], 0, 0⟩

example : Apart [newMsg .sample_SubPacket, newMsg .sample_SubPacket] mixedJobs := by
  have key : ∀ i q, Reach [newMsg .sample_SubPacket, newMsg .sample_SubPacket] (mixedJobs i).root q → i < 2 ∧ q = i := by
    intro i q hq
    match i, hq with
    | 0, hq => exact ⟨by omega, (newMsg_at .sample_SubPacket _ 0 rfl).2 q hq⟩
    | 1, hq => exact ⟨by omega, (newMsg_at .sample_SubPacket _ 1 rfl).2 q hq⟩
    | _ + 2, hq => cases hq
  refine ⟨fun i j hij q h1 h2 => ?_, fun i q hq => ?_⟩
  · have := key i q h1; have := key j q h2; omega
  · have := key i q hq; simp; omega

/-- A supplier that hands out the same body again and again. -/
def oneBody : Suppliers := fun _ _ => some (.give (.ref 0))

/-- The body in use by all, and two new frames. -/
def oneBodyHeap : Heap := [newMsg .sample_SubPacket, newMsg .sample_RootPacket, newMsg .sample_RootPacket]

/-- A frame with the body (1, [5]), and one with the body (2, [6]). -/
def oneBodyJobs : Nat → Job
  | 0 => .dec 1 ⟨[1, 0, 8, 0, 0, 0, 1, 0, 0, 0, 1, 0, 5, 0, 0, 0, 0, 0], [], 0⟩
  | 1 => .dec 2 ⟨[1, 0, 8, 0, 0, 0, 2, 0, 0, 0, 1, 0, 6, 0, 0, 0, 0, 0], [], 0⟩
  | _ => .enc .null ⟨[], 0, 0⟩

/-- **C77, violated for suppliers that hand out one object.** Such a supplier makes threads that decode different frames into different objects
disturb each other: both calls return normally, and both frames have the body (2, [5]), which nobody has sent. -/
theorem C77_one_body_violated :
    let end_ := (WSys.start 3 oneBodyHeap oneBodyJobs).run World.initial oneBody 3 (List.replicate 5 0 ++ List.replicate 30 1 ++ List.replicate 30 0)
    (endsAt (end_.thr 0) = some 18 ∧ endsAt (end_.thr 1) = some 18)
    ∧ end_.h[1]? = some (.msg .sample_RootPacket [.num ⟨.i16, 1⟩, .num ⟨.i32, 8⟩, .ref 0, .num ⟨.i32, 0⟩])
    ∧ end_.h[2]? = some (.msg .sample_RootPacket [.num ⟨.i16, 1⟩, .num ⟨.i32, 8⟩, .ref 0, .num ⟨.i32, 0⟩])
    ∧ ∃ a, end_.h[0]? = some (.msg .sample_SubPacket [.num ⟨.i32, 2⟩, .ref a]) ∧ end_.h[a]? = some (.arr [.num ⟨.i16, 5⟩]) := by
  refine ⟨by decide +kernel, by decide +kernel, by decide +kernel, 4, by decide +kernel, by decide +kernel⟩

/-- Two threads decode at the same time until both have ended. -/
def rcvSched : List Nat := (List.replicate 40 [0, 1]).flatten

theorem rcv_ends (i : Nat) (hi : i < 2) :
    (((WSys.start 3 (sharedHeap ++ rcvBytes.map fun m => newMsg m.1) (receiver sharedHeap rcvBytes)).run World.initial
      World.initial.suppliers 3 rcvSched).thr i).finished := by
  rcases (show i = 0 ∨ i = 1 by omega) with rfl | rfl <;> exact .inr (by decide +kernel)

/-- `C77_apart`, `C77_decoded`, `C77_disjoint`, `C77_finishes`. -/
example := C77_apart World.initial 3 _ _ (receivers_apart sharedHeap rcvBytes) rcvSched 1 (rcv_ends 1 (by decide))
example := C77_decoded World.initial 3 _ _ (receivers_apart sharedHeap rcvBytes) rcvSched 1 6 _ rfl .sample_NestedPacket (freshFields .sample_NestedPacket)
  (newMsg_at .sample_NestedPacket _ 6 rfl).1 (rcv_ends 1 (by decide))
example := C77_disjoint World.initial 3 _ _ (receivers_apart sharedHeap rcvBytes) rcvSched
example := C77_finishes World.initial 3 _ _ (receivers_apart sharedHeap rcvBytes) 1

/-- `C77_single`. -/
example := C77_single World.initial World.initial.suppliers 3 0 [newMsg .sample_SubPacket] ⟨[4, 0, 0, 0, 1, 0, 9, 0], [], 0⟩ 20 (.inr (by decide +kernel))

/-- `C77_receivers`. -/
example := C77_receivers World.initial 3 sharedHeap rcvBytes rcvSched

end FinProto
