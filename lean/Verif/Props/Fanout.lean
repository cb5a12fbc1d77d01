import Verif.Proofs.ConcurrentHeap
import Verif.Props.Heap
import Verif.Model.Checksum
/-
C74: threads that encode messages with common parts at the same time.
-/
namespace FinProto

/-- **C74.** Threads call `encode` at the same time, each on its own message and with its own buffer.  The messages may have any objects in common
(one body in many frames, lists, nested messages, even the whole message) except objects of classes that compute fields while encoding
(frames).  In every schedule each call that has returned or thrown did exactly what it would have done alone: same buffer, same
exception, and every object it can reach is as it would have left it. -/
theorem C74_common_parts (w : World) (n : Nat) (h : Heap) (roots : Nat → HVal) (bufs : Nat → WBuf)
    (hsep : ∀ i j, i ≠ j → ∀ q, Reach h (roots i) q → Reach h (roots j) q → ∀ c ys, h[q]? = some (.msg c ys) → hasComputed c = false)
    (sched : List Nat) (i : Nat) :
    let end_ := (HSys.start n h roots bufs).run w n sched
    let alone := hencode w n (roots i) h (bufs i)
    end_.finished i → ((end_.thr i).buf, (end_.thr i).err) = alone.2 ∧ ∀ q, Reach h (roots i) q → end_.h[q]? = alone.1[q]? := by
  intro end_ alone hfin
  have hi := HInv.run (w := w) (n := n) hsep sched _ _ (HInv.start w n h roots bufs)
  obtain ⟨K, hK⟩ := go_hencode w n (roots i) h (bufs i)
  have hthr := hi.thr i
  have hheap := hi.heap i
  simp only [Nat.zero_add] at hthr hheap
  have := (hK (sched.count i)).2 (by rw [← hthr]; exact hfin)
  refine ⟨?_, fun q hq => ?_⟩
  · show _ = (hencode w n (roots i) h (bufs i)).2
    rw [← this, ← hthr]
  · show _ = (hencode w n (roots i) h (bufs i)).1[q]?
    rw [← this]
    exact (hheap q hq).symm

/-- **C74.** So if the message of a thread shows the value `v`, its buffer gets the bytes of `v`, whatever the other threads do meanwhile. -/
theorem C74_bytes (w : World) (n : Nat) (h : Heap) (roots : Nat → HVal) (bufs : Nat → WBuf)
    (hsep : ∀ i j, i ≠ j → ∀ q, Reach h (roots i) q → Reach h (roots j) q → ∀ c ys, h[q]? = some (.msg c ys) → hasComputed c = false)
    (sched : List Nat) (i : Nat) (v : Val) (hv : Shows h v (roots i)) :
    let end_ := (HSys.start n h roots bufs).run w n sched
    end_.finished i → ((end_.thr i).buf, (end_.thr i).err) = (encode w n v (bufs i)).2 := by
  intro end_ hfin
  rw [(C74_common_parts w n h roots bufs hsep sched i hfin).1]
  exact C64_shared_bytes w n h v (roots i) (bufs i) hv

/-- **C74.** At any moment everything but computed fields is as it was before, and objects that no thread can reach are as they were
altogether. -/
theorem C74_changes (w : World) (n : Nat) (h : Heap) (roots : Nat → HVal) (bufs : Nat → WBuf)
    (hsep : ∀ i j, i ≠ j → ∀ q, Reach h (roots i) q → Reach h (roots j) q → ∀ c ys, h[q]? = some (.msg c ys) → hasComputed c = false)
    (sched : List Nat) :
    SameButComputed w.svc h ((HSys.start n h roots bufs).run w n sched).h
    ∧ ∀ q, (∀ i, ¬ Reach h (roots i) q) → ((HSys.start n h roots bufs).run w n sched).h[q]? = h[q]? := by
  have hi := HInv.run (w := w) (n := n) hsep sched _ _ (HInv.start w n h roots bufs)
  exact ⟨chg_same hi.chg, hi.rest⟩

/-- **C74.** Every call finishes: there is a number of steps, the same for all schedules, after which a thread has returned or thrown. -/
theorem C74_finishes (w : World) (n : Nat) (h : Heap) (roots : Nat → HVal) (bufs : Nat → WBuf)
    (hsep : ∀ i j, i ≠ j → ∀ q, Reach h (roots i) q → Reach h (roots j) q → ∀ c ys, h[q]? = some (.msg c ys) → hasComputed c = false)
    (i : Nat) : ∃ K, ∀ sched : List Nat, K ≤ sched.count i → ((HSys.start n h roots bufs).run w n sched).finished i := by
  obtain ⟨K, hK⟩ := go_hencode w n (roots i) h (bufs i)
  refine ⟨K, fun sched hs => ?_⟩
  have hi := HInv.run (w := w) (n := n) hsep sched _ _ (HInv.start w n h roots bufs)
  have hthr := hi.thr i
  simp only [Nat.zero_add] at hthr
  unfold HSys.finished
  rw [hthr]
  exact (hK (sched.count i)).1 hs

/-- **C74.** One thread alone: the steps add up to `encode`. -/
theorem C74_single (w : World) (n : Nat) (h : Heap) (x : HVal) (b : WBuf) (k : Nat) :
    let end_ := (HSys.start n h (fun i => if i = 0 then x else .null) (fun _ => b)).run w n (List.replicate k 0)
    end_.finished 0 → (end_.h, (end_.thr 0).buf, (end_.thr 0).err) = hencode w n x h b := by
  intro end_ hfin
  obtain ⟨K, hK⟩ := go_hencode w n x h b
  have hrun : ∀ (k : Nat) (st : HSys), ((st.run w n (List.replicate k 0)).h, (st.run w n (List.replicate k 0)).thr 0) =
      HThread.go w n k (st.h, st.thr 0) := by
    intro k
    induction k with
    | zero => intro st; rfl
    | succ k ih => intro st; exact ih (st.step w n 0)
  have h0 := hrun k (HSys.start n h (fun i => if i = 0 then x else .null) (fun _ => b))
  have hst : ((HSys.start n h (fun i => if i = 0 then x else .null) (fun _ => b)).h,
      (HSys.start n h (fun i => if i = 0 then x else .null) (fun _ => b)).thr 0) = (h, HThread.enter n x h ⟨[], b, none⟩) := rfl
  rw [hst] at h0
  have := (hK k).2 (by rw [← h0]; exact hfin)
  rw [← h0] at this
  exact this

/-! ### Cases -/

/-- One list of two entries, one body with this list, two SSE frames with this body. -/
def fanHeap : Heap :=
  [.msg .sse_ExecRptSync_SubExecRptSync [.str (js "AB"), .num ⟨.i32, 1⟩, .num ⟨.i64, 2⟩], .arr [.ref 0, .ref 0], .msg .sse_ExecRptSync [.ref 1],
   .msg .sse_SseBinary [.num ⟨.i32, 206⟩, .num ⟨.i64, 5⟩, .num ⟨.i32, 0⟩, .ref 2, .num ⟨.i32, 0⟩],
   .msg .sse_SseBinary [.num ⟨.i32, 206⟩, .num ⟨.i64, 6⟩, .num ⟨.i32, 0⟩, .ref 2, .num ⟨.i32, 0⟩]]

/-- Thread 0 encodes the first frame, thread 1 the second, the others the body. -/
def fanRoots : Nat → HVal
  | 0 => .ref 3
  | 1 => .ref 4
  | _ => .ref 2

theorem reach_fan (S : List Nat) (x : HVal) (hx : ∀ r, x = .ref r → r ∈ S)
    (hS : (S.all fun r => match fanHeap[r]? with
      | some o => o.values.all fun v => match v with | .ref q => S.contains q | _ => true
      | none => true) = true) (q : Nat) (hq : Reach fanHeap x q) : q ∈ S := by
  induction hq with
  | here r => exact hx r rfl
  | step r q o y h1 h2 _ ih =>
    refine ih fun p hp => ?_
    have := List.all_eq_true.mp hS r (hx r rfl)
    rw [h1] at this
    have := List.all_eq_true.mp this y h2
    rw [hp] at this
    simpa using this

theorem fan_separate : ∀ i j, i ≠ j → ∀ q, Reach fanHeap (fanRoots i) q → Reach fanHeap (fanRoots j) q →
    ∀ c ys, fanHeap[q]? = some (.msg c ys) → hasComputed c = false := by
  have key : ∀ i q, Reach fanHeap (fanRoots i) q → q ∈ [0, 1, 2] ∨ (q = 3 ∧ i = 0) ∨ (q = 4 ∧ i = 1) := by
    intro i q hq
    match i with
    | 0 =>
      have := reach_fan [0, 1, 2, 3] (.ref 3) (by simp) (by decide +kernel) q hq
      simp at this ⊢; omega
    | 1 =>
      have := reach_fan [0, 1, 2, 4] (.ref 4) (by simp) (by decide +kernel) q hq
      simp at this ⊢; omega
    | _ + 2 =>
      have := reach_fan [0, 1, 2] (.ref 2) (by simp) (by decide +kernel) q hq
      exact .inl this
  intro i j hij q h1 h2 c ys hc
  have : q ∈ [0, 1, 2] := by
    rcases key i q h1 with h | ⟨h, hi⟩ | ⟨h, hi⟩
    · exact h
    · rcases key j q h2 with h' | ⟨h', hj⟩ | ⟨h', hj⟩ <;> omega
    · rcases key j q h2 with h' | ⟨h', hj⟩ | ⟨h', hj⟩ <;> omega
  simp only [List.mem_cons, List.not_mem_nil, or_false] at this
  rcases this with rfl | rfl | rfl
  · cases hc; decide +kernel
  · cases hc
  · cases hc; decide +kernel

/-- The hypotheses hold, the calls succeed, and the three messages are different. -/
example : (∀ i ∈ [0, 1, 2], (hencode World.initial 3 (fanRoots i) fanHeap ⟨[], 0, 200⟩).2.2 = none)
    ∧ [0, 1, 2].map (fun i => (hencode World.initial 3 (fanRoots i) fanHeap ⟨[], 0, 200⟩).2.1.data.length) = [62, 62, 42]
    ∧ (((HSys.start 3 fanHeap fanRoots (fun _ => ⟨[], 0, 200⟩)).run World.initial 3 (List.replicate 40 [0, 1, 2]).flatten).thr 0).stack.length = 0 := by decide +kernel

/-- A heartbeat frame as the body of two frames. -/
def nestedHeap : Heap :=
  [.msg .sse_Heartbeat [],
   .msg .sse_SseBinary [.num ⟨.i32, 33⟩, .num ⟨.i64, 1⟩, .num ⟨.i32, 0⟩, .ref 0, .num ⟨.i32, 0⟩],
   .msg .sse_SseBinary [.num ⟨.i32, 1⟩, .num ⟨.i64, 2⟩, .num ⟨.i32, 0⟩, .ref 1, .num ⟨.i32, 0⟩],
   .msg .sse_SseBinary [.num ⟨.i32, 1⟩, .num ⟨.i64, 3⟩, .num ⟨.i32, 0⟩, .ref 1, .num ⟨.i32, 0⟩]]

/-- Only the SSE checksum service is registered. -/
def sseOnly : World := ⟨fun n => if n = "SSE_BIN" then some sseBinService else none, fun _ _ => none⟩

/-- **C74, violated for common frames.** The exception is needed: two messages with a frame in common, whose checksum depends on the bytes before it in
the buffer.  Thread 0 stops after assigning the inner checksum, thread 1 runs, thread 0 goes on: it writes the checksum of the other message. -/
theorem C74_common_frame_violated :
    let end_ := (HSys.start 4 nestedHeap (fun i => if i = 0 then .ref 2 else .ref 3) (fun _ => ⟨[], 0, 200⟩)).run sseOnly 4
      (List.replicate 17 0 ++ List.replicate 40 1 ++ List.replicate 20 0)
    (end_.thr 0).stack.length = 0 ∧ (end_.thr 0).err = none
      ∧ (end_.thr 0).buf.data ≠ (hencode sseOnly 4 (.ref 2) nestedHeap ⟨[], 0, 200⟩).2.1.data := by
  decide +kernel

/-- The theorems on the three threads above. -/
example := C74_common_parts World.initial 3 fanHeap fanRoots (fun _ => ⟨[], 0, 200⟩) fan_separate (List.replicate 40 [0, 1, 2]).flatten 0
  (.inr (by decide +kernel))
example := C74_bytes World.initial 3 fanHeap fanRoots (fun _ => ⟨[], 0, 200⟩) fan_separate (List.replicate 40 [0, 1, 2]).flatten 2 _
  (by decide +kernel : Shows fanHeap (.obj .sse_ExecRptSync [.list [.obj .sse_ExecRptSync_SubExecRptSync [.str (js "AB"), .num ⟨.i32, 1⟩, .num ⟨.i64, 2⟩],
    .obj .sse_ExecRptSync_SubExecRptSync [.str (js "AB"), .num ⟨.i32, 1⟩, .num ⟨.i64, 2⟩]]]) (.ref 2)) (.inr (by decide +kernel))
example := C74_changes World.initial 3 fanHeap fanRoots (fun _ => ⟨[], 0, 200⟩) fan_separate (List.replicate 40 [0, 1, 2]).flatten
example := C74_finishes World.initial 3 fanHeap fanRoots (fun _ => ⟨[], 0, 200⟩) fan_separate 1

end FinProto
