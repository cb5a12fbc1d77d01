import Verif.Proofs.Interrupted
import Verif.Props.Fanout
import Verif.Props.Retry
/-
C93: `encode` calls that are interrupted at any moment.
-/
namespace FinProto

/-- **C93.** Calls of `encode` that were cut short do no harm to later ones: after any number of episodes in which threads encoded any messages - this
one, others, with common parts or frames - and stopped at any moment, `encode` writes the bytes and throws the exception it would have
without all that. -/
theorem C93_later (w : World) (es : List Episode) (m : Nat) (h : Heap) (v : Val) (x : HVal) (b : WBuf) (hs : Shows h v x) :
    (hencode w m x (afterEpisodes w es h) b).2 = (encode w m v b).2 := by
  have h0 := shows_sim w h v x hs
  rw [(hencode_sim w m v x _ b (sim_chg (afterEpisodes_chg w es h) v x h0)).1]

/-- **C93.** At any moment everything but computed fields is as it was before, and a message without frames is as it was altogether. -/
theorem C93_content (w : World) (es : List Episode) (h : Heap) :
    SameButComputed w.svc h (afterEpisodes w es h)
      ∧ ∀ v x, Shows h v x → frameless v = true → Shows (afterEpisodes w es h) v x :=
  ⟨chg_same (afterEpisodes_chg w es h), fun v x hs hf => (shows_frame h _ v x hs (frameless_refs (afterEpisodes_chg w es h) hs hf)).1⟩

/-- **C93.** At any moment each buffer begins with the bytes that were in it before the call; reader index and limit are as they were. -/
theorem C93_buffer (w : World) (e : Episode) (h : Heap) (i : Nat) :
    (e.bufs i).data <+: ((e.final w h).thr i).buf.data ∧ ((e.final w h).thr i).buf.rd = (e.bufs i).rd
      ∧ ((e.final w h).thr i).buf.maxCap = (e.bufs i).maxCap := by
  obtain ⟨h1, h2⟩ := start_tinv e.depth h e.roots e.bufs i
  have h3 := (run_tinv w e.depth i e.sched _ h1).2
  rw [h2] at h3
  refine ⟨?_, h3.rd, h3.cap⟩
  have := h3.old
  rw [List.take_length] at this
  exact ⟨_, by rw [← this]; exact List.take_append_drop _ _⟩

/-- **C93.** Whatever the messages have in common: a byte that is in the buffer at some moment stays there from then on, unless it is a zero. -/
theorem C93_stays (w : World) (n : Nat) (h : Heap) (roots : Nat → HVal) (bufs : Nat → WBuf) (i : Nat) (sched later : List Nat) :
    FilledIn (((HSys.start n h roots bufs).run w n sched).thr i).buf.data
      (((HSys.start n h roots bufs).run w n (sched ++ later)).thr i).buf.data := by
  have h3 := run_tinv w n i sched _ (start_tinv n h roots bufs i).1
  have h4 := (run_tinv w n i later _ h3.1).2
  simp only [HSys.run, List.foldl_append] at h4 ⊢
  exact h4.fill

/-- **C93.** What is in a buffer at any moment is the beginning of what the call will have written in the end, apart from zeros that are
not filled in yet.  (As in C74, messages that are being encoded at the same time have no frame in common.) -/
theorem C93_so_far (w : World) (n : Nat) (h : Heap) (roots : Nat → HVal) (bufs : Nat → WBuf)
    (hsep : ∀ i j, i ≠ j → ∀ q, Reach h (roots i) q → Reach h (roots j) q → ∀ c ys, h[q]? = some (.msg c ys) → hasComputed c = false)
    (sched : List Nat) (i : Nat) (v : Val) (hv : Shows h v (roots i)) :
    FilledIn (((HSys.start n h roots bufs).run w n sched).thr i).buf.data (encode w n v (bufs i)).2.1.data := by
  obtain ⟨K, hK⟩ := C74_finishes w n h roots bufs hsep i
  have hb := C74_bytes w n h roots bufs hsep (sched ++ List.replicate K i) i v hv (hK _ (by simp))
  have h1 := C93_stays w n h roots bufs i sched (List.replicate K i)
  rw [← congrArg Prod.fst hb]
  exact h1

/-- **C93.** For a message without frames it is a piece of the message's image from its beginning. -/
theorem C93_prefix (w : World) (n : Nat) (h : Heap) (roots : Nat → HVal) (bufs : Nat → WBuf)
    (hsep : ∀ i j, i ≠ j → ∀ q, Reach h (roots i) q → Reach h (roots j) q → ∀ c ys, h[q]? = some (.msg c ys) → hasComputed c = false)
    (sched : List Nat) (i : Nat) (v : Val) (hv : Shows h v (roots i)) (ht : wellTyped v = true) (hf : frameless v = true) (hb : (bufs i).Valid) :
    ∃ p, (((HSys.start n h roots bufs).run w n sched).thr i).buf = { bufs i with data := (bufs i).data ++ p } ∧ p <+: image v := by
  have hi := HInv.run (w := w) (n := n) hsep sched _ _ (HInv.start w n h roots bufs)
  have hthr := hi.thr i
  simp only [Nat.zero_add] at hthr
  obtain ⟨K, hK⟩ := go_hencode w n (roots i) h (bufs i)
  have hcl := reach_closed h (roots i)
  have hfr : ∀ q, Reach h (roots i) q → ∀ c ys, h[q]? = some (.msg c ys) → hasComputed c = false := fun q hq => frameless_class hq v hv hf
  have hown := (HInv.start w n h roots bufs).own i
  have hbuf : (HThread.enter n (roots i) h ⟨[], bufs i, none⟩).buf = bufs i := enter_buf _ _ _ _
  -- alone, up to this moment and from it on
  have e1 : Ext (HThread.enter n (roots i) h ⟨[], bufs i, none⟩).buf
      (HThread.go w n (sched.count i) (h, HThread.enter n (roots i) h ⟨[], bufs i, none⟩)).2.buf :=
    go_ext w n (P := Reach h (roots i)) (sched.count i) h _ hcl hfr hown
  have e2 : Ext (HThread.go w n (sched.count i) (h, HThread.enter n (roots i) h ⟨[], bufs i, none⟩)).2.buf
      (HThread.go w n (sched.count i + K) (h, HThread.enter n (roots i) h ⟨[], bufs i, none⟩)).2.buf := by
    rw [HThread.go_add]
    refine go_ext w n (P := Reach h (roots i)) K _ _ ?_ ?_ ?_
    · exact closed_agree (hi.closed i) (fun q hq => by simpa using hi.heap i q hq)
    · intro q hq c ys hc
      obtain ⟨zs, h1⟩ := chg_back hi.chg (by rw [← hi.heap i q hq]; simpa using hc)
      exact hfr q hq c zs h1
    · rw [← hthr]
      exact own_agree (hi.own i) (fun q hq => by simpa using hi.heap i q hq)
  have hend := (hK (sched.count i + K)).2 ((hK (sched.count i + K)).1 (by omega))
  have hend' := congrArg (fun o => o.2.1) hend
  dsimp only at hend'
  rw [hend', C64_shared_bytes w n h v (roots i) (bufs i) hv] at e2
  obtain ⟨p, h1, h2⟩ := (C53_partial_output w n v (bufs i) ht hb hf).2
  rw [h1] at e2
  rw [hbuf] at e1
  rw [hthr]
  generalize (HThread.go w n (sched.count i) (h, HThread.enter n (roots i) h ⟨[], bufs i, none⟩)).2.buf = bb at e1 e2
  obtain ⟨d, rd, mc⟩ := bb
  obtain ⟨r1, r2, ⟨q, r3⟩⟩ := e1
  obtain ⟨s1, s2, s3⟩ := e2
  dsimp only at r1 r2 r3 s1 s2 s3
  subst r3
  refine ⟨q, by rw [r1, r2], ?_⟩
  exact ((List.prefix_append_right_inj _).mp s3).trans h2

/-! ### Cases -/

/-- Two SSE frames with a common body (`fanHeap` of C74).  When the threads stop, the first has sent a piece of the body, the second has its length in the
field but not yet in the buffer, and the third one, which sends the body alone, is in the first entry of the list. -/
def exEpisode : Episode := ⟨3, fanRoots, fun _ => ⟨[9], 0, 200⟩, List.replicate 9 0 ++ List.replicate 21 1 ++ [2, 2, 2, 2]⟩

def fanEntry : Val := .obj .sse_ExecRptSync_SubExecRptSync [.str (js "AB"), .num ⟨.i32, 1⟩, .num ⟨.i64, 2⟩]
def fanBody : Val := .obj .sse_ExecRptSync [.list [fanEntry, fanEntry]]
def fanFrame (k : BitVec 64) : Val := .obj .sse_SseBinary [.num ⟨.i32, 206⟩, .num ⟨.i64, k⟩, .num ⟨.i32, 0⟩, fanBody, .num ⟨.i32, 0⟩]

example : Shows fanHeap (fanFrame 5) (.ref 3) ∧ Shows fanHeap (fanFrame 6) (.ref 4) ∧ Shows fanHeap fanBody (.ref 2)
    ∧ wellTyped fanBody = true ∧ frameless fanBody = true := by decide +kernel

/-- All three calls are in progress, and a field has been changed. -/
example : (∀ i ∈ [0, 1, 2], ((exEpisode.final World.initial fanHeap).thr i).stack.length ≠ 0 ∧ ((exEpisode.final World.initial fanHeap).thr i).err = none)
    ∧ [0, 1, 2].map (fun i => ((exEpisode.final World.initial fanHeap).thr i).buf.data.length) = [27, 59, 15]
    ∧ (exEpisode.final World.initial fanHeap).h ≠ fanHeap
    -- zeros where the length will be
    ∧ (((exEpisode.final World.initial fanHeap).thr 1).buf.data.drop 13).take 4 = [0, 0, 0, 0]
    ∧ ((encode World.initial 3 (fanFrame 6) ⟨[9], 0, 200⟩).2.1.data.drop 13).take 4 = [0, 0, 0, 42] := by decide +kernel

/-- The second frame is sent again. -/
example : (hencode World.initial 3 (.ref 4) (afterEpisodes World.initial [exEpisode, exEpisode] fanHeap) ⟨[], 0, 100⟩).2
    = (encode World.initial 3 (fanFrame 6) ⟨[], 0, 100⟩).2 :=
  C93_later World.initial [exEpisode, exEpisode] 3 fanHeap (fanFrame 6) (.ref 4) _ (by decide +kernel)

example : FilledIn ((exEpisode.final World.initial fanHeap).thr 1).buf.data (encode World.initial 3 (fanFrame 6) ⟨[9], 0, 200⟩).2.1.data :=
  C93_so_far World.initial 3 fanHeap fanRoots _ fan_separate _ 1 (fanFrame 6) (by decide +kernel)

example : ∃ p, ((exEpisode.final World.initial fanHeap).thr 2).buf = ⟨[9] ++ p, 0, 200⟩ ∧ p <+: image fanBody :=
  C93_prefix World.initial 3 fanHeap fanRoots _ fan_separate _ 2 fanBody (by decide +kernel) (by decide +kernel) (by decide +kernel)
    (by constructor <;> decide)

/-- A risk control frame. -/
def rcHeap : Heap :=
  [.msg .risk_RiskResult [.str (js "A"), .num ⟨.i8, 1⟩, .str (js "OK")],
   .msg .risk_RcBinary [.num ⟨.i32, 800001⟩, .num ⟨.i32, 1⟩, .num ⟨.i32, 0⟩, .ref 0]]

/-- **C93, violated for readers.** A reader that looks at the buffer while the call is in progress may take it for a complete message: just before the last
statement `decode` reads the risk control frame without an exception, but as a message whose length field is 0. -/
theorem C93_reader_violated : ∃ (h : Heap) (x : HVal) (sched : List Nat),
    let st := (HSys.start 3 h (fun _ => x) (fun _ => ⟨[], 0, 200⟩)).run World.initial 3 sched
    let sofar := decode World.initial 3 .risk_RcBinary (freshFields .risk_RcBinary) ⟨(st.thr 0).buf.data, [], 0⟩
    let done := decode World.initial 3 .risk_RcBinary (freshFields .risk_RcBinary) ⟨(hencode World.initial 3 x h ⟨[], 0, 200⟩).2.1.data, [], 0⟩
    (st.thr 0).stack.length ≠ 0 ∧ (st.thr 0).err = none ∧ sofar.2.2 = none ∧ done.2.2 = none ∧ sofar.2.1.rd = (st.thr 0).buf.data.length
      ∧ sofar.1[2]? = some (.num ⟨.i32, 0⟩) ∧ done.1[2]? = some (.num ⟨.i32, 12⟩) :=
  ⟨rcHeap, .ref 1, List.replicate 12 0, by decide +kernel, by decide +kernel, by decide +kernel, by decide +kernel, by decide +kernel, by rfl, by rfl⟩

end FinProto
