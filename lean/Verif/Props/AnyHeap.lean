import Verif.Proofs.AnyHeap
import Verif.Proofs.WeakHeap
import Verif.Model.Factory
import Verif.Model.Checksum
/-
C113: anything may happen to the objects in memory while a message is being encoded.
-/
namespace FinProto

/-- A sub packet (at 0) with a list (at 1), the body of frames (at 2 to 5). -/
private def subHeap : Heap :=
  [.msg .sample_SubPacket [.num ⟨.i32, 7⟩, .ref 1], .arr [.num ⟨.i16, 5⟩],
   .msg .sample_RootPacket [.num ⟨.i16, 4⟩, .num ⟨.i32, 0⟩, .ref 0, .num ⟨.i32, 0⟩],
   .msg .sse_SseBinary [.num ⟨.i32, 1⟩, .num ⟨.i64, 2⟩, .num ⟨.i32, 0⟩, .ref 0, .num ⟨.i32, 3⟩],
   .msg .szse_SzseBinary [.num ⟨.i32, 1⟩, .num ⟨.i32, 0⟩, .ref 0, .num ⟨.i32, 3⟩], .msg .risk_RcBinary [.num ⟨.i32, 1⟩, .num ⟨.i32, 2⟩, .num ⟨.i32, 0⟩, .ref 0]]

/-- Another thread gives the list at 1 these elements just before the access number `j`. -/
private def relist (j : Nat) (xs : List HVal) : Acts := fun k h =>
  if k = j then (match (h[1]? : Option HObj) with | some (.arr _) => h.set 1 (.arr xs) | _ => h) else h

private theorem relist_leaves (j : Nat) (xs : List HVal) (r : Nat) (fs : List Nat) : LeavesFields (relist j xs) r fs := by
  intro k h f _
  unfold relist
  split
  · rcases h1 : h[1]? with _ | (⟨c, ys⟩ | zs)
    · rfl
    · rfl
    · dsimp only
      by_cases hr : 1 = r
      · subst hr
        have hlt := (List.getElem?_eq_some_iff.1 h1).1
        simp only [Heap.field, h1, List.getElem?_set_self hlt]
      · simp only [Heap.field, List.getElem?_set_ne hr]
  · rfl

/-- **C113.** Whatever other threads do to messages and lists while one thread encodes, and whatever that call throws: nothing that was in the buffer changes, nor do
the reader index and the maximum capacity. -/
theorem C113_appends (w : World) (o : Acts) (n : Nat) (x : HVal) (h : Heap) (k : Nat) (b : WBuf) :
    let b' := (aencode w o n x h k b).2.2.1
    b.data <+: b'.data ∧ b'.rd = b.rd ∧ b'.maxCap = b.maxCap := by
  have := aencode_ext (w := w) (o := o) n x h k b
  exact ⟨this.2.2, this.1, this.2.1⟩

/-- The list is emptied in the middle of the loop: the call throws, what was in front is still there. -/
example : let r := aencode World.initial (relist 5 []) 9 (.ref 0) subHeap 0 ⟨[9, 9], 1, 100⟩
    r.2.2.2 = some .indexOutOfBounds ∧ r.2.2.1.data = [9, 9, 7, 0, 0, 0, 1, 0] := by decide +kernel

/-- **C113.** A frame is consistent whatever happens to its body, to the parts of the body and to their lists, and to the other fields of the frame, as long as nobody
else changes its length and its checksum: the length is the number of body bytes that were really written, and the checksum is that of the bytes that are really
in front of it. -/
theorem C113_frame_sse (w : World) (o : Acts) (n r : Nat) (h : Heap) (k : Nat) (b : WBuf) (ys : List HVal) (hr : h[r]? = some (.msg .sse_SseBinary ys))
    (ho : LeavesFields o r [2, 4]) (h' : Heap) (k' : Nat) (b' : WBuf) (hrun : aencode w o n (.ref r) h k b = (h', k', b', none)) :
    ∃ (ty seq ck : Num) (body : List Byte), ty.ty = .i32 ∧ seq.ty = .i64 ∧ ck.ty = .i32
      ∧ b'.data = b.data ++ ty.bytes .be ++ seq.bytes .be ++ toBytes .be 4 body.length ++ body ++ ck.bytes .be
      ∧ ∀ s, w.svc.getService "SSE_BIN" = some s →
          ck = .int (s.calcOn ((b.data ++ ty.bytes .be ++ seq.bytes .be ++ toBytes .be 4 body.length ++ body).drop b.rd)) := by
  cases n with
  | zero => cases hrun
  | succ n =>
    simp only [aencode, hr] at hrun
    obtain ⟨st', he⟩ : ∃ st', astmts w o (aencode w o n) r (decl .sse_SseBinary).enc ⟨h, k, b, fun _ => none⟩ = (st', none) ∧ st'.buf = b' := by
      rcases hx : astmts w o (aencode w o n) r (decl .sse_SseBinary).enc ⟨h, k, b, fun _ => none⟩ with ⟨st', e⟩
      rw [hx] at hrun
      cases hrun
      exact ⟨st', rfl, rfl⟩
    obtain ⟨he, rfl⟩ := he
    obtain ⟨s1, h1, h2⟩ := astmts_cons he
    obtain ⟨s2, h3, h4⟩ := astmts_cons h2
    obtain ⟨s3, h5, h6⟩ := astmts_append _ r [.save 0, .zero .i32 .be, .save 1, .objOpt 3, .save 2, .setLen 2 2 1, .patch 0 2 .i32 .be] [.checksum 4 "SSE_BIN", .num 4 .i32 .be] _ _ h4
    obtain ⟨_, ty, -, t1, m1, -⟩ := astmt_num h1
    obtain ⟨_, seq, -, t2, m2, -⟩ := astmt_num h3
    obtain ⟨body, m3⟩ := astmts_body (aencode_ext n) (fun k h => ho k h 2 (by simp)) h5
    obtain ⟨ck, t4, m4, hck⟩ := astmts_checksum (fun k h => ho k h 4 (by simp)) h6
    have m := (m1.trans m2).trans m3
    refine ⟨ty, seq, ck, body, convert_ty t1, convert_ty t2, t4, ?_, fun s hs => ?_⟩
    · rw [(m.trans m4).1]
      simp only [List.append_assoc]
    · rw [hck s hs, WBuf.readable, m.1, m.2.1]
      simp only [List.append_assoc]

/-- An element is added to the list of the body in the middle of the loop; the length counts it. -/
example : LeavesFields (relist 9 [.num ⟨.i16, 5⟩, .num ⟨.i16, 6⟩]) 3 [2, 4] ∧
    (let r := aencode World.initial (relist 9 [.num ⟨.i16, 5⟩, .num ⟨.i16, 6⟩]) 9 (.ref 3) subHeap 0 ⟨[], 0, 100⟩
     r.2.2.2 = none ∧ r.2.2.1.data = [0, 0, 0, 1, 0, 0, 0, 0, 0, 0, 0, 2, 0, 0, 0, 10, 7, 0, 0, 0, 1, 0, 5, 0, 6, 0, 0, 0, 0, 3]) :=
  ⟨relist_leaves _ _ _ _, by decide +kernel⟩

/-- **C113.** The same for `SzseBinary`. -/
theorem C113_frame_szse (w : World) (o : Acts) (n r : Nat) (h : Heap) (k : Nat) (b : WBuf) (ys : List HVal) (hr : h[r]? = some (.msg .szse_SzseBinary ys))
    (ho : LeavesFields o r [1, 3]) (h' : Heap) (k' : Nat) (b' : WBuf) (hrun : aencode w o n (.ref r) h k b = (h', k', b', none)) :
    ∃ (ty ck : Num) (body : List Byte), ty.ty = .i32 ∧ ck.ty = .i32 ∧ b'.data = b.data ++ ty.bytes .be ++ toBytes .be 4 body.length ++ body ++ ck.bytes .be
      ∧ ∀ s, w.svc.getService "SZSE_BIN" = some s →
          ck = .int (s.calcOn ((b.data ++ ty.bytes .be ++ toBytes .be 4 body.length ++ body).drop b.rd)) := by
  cases n with
  | zero => cases hrun
  | succ n =>
    simp only [aencode, hr] at hrun
    obtain ⟨st', he⟩ : ∃ st', astmts w o (aencode w o n) r (decl .szse_SzseBinary).enc ⟨h, k, b, fun _ => none⟩ = (st', none) ∧ st'.buf = b' := by
      rcases hx : astmts w o (aencode w o n) r (decl .szse_SzseBinary).enc ⟨h, k, b, fun _ => none⟩ with ⟨st', e⟩
      rw [hx] at hrun
      cases hrun
      exact ⟨st', rfl, rfl⟩
    obtain ⟨he, rfl⟩ := he
    obtain ⟨s1, h1, h2⟩ := astmts_cons he
    obtain ⟨s3, h5, h6⟩ := astmts_append _ r [.save 0, .zero .i32 .be, .save 1, .objOpt 2, .save 2, .setLen 1 2 1, .patch 0 1 .i32 .be] [.checksum 3 "SZSE_BIN", .num 3 .i32 .be] _ _ h2
    obtain ⟨_, ty, -, t1, m1, -⟩ := astmt_num h1
    obtain ⟨body, m3⟩ := astmts_body (aencode_ext n) (fun k h => ho k h 1 (by simp)) h5
    obtain ⟨ck, t4, m4, hck⟩ := astmts_checksum (fun k h => ho k h 3 (by simp)) h6
    have m := m1.trans m3
    refine ⟨ty, ck, body, convert_ty t1, t4, ?_, fun s hs => ?_⟩
    · rw [(m.trans m4).1]
      simp only [List.append_assoc]
    · rw [hck s hs, WBuf.readable, m.1, m.2.1]
      simp only [List.append_assoc]

example : LeavesFields (relist 8 [.num ⟨.i16, 5⟩, .num ⟨.i16, 6⟩]) 4 [1, 3] ∧
    (let r := aencode World.initial (relist 8 [.num ⟨.i16, 5⟩, .num ⟨.i16, 6⟩]) 9 (.ref 4) subHeap 0 ⟨[], 0, 100⟩
     r.2.2.2 = none ∧ r.2.2.1.data = [0, 0, 0, 1, 0, 0, 0, 10, 7, 0, 0, 0, 1, 0, 5, 0, 6, 0, 0, 0, 0, 3]) :=
  ⟨relist_leaves _ _ _ _, by decide +kernel⟩

/-- **C113.** The same for `RootPacket`. -/
theorem C113_frame_root (w : World) (o : Acts) (n r : Nat) (h : Heap) (k : Nat) (b : WBuf) (ys : List HVal) (hr : h[r]? = some (.msg .sample_RootPacket ys))
    (ho : LeavesFields o r [1, 3]) (h' : Heap) (k' : Nat) (b' : WBuf) (hrun : aencode w o n (.ref r) h k b = (h', k', b', none)) :
    ∃ (ty ck : Num) (body : List Byte), ty.ty = .i16 ∧ ck.ty = .i32 ∧ b'.data = b.data ++ ty.bytes .le ++ toBytes .le 4 body.length ++ body ++ ck.bytes .le
      ∧ ∀ s, w.svc.getService "CRC32" = some s →
          ck = .int (s.calcOn ((b.data ++ ty.bytes .le ++ toBytes .le 4 body.length ++ body).drop b.rd)) := by
  cases n with
  | zero => cases hrun
  | succ n =>
    simp only [aencode, hr] at hrun
    obtain ⟨st', he⟩ : ∃ st', astmts w o (aencode w o n) r (decl .sample_RootPacket).enc ⟨h, k, b, fun _ => none⟩ = (st', none) ∧ st'.buf = b' := by
      rcases hx : astmts w o (aencode w o n) r (decl .sample_RootPacket).enc ⟨h, k, b, fun _ => none⟩ with ⟨st', e⟩
      rw [hx] at hrun
      cases hrun
      exact ⟨st', rfl, rfl⟩
    obtain ⟨he, rfl⟩ := he
    obtain ⟨s1, h1, h2⟩ := astmts_cons he
    obtain ⟨s3, h5, h6⟩ := astmts_append _ r [.save 0, .zero .i32 .le, .save 1, .objOpt 2, .save 2, .setLen 1 2 1, .patch 0 1 .i32 .le] [.checksum 3 "CRC32", .num 3 .i32 .le] _ _ h2
    obtain ⟨_, ty, -, t1, m1, -⟩ := astmt_num h1
    obtain ⟨body, m3⟩ := astmts_body (aencode_ext n) (fun k h => ho k h 1 (by simp)) h5
    obtain ⟨ck, t4, m4, hck⟩ := astmts_checksum (fun k h => ho k h 3 (by simp)) h6
    have m := m1.trans m3
    refine ⟨ty, ck, body, convert_ty t1, t4, ?_, fun s hs => ?_⟩
    · rw [(m.trans m4).1]
      simp only [List.append_assoc]
    · rw [hck s hs, WBuf.readable, m.1, m.2.1]
      simp only [List.append_assoc]

/-- With the CRC-32 of what was really written in front. -/
example : LeavesFields (relist 8 [.num ⟨.i16, 5⟩, .num ⟨.i16, 6⟩]) 2 [1, 3] ∧
    (let r := aencode World.initial (relist 8 [.num ⟨.i16, 5⟩, .num ⟨.i16, 6⟩]) 9 (.ref 2) subHeap 0 ⟨[], 0, 100⟩
     r.2.2.2 = none ∧ r.2.2.1.data.take 16 = [4, 0, 10, 0, 0, 0, 7, 0, 0, 0, 1, 0, 5, 0, 6, 0] ∧ r.2.2.1.data.length = 20) :=
  ⟨relist_leaves _ _ _ _, by decide +kernel⟩

/-- **C113.** The same for `RcBinary`, which has no checksum. -/
theorem C113_frame_rc (w : World) (o : Acts) (n r : Nat) (h : Heap) (k : Nat) (b : WBuf) (ys : List HVal) (hr : h[r]? = some (.msg .risk_RcBinary ys))
    (ho : LeavesFields o r [2]) (h' : Heap) (k' : Nat) (b' : WBuf) (hrun : aencode w o n (.ref r) h k b = (h', k', b', none)) :
    ∃ (ty ver : Num) (body : List Byte), ty.ty = .i32 ∧ ver.ty = .i32 ∧ b'.data = b.data ++ ty.bytes .be ++ ver.bytes .be ++ toBytes .be 4 body.length ++ body := by
  cases n with
  | zero => cases hrun
  | succ n =>
    simp only [aencode, hr] at hrun
    obtain ⟨st', he⟩ : ∃ st', astmts w o (aencode w o n) r (decl .risk_RcBinary).enc ⟨h, k, b, fun _ => none⟩ = (st', none) ∧ st'.buf = b' := by
      rcases hx : astmts w o (aencode w o n) r (decl .risk_RcBinary).enc ⟨h, k, b, fun _ => none⟩ with ⟨st', e⟩
      rw [hx] at hrun
      cases hrun
      exact ⟨st', rfl, rfl⟩
    obtain ⟨he, rfl⟩ := he
    obtain ⟨s1, h1, h2⟩ := astmts_cons he
    obtain ⟨s2, h3, h4⟩ := astmts_cons h2
    obtain ⟨_, ty, -, t1, m1, -⟩ := astmt_num h1
    obtain ⟨_, ver, -, t2, m2, -⟩ := astmt_num h3
    obtain ⟨body, m3⟩ := astmts_body (aencode_ext n) (fun k h => ho k h 2 (by simp)) h4
    refine ⟨ty, ver, body, convert_ty t1, convert_ty t2, ?_⟩
    rw [((m1.trans m2).trans m3).1]
    simp only [List.append_assoc]

example : LeavesFields (relist 9 [.num ⟨.i16, 5⟩, .num ⟨.i16, 6⟩]) 5 [2] ∧
    (let r := aencode World.initial (relist 9 [.num ⟨.i16, 5⟩, .num ⟨.i16, 6⟩]) 9 (.ref 5) subHeap 0 ⟨[], 0, 100⟩
     r.2.2.2 = none ∧ r.2.2.1.data = [0, 0, 0, 1, 0, 0, 0, 2, 0, 0, 0, 10, 7, 0, 0, 0, 1, 0, 5, 0, 6, 0]) :=
  ⟨relist_leaves _ _ _ _, by decide +kernel⟩

/-- **C113.** C111 is the case in which the others call setters; so with setters, C113 says the same about the same calls. -/
theorem C113_setters (w : World) (o : HOthers) (n : Nat) (x : HVal) (h : Heap) (k : Nat) (b : WBuf) : aencode w o.acts n x h k b = rhencode w o n x h k b := by
  rw [acts_eq, aencode_acts]

/-- Two setters before the same access: the later one counts. -/
example : (aencode World.initial (HOthers.acts fun k => if k = 0 then [(0, 0, .num ⟨.i32, 8⟩), (0, 0, .num ⟨.i32, 9⟩)] else []) 9 (.ref 0) subHeap 0 ⟨[], 0, 100⟩).2.2.1.data
    = [9, 0, 0, 0, 1, 0, 5, 0] := by decide +kernel

/-- **C113.** Stale and torn reads (C112) are covered as well: the call writes and throws what it does with some changes of the memory. -/
theorem C113_weak (w : World) (m : Seen) (n : Nat) (x : HVal) (h : Heap) (sets : Nat → Nat → HVal → Prop) (b : WBuf) (hm : MaySee h sets m) :
    ∃ o : Acts, (aencode w o n x h 0 b).2 = (wencode w m n x h 0 b).2 := by
  obtain ⟨g, hg, -⟩ := wencode_as (w := w) (n := n) (x := x) (b := b) hm rfl
  exact ⟨(asSets m h).acts, by rw [C113_setters, hg]⟩

example : MaySee subHeap (fun r f y => r = 0 ∧ f = 0 ∧ y = .num ⟨.i32, 8⟩) (fun _ r f => if r = 0 ∧ f = 0 then some (.num ⟨.i32, 8⟩) else none) := by
  intro k r f y hy
  dsimp only at hy
  split at hy
  · rename_i hrf
    obtain ⟨rfl, rfl⟩ := hrf
    cases hy
    exact ⟨.whole _ (.inr ⟨rfl, rfl, rfl⟩), _, _, rfl, by decide, id⟩
  · cases hy

/-! ### What does not hold -/

/-- **C113 violated.** If an element is added to a list while the message is encoded, the count in front of the list may be wrong: `encode` throws nothing, and a
reader gets another list and finds bytes left over. -/
theorem C113_count_violated :
    let r := aencode World.initial (relist 5 [.num ⟨.i16, 5⟩, .num ⟨.i16, 6⟩]) 9 (.ref 0) subHeap 0 ⟨[], 0, 100⟩
    r.2.2.2 = none ∧ r.2.2.1.data = [7, 0, 0, 0, 1, 0, 5, 0, 6, 0] ∧ r.1[1]? = some (.arr [.num ⟨.i16, 5⟩, .num ⟨.i16, 6⟩]) ∧
      (let d := decode World.initial 9 .sample_SubPacket (freshFields .sample_SubPacket) ⟨r.2.2.1.data, [], 0⟩
       d.1 = [.num ⟨.i32, 7⟩, .list [.num ⟨.i16, 5⟩]] ∧ d.2.1.rd = 8 ∧ d.2.2 = none) :=
  ⟨by decide +kernel, by decide +kernel, rfl, rfl, by decide +kernel, by decide +kernel⟩

/-- **C113 violated.** If an element is taken out meanwhile, `encode` may throw, with half of the message in the buffer, although the message is well-typed at each
moment and there is room. -/
theorem C113_throws_violated :
    let r := aencode World.initial (relist 5 []) 9 (.ref 0) subHeap 0 ⟨[], 0, 100⟩
    r.2.2.2 = some .indexOutOfBounds ∧ r.2.2.1.data = [7, 0, 0, 0, 1, 0] := by
  decide +kernel

/-- An SSE frame with a heartbeat. -/
private def beatHeap : Heap :=
  [.msg .sse_SseBinary [.num ⟨.i32, 33⟩, .num ⟨.i64, 7⟩, .num ⟨.i32, 0⟩, .ref 1, .num ⟨.i32, 9⟩], .msg .sse_Heartbeat []]

/-- **C113 violated.** If another thread calls `setMsgBodyLen` just after `encode` has computed the length, the frame says that the body has bytes it does not have;
nothing is thrown.  So the condition on length and checksum in the frame theorems is needed. -/
theorem C113_length_violated :
    (let r := aencode World.initial (fun k h => if k = 5 then h.setField 0 2 (.num ⟨.i32, 5⟩) else h) 9 (.ref 0) beatHeap 0 ⟨[], 0, 100⟩
     r.2.2.2 = none ∧ r.2.2.1.data = [0, 0, 0, 33, 0, 0, 0, 0, 0, 0, 0, 7, 0, 0, 0, 5, 0, 0, 0, 9]) ∧
    (let r := aencode World.initial (fun _ h => h) 9 (.ref 0) beatHeap 0 ⟨[], 0, 100⟩
     r.2.2.2 = none ∧ r.2.2.1.data = [0, 0, 0, 33, 0, 0, 0, 0, 0, 0, 0, 7, 0, 0, 0, 0, 0, 0, 0, 9]) := by
  decide +kernel

end FinProto
