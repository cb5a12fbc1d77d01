import Verif.Proofs.Resilient
/-
C102: a receiver that cuts the stream by the length fields and checks the checksums delivers exactly the frames that have arrived intact.

A sender encodes frames of one kind, each into a buffer without unread bytes (`Sending`), with the frame's checksum service registered.  On the way
any of the frames may be damaged slightly (`Arrives`, `Slight`): the damage leaves the length field alone and is of the kind the checksum is made for.
`takeIn` is the receiver, `undamaged` the messages of the undamaged frames (`Spec/Resilient.lean`).
-/
namespace FinProto

/-- **C102.** Whichever frames are damaged, and in whatever chunks the bytes arrive: the receiver stays in step (it cuts off exactly the pieces that were
sent, and nothing is left), delivers the messages of exactly the intact frames, in order, and drops the damaged ones. -/
theorem C102_delivers (ws wr : World) (n m : Nat) (c : Cls) (F : Framing) (hF : framing c = some F) (name : String) (s : Service)
    (hg : guardian c = some (name, s)) (hs : ws.svc.getService name = some s) (max : Nat) (xs : List Sending)
    (hx : ∀ x ∈ xs, x.Ok ws n c ∧ x.buf.maxCap ≤ max ∧ legible wr (.obj c x.fields) ∧ depth (.obj c x.fields) ≤ m)
    (arrived : List (List Byte)) (ha : List.Forall₂ (fun x q => Arrives c F (x.bytes ws n c) q) xs arrived)
    (chunks : List (List Byte)) (hch : chunks.flatten = arrived.flatten) :
    Cutter.receiveChunks F max chunks = ⟨arrived, [], false⟩
      ∧ takeIn s wr m c F max chunks = undamaged ws n c xs arrived := by
  have hw : ∀ q ∈ arrived, F.Whole q ∧ q.length ≤ max := by
    intro q hq
    obtain ⟨x, hxm, hxq⟩ : ∃ x ∈ xs, Arrives c F (x.bytes ws n c) q := by
      clear hx hch
      induction ha with
      | nil => simp at hq
      | @cons x q' xs qs h _ ih =>
        rcases List.mem_cons.mp hq with rfl | hq
        · exact ⟨x, by simp, h⟩
        · obtain ⟨x', h1, h2⟩ := ih hq
          exact ⟨x', by simp [h1], h2⟩
    exact arrived_whole ws n c F hF max x (hx x hxm).1 (hx x hxm).2.1 q hxq
  have hcut : Cutter.receiveChunks F max chunks = ⟨arrived, [], false⟩ := by
    rw [receiveChunks_cut, hch]
    have := cut_parts F max [] arrived hw
    rw [cut_short F max [] (by simp)] at this
    simpa using this
  refine ⟨hcut, ?_⟩
  rw [takeIn, hcut]
  refine sentPieces ws wr n m c F hF name s hg hs xs arrived ?_
  clear hch hw hcut
  induction ha with
  | nil => exact .nil
  | @cons x q xs qs h _ ih =>
    obtain ⟨h1, _, h3, h4⟩ := hx x (by simp)
    exact .cons ⟨h1, h3, h4, h⟩ (ih (fun y hy => hx y (by simp [hy])))

/-- **C102.** In particular, if nothing is damaged, every message is delivered. -/
theorem C102_all (ws wr : World) (n m : Nat) (c : Cls) (F : Framing) (hF : framing c = some F) (name : String) (s : Service)
    (hg : guardian c = some (name, s)) (hs : ws.svc.getService name = some s) (max : Nat) (xs : List Sending)
    (hx : ∀ x ∈ xs, x.Ok ws n c ∧ x.buf.maxCap ≤ max ∧ legible wr (.obj c x.fields) ∧ depth (.obj c x.fields) ≤ m)
    (chunks : List (List Byte)) (hch : chunks.flatten = (xs.map (Sending.bytes ws n c)).flatten) :
    takeIn s wr m c F max chunks = xs.map (Sending.message ws n c) := by
  have ha : List.Forall₂ (fun x q => Arrives c F (x.bytes ws n c) q) xs (xs.map (Sending.bytes ws n c)) := by
    clear hx hch
    induction xs with
    | nil => exact .nil
    | cons x xs ih => exact .cons (.inl rfl) ih
  rw [(C102_delivers ws wr n m c F hF name s hg hs max xs hx _ ha chunks hch).2]
  clear hx hch ha
  induction xs with
  | nil => rfl
  | cons x xs ih =>
    rw [List.map_cons, undamaged, List.zip_cons_cons, List.filterMap_cons]
    simp only [if_true]
    exact congrArg _ ih

/-- **C102.** At any moment, with any beginning of the damaged stream received: the receiver has delivered the intact ones among the frames that have
arrived completely, and keeps the bytes of the next one. -/
theorem C102_so_far (ws wr : World) (n m : Nat) (c : Cls) (F : Framing) (hF : framing c = some F) (name : String) (s : Service)
    (hg : guardian c = some (name, s)) (hs : ws.svc.getService name = some s) (max : Nat) (xs : List Sending)
    (hx : ∀ x ∈ xs, x.Ok ws n c ∧ x.buf.maxCap ≤ max ∧ legible wr (.obj c x.fields) ∧ depth (.obj c x.fields) ≤ m)
    (arrived : List (List Byte)) (ha : List.Forall₂ (fun x q => Arrives c F (x.bytes ws n c) q) xs arrived)
    (chunks : List (List Byte)) (hch : chunks.flatten <+: arrived.flatten) :
    ∃ k rest, k ≤ xs.length ∧ chunks.flatten = (arrived.take k).flatten ++ rest ∧ (∀ q, arrived[k]? = some q → rest.length < q.length)
      ∧ takeIn s wr m c F max chunks = undamaged ws n c (xs.take k) (arrived.take k) := by
  obtain ⟨Y, hY⟩ := hch
  have hd := (C102_delivers ws wr n m c F hF name s hg hs max xs hx arrived ha [arrived.flatten] (by simp)).1
  have hw : ∀ q ∈ arrived, F.Whole q ∧ q.length ≤ max := by
    intro q hq
    obtain ⟨x, hxm, hxq⟩ : ∃ x ∈ xs, Arrives c F (x.bytes ws n c) q := by
      clear hx hY hd
      induction ha with
      | nil => simp at hq
      | @cons x q' xs qs h _ ih =>
        rcases List.mem_cons.mp hq with rfl | hq
        · exact ⟨x, by simp, h⟩
        · obtain ⟨x', h1, h2⟩ := ih hq
          exact ⟨x', by simp [h1], h2⟩
    exact arrived_whole ws n c F hF max x (hx x hxm).1 (hx x hxm).2.1 q hxq
  obtain ⟨k, rest, h1, h2, h3, h4⟩ := cut_prefix F max arrived _ Y hw hY.symm
  refine ⟨k, rest, by rw [ha.length_eq]; exact h1, h3, h4, ?_⟩
  rw [takeIn, receiveChunks_cut, h2]
  refine sentPieces ws wr n m c F hF name s hg hs _ _ ?_
  clear hd hY hw h1 h2 h3 h4
  induction ha generalizing k with
  | nil => simp
  | @cons x q xs qs h _ ih =>
    cases k with
    | zero => simp
    | succ k =>
      obtain ⟨h1, _, h3, h4⟩ := hx x (by simp)
      exact .cons ⟨h1, h3, h4, h⟩ (ih (fun y hy => hx y (by simp [hy])) k)

/-- Two frames of the SSE kind; the first one arrives with one changed byte in its sequence number. -/
private def exSent0 : Sending := ⟨[.num ⟨.i32, 33⟩, .num ⟨.i64, 5⟩, .num ⟨.i32, 0⟩, .obj .sse_Heartbeat [], .num ⟨.i32, 0⟩], ⟨[9], 1, 100⟩⟩
private def exSent1 : Sending := ⟨[.num ⟨.i32, 33⟩, .num ⟨.i64, 6⟩, .num ⟨.i32, 0⟩, .obj .sse_Heartbeat [], .num ⟨.i32, 0⟩], ⟨[], 0, 100⟩⟩
private def exSent : List Sending := [exSent0, exSent1]
private def exArrived : List (List Byte) :=
  [(exSent0.bytes exSseWorld 3 .sse_SseBinary).set 5 77, exSent1.bytes exSseWorld 3 .sse_SseBinary]

example : (exArrived.map List.length) = [20, 20] ∧ (undamaged exSseWorld 3 .sse_SseBinary exSent exArrived).length = 1
    ∧ (takeIn sseBinService World.initial 3 .sse_SseBinary ⟨12, .be, 4⟩ 100 [exArrived.flatten.take 25, exArrived.flatten.drop 25]).length = 1 := by
  decide +kernel

set_option maxRecDepth 8000 in
private theorem exSent_ok : ∀ x ∈ exSent, x.Ok exSseWorld 3 .sse_SseBinary ∧ x.buf.maxCap ≤ 100
    ∧ legible World.initial (.obj .sse_SseBinary x.fields) ∧ depth (.obj .sse_SseBinary x.fields) ≤ 3 := by
  intro x hx
  simp only [exSent, List.mem_cons, List.not_mem_nil, or_false] at hx
  rcases hx with rfl | rfl
  · exact ⟨⟨by decide +kernel, ⟨by decide, by decide⟩, rfl, by decide, by decide +kernel⟩, by decide,
      ⟨trivial, trivial, trivial, ⟨⟨_, rfl, rfl⟩, trivial⟩, trivial, trivial⟩, by decide +kernel⟩
  · exact ⟨⟨by decide +kernel, ⟨by decide, by decide⟩, rfl, by decide, by decide +kernel⟩, by decide,
      ⟨trivial, trivial, trivial, ⟨⟨_, rfl, rfl⟩, trivial⟩, trivial, trivial⟩, by decide +kernel⟩

private theorem exArrived_ok : List.Forall₂ (fun x q => Arrives .sse_SseBinary ⟨12, .be, 4⟩ (x.bytes exSseWorld 3 .sse_SseBinary) q)
    exSent exArrived := by
  refine .cons (.inr ⟨by decide +kernel, by decide +kernel, ?_⟩) (.cons (.inl rfl) .nil)
  exact ⟨(exSent0.bytes exSseWorld 3 .sse_SseBinary).take 5, 0, 77, (exSent0.bytes exSseWorld 3 .sse_SseBinary).drop 6,
    by decide +kernel, by decide +kernel, by decide⟩

/-- The theorems on these frames. -/
example := C102_delivers exSseWorld World.initial 3 3 .sse_SseBinary ⟨12, .be, 4⟩ rfl "SSE_BIN" sseBinService rfl rfl 100 exSent exSent_ok
  exArrived exArrived_ok [exArrived.flatten.take 25, exArrived.flatten.drop 25] (by simp)
example := C102_all exSseWorld World.initial 3 3 .sse_SseBinary ⟨12, .be, 4⟩ rfl "SSE_BIN" sseBinService rfl rfl 100 exSent exSent_ok
  _ rfl
example := C102_so_far exSseWorld World.initial 3 3 .sse_SseBinary ⟨12, .be, 4⟩ rfl "SSE_BIN" sseBinService rfl rfl 100 exSent exSent_ok
  exArrived exArrived_ok [exArrived.flatten.take 25] (by simpa using List.take_prefix _ _)

/-- **C102 violated for damage in a length field.** One changed byte in the length field of a frame can cost the receiver the next frame too, although that one
arrives intact: nothing is delivered, the receiver waits. -/
theorem C102_length_violated : ∃ (x y : Sending) (q : List Byte), x.Ok exSseWorld 3 .sse_SseBinary ∧ y.Ok exSseWorld 3 .sse_SseBinary
    ∧ OneByteChanged (x.bytes exSseWorld 3 .sse_SseBinary) q
    ∧ accepts sseBinService World.initial 3 .sse_SseBinary (y.bytes exSseWorld 3 .sse_SseBinary) = true
    ∧ takeIn sseBinService World.initial 3 .sse_SseBinary ⟨12, .be, 4⟩ 100 [q, y.bytes exSseWorld 3 .sse_SseBinary] = []
    ∧ (Cutter.receiveChunks ⟨12, .be, 4⟩ 100 [q, y.bytes exSseWorld 3 .sse_SseBinary]).pending ≠ [] := by
  have h := exSent_ok
  refine ⟨exSent0, exSent1, (exSent0.bytes exSseWorld 3 .sse_SseBinary).set 15 50, (h _ (by simp [exSent])).1,
    (h _ (by simp [exSent])).1, ?_, by decide +kernel, ?_, by decide +kernel⟩
  · exact ⟨(exSent0.bytes exSseWorld 3 .sse_SseBinary).take 15, 0, 50, (exSent0.bytes exSseWorld 3 .sse_SseBinary).drop 16,
      by decide +kernel, by decide +kernel, by decide⟩
  · exact List.eq_nil_of_length_eq_zero (by decide +kernel)

end FinProto
