import Verif.Proofs.AnyConfined
import Verif.Proofs.WideDecode
import Verif.Proofs.AnyHeap
import Verif.Proofs.RacingHeap
import Verif.Props.HeapAfter
import Verif.Props.AnyDecode
import Verif.Props.RoundTrip
/-
C116: a thread that has its messages for itself.
-/
namespace FinProto

/-- A packet (at 0) with its list (at 1), which are mine; a packet of somebody else (at 2) with its list (at 3). -/
private def twoPackets : Heap :=
  [.msg .sample_SubPacket [.num ⟨.i32, 7⟩, .ref 1], .arr [.num ⟨.i16, 5⟩, .num ⟨.i16, 6⟩], .msg .sample_SubPacket [.num ⟨.i32, 8⟩, .ref 3], .arr []]

/-- Before each access the object at `a` becomes something else: now a list, of a growing number of elements, now a packet whose list is the one at 1. -/
private def scribble (a : Nat) : Acts := fun k g =>
  g.set a (if k % 2 = 0 then .arr (List.replicate k (.ref a)) else .msg .sample_SubPacket [.num (.int (BitVec.ofNat 32 k)), .ref 1])

private def mine : Val := .obj .sample_SubPacket [.num ⟨.i32, 7⟩, .list [.num ⟨.i16, 5⟩, .num ⟨.i16, 6⟩]]

private theorem scribble_elsewhere {h : Heap} {v : Val} {x : HVal} (hs : Shows h v x) {a : Nat} (ha : a ∉ refs h v x) (hlt : a < h.length) :
    Elsewhere h x (scribble a) := by
  intro k g
  refine ⟨List.length_set, fun q hq => List.getElem?_set_ne ?_⟩
  rintro rfl
  rcases hq with hq | hq
  · exact ha ((refs_iff_reach h v x hs a).2 hq)
  · omega

private theorem twoPackets_mine : Shows twoPackets mine (.ref 0) := by decide +kernel

private theorem twoPackets_fit : HListsFit twoPackets := by
  intro a xs h
  have : ∀ ob ∈ twoPackets, (match ob with | .arr xs => xs.length | _ => 0) ≤ 2147483647 := by decide +kernel
  exact this _ (List.mem_of_getElem? h)

/-- **C116.** A thread encodes a message.  Whatever other threads do meanwhile to objects that the message does not consist of: `encode` does exactly what it does when
nobody does anything, on any memory; it puts the same bytes into the buffer, throws the same exception if any, and leaves the same in the objects of the message. -/
theorem C116_encode (w : World) (o : Acts) (n : Nat) (x : HVal) (h : Heap) (ho : Elsewhere h x o) (hfit : HListsFit h) (k : Nat) (b : WBuf) :
    (aencode w o n x h k b).2.2 = (hencode w n x h b).2 ∧ ∀ q, Mine h x q → (aencode w o n x h k b).1[q]? = (hencode w n x h b).1[q]? := by
  have hC := confined_elsewhere (P := fun _ => True) ho (fun _ _ _ _ => trivial) (fun _ _ _ => trivial)
  obtain ⟨h1, h2⟩ := aencode_off hC w n x h h k b mine_root (off_start trivial)
  have h3 : (aencode w AStill n x h k b).1 = (hencode w n x h b).1 ∧ (aencode w AStill n x h k b).2.2 = (hencode w n x h b).2 := by
    have e1 : AStill = fun k h => hsetAll h ((fun _ => [] : HOthers) k) := rfl
    have e2 := rhencode_nobody w n x h k b hfit
    rw [e1, aencode_acts]
    exact ⟨congrArg (·.1) e2, congrArg (·.2) e2⟩
  exact ⟨by rw [h2]; exact h3.2, fun q hq => by rw [h1.same q (fun hn => hn hq), h3.1]⟩

/-- **C116.** So, if the message shows a well-typed value, the bytes and the exception are those for this value, and afterwards the message shows this value with the
lengths and checksums computed. -/
theorem C116_encode_value (w : World) (o : Acts) (n : Nat) (v : Val) (x : HVal) (h : Heap) (ho : Elsewhere h x o) (hfit : HListsFit h) (k : Nat) (b : WBuf)
    (hs : Shows h v x) (hv : wellTyped v = true) :
    (aencode w o n x h k b).2.2 = (encode w n v b).2 ∧ Shows (aencode w o n x h k b).1 (encode w n v b).1 x := by
  have hC := confined_elsewhere (P := fun _ => True) ho (fun _ _ _ _ => trivial) (fun _ _ _ => trivial)
  obtain ⟨h1, _⟩ := aencode_off hC w n x h h k b mine_root (off_start trivial)
  have h3 : (aencode w AStill n x h k b).1 = (hencode w n x h b).1 := by
    have e1 : AStill = fun k h => hsetAll h ((fun _ => [] : HOthers) k) := rfl
    rw [e1, aencode_acts]
    exact congrArg (·.1) (rhencode_nobody w n x h k b hfit)
  rw [h3] at h1
  have hs' := C88_shows w n h v x b hv hs
  refine ⟨by rw [(C116_encode w o n x h ho hfit k b).1, C64_shared_bytes w n h v x b hs], (shows_frame _ _ _ _ hs' fun q hq => ?_).1⟩
  exact h1.same q (off_reach h1 ((refs_iff_reach _ _ _ hs' q).1 hq) mine_root)

/-- Encoding a packet while another packet, and its list, become all sorts of things. -/
example : Elsewhere twoPackets (.ref 0) (scribble 3) ∧ HListsFit twoPackets ∧ Shows twoPackets mine (.ref 0) ∧ wellTyped mine = true ∧
    (aencode World.initial (scribble 3) 9 (.ref 0) twoPackets 0 ⟨[], 0, 100⟩).2.2.1.data = [7, 0, 0, 0, 2, 0, 5, 0, 6, 0] ∧
    (aencode World.initial (scribble 3) 9 (.ref 0) twoPackets 0 ⟨[], 0, 100⟩).1[3]? ≠ twoPackets[3]? :=
  ⟨scribble_elsewhere twoPackets_mine (by decide +kernel) (by decide), twoPackets_fit, twoPackets_mine, by decide +kernel, by decide +kernel, by decide +kernel⟩

/-- **C116.** `encode` makes no objects, so the others may make as many as they like meanwhile: the bytes, the exception and the objects of the message are those of a
run alone. -/
theorem C116_encode_making (w : World) (o : Acts) (n : Nat) (x : HVal) (h : Heap) (ho : Leaves h x o) (hfit : HListsFit h) (k : Nat) (b : WBuf) :
    (aencode w o n x h k b).2.2 = (hencode w n x h b).2 ∧ ∀ q, Reach h x q → (aencode w o n x h k b).1[q]? = (hencode w n x h b).1[q]? := by
  have hC := Wide.confined_reach (P := fun _ => True) ho (fun _ _ _ _ => trivial) (fun _ _ _ => trivial)
  obtain ⟨h1, h2⟩ := Wide.aencode_off hC w n x h h k b Wide.reach_root (Wide.off_start trivial)
  have h3 : (aencode w AStill n x h k b).1 = (hencode w n x h b).1 ∧ (aencode w AStill n x h k b).2.2 = (hencode w n x h b).2 := by
    have e1 : AStill = fun k h => hsetAll h ((fun _ => [] : HOthers) k) := rfl
    have e2 := rhencode_nobody w n x h k b hfit
    rw [e1, aencode_acts]
    exact ⟨congrArg (·.1) e2, congrArg (·.2) e2⟩
  exact ⟨by rw [h2]; exact h3.2, fun q hq => by rw [h1.same q (fun hn => hn hq), h3.1]⟩

/-- **C116.** In terms of the value that the message shows. -/
theorem C116_encode_making_value (w : World) (o : Acts) (n : Nat) (v : Val) (x : HVal) (h : Heap) (ho : Leaves h x o) (hfit : HListsFit h) (k : Nat) (b : WBuf)
    (hs : Shows h v x) (hv : wellTyped v = true) :
    (aencode w o n x h k b).2.2 = (encode w n v b).2 ∧ Shows (aencode w o n x h k b).1 (encode w n v b).1 x := by
  have hC := Wide.confined_reach (P := fun _ => True) ho (fun _ _ _ _ => trivial) (fun _ _ _ => trivial)
  obtain ⟨h1, _⟩ := Wide.aencode_off hC w n x h h k b Wide.reach_root (Wide.off_start trivial)
  have h3 : (aencode w AStill n x h k b).1 = (hencode w n x h b).1 := by
    have e1 : AStill = fun k h => hsetAll h ((fun _ => [] : HOthers) k) := rfl
    rw [e1, aencode_acts]
    exact congrArg (·.1) (rhencode_nobody w n x h k b hfit)
  rw [h3] at h1
  have hs' := C88_shows w n h v x b hv hs
  refine ⟨by rw [(C116_encode_making w o n x h ho hfit k b).1, C64_shared_bytes w n h v x b hs], (shows_frame _ _ _ _ hs' fun q hq => ?_).1⟩
  exact h1.same q (Wide.off_reach h1 ((refs_iff_reach _ _ _ hs' q).1 hq) Wide.reach_root)

/-- **C116.** And `encode` does nothing to the objects that the others make. -/
theorem C116_encode_making_others (w : World) (o : Acts) (n : Nat) (x : HVal) (h : Heap) (ho : Leaves h x o) (k : Nat) (b : WBuf) (P : Heap → Prop)
    (hP : AboutRest h x P) (hs : ∀ k g, P g → P (o k g)) (hh : P h) : P (aencode w o n x h k b).1 :=
  (Wide.aencode_off (Wide.confined_reach ho hP hs) w n x h h k b Wide.reach_root (Wide.off_start hh)).1.about

/-- Others who make a packet whenever they are on turn, in a memory with the two packets. -/
private def making : Acts := fun _ g => if 4 ≤ g.length then g ++ [newMsg .sample_SubPacket] else g

private theorem making_leaves : Leaves twoPackets (.ref 0) making := by
  intro k g q hq
  have h1 : ∀ a ∈ refs twoPackets mine (.ref 0), a < 4 := by decide +kernel
  have h2 := h1 q ((refs_iff_reach _ _ _ twoPackets_mine q).2 hq)
  unfold making
  split
  · rw [List.getElem?_append_left (by omega)]
  · rfl

/-- Encoding a packet while others make packets: they made some, and the bytes are the same. -/
example : Leaves twoPackets (.ref 0) making ∧
    (aencode World.initial making 9 (.ref 0) twoPackets 0 ⟨[], 0, 100⟩).2.2.1.data = [7, 0, 0, 0, 2, 0, 5, 0, 6, 0] ∧
    twoPackets.length < (aencode World.initial making 9 (.ref 0) twoPackets 0 ⟨[], 0, 100⟩).1.length :=
  ⟨making_leaves, by decide +kernel, by decide +kernel⟩

/-- **C116.** A thread decodes into a message.  Whatever other threads do meanwhile to objects that the message does not consist of and that the call has not made:
`decode` does exactly what it does when nobody does anything, on any memory; it reads the same bytes, throws the same exception if any, and leaves the same in the
objects of the message and in the new ones. -/
theorem C116_decode (w : World) (o : Acts) (n r : Nat) (h : Heap) (ho : Elsewhere h (.ref r) o) (k : Nat) (b : RBuf) :
    (adecode w.suppliers o n r h k b).2.2 = (hdecode w.suppliers n r h b).2 ∧
      ∀ q, Mine h (.ref r) q → (adecode w.suppliers o n r h k b).1[q]? = (hdecode w.suppliers n r h b).1[q]? := by
  have hC := confined_elsewhere (P := fun _ => True) ho (fun _ _ _ _ => trivial) (fun _ _ _ => trivial)
  obtain ⟨h1, h2⟩ := adecode_off hC w n r h h k b (mine_root r rfl) (off_start trivial)
  obtain ⟨k', e⟩ := adecode_quiet w.suppliers n r h k b
  rw [e] at h1 h2
  exact ⟨by rw [h2], fun q hq => h1.same q fun hn => hn hq⟩

/-- **C116.** So, if the message shows a value and no object occurs in it twice, then the bytes are read as into this value, the exception is the same, and the message
shows the decoded value; again no object occurs in it twice. -/
theorem C116_decode_value (w : World) (o : Acts) (n : Nat) (c : Cls) (fs : List Val) (r : Nat) (h : Heap) (ho : Elsewhere h (.ref r) o) (k : Nat) (b : RBuf)
    (hs : Unshared h (.obj c fs) (.ref r)) :
    (adecode w.suppliers o n r h k b).2.2 = (decode w n c fs b).2 ∧
      Unshared (adecode w.suppliers o n r h k b).1 (.obj c (decode w n c fs b).1) (.ref r) := by
  have hC := confined_elsewhere (P := fun _ => True) ho (fun _ _ _ _ => trivial) (fun _ _ _ => trivial)
  obtain ⟨h1, h2⟩ := adecode_off hC w n r h h k b (mine_root r rfl) (off_start trivial)
  obtain ⟨k', e⟩ := adecode_quiet w.suppliers n r h k b
  obtain ⟨g1, g2⟩ := C66_reuse w n c fs r h b hs
  rw [e] at h1 h2
  exact ⟨by rw [h2, ← g1], off_unshared h1 mine_root g2⟩

/-- **C116.** In particular into a new message: the others may do anything to all that was there before it. -/
theorem C116_decode_new (w : World) (o : Acts) (n : Nat) (c : Cls) (h : Heap)
    (ho : ∀ k g, (o k g).length = g.length ∧ ∀ q, h.length ≤ q → (o k g)[q]? = g[q]?) (k : Nat) (b : RBuf) :
    (adecode w.suppliers o n h.length (h ++ [newMsg c]) k b).2.2 = (decode w n c (freshFields c) b).2 ∧
      Unshared (adecode w.suppliers o n h.length (h ++ [newMsg c]) k b).1 (.obj c (decode w n c (freshFields c) b).1) (.ref h.length) := by
  obtain ⟨h1, h2⟩ := newMsg_spec c h
  refine C116_decode_value w o n c (freshFields c) h.length _ (fun k g => ⟨(ho k g).1, fun q hq => (ho k g).2 q ?_⟩) k b h1
  rcases hq with hq | hq
  · rw [← refs_iff_reach _ _ _ h1.1, h2] at hq
    simp at hq; omega
  · simp at hq; omega

/-- A packet is decoded, in two accesses per element, while other objects become all sorts of things. -/
example : Elsewhere twoPackets (.ref 0) (scribble 3) ∧ Unshared twoPackets mine (.ref 0) ∧
    (let r := adecode World.initial.suppliers (scribble 3) 9 0 twoPackets 0 ⟨[9, 0, 0, 0, 3, 0, 1, 0, 2, 0, 3, 0, 99], [], 0⟩
     r.2.2.2 = none ∧ r.2.2.1.rd = 12 ∧ r.1[3]? ≠ twoPackets[3]? ∧ Shows r.1 (.obj .sample_SubPacket [.num ⟨.i32, 9⟩, .list [.num ⟨.i16, 1⟩, .num ⟨.i16, 2⟩, .num ⟨.i16, 3⟩]]) (.ref 0)) ∧
    ∀ k g, (scribble 3 k g).length = g.length ∧ ∀ q, twoPackets.length ≤ q → (scribble 3 k g)[q]? = g[q]? := by
  refine ⟨scribble_elsewhere twoPackets_mine (by decide +kernel) (by decide), by decide +kernel, by decide +kernel, fun k g => ⟨List.length_set, fun q hq => List.getElem?_set_ne ?_⟩⟩
  rintro rfl
  exact absurd hq (by decide)

/-- **C116.** Decoding into a message of a class without lists, parts and bodies makes no objects either, so here the others may make as many as they like, too. -/
theorem C116_decode_making (w : World) (o : Acts) (n r : Nat) (h : Heap) (c : Cls) (ys : List HVal) (hm : h[r]? = some (.msg c ys)) (hc : ∀ f, Simple c f)
    (ho : Leaves h (.ref r) o) (k : Nat) (b : RBuf) :
    (adecode w.suppliers o n r h k b).2.2 = (hdecode w.suppliers n r h b).2 ∧
      ∀ q, Reach h (.ref r) q → (adecode w.suppliers o n r h k b).1[q]? = (hdecode w.suppliers n r h b).1[q]? := by
  have hC := Wide.confined_reach (P := fun _ => True) ho (fun _ _ _ _ => trivial) (fun _ _ _ => trivial)
  obtain ⟨h1, h2⟩ := Wide.adecode_off hC w.suppliers n hm hc k b (Wide.reach_root r rfl) (Wide.off_start trivial)
  obtain ⟨k', e⟩ := adecode_quiet w.suppliers n r h k b
  rw [e] at h1 h2
  exact ⟨by rw [h2], fun q hq => h1.same q fun hn => hn hq⟩

/-- **C116.** In terms of the value that the message shows. -/
theorem C116_decode_making_value (w : World) (o : Acts) (n : Nat) (c : Cls) (fs : List Val) (r : Nat) (h : Heap) (hc : ∀ f, Simple c f) (ho : Leaves h (.ref r) o)
    (k : Nat) (b : RBuf) (hs : Unshared h (.obj c fs) (.ref r)) :
    (adecode w.suppliers o n r h k b).2.2 = (decode w n c fs b).2 ∧
      Unshared (adecode w.suppliers o n r h k b).1 (.obj c (decode w n c fs b).1) (.ref r) := by
  have hC := Wide.confined_reach (P := fun _ => True) ho (fun _ _ _ _ => trivial) (fun _ _ _ => trivial)
  obtain ⟨q, ys, hq, hm, _⟩ := hs.1
  cases hq
  obtain ⟨h1, h2⟩ := Wide.adecode_off hC w.suppliers n hm hc k b (Wide.reach_root r rfl) (Wide.off_start trivial)
  obtain ⟨k', e⟩ := adecode_quiet w.suppliers n r h k b
  obtain ⟨g1, g2⟩ := C66_reuse w n c fs r h b hs
  rw [e] at h1 h2
  exact ⟨by rw [h2, ← g1], Wide.off_unshared h1 Wide.reach_root g2⟩

/-- **C116.** And such a `decode` does nothing to the objects that the others make. -/
theorem C116_decode_making_others (w : World) (o : Acts) (n r : Nat) (h : Heap) (c : Cls) (ys : List HVal) (hm : h[r]? = some (.msg c ys)) (hc : ∀ f, Simple c f)
    (ho : Leaves h (.ref r) o) (k : Nat) (b : RBuf) (P : Heap → Prop) (hP : AboutRest h (.ref r) P) (hs : ∀ k g, P g → P (o k g)) (hh : P h) :
    P (adecode w.suppliers o n r h k b).1 :=
  (Wide.adecode_off (Wide.confined_reach ho hP hs) w.suppliers n hm hc k b (Wide.reach_root r rfl) (Wide.off_start hh)).1.about

/-- 150 of the 182 classes are such. -/
example : (allCls.filter Wide.flatB).length = 150 ∧ allCls.length = 182 ∧ ∀ c, Wide.flatB c = true → ∀ f, Simple c f :=
  ⟨by decide +kernel, by decide +kernel, fun _ => Wide.simple_all⟩

/-- Others who make a packet whenever they are on turn, in a memory with one message. -/
private def makingMore : Acts := fun _ g => if 1 ≤ g.length then g ++ [newMsg .sample_SubPacket] else g

private def report : Val := .obj .szse_ReportFinished [.num ⟨.i32, 0⟩, .num ⟨.i64, 0⟩, .num ⟨.i16, 0⟩]

private theorem report_shown : Unshared [newMsg .szse_ReportFinished] report (.ref 0) := ⟨by decide +kernel, by decide +kernel⟩

/-- Decoding a report while others make packets: they made some, and the report has what the bytes say. -/
example : Leaves [newMsg .szse_ReportFinished] (.ref 0) makingMore ∧ (∀ f, Simple .szse_ReportFinished f) ∧ Unshared [newMsg .szse_ReportFinished] report (.ref 0) ∧
    (adecode World.initial.suppliers makingMore 9 0 [newMsg .szse_ReportFinished] 0 ⟨[0, 0, 0, 1, 0, 0, 0, 0, 0, 0, 0, 2, 0, 3], [], 0⟩).1 =
      [.msg .szse_ReportFinished [.num ⟨.i32, 1⟩, .num ⟨.i64, 2⟩, .num ⟨.i16, 3⟩], newMsg .sample_SubPacket, newMsg .sample_SubPacket, newMsg .sample_SubPacket] := by
  refine ⟨fun k g q hq => ?_, Wide.simple_all (by decide +kernel), report_shown, by decide +kernel⟩
  have h1 : ∀ a ∈ refs [newMsg .szse_ReportFinished] report (.ref 0), a < 1 := by decide +kernel
  have h2 := h1 q ((refs_iff_reach _ _ _ report_shown.1 q).2 hq)
  unfold makingMore
  split
  · rw [List.getElem?_append_left (by omega)]
  · rfl

/-- **C116.** So messages get from one busy program to another: a message is encoded in one memory and the bytes are decoded into a new message in another, while in
both the others do anything they like elsewhere; then the new message shows what the old one shows. -/
theorem C116_transfer (ws wr : World) (os or : Acts) (n m : Nat) (c : Cls) (fs : List Val) (x : HVal) (hs hr : Heap) (k k' : Nat) (b : WBuf)
    (hos : Elsewhere hs x os) (hfit : HListsFit hs) (hor : ∀ k g, (or k g).length = g.length ∧ ∀ q, hr.length ≤ q → (or k g)[q]? = g[q]?)
    (hx : Shows hs (.obj c fs) x) (hv : wellTyped (.obj c fs) = true) (hb : b.Valid) (hok : (aencode ws os n x hs k b).2.2.2 = none)
    (hcan : canonical wr (.obj c fs)) (hm : depth (.obj c fs) ≤ m) :
    ∃ bytes v, (aencode ws os n x hs k b).2.2.1.data = b.data ++ bytes ∧ Shows (aencode ws os n x hs k b).1 v x ∧
      ∀ before after spare, let d := adecode wr.suppliers or m hr.length (hr ++ [newMsg c]) k' ⟨before ++ bytes ++ after, spare, before.length⟩
        d.2.2 = (⟨before ++ bytes ++ after, spare, before.length + bytes.length⟩, none) ∧ Shows d.1 v (.ref hr.length) := by
  obtain ⟨h1, h2⟩ := C116_encode_value ws os n _ x hs hos hfit k b hx hv
  rw [h1] at hok
  obtain ⟨bytes, fs', g1, g2, g3⟩ := C23_round_trip ws wr n m c fs b hv hb hok hcan hm
  refine ⟨bytes, .obj c fs', by rw [h1, g1], by rw [← g2]; exact h2, fun before after spare => ?_⟩
  obtain ⟨k1, k2⟩ := C116_decode_new wr or m c hr hor k' ⟨before ++ bytes ++ after, spare, before.length⟩
  rw [g3] at k1 k2
  exact ⟨k1, k2.1⟩

/-- A packet with a list, from one such memory to another. -/
example : wellTyped mine = true ∧ canonical World.initial mine ∧ depth mine ≤ 2 ∧ (⟨[], 0, 100⟩ : WBuf).Valid ∧
    (aencode World.initial (scribble 3) 9 (.ref 0) twoPackets 0 ⟨[], 0, 100⟩).2.2.2 = none ∧
    Shows (adecode World.initial.suppliers (scribble 3) 2 4 (twoPackets ++ [newMsg .sample_SubPacket]) 0 ⟨[7, 0, 0, 0, 2, 0, 5, 0, 6, 0], [], 0⟩).1 mine (.ref 4) := by
  refine ⟨by decide +kernel, ?_, by decide +kernel, ⟨by decide, by decide⟩, by decide +kernel, by decide +kernel⟩
  show True ∧ (_ ∧ _ ∧ _) ∧ True
  exact ⟨trivial, ⟨by decide, by decide +kernel, trivial, trivial, trivial⟩, trivial⟩

/-- **C116.** The other way round, `encode` does nothing to objects that the message does not consist of: what the others keep true of them stays true. -/
theorem C116_encode_others (w : World) (o : Acts) (n : Nat) (x : HVal) (h : Heap) (ho : Elsewhere h x o) (k : Nat) (b : WBuf) (P : Heap → Prop)
    (hP : AboutOthers h x P) (hs : ∀ k g, P g → P (o k g)) (hh : P h) : P (aencode w o n x h k b).1 :=
  (aencode_off (confined_elsewhere ho hP hs) w n x h h k b mine_root (off_start hh)).1.about

/-- **C116.** The same for `decode`. -/
theorem C116_decode_others (w : World) (o : Acts) (n r : Nat) (h : Heap) (ho : Elsewhere h (.ref r) o) (k : Nat) (b : RBuf) (P : Heap → Prop)
    (hP : AboutOthers h (.ref r) P) (hs : ∀ k g, P g → P (o k g)) (hh : P h) : P (adecode w.suppliers o n r h k b).1 :=
  (adecode_off (confined_elsewhere ho hP hs) w n r h h k b (mine_root r rfl) (off_start hh)).1.about

private theorem about_two : AboutOthers twoPackets (.ref 0) fun g => g[2]? = twoPackets[2]? := by
  intro g g' hg h
  show g'[2]? = _
  rw [hg 2, h]
  rintro (h2 | h2)
  · exact absurd ((refs_iff_reach _ _ _ twoPackets_mine 2).2 h2) (by decide +kernel)
  · exact absurd h2 (by decide)

/-- The packet of somebody else, which nobody changes, stays. -/
example : (aencode World.initial (scribble 3) 9 (.ref 0) twoPackets 0 ⟨[], 0, 100⟩).1[2]? = twoPackets[2]? ∧
    (adecode World.initial.suppliers (scribble 3) 9 0 twoPackets 0 ⟨[9, 0, 0, 0, 3, 0, 1, 0, 2, 0, 3, 0], [], 0⟩).1[2]? = twoPackets[2]? := by
  have hs : ∀ k g, g[2]? = twoPackets[2]? → (scribble 3 k g)[2]? = twoPackets[2]? := fun k g h => by
    unfold scribble; rw [List.getElem?_set_ne (by decide), h]
  exact ⟨C116_encode_others _ _ _ _ _ (scribble_elsewhere twoPackets_mine (by decide +kernel) (by decide)) _ _ _ about_two hs rfl,
    C116_decode_others _ _ _ _ _ (scribble_elsewhere twoPackets_mine (by decide +kernel) (by decide)) _ _ _ about_two hs rfl⟩

/-! ### What does not hold -/

/-- Two packets (at 0 and 2) with one list (at 1). -/
private def oneList : Heap :=
  [.msg .sample_SubPacket [.num ⟨.i32, 7⟩, .ref 1], .arr [.num ⟨.i16, 5⟩], .msg .sample_SubPacket [.num ⟨.i32, 8⟩, .ref 1]]

/-- **C116 violated.** It is not enough that the others work on another message, if it has a list in common with mine: the packet at 0 is encoded while another thread
adds an element to the list of the packet at 2, and the bytes are different. -/
theorem C116_shared_violated : ∃ (h : Heap) (x y : Nat) (o : Acts) (b : WBuf), x ≠ y ∧ ¬ Reach h (.ref x) y ∧ ¬ Reach h (.ref y) x ∧
    (∀ k g, (o k g).length = g.length ∧ ∀ q, ¬ Reach h (.ref y) q → (o k g)[q]? = g[q]?) ∧
    (aencode World.initial o 9 (.ref x) h 0 b).2.2 ≠ (hencode World.initial 9 (.ref x) h b).2 := by
  have h0 : Shows oneList (.obj .sample_SubPacket [.num ⟨.i32, 7⟩, .list [.num ⟨.i16, 5⟩]]) (.ref 0) := by decide +kernel
  have h2 : Shows oneList (.obj .sample_SubPacket [.num ⟨.i32, 8⟩, .list [.num ⟨.i16, 5⟩]]) (.ref 2) := by decide +kernel
  refine ⟨oneList, 0, 2, fun k g => if k = 0 then g.set 1 (.arr [.num ⟨.i16, 5⟩, .num ⟨.i16, 6⟩]) else g, ⟨[], 0, 100⟩, by decide, fun h => ?_, fun h => ?_, fun k g => ?_, fun h => ?_⟩
  · exact absurd ((refs_iff_reach _ _ _ h0 2).2 h) (by decide +kernel)
  · exact absurd ((refs_iff_reach _ _ _ h2 0).2 h) (by decide +kernel)
  · dsimp only
    split
    · refine ⟨List.length_set, fun q hq => List.getElem?_set_ne ?_⟩
      rintro rfl
      exact hq ((refs_iff_reach _ _ _ h2 1).1 (by decide +kernel))
    · exact ⟨rfl, fun _ _ => rfl⟩
  · have := congrArg (fun r => r.1.data) h
    revert this
    decide +kernel

end FinProto
