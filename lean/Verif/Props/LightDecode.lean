import Verif.Proofs.LightDecode
import Verif.Props.HeapAfter
import Verif.Props.AnyDecode
/-
C117: numbers and texts set during a decode.
-/
namespace FinProto

/-- A packet with a list (at 1). -/
private def oldSub : Heap := [.msg .sample_SubPacket [.num ⟨.i32, 0⟩, .ref 1], .arr [.num ⟨.i16, 4⟩], .msg .sample_SubPacket [.num ⟨.i32, 8⟩, .null]]

private def oldSubValue : Val := .obj .sample_SubPacket [.num ⟨.i32, 0⟩, .list [.num ⟨.i16, 4⟩]]

private def twoShorts : RBuf := ⟨[7, 0, 0, 0, 2, 0, 5, 0, 6, 0, 99], [], 0⟩

/-- The field `fieldU32` of the packet, and no other field of it, is set before each access; and a list of another packet. -/
private def setU32 : Acts := setActs fun k => [⟨.sample_SubPacket, 0, 0, .num (.int (BitVec.ofNat 32 (100 + k)))⟩, ⟨.sample_SubPacket, 2, 1, .ref 1⟩]

private def atU32 (q f : Nat) (y : HVal) : Prop := q = 0 ∧ f = 0 ∧ ∃ k, y = .num (.int (BitVec.ofNat 32 (100 + k)))

private theorem oldSub_shows : Shows oldSub oldSubValue (.ref 0) := by decide +kernel

private theorem setU32_lightly : Lightly oldSub (.ref 0) atU32 setU32 := by
  refine lightly_setActs (fun q f a _ h => ?_) fun k s hs hm => ?_
  · obtain ⟨_, _, k, h⟩ := h
    cases h
  simp at hs
  rcases hs with rfl | rfl
  · exact ⟨⟨rfl, rfl, k, rfl⟩, show Simple .sample_SubPacket 0 from simple_of (by decide +kernel)⟩
  · rcases hm with hm | hm
    · exact absurd ((refs_iff_reach _ _ _ oldSub_shows 2).2 hm) (by decide +kernel)
    · exact absurd hm (by decide)

/-- **C117.** A thread decodes into a message while other threads set numbers and texts of it (or of its parts and elements, old and new), other than message types, and
do anything to other objects.  Then `decode` reads the same bytes and throws the same exception, if any, as when nobody does anything, on any memory; and it leaves the
same in all objects of the message and all new ones, except that fields that the others set may have the values `V` that they
set them to. -/
theorem C117_decode (w : World) (V : Nat → Nat → HVal → Prop) (o : Acts) (n r : Nat) (h : Heap) (ho : Lightly h (.ref r) V o) (k : Nat) (b : RBuf) :
    (adecode w.suppliers o n r h k b).2.2 = (hdecode w.suppliers n r h b).2 ∧
      ∀ q, Mine h (.ref r) q → SameBut (V q) (adecode w.suppliers o n r h k b).1[q]? (hdecode w.suppliers n r h b).1[q]? := by
  obtain ⟨h1, h2, _⟩ := adecode_near (tame_lightly ho) w n r h h k b (mine_root r rfl) near_start
  obtain ⟨k', e⟩ := adecode_quiet w.suppliers n r h k b
  rw [e] at h1 h2
  exact ⟨by rw [h2], fun q hq => h1.same q fun hn => hn hq⟩

/-- **C117.** So, if the message shows a value and no object occurs in it twice, then the bytes are read as into this value, the exception is the same, and the message
shows the decoded value, except for numbers and texts that the others set, which may have values they set: in particular all lists have the decoded lengths and elements, and all bodies the decoded classes. -/
theorem C117_decode_value (w : World) (V : Nat → Nat → HVal → Prop) (o : Acts) (n : Nat) (c : Cls) (fs : List Val) (r : Nat) (h : Heap) (ho : Lightly h (.ref r) V o) (k : Nat)
    (b : RBuf) (hs : Unshared h (.obj c fs) (.ref r)) :
    (adecode w.suppliers o n r h k b).2.2 = (decode w n c fs b).2 ∧
      ShowsBut (adecode w.suppliers o n r h k b).1 V (.obj c (decode w n c fs b).1) (.ref r) := by
  obtain ⟨h1, h2, _⟩ := adecode_near (tame_lightly ho) w n r h h k b (mine_root r rfl) near_start
  obtain ⟨k', e⟩ := adecode_quiet w.suppliers n r h k b
  obtain ⟨g1, g2⟩ := C66_reuse w n c fs r h b hs
  rw [e] at h1 h2
  exact ⟨by rw [h2, ← g1], near_showsBut h1 _ _ mine_root g2.1⟩

/-- **C117.** In particular a number or text field of the message that the others do not set has the decoded value afterwards, whatever other fields they set. -/
theorem C117_field (w : World) (V : Nat → Nat → HVal → Prop) (o : Acts) (n : Nat) (c : Cls) (fs : List Val) (r : Nat) (h : Heap) (ho : Lightly h (.ref r) V o) (k : Nat)
    (b : RBuf) (hs : Unshared h (.obj c fs) (.ref r)) (f : Nat) (hf : ∀ y, ¬ V r f y) :
    (∀ m, (decode w n c fs b).1[f]? = some (.num m) → (adecode w.suppliers o n r h k b).1.field r f = some (.num m)) ∧
      ∀ s, (decode w n c fs b).1[f]? = some (.str s) → (adecode w.suppliers o n r h k b).1.field r f = some (.str s) := by
  obtain ⟨_, h2⟩ := C117_decode_value w V o n c fs r h ho k b hs
  simp only [ShowsBut] at h2
  obtain ⟨r', ys, e, h3, h4⟩ := h2
  cases e
  have hf' : ∀ y, ¬ V r (0 + f) y := by simpa using hf
  refine ⟨fun m hm => ?_, fun s hm => ?_⟩
  · obtain ⟨z, e1, e2⟩ := showsBut_fields_get h4 hm hf'
    simp only [ShowsBut] at e2
    unfold Heap.field
    rw [h3]
    exact e2 ▸ e1
  · obtain ⟨z, e1, e2⟩ := showsBut_fields_get h4 hm hf'
    simp only [ShowsBut] at e2
    unfold Heap.field
    rw [h3]
    exact e2 ▸ e1

/-- **C117.** If they set none, the message shows the decoded value. -/
theorem C117_nothing_set (w : World) (o : Acts) (n : Nat) (c : Cls) (fs : List Val) (r : Nat) (h : Heap) (ho : Lightly h (.ref r) (fun _ _ _ => False) o) (k : Nat)
    (b : RBuf) (hs : Unshared h (.obj c fs) (.ref r)) :
    Shows (adecode w.suppliers o n r h k b).1 (.obj c (decode w n c fs b).1) (.ref r) := by
  obtain ⟨h1, _, _⟩ := adecode_near (tame_lightly ho) w n r h h k b (mine_root r rfl) near_start
  obtain ⟨k', e⟩ := adecode_quiet w.suppliers n r h k b
  obtain ⟨_, g2⟩ := C66_reuse w n c fs r h b hs
  rw [e] at h1
  exact showsBut_nothing _ _ (near_showsBut h1 _ _ mine_root g2.1)

/-- A packet is decoded while its number is set again and again: the list is the decoded one. -/
example : Lightly oldSub (.ref 0) atU32 setU32 ∧ Unshared oldSub oldSubValue (.ref 0) ∧ (∀ y, ¬ atU32 0 1 y) ∧
    (let r := adecode World.initial.suppliers setU32 9 0 oldSub 0 twoShorts
     r.2.2.2 = none ∧ r.2.2.1.rd = 10 ∧ r.1[0]? = some (.msg .sample_SubPacket [.num ⟨.i32, 105⟩, .ref 3]) ∧ r.1[3]? = some (.arr [.num ⟨.i16, 5⟩, .num ⟨.i16, 6⟩]) ∧
       r.1[2]? = some (.msg .sample_SubPacket [.num ⟨.i32, 8⟩, .ref 1])) :=
  ⟨setU32_lightly, by decide +kernel, fun _ h => absurd h.2.1 (by decide), by decide +kernel⟩

/-- **C117.** Calls of setters are of this kind: those on the message, its parts and elements set numbers and texts that are no message types; those on other messages set
anything. -/
theorem C117_setters (h : Heap) (x : HVal) (l : Nat → List SetCall) (hl : ∀ k, ∀ s ∈ l k, Mine h x s.r → ¬ Steers s.c s.f ∧ ¬ Held s.c s.f ∧ ∀ a, s.y ≠ .ref a) :
    Lightly h x (fun q f y => ∃ k, ∃ s ∈ l k, s.r = q ∧ s.f = f ∧ s.y = y) (setActs l) := by
  refine lightly_setActs ?_ fun k s hs hm => ⟨⟨k, s, hs, rfl, rfl, rfl⟩, (hl k s hs hm).1, (hl k s hs hm).2.1⟩
  rintro q f a hq ⟨k, s, hs, rfl, rfl, e⟩
  exact (hl k s hs hq).2.2 a e

/-- The number of a packet and the sequence number of a frame may be set; the list of a packet, and the message type and the body of a frame may not. -/
example : Simple .sample_SubPacket 0 ∧ ¬ Simple .sample_SubPacket 1 ∧ Simple .sse_SseBinary 1 ∧ ¬ Simple .sse_SseBinary 0 ∧ ¬ Simple .sse_SseBinary 3 :=
  ⟨simple_of (by decide +kernel), fun h => h.2 (.inl ⟨_, rfl⟩), simple_of (by decide +kernel),
    fun h => h.1 ⟨3, _, 0, rfl, .inr rfl⟩, fun h => h.1 ⟨3, _, 0, rfl, .inl rfl⟩⟩

/-! ### What does not hold -/

/-- **C117 violated.** The fields that the others set need not have the decoded values, even if nothing else is done: `decode` sets each field as it is read, not all at
the end. -/
theorem C117_set_violated : ∃ (h : Heap) (r : Nat) (c : Cls) (fs : List Val) (o : Acts) (b : RBuf), Unshared h (.obj c fs) (.ref r) ∧
    Lightly h (.ref r) (fun q f y => q = r ∧ f = 0 ∧ ∃ k, y = .num (.int (BitVec.ofNat 32 (100 + k)))) o ∧ (adecode World.initial.suppliers o 9 r h 0 b).2.2.2 = none ∧
    ¬ Shows (adecode World.initial.suppliers o 9 r h 0 b).1 (.obj c (decode World.initial 9 c fs b).1) (.ref r) :=
  ⟨oldSub, 0, .sample_SubPacket, [.num ⟨.i32, 0⟩, .list [.num ⟨.i16, 4⟩]], setU32, twoShorts, by decide +kernel, setU32_lightly, by decide +kernel, by decide +kernel⟩

end FinProto
