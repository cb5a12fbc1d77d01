import Verif.Props.DecodeErrors
import Verif.Proofs.HalfDecoded
import Verif.Props.AtOnce
import Verif.Props.Reuse
/-
C95: `decode` calls that are cut short at any moment, and the calls after them.

`Halt` (`Spec/HalfDecoded.lean`): threads decode and encode on one heap, make the steps of a schedule, and then stop for good.
-/
namespace FinProto

/-- **C95.** A thread decodes into a message and stops at any moment, other threads work on other messages.  The message is partly filled then: its fields hold
what the complete call would leave in them, up to some field; this one may be in between (a list with its first elements, a message which is itself partly
filled); all fields behind it are as they were.  Fields have their declared types, nested messages and lists included, and no object occurs twice. -/
theorem C95_any_moment (w : World) (hw : TypedSuppliers w) (e : Halt) (h : Heap) (hap : Apart h e.jobs) (i r : Nat) (b : RBuf) (hj : e.jobs i = .dec r b)
    (c : Cls) (fs : List Val) (ht : wellTyped (.obj c fs) = true) (ho : Unshared h (.obj c fs) (.ref r)) :
    ∃ p, PartlyFilled w fs p (decode w e.depth c fs b).1 ∧ wellTyped (.obj c p) = true ∧ Unshared (e.final w h).h (.obj c p) (.ref r) := by
  obtain ⟨p, h1, h2⟩ := halt_moment w e h hap i r b hj c fs ho
  simp only [wellTyped, hasType, Bool.true_and] at ht
  refine ⟨p, moment_partly w hw e.depth c fs b p ht h1, ?_, h2⟩
  simp only [wellTyped, hasType, Bool.true_and]
  exact moment_typed w hw e.depth c fs b p ht h1

/-- **C95.** At any moment the bytes in the buffer of a thread that decodes are as they were, and its reader index is not before the place where it
started.  (So an application that has noted this place can go back to it.)  This needs no assumption on the messages, the suppliers or the other threads. -/
theorem C95_buffer (w : World) (sup : Suppliers) (n : Nat) (h : Heap) (jobs : Nat → Job) (sched : List Nat) (i r : Nat) (b : RBuf) (hj : jobs i = .dec r b) :
    ∃ t, ((WSys.start n h jobs).run w sup n sched).thr i = .dec t ∧ t.buf.data = b.data ∧ t.buf.spare = b.spare ∧ b.rd ≤ t.buf.rd := by
  obtain ⟨t, h1, h2⟩ := readOn_run w sup n sched (WSys.start n h jobs) i (DThread.enter n r h ⟨[], b, none⟩) (by simp [WSys.start, hj, Job.start])
  rw [denter_buf] at h2
  exact ⟨t, h1, h2⟩

/-- **C95.** After any number of such events, each with any part of a message's bytes received so far: decode the message again, now with all its bytes
there.  This has the outcome of a `decode` that had never been disturbed, and leaves the same content. -/
theorem C95_again (w : World) (hw : TypedSuppliers w) (es : List Halt) (n : Nat) (h : Heap) (c : Cls) (fs : List Val) (r : Nat)
    (before message after spare : List Byte)
    (ht : wellTyped (.obj c fs) = true) (ho : Unshared h (.obj c fs) (.ref r)) (hes : Receiving w r before message es h) :
    let full : RBuf := ⟨before ++ message ++ after, spare, before.length⟩
    let undisturbed := decode w n c fs full
    let o := hdecode w.suppliers n r (afterHalts w es h) full
    undisturbed.2.2 = none → o.2 = undisturbed.2 ∧ Unshared o.1 (.obj c undisturbed.1) (.ref r) := by
  intro full undisturbed o hok
  simp only [wellTyped, hasType, Bool.true_and] at ht
  suffices H : ∀ (es : List Halt) (h : Heap) (p : List Val), fieldsHaveType (javaTypes c) p = true → Unshared h (.obj c p) (.ref r) →
      Receiving w r before message es h → decode w n c p full = undisturbed →
      ∃ p', Unshared (afterHalts w es h) (.obj c p') (.ref r) ∧ decode w n c p' full = undisturbed by
    obtain ⟨p, h1, h2⟩ := H es h fs ht ho hes rfl
    obtain ⟨h3, h4⟩ := C66_reuse w n c p r (afterHalts w es h) full h1
    rw [h2] at h3 h4
    exact ⟨h3, h4⟩
  intro es
  induction es with
  | nil => intro h p _ h1 _ h2; exact ⟨p, h1, h2⟩
  | cons e es ih =>
    intro h p htp hop hes hp
    obtain ⟨hap, hno | ⟨i, part, sp, hj, hpre⟩, hrest⟩ := hes
    · exact ih _ p htp (halt_rest w e h hap _ _ hno hop) hrest hp
    · obtain ⟨p', h1, h2⟩ := halt_moment w e h hap i r _ hj c p hop
      refine ih _ p' (moment_typed w hw e.depth c p _ p' htp h1) h2 hrest ?_
      rw [moment_again w hw n e.depth c p ⟨before ++ part, sp, before.length⟩ full p' htp ⟨?_, .inl rfl⟩ h1 (by rw [hp]; exact hok), hp]
      obtain ⟨rest, hr⟩ := hpre
      exact ⟨rest ++ after, by subst hr; simp only [List.append_assoc, full]⟩

/-- **C95.** After any number of such events with any bytes: whatever is decoded then is read as by a new object - the same bytes are consumed, and the same
exception is thrown - and if there is no exception, the fields hold what they would hold in a new object, except that strings and lists which would be null
there may keep what earlier calls have left (`p`). -/
theorem C95_other_bytes (w : World) (hw : TypedSuppliers w) (es : List Halt) (n : Nat) (h : Heap) (c : Cls) (fs : List Val) (r : Nat) (b : RBuf)
    (ht : wellTyped (.obj c fs) = true) (ho : Unshared h (.obj c fs) (.ref r)) (hes : Disturbing w r es h) :
    let o := hdecode w.suppliers n r (afterHalts w es h) b
    let new := decode w n c (freshFields c) b
    o.2 = new.2 ∧ (new.2.2 = none → ∃ p, wellTyped (.obj c p) = true ∧ Unshared (afterHalts w es h) (.obj c p) (.ref r)
      ∧ Unshared o.1 (.obj c (overlayFields (wire c) p new.1)) (.ref r)) := by
  intro o new
  have H : ∃ p, wellTyped (.obj c p) = true ∧ Unshared (afterHalts w es h) (.obj c p) (.ref r) := by
    clear o
    induction es generalizing h fs with
    | nil => exact ⟨fs, ht, ho⟩
    | cons e es ih =>
      obtain ⟨hap, hno | ⟨i, b', hj⟩, hrest⟩ := hes
      · exact ih _ fs ht (halt_rest w e h hap _ _ hno ho) hrest
      · obtain ⟨p', -, h1, h2⟩ := C95_any_moment w hw e h hap i r _ hj c fs ht ho
        exact ih _ p' h1 h2 hrest
  obtain ⟨p, h1, h2⟩ := H
  obtain ⟨h3, h4⟩ := C66_reuse w n c p r (afterHalts w es h) b h2
  obtain ⟨h5, h6⟩ := C29_reused w n c p b h1
  refine ⟨h3.trans h5, fun hok => ⟨p, h1, h2, ?_⟩⟩
  rw [← h6 (by rw [h5]; exact hok)]
  exact h4

/-! ### Cases -/

/-- Receiver 0 gets the first bytes of its message, up to the middle of its list of two sub-packets, and stops in the middle of its work; receiver 1 goes on. -/
def halfHalt : Halt :=
  ⟨3, receiver [] [(.sample_NestedPacket, ⟨[1, 0, 0, 0, 0, 0, 2, 0, 2, 0, 0, 0, 1, 0, 8, 0, 4, 0], [], 0⟩),
    (.sample_NestedPacket, ⟨[4, 0, 0, 0, 0, 0, 1, 0, 5, 0, 0, 0, 1, 0, 9, 0, 6, 0, 0, 0, 0, 0], [], 0⟩)],
    (List.replicate 18 [0, 1]).flatten⟩

def halfHeap : Heap := [newMsg .sample_NestedPacket, newMsg .sample_NestedPacket]

theorem halfHalt_receiving : Receiving World.initial 0 [] [1, 0, 0, 0, 0, 0, 2, 0, 2, 0, 0, 0, 1, 0, 8, 0, 4, 0, 0, 0, 0, 0, 3, 0, 0, 0, 0, 0] [halfHalt] halfHeap :=
  ⟨receivers_apart [] [(.sample_NestedPacket, _), (.sample_NestedPacket, _)],
    .inr ⟨0, [1, 0, 0, 0, 0, 0, 2, 0, 2, 0, 0, 0, 1, 0, 8, 0, 4, 0], [], rfl, ⟨[0, 0, 0, 0, 3, 0, 0, 0, 0, 0], rfl⟩⟩, trivial⟩

/-- The message is half decoded: an element of its list is in the making. -/
example : (afterHalts World.initial [halfHalt] halfHeap).take 1 = [.msg .sample_NestedPacket [.ref 2, .ref 4, .null]] := by decide +kernel

example : wellTyped (.obj .sample_NestedPacket (freshFields .sample_NestedPacket)) = true
    ∧ Unshared halfHeap (.obj .sample_NestedPacket (freshFields .sample_NestedPacket)) (.ref 0)
    ∧ (decode World.initial 3 .sample_NestedPacket (freshFields .sample_NestedPacket)
        ⟨[1, 0, 0, 0, 0, 0, 2, 0, 2, 0, 0, 0, 1, 0, 8, 0, 4, 0, 0, 0, 0, 0, 3, 0, 0, 0, 0, 0], [], 0⟩).2.2 = none :=
  ⟨by decide +kernel, (newMsg_at .sample_NestedPacket halfHeap 0 rfl).1, by decide +kernel⟩

/-- A message with an empty list of sub-packets. -/
def noSubs : RBuf := ⟨[7, 0, 0, 0, 0, 0, 0, 0, 3, 0, 0, 0, 0, 0], [], 0⟩

/-- **C95, violated for another message.** What a stopped `decode` has left can show up in the next message: the application gives up on a message in the
middle of its list, decodes the next message, which has no list, into the same object, and this call returns normally with a list in the message: the one
of the message given up. -/
theorem C95_left_over_violated :
    let o := hdecode World.initial.suppliers 3 0 (afterHalts World.initial [halfHalt] halfHeap) noSubs
    o.2 = (decode World.initial 3 .sample_NestedPacket (freshFields .sample_NestedPacket) noSubs).2 ∧ o.2.2 = none
      ∧ ((decode World.initial 3 .sample_NestedPacket (freshFields .sample_NestedPacket) noSubs).1)[1]? = some .null
      ∧ ∃ a q xs, o.1.field 0 1 = some (.ref a) ∧ o.1[a]? = some (.arr [.ref q]) ∧ o.1[q]? = some (.msg .sample_SubPacket (.num ⟨.i32, 2⟩ :: xs)) := by
  refine ⟨by decide +kernel, by decide +kernel, by rfl, 4, 6, _, by decide +kernel, by decide +kernel, by rfl⟩

/-- The theorems on this event. -/
example := C95_any_moment World.initial C28_default_world.1 halfHalt halfHeap halfHalt_receiving.1 0 0 _ rfl .sample_NestedPacket
  (freshFields .sample_NestedPacket) (by decide +kernel) (newMsg_at .sample_NestedPacket halfHeap 0 rfl).1
example := C95_buffer World.initial World.initial.suppliers 3 halfHeap halfHalt.jobs halfHalt.sched 0 0 _ rfl
example := C95_again World.initial C28_default_world.1 [halfHalt] 3 halfHeap .sample_NestedPacket (freshFields .sample_NestedPacket) 0 [] _ [7] []
  (by decide +kernel) (newMsg_at .sample_NestedPacket halfHeap 0 rfl).1 halfHalt_receiving
example := C95_other_bytes World.initial C28_default_world.1 [halfHalt] 3 halfHeap .sample_NestedPacket (freshFields .sample_NestedPacket) 0 noSubs
  (by decide +kernel) (newMsg_at .sample_NestedPacket halfHeap 0 rfl).1 ⟨halfHalt_receiving.1, .inr ⟨0, _, rfl⟩, trivial⟩

end FinProto
