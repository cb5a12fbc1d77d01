import Verif.Props.HalfDecoded
import Verif.Proofs.Observers
/-
C109: getters called while another thread decodes into the message.

`Halt` (`Spec/HalfDecoded.lean`): threads decode and encode on one heap and make the steps of a schedule; `getter` (`Spec/Observers.lean`): what an observer
reads between two of these steps.
-/
namespace FinProto

/-- **C109.** A thread decodes into a message, other threads work on other messages.  There is a front that goes forward through the fields of the message in
the order of the layout: at each moment the fields before the front hold what the complete call will leave in them, the fields behind the front, and the
front itself if it is a number or a text, hold what they held at the start.  A list or a message at the front may be in between (`PartlyFilled`). -/
theorem C109_moments (w : World) (hw : TypedSuppliers w) (e : Halt) (h : Heap) (hap : Apart h e.jobs) (i r : Nat) (b : RBuf) (hj : e.jobs i = .dec r b)
    (c : Cls) (fs : List Val) (ht : wellTyped (.obj c fs) = true) (ho : Unshared h (.obj c fs) (.ref r)) :
    ∃ (front : Nat → Nat) (seen : Nat → List Val), (∀ j j', j ≤ j' → front j ≤ front j') ∧ ∀ j,
      Unshared (e.heapAt w h j) (.obj c (seen j)) (.ref r)
      ∧ wellTyped (.obj c (seen j)) = true
      ∧ PartlyFilled w fs (seen j) (decode w e.depth c fs b).1
      ∧ (∀ f, f < front j → (seen j)[f]? = (decode w e.depth c fs b).1[f]?)
      ∧ ∀ f, front j < f ∨ front j = f ∧ Plain c f → (seen j)[f]? = fs[f]? := by
  cases hd : e.depth with
  | zero =>
    refine ⟨fun _ => 0, fun _ => fs, fun _ _ _ => Nat.le_refl _, fun j => ⟨?_, ht, .untouched, fun f hf => absurd hf (Nat.not_lt_zero f), fun _ _ => rfl⟩⟩
    obtain ⟨p, h1, h2⟩ := halt_moment w ⟨e.depth, e.jobs, e.sched.take j⟩ h hap i r b hj c fs ho
    rw [hd] at h1
    obtain rfl : p = fs := h1
    exact h2
  | succ m =>
    obtain ⟨idx, hm, hk⟩ := halt_tracked w e h hap i r m hd b hj c fs ho
    refine ⟨fun j => frontier c (idx j), fun j => Classical.choose (hk j), fun j j' hl => frontier_mono c _ _ (hm j j' hl), fun j => ?_⟩
    obtain ⟨h1, h2⟩ := Classical.choose_spec (hk j)
    simp only [wellTyped, hasType, Bool.true_and] at ht
    have h3 := moment_typed w hw (m + 1) c fs b _ ht (AtStmt.moment _ _ _ _ h1)
    refine ⟨h2, by simp only [wellTyped, hasType, Bool.true_and]; exact h3, moment_partly w hw (m + 1) c fs b _ ht (AtStmt.moment _ _ _ _ h1), fun f => (at_frontier h1 f).1, fun f => (at_frontier h1 f).2⟩

/-- **C109.** An observer whose getter of a number or text has once returned something else than at the start: from then on, the getters of this field and of
all fields before it return what the complete call will leave there, whatever the threads do. -/
theorem C109_order (w : World) (hw : TypedSuppliers w) (e : Halt) (h : Heap) (hap : Apart h e.jobs) (i r : Nat) (b : RBuf) (hj : e.jobs i = .dec r b)
    (c : Cls) (fs : List Val) (ht : wellTyped (.obj c fs) = true) (ho : Unshared h (.obj c fs) (.ref r))
    (j j' f g : Nat) (hjj : j ≤ j') (hfg : f ≤ g) (hg : Plain c g) (hnew : e.getter w h r g j ≠ h.field r g) :
    ∃ v x, (decode w e.depth c fs b).1[f]? = some v ∧ e.getter w h r f j' = some x ∧ Unshared (e.heapAt w h j') v x := by
  obtain ⟨front, seen, hm, hs⟩ := C109_moments w hw e h hap i r b hj c fs ht ho
  simp only [wellTyped, hasType, Bool.true_and] at ht
  obtain ⟨h1, -, h2, -, h4⟩ := hs j
  have hlt : g < front j := by
    refine Decidable.byContradiction fun hn => hnew ?_
    refine getter_same ht hg ho h1 (partlyFilled_length h2) (h4 g ?_)
    rcases Nat.lt_or_eq_of_le (Nat.le_of_not_lt hn) with h | h
    · exact .inl h
    · exact .inr ⟨h, hg⟩
  have hle := hm j j' hjj
  obtain ⟨g1, -, g2, g3, -⟩ := hs j'
  have hlen : f < (seen j').length := by
    have hw' : g < (wire c).length := by
      refine Decidable.byContradiction fun hn => ?_
      unfold Plain at hg
      rw [List.getElem?_eq_none (by omega)] at hg
      exact hg
    rw [type_table] at ht
    obtain ⟨v, hv, -⟩ := fieldsHaveType_at _ fs g _ ht (by rw [List.getElem?_map, List.getElem?_eq_getElem hw']; rfl)
    have := (List.getElem?_eq_some_iff.1 hv).1
    rw [partlyFilled_length g2]
    omega
  have hv := List.getElem?_eq_getElem hlen
  obtain ⟨x, k1, k2, -⟩ := unshared_field _ c _ r f _ g1 hv
  exact ⟨_, x, (g3 f (by omega)).symm.trans hv, k1, k2⟩

/-- **C109.** The getter of a number or a text changes its result at most once. -/
theorem C109_once (w : World) (hw : TypedSuppliers w) (e : Halt) (h : Heap) (hap : Apart h e.jobs) (i r : Nat) (b : RBuf) (hj : e.jobs i = .dec r b)
    (c : Cls) (fs : List Val) (ht : wellTyped (.obj c fs) = true) (ho : Unshared h (.obj c fs) (.ref r))
    (j j' f : Nat) (hjj : j ≤ j') (hf : Plain c f) (hnew : e.getter w h r f j ≠ h.field r f) : e.getter w h r f j' = e.getter w h r f j := by
  obtain ⟨front, seen, hm, hs⟩ := C109_moments w hw e h hap i r b hj c fs ht ho
  simp only [wellTyped, hasType, Bool.true_and] at ht
  obtain ⟨h1, hty, h2, h3, h4⟩ := hs j
  have hlt : f < front j := by
    refine Decidable.byContradiction fun hn => hnew ?_
    refine getter_same ht hf ho h1 (partlyFilled_length h2) (h4 f ?_)
    rcases Nat.lt_or_eq_of_le (Nat.le_of_not_lt hn) with h | h
    · exact .inl h
    · exact .inr ⟨h, hf⟩
  have hle := hm j j' hjj
  obtain ⟨g1, -, g2, g3, -⟩ := hs j'
  simp only [wellTyped, hasType, Bool.true_and] at hty
  refine getter_same hty hf h1 g1 ?_ ?_
  · rw [partlyFilled_length g2, partlyFilled_length h2]
  · rw [h3 f hlt, g3 f (by omega)]

/-! ### Cases -/

/-- A heartbeat frame. -/
def beatBytes : List Byte := [0, 0, 0, 33, 0, 0, 0, 0, 0, 0, 0, 5, 0, 0, 0, 0, 0, 0, 0, 38]

/-- Two threads decode frames, in turns. -/
def twoBeats : Halt := ⟨3, receiver [] [(.sse_SseBinary, ⟨beatBytes, [], 0⟩), (.sse_SseBinary, ⟨beatBytes, [], 0⟩)], (List.replicate 10 [0, 1]).flatten⟩

def twoNewFrames : Heap := [newMsg .sse_SseBinary, newMsg .sse_SseBinary]

theorem twoBeats_apart : Apart twoNewFrames twoBeats.jobs := receivers_apart [] [(.sse_SseBinary, _), (.sse_SseBinary, _)]

/-- An observer sees the checksum field change: the frame is complete, its body included. -/
example : twoBeats.getter World.initial twoNewFrames 0 4 20 ≠ twoNewFrames.field 0 4 ∧ Plain .sse_SseBinary 4 := ⟨by decide +kernel, trivial⟩

example : ∃ v x, (decode World.initial 3 .sse_SseBinary (freshFields .sse_SseBinary) ⟨beatBytes, [], 0⟩).1[3]? = some v
    ∧ twoBeats.getter World.initial twoNewFrames 0 3 20 = some x ∧ Unshared (twoBeats.heapAt World.initial twoNewFrames 20) v x :=
  C109_order World.initial C28_default_world.1 twoBeats twoNewFrames twoBeats_apart 0 0 _ rfl .sse_SseBinary (freshFields .sse_SseBinary) (by decide +kernel)
    (newMsg_at .sse_SseBinary twoNewFrames 0 rfl).1 20 20 3 4 (Nat.le_refl _) (by decide) trivial (by decide +kernel)

/-- The type has been read, the sequence number has not. -/
example : twoBeats.getter World.initial twoNewFrames 0 0 20 = twoBeats.getter World.initial twoNewFrames 0 0 1 :=
  C109_once World.initial C28_default_world.1 twoBeats twoNewFrames twoBeats_apart 0 0 _ rfl .sse_SseBinary (freshFields .sse_SseBinary) (by decide +kernel)
    (newMsg_at .sse_SseBinary twoNewFrames 0 rfl).1 1 20 0 (by decide) trivial (by decide +kernel)

example := C109_moments World.initial C28_default_world.1 twoBeats twoNewFrames twoBeats_apart 0 0 _ rfl .sse_SseBinary (freshFields .sse_SseBinary) (by decide +kernel)
    (newMsg_at .sse_SseBinary twoNewFrames 0 rfl).1

/-- **C109, violated for messages as a whole.** An observer can see a frame that was never sent: the type of the new one, the sequence number of the old one;
the call that is being made returns normally and leaves another sequence number. -/
theorem C109_torn_violated :
    twoBeats.getter World.initial twoNewFrames 0 0 2 = some (.num ⟨.i32, 33⟩) ∧ twoBeats.getter World.initial twoNewFrames 0 1 2 = some (.num ⟨.i64, 0⟩)
    ∧ twoBeats.getter World.initial twoNewFrames 0 0 20 = some (.num ⟨.i32, 33⟩) ∧ twoBeats.getter World.initial twoNewFrames 0 1 20 = some (.num ⟨.i64, 5⟩)
    ∧ (decode World.initial 3 .sse_SseBinary (freshFields .sse_SseBinary) ⟨beatBytes, [], 0⟩).2.2 = none := by
  refine ⟨by decide +kernel, by decide +kernel, by decide +kernel, by decide +kernel, by decide +kernel⟩

/-- Two threads decode messages with lists of two sub-packets, in turns. -/
def twoNests : Halt :=
  ⟨3, receiver [] [(.sample_NestedPacket, ⟨[1, 0, 0, 0, 0, 0, 2, 0, 2, 0, 0, 0, 1, 0, 8, 0, 4, 0, 0, 0, 0, 0, 3, 0, 0, 0, 0, 0], [], 0⟩),
    (.sample_NestedPacket, ⟨[4, 0, 0, 0, 0, 0, 1, 0, 5, 0, 0, 0, 1, 0, 9, 0, 6, 0, 0, 0, 0, 0], [], 0⟩)],
    (List.replicate 40 [0, 1]).flatten⟩

/-- **C109, violated for lists.** An observer who calls the getter of a list twice can find an element more behind the same reference the second time: the
list is visible before its elements are there. -/
theorem C109_list_violated : ∃ a x y, twoNests.getter World.initial halfHeap 0 1 30 = some (.ref a) ∧ twoNests.getter World.initial halfHeap 0 1 80 = some (.ref a)
    ∧ (twoNests.heapAt World.initial halfHeap 30)[a]? = some (.arr [x]) ∧ (twoNests.heapAt World.initial halfHeap 80)[a]? = some (.arr [x, y]) := by
  refine ⟨4, .ref 6, .ref 10, by decide +kernel, by decide +kernel, by decide +kernel, by decide +kernel⟩

end FinProto
