import Verif.Proofs.Kept
import Verif.Props.Heap
import Verif.Props.HeapObjects
import Verif.Props.History
import Verif.Props.DecodeErrors
/-
C97: what a message object that is decoded into again leaves alone; in particular the bodies that were taken from a frame.

`Shows h v x` (`Spec/Heap.lean`): following all references from `x` gives the tree `v`.  `Inner`, `MayChange`, `decodeAll`: `Spec/Kept.lean`.
-/
namespace FinProto

/-- **C97.** Whatever objects share (even cycles), whatever the bytes, the suppliers and the outcome: `decode` writes only to new objects, to the
message it is called on, to its nested messages, and to objects that suppliers hand out again. -/
theorem C97_decode_touches (sup : Suppliers) (n r : Nat) (h : Heap) (b : RBuf) (q : Nat) (hq : q < h.length) (hm : ¬ MayChange sup h r q) :
    (hdecode sup n r h b).1[q]? = h[q]? := by
  have hm' : ¬ (h.length ≤ q ∨ MayChange sup h r q) := by
    rintro (g | g)
    · omega
    · exact hm g
  refine (hdecode_mv (P := fun q => h.length ≤ q ∨ MayChange sup h r q) (L := h.length) sup (fun q hq => .inl hq)
    (fun fac k a hs => .inr (.inr ⟨fac, k, a, hs, .here a⟩)) n r h b (.inr (.inl (.here r))) (Nat.le_refl _) ?_).keep q hm'
  intro p hp c d ys f a h1 h2 h3
  rcases hp with g | g | ⟨fac, k, a', g1, g2⟩
  · rw [List.getElem?_eq_none g] at h1; cases h1
  · exact .inr (.inl (g.snoc h1 h2 h3))
  · exact .inr (.inr ⟨fac, k, a', g1, g2.snoc h1 h2 h3⟩)

/-- **C97.** So a message, or any other value, of which none of these is a part shows the same values afterwards. -/
theorem C97_others (sup : Suppliers) (n r : Nat) (h : Heap) (b : RBuf) (v : Val) (x : HVal) (hs : Shows h v x)
    (hx : ∀ q, Reach h x q → ¬ MayChange sup h r q) : Shows (hdecode sup n r h b).1 v x :=
  (shows_frame h _ v x hs fun q hq =>
    C97_decode_touches sup n r h b q (refs_lt h v x hs q hq) (hx q ((refs_iff_reach h v x hs q).mp hq))).1

/-- Suppliers that build a new object each time hand out nothing again. -/
theorem mayChange_initial (w : World) (h : Heap) (r q : Nat) (hm : MayChange w.suppliers h r q) : Inner h r q := by
  rcases hm with g | ⟨fac, k, a, g, -⟩
  · exact g
  · simp only [World.suppliers, Option.map_eq_some_iff] at g
    obtain ⟨v, -, g⟩ := g
    cases g

/-- Classes with a body (a field of type `BinaryCodec`) have no nested messages. -/
theorem body_table (c : Cls) : ((javaTypes c).all (fun t => !t.isCodec) || (javaTypes c).all fun t => match t with | .obj _ => false | _ => true) = true := by
  cases c <;> rfl

/-- Of a frame, only the frame itself is written to. -/
theorem frame_inner (h : Heap) (r : Nat) (c : Cls) (ys : List HVal) (hr : h[r]? = some (.msg c ys)) (f : Nat)
    (hf : (javaTypes c)[f]? = some .codec) (q : Nat) (hq : Inner h r q) : q = r := by
  cases hq with
  | here => rfl
  | field _ _ c' d ys' g a h1 h2 h3 h4 =>
    rw [hr] at h1
    cases h1
    have ht := body_table c
    rw [Bool.or_eq_true] at ht
    rcases ht with ht | ht
    · have := List.all_eq_true.mp ht _ (List.mem_of_getElem? hf)
      simp [FTy.isCodec] at this
    · have := List.all_eq_true.mp ht _ (List.mem_of_getElem? h2)
      simp at this

/-- The body of a frame does not contain the frame. -/
theorem body_apart {h : Heap} {c : Cls} {fs : List Val} {r f : Nat} {y : HVal} (hs : Shows h (.obj c fs) (.ref r)) (hy : h.field r f = some y) :
    ¬ Reach h y r := by
  intro hr
  have hs' := hs
  rw [Shows] at hs'
  obtain ⟨_, ys, e, h1, -⟩ := hs'
  cases e
  rw [Heap.field_msg _ _ _ _ _ h1] at hy
  exact no_cycle hs r (.here r) ⟨_, y, h1, List.mem_of_getElem? hy, hr⟩

/-- **C97 (bodies).** A body taken from a frame object: whatever is decoded into the frame object afterwards, and however often, and whether these
calls succeed or not, the body (with everything in it) keeps its values. -/
theorem C97_bodies (w : World) (n r : Nat) (h : Heap) (c : Cls) (fs : List Val) (f : Nat) (y : HVal) (hs : Shows h (.obj c fs) (.ref r))
    (hf : (javaTypes c)[f]? = some .codec) (hy : h.field r f = some y) (bs : List RBuf) :
    ∃ v, fs[f]? = some v ∧ Shows h v y ∧ Shows (decodeAll w.suppliers n r bs h) v y := by
  have hs' := hs
  rw [Shows] at hs'
  obtain ⟨_, ys, e, h1, h2⟩ := hs'
  cases e
  have hy' := hy
  rw [Heap.field_msg _ _ _ _ _ h1] at hy'
  obtain ⟨v, hv, hvy⟩ : ∃ v, fs[f]? = some v ∧ Shows h v y := by
    rcases showsAll_get h2 f with ⟨-, g⟩ | ⟨v, z, g1, g2, g3⟩
    · rw [g] at hy'; cases hy'
    · rw [g2] at hy'
      cases hy'
      exact ⟨v, g1, g3⟩
  refine ⟨v, hv, hvy, ?_⟩
  have key : ∀ (bs : List RBuf) (h : Heap) (ys : List HVal), h[r]? = some (.msg c ys) → Shows h v y → ¬ Reach h y r →
      Shows (decodeAll w.suppliers n r bs h) v y := by
    intro bs
    induction bs with
    | nil => intro h ys _ hv _; exact hv
    | cons b bs ih =>
      intro h ys hr hv hn
      have keep : ∀ q, q < h.length → q ≠ r → (hdecode w.suppliers n r h b).1[q]? = h[q]? := fun q hq hne =>
        C97_decode_touches w.suppliers n r h b q hq fun hm => hne (frame_inner h r c ys hr f hf q (mayChange_initial w h r q hm))
      have hfr := shows_frame h (hdecode w.suppliers n r h b).1 v y hv fun q hq =>
        keep q (refs_lt h v y hv q hq) fun e => hn (e ▸ (refs_iff_reach h v y hv q).mp hq)
      obtain ⟨ys', hr', -⟩ := (hdecode_mv (P := fun _ => True) (L := h.length) w.suppliers (fun _ _ => trivial) (fun _ _ _ _ => trivial) n r h b
        trivial (Nat.le_refl _) (fun _ _ _ _ _ _ _ _ _ _ => trivial)).cls r c ys hr
      refine ih _ ys' hr' hfr.1 fun hreach => hn ?_
      rw [← refs_iff_reach _ v y hfr.1, hfr.2, refs_iff_reach h v y hv] at hreach
      exact hreach
  exact key bs h ys h1 hvy (body_apart hs hy)

/-- **C97 (lists).** When all variables hold values of their Java types, with any sharing, no list that exists before the call is changed. -/
theorem C97_lists (sup : Suppliers) (n r : Nat) (h : Heap) (b : RBuf) (ht : TypedHeap h) (hs : TypedSups h sup) (c : Cls) (ys : List HVal)
    (hr : h[r]? = some (.msg c ys)) (a : Nat) (xs : List HVal) (ha : h[a]? = some (.arr xs)) :
    (hdecode sup n r h b).1[a]? = some (.arr xs) := by
  have hm : ¬ (h.length ≤ a ∨ ∃ c ys, h[a]? = some (.msg c ys)) := by
    rintro (g | ⟨c, ys, g⟩)
    · rw [List.getElem?_eq_none g] at ha; cases ha
    · rw [ha] at g; cases g
  rw [← ha]
  refine (hdecode_mv (P := fun q => h.length ≤ q ∨ ∃ c ys, h[q]? = some (.msg c ys)) (L := h.length) sup (fun q hq => .inl hq) ?_ n r h b
    (.inr ⟨c, ys, hr⟩) (Nat.le_refl _) ?_).keep a hm
  · intro fac k q hg
    have := hs fac k _ hg
    simp only [SupplierOf] at this
    cases this with
    | codec h1 => exact .inr ⟨_, _, h1⟩
  · intro q _ d d' zs f p h1 h2 h3
    have := (ht.fields q d zs h1).2 f _ _ h2 h3
    cases this with
    | obj h1 => exact .inr ⟨_, _, h1⟩

/-- A frame object into which a message has been decoded, from `new RootPacket()`. -/
def keptFrame : Heap := (hdecode World.initial.suppliers 4 0 [newMsg .sample_RootPacket]
  ⟨[3, 0, 14, 0, 0, 0, 7, 0, 0, 0, 0, 0, 0, 0, 3, 0, 0, 0, 0, 0, 1, 2, 3, 4], [], 0⟩).1

/-- The value of a nested packet with these numbers. -/
def keptBody (a b : BitVec 32) : Val := .obj .sample_NestedPacket
  [.obj .sample_SubPacket [.num ⟨.i32, a⟩, .null], .null, .obj .sample_NestedPacket_InerPacket [.num ⟨.i32, b⟩, .null]]

/-- The next message. -/
def keptNext : RBuf := ⟨[3, 0, 14, 0, 0, 0, 8, 0, 0, 0, 0, 0, 0, 0, 4, 0, 0, 0, 0, 0, 1, 2, 3, 4], [], 0⟩

/-- The hypotheses are met: the first body (the object at 1) is still what it was when the frame object contains the second one (the object at 4). -/
example : Shows keptFrame (.obj .sample_RootPacket [.num ⟨.i16, 3⟩, .num ⟨.i32, 14⟩, keptBody 7 3, .num ⟨.i32, 0x04030201⟩]) (.ref 0)
    ∧ keptFrame.field 0 2 = some (.ref 1) ∧ (javaTypes .sample_RootPacket)[2]? = some .codec
    ∧ Shows (decodeAll World.initial.suppliers 4 0 [keptNext] keptFrame) (keptBody 7 3) (.ref 1)
    ∧ Shows (decodeAll World.initial.suppliers 4 0 [keptNext] keptFrame)
        (.obj .sample_RootPacket [.num ⟨.i16, 3⟩, .num ⟨.i32, 14⟩, keptBody 8 4, .num ⟨.i32, 0x04030201⟩]) (.ref 0) := by
  refine ⟨by decide +kernel, by decide +kernel, by decide +kernel, ?_, by decide +kernel⟩
  obtain ⟨v, h1, -, h2⟩ := C97_bodies World.initial 4 0 keptFrame .sample_RootPacket
    [.num ⟨.i16, 3⟩, .num ⟨.i32, 14⟩, keptBody 7 3, .num ⟨.i32, 0x04030201⟩] 2 (.ref 1) (by decide +kernel) (by decide +kernel) (by decide +kernel) [keptNext]
  cases h1
  exact h2

/-- **C97, violated for nested messages.** A nested message (a field declared with a message class) is not replaced but decoded into: a sub-packet
taken from a message has other values after the next message has been decoded into the same object. -/
theorem C97_nested_violated : ∃ (h : Heap) (b : RBuf) (v : Val) (y : HVal), h.field 0 0 = some y ∧ Shows h v y
    ∧ (hdecode World.initial.suppliers 4 0 h b).2.2 = none ∧ ¬ Shows (hdecode World.initial.suppliers 4 0 h b).1 v y := by
  refine ⟨(hdecode World.initial.suppliers 4 0 [newMsg .sample_NestedPacket] ⟨[7, 0, 0, 0, 0, 0, 0, 0, 3, 0, 0, 0, 0, 0], [], 0⟩).1,
    ⟨[8, 0, 0, 0, 0, 0, 0, 0, 4, 0, 0, 0, 0, 0], [], 0⟩, .obj .sample_SubPacket [.num ⟨.i32, 7⟩, .null], .ref 1, by decide +kernel, by decide +kernel,
    by decide +kernel, by decide +kernel⟩

/-- A message with a list, decoded into `new SubPacket()`. -/
def keptList : Heap := (hdecode World.initial.suppliers 4 0 [newMsg .sample_SubPacket] ⟨[7, 0, 0, 0, 1, 0, 8, 0], [], 0⟩).1

/-- The hypotheses of C97_lists are met; decoding another message gives the object another list, and the old one stays. -/
example : TypedHeap keptList ∧ TypedSups keptList World.initial.suppliers ∧ keptList[1]? = some (.arr [.num ⟨.i16, 8⟩])
    ∧ (hdecode World.initial.suppliers 4 0 keptList ⟨[7, 0, 0, 0, 1, 0, 9, 0], [], 0⟩).1
      = [.msg .sample_SubPacket [.num ⟨.i32, 7⟩, .ref 2], .arr [.num ⟨.i16, 8⟩], .arr [.num ⟨.i16, 9⟩]] := by
  refine ⟨?_, typed_suppliers C28_default_world.1 _, by decide +kernel, by decide +kernel⟩
  have h0 : TypedHeap ([] ++ [newMsg .sample_SubPacket]) := typed_new ⟨by simp, by rintro a e e' ⟨r, c, ys, f, h, -⟩; simp at h⟩ _
  exact (C78_decode World.initial.suppliers 4 _ h0 (typed_suppliers C28_default_world.1 _) 0 _ _ rfl _).1

/-- `C97_lists` on that list. -/
example : (hdecode World.initial.suppliers 4 0 keptList ⟨[7, 0, 0, 0, 1, 0, 9, 0], [], 0⟩).1[1]? = some (.arr [.num ⟨.i16, 8⟩]) :=
  C97_lists World.initial.suppliers 4 0 keptList _ (C78_decode World.initial.suppliers 4 _
      (typed_new ⟨by simp, by rintro a e e' ⟨r, c, ys, f, h, -⟩; simp at h⟩ _ : TypedHeap ([] ++ [newMsg .sample_SubPacket]))
      (typed_suppliers C28_default_world.1 _) 0 _ _ rfl _).1
    (typed_suppliers C28_default_world.1 _) .sample_SubPacket [.num ⟨.i32, 7⟩, .ref 1] (by decide +kernel) 1 _ (by decide +kernel)

/-- `C97_decode_touches` and `C97_others`: the body of a frame is outside of what a decode into the frame may change. -/
example : ¬ MayChange World.initial.suppliers keptFrame 0 1 := by
  intro hm
  have hin := mayChange_initial World.initial _ _ _ hm
  have := frame_inner keptFrame 0 .sample_RootPacket _ (by decide +kernel : keptFrame[0]? = some (.msg .sample_RootPacket [.num ⟨.i16, 3⟩, .num ⟨.i32, 14⟩, .ref 1, .num ⟨.i32, 0x04030201⟩])) 2 (by decide +kernel) 1 hin
  cases this

end FinProto
