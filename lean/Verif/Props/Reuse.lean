import Verif.Props.DecodeErrors
import Verif.Proofs.Reuse
import Verif.Props.RoundTrip
/-
C29: decoding into an object that has been used before.
-/
namespace FinProto

/-- **C29.** For any bytes and any (well-typed) used object: `decode` consumes the same bytes and throws the same exception as it would with a
new object; if it succeeds, every field holds what it would hold in a new object, except that length-prefixed strings and lists that would
be null there keep their old content (nested messages are updated in place by the same rule). -/
theorem C29_reused (w : World) (n : Nat) (c : Cls) (olds : List Val) (b : RBuf) (hv : wellTyped (.obj c olds) = true) :
    (decode w n c olds b).2 = (decode w n c (freshFields c) b).2
      ∧ ((decode w n c olds b).2.2 = none → (decode w n c olds b).1 = overlayFields (wire c) olds (decode w n c (freshFields c) b).1) := by
  simp only [wellTyped, hasType, Bool.true_and] at hv
  exact decode_over w n c olds b hv

/-- **C29.** The used object ends up like a new one exactly when nothing is kept. -/
theorem C29_same_iff (w : World) (hw : TypedSuppliers w) (n : Nat) (c : Cls) (olds : List Val) (b : RBuf)
    (hv : wellTyped (.obj c olds) = true) (hok : (decode w n c olds b).2.2 = none) :
    decode w n c olds b = decode w n c (freshFields c) b ↔ nothingKept (wire c) olds (decode w n c (freshFields c) b).1 := by
  obtain ⟨h1, h2⟩ := C29_reused w n c olds b hv
  have h3 := (decode_typed w hw n c (freshFields c) b (typed_fresh c)).1
  simp only [wellTyped, hasType, Bool.true_and] at hv
  rw [← overP_fields (wire c) olds _ (fun v _ => overP v) (by rw [← type_table]; exact hv) (by rw [← type_table]; exact h3), ← h2 hok]
  constructor
  · intro h; rw [h]
  · intro h; exact Prod.ext h h1

/-- **C29.** In particular for a message that was sent: the used object holds the message's fields, except that where the message has a null string
or list (or an empty one) the old content stays. -/
theorem C29_sent (ws wr : World) (n m : Nat) (c : Cls) (fs olds : List Val) (b : WBuf) (hv : wellTyped (.obj c fs) = true)
    (ho : wellTyped (.obj c olds) = true)
    (hb : b.Valid) (hok : (encode ws n (.obj c fs) b).2.2 = none) (hcan : canonical wr (.obj c fs)) (hm : depth (.obj c fs) ≤ m) :
    ∃ bytes fs', (encode ws n (.obj c fs) b).2.1.data = b.data ++ bytes
      ∧ (encode ws n (.obj c fs) b).1 = .obj c fs'
      ∧ ∀ before after spare, decode wr m c olds ⟨before ++ bytes ++ after, spare, before.length⟩ =
          (overlayFields (wire c) olds fs', ⟨before ++ bytes ++ after, spare, before.length + bytes.length⟩, none) := by
  obtain ⟨bytes, fs', h1, h2, h3⟩ := C23_round_trip ws wr n m c fs b hv hb hok hcan hm
  refine ⟨bytes, fs', h1, h2, fun before after spare => ?_⟩
  have h := C29_reused wr m c olds ⟨before ++ bytes ++ after, spare, before.length⟩ ho
  rw [h3 before after spare] at h
  have h0 : (decode wr m c olds ⟨before ++ bytes ++ after, spare, before.length⟩).2.2 = none := by rw [h.1]
  exact Prod.ext (h.2 h0) h.1

/-- A used string packet: the bytes carry an empty `fieldDynamicString` … the old one stays. -/
example : overlayFields [.num .i16, .vstr, .list (.num .i32)] [.num ⟨.i16, 1⟩, .str (js "old"), .list [.num ⟨.i32, 7⟩]]
      [.num ⟨.i16, 2⟩, .null, .list [.num ⟨.i32, 8⟩]] = [.num ⟨.i16, 2⟩, .str (js "old"), .list [.num ⟨.i32, 8⟩]] := rfl

/-- The theorems on a receiver whose list stays. -/
example := C29_reused World.initial 1 .sample_SubPacket [.num ⟨.i32, 7⟩, .list [.num ⟨.i16, 5⟩]] ⟨[8, 0, 0, 0, 0, 0], [], 0⟩ (by decide +kernel)
example := C29_same_iff World.initial C28_default_world.1 1 .sample_SubPacket [.num ⟨.i32, 7⟩, .list [.num ⟨.i16, 5⟩]] ⟨[8, 0, 0, 0, 0, 0], [], 0⟩
  (by decide +kernel) (by decide +kernel)

end FinProto
