import Verif.Model.Factory
import Verif.Proofs.Retry
import Verif.Proofs.PartialWrite
import Verif.Proofs.EncodeFail
import Verif.Props.Encode
/-
C53: an `encode` that throws in the middle, and the attempt after it.
-/
namespace FinProto

/-- **C53.** Objects with the same content, whatever is in their length fields and in the checksum fields of registered
algorithms, are encoded alike: same bytes, same exception, and if there is none, equal objects afterwards. -/
theorem C53_same_content (w : World) (n : Nat) (v v' : Val) (b : WBuf) (hv : wellTyped v = true) (hv' : wellTyped v' = true)
    (h : content w.svc v = content w.svc v') :
    (encode w n v b).2 = (encode w n v' b).2
      ∧ ((encode w n v b).2.2 = none → (encode w n v b).1 = (encode w n v' b).1) := by
  obtain ⟨c, fs, rfl, ht⟩ := wellTyped_obj v hv
  obtain ⟨c', fs', rfl, ht'⟩ := wellTyped_obj v' hv'
  simp only [content, Val.obj.injEq] at h
  obtain ⟨rfl, h⟩ := h
  exact encode_lock w n c fs fs' b ht ht' h

/-- **C53.** However `encode` ends - normally or with any exception at any point - the object keeps its types and its content:
only length fields and checksum fields of registered algorithms may have changed. -/
theorem C53_content_kept (w : World) (n : Nat) (v : Val) (b : WBuf) (hv : wellTyped v = true) :
    wellTyped (encode w n v b).1 = true ∧ content w.svc (encode w n v b).1 = content w.svc v := by
  obtain ⟨c, fs, rfl, ht⟩ := wellTyped_obj v hv
  obtain ⟨fs', h1, h2, h3⟩ := (encode_keeps w n).2 c fs b ht
  rw [h1]
  exact ⟨by simp [wellTyped, hasType, h2], by simp [content, h3]⟩

/-- **C53.** A retry is not affected by earlier attempts: after an `encode` that ended in any way, encoding the object into any buffer
does exactly what encoding the original object would have done. -/
theorem C53_retry (w : World) (n m : Nat) (v : Val) (b b' : WBuf) (hv : wellTyped v = true) :
    (encode w m (encode w n v b).1 b').2 = (encode w m v b').2
      ∧ ((encode w m v b').2.2 = none → (encode w m (encode w n v b).1 b').1 = (encode w m v b').1) := by
  have h := C53_content_kept w n v b hv
  have h' := C53_same_content w m _ v b' h.1 hv h.2
  exact ⟨h'.1, fun hn => h'.2 (by rw [h'.1]; exact hn)⟩

/-- Any number of earlier attempts. -/
def attempts (w : World) : List (Nat × WBuf) → Val → Val
  | [], v => v
  | (n, b) :: rest, v => attempts w rest (encode w n v b).1

/-- **C53.** The same after any sequence of earlier attempts. -/
theorem C53_retries (w : World) (earlier : List (Nat × WBuf)) (m : Nat) (v : Val) (b' : WBuf) (hv : wellTyped v = true) :
    (encode w m (attempts w earlier v) b').2 = (encode w m v b').2
      ∧ ((encode w m v b').2.2 = none → (encode w m (attempts w earlier v) b').1 = (encode w m v b').1) := by
  have key : wellTyped (attempts w earlier v) = true ∧ content w.svc (attempts w earlier v) = content w.svc v := by
    induction earlier generalizing v with
    | nil => exact ⟨hv, rfl⟩
    | cons a rest ih =>
      obtain ⟨n, b⟩ := a
      have h := C53_content_kept w n v b hv
      have h' := ih (encode w n v b).1 h.1
      exact ⟨h'.1, h'.2.trans h.2⟩
  have h' := C53_same_content w m _ v b' key.1 hv key.2
  exact ⟨h'.1, fun hn => h'.2 (by rw [h'.1]; exact hn)⟩

/-- **C53.** Messages without computed fields: an `encode` that throws leaves the object untouched, and what it wrote is a prefix
of the message's wire image. -/
theorem C53_partial_output (w : World) (n : Nat) (v : Val) (b : WBuf) (hv : wellTyped v = true) (hb : b.Valid)
    (hf : frameless v = true) :
    (encode w n v b).1 = v ∧ ∃ p, (encode w n v b).2.1 = { b with data := b.data ++ p } ∧ p <+: image v := by
  obtain ⟨c, fs, rfl, ht⟩ := wellTyped_obj v hv
  obtain ⟨h1, p, h2, h3, _⟩ := (encode_part w n).2 c fs b ht hf hb.2
  exact ⟨h1, p, h2, h3⟩

/-- A frame that is first sent into a buffer that is too small. -/
example : wellTyped exFrame = true
    ∧ (encode World.initial 5 exFrame ⟨[9], 0, 30⟩).2.2 = some .indexOutOfBounds
    ∧ (encode World.initial 5 exFrame ⟨[9], 0, 44⟩).2.2 = some .indexOutOfBounds
    -- the second attempt got as far as changing the length field
    ∧ image (encode World.initial 5 exFrame ⟨[9], 0, 44⟩).1 ≠ image exFrame
    ∧ (encode World.initial 5 (encode World.initial 5 exFrame ⟨[9], 0, 44⟩).1 ⟨[9], 0, 100⟩).2
        = (encode World.initial 5 exFrame ⟨[9], 0, 100⟩).2
    ∧ (encode World.initial 5 exFrame ⟨[9], 0, 100⟩).2.2 = none := by decide +kernel
example : wellTyped exBody = true ∧ frameless exBody = true ∧
    (encode World.initial 5 exBody ⟨[9], 0, 7⟩).2 = (⟨[9, 0, 7, 0, 2, 0x41, 0x42], 0, 7⟩, some .indexOutOfBounds) := by
  decide +kernel

/-- **C53 needs the registry to stay the same.** A checksum left behind by an earlier attempt is sent when the algorithm has been
removed in between. -/
theorem C53_registry_change_matters :
    ∃ (v : Val) (b : WBuf), wellTyped v = true ∧ (encode World.initial 5 v b).2.2 = none ∧
      let w' : World := { World.initial with svc := World.initial.svc.remove "CRC32" }
      (encode w' 5 (encode World.initial 5 v b).1 b).2 ≠ (encode w' 5 v b).2 :=
  ⟨.obj .sample_RootPacket [.num ⟨.i16, 1⟩, .num ⟨.i32, 0⟩, .null, .num ⟨.i32, 0⟩], ⟨[], 0, 100⟩, by decide +kernel⟩

/-- The theorems on that frame. -/
example := C53_same_content World.initial 5 exFrame (encode World.initial 5 exFrame ⟨[9], 0, 44⟩).1 ⟨[9], 0, 100⟩ (by decide +kernel) (by decide +kernel)
  (C53_content_kept World.initial 5 exFrame ⟨[9], 0, 44⟩ (by decide +kernel)).2.symm
example := C53_retry World.initial 5 5 exFrame ⟨[9], 0, 44⟩ ⟨[9], 0, 100⟩ (by decide +kernel)
example := C53_retries World.initial [(5, ⟨[9], 0, 30⟩), (1, ⟨[9], 0, 100⟩), (5, ⟨[9], 0, 44⟩)] 5 exFrame ⟨[9], 0, 100⟩ (by decide +kernel)

end FinProto
