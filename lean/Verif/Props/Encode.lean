import Verif.Model.Factory
import Verif.Proofs.EncodeFail
/-
C22, C25, C30, C33, C34, C37, C48 and the frame part of C16: what `encode` writes.
`w` is the state of the registries, `n` the available call-stack depth.
`encode w n v b` returns the object after the call, the buffer after the call and the exception, if any.
-/
namespace FinProto

/-- A non-trivial SSE message tree used in the examples: a frame with an `ExecRptInfo` body. -/
def exBody : Val := .obj .sse_ExecRptInfo
  [.num ⟨.i16, 7⟩, .list [.str (js "AB"), .null], .list [.num ⟨.i32, 0x01020304⟩]]
def exFrame : Val := .obj .sse_SseBinary
  [.num ⟨.i32, 0x28⟩, .num ⟨.i64, 5⟩, .num ⟨.i32, 999⟩, exBody, .num ⟨.i32, 0x55⟩]
/-- A nested message with a missing mandatory part. -/
def exIncomplete : Val := .obj .sample_NestedPacket [.null, .null, .null]

/-- **C22.** A successful `encode` appends exactly the wire image of the object as it is after the call; what was in the buffer, the
reader index and the capacity do not change.  The object itself changes only in computed fields (`settle`). -/
theorem C22_encode_appends_image (w : World) (n : Nat) (v : Val) (b : WBuf) (hv : wellTyped v = true) (hb : b.Valid)
    (hok : (encode w n v b).2.2 = none) :
    (encode w n v b).2.1.data = b.data ++ image (encode w n v b).1
      ∧ (encode w n v b).2.1.rd = b.rd ∧ (encode w n v b).2.1.maxCap = b.maxCap
      ∧ (encode w n v b).1 = settle w.svc b.readable v := by
  rcases encode_cases w n v b hv hb.1 hb.2 with ⟨_, _, _, h⟩ | ⟨_, _, _, h⟩ | ⟨_, h | h⟩
  · rw [h]; exact ⟨rfl, rfl, rfl, rfl⟩
  · rw [hok] at h; cases h
  · rw [hok] at h; cases h
  · obtain ⟨x, hx⟩ := h.isSome; rw [hok] at hx; cases hx

/-- **C22.** Messages without computed fields (everything but the frames): `encode` appends the wire image of the object
and leaves the object alone. -/
theorem C22_encode_plain (w : World) (n : Nat) (v : Val) (b : WBuf) (hv : wellTyped v = true) (hb : b.Valid)
    (hf : frameless v = true) (hok : (encode w n v b).2.2 = none) :
    encode w n v b = (v, { b with data := b.data ++ image v }, none) := by
  rcases encode_cases w n v b hv hb.1 hb.2 with ⟨_, _, _, h⟩ | ⟨_, _, _, h⟩ | ⟨_, h | h⟩
  · rw [h, settle_frameless _ _ _ hf]; rfl
  · rw [hok] at h; cases h
  · rw [hok] at h; cases h
  · obtain ⟨x, hx⟩ := h.isSome; rw [hok] at hx; cases hx

/-- **C22.** Whatever the outcome and whatever the object, nothing already in the buffer changes, nor does the reader index. -/
theorem C22_prefix_untouched (w : World) (n : Nat) (v : Val) (b : WBuf) :
    b.data <+: (encode w n v b).2.1.data ∧ (encode w n v b).2.1.rd = b.rd ∧ (encode w n v b).2.1.maxCap = b.maxCap := by
  have h := (encode_good w n v).ext b
  exact ⟨h.2.2, h.1, h.2.1⟩

/-- Exactly these classes have computed fields. -/
theorem C22_frames (c : Cls) :
    hasComputed c = true ↔
      c = .sample_RootPacket ∨ c = .sse_SseBinary ∨ c = .szse_SzseBinary ∨ c = .risk_RcBinary := by
  cases c <;> decide

example : wellTyped exBody = true ∧ frameless exBody = true ∧ (encode World.initial 5 exBody ⟨[9], 0, 100⟩).2.2 = none ∧
    (encode World.initial 5 exBody ⟨[9], 0, 100⟩).2.1.data =
      [9, 0, 7, 0, 2, 0x41, 0x42, 0x20, 0x20, 0x20, 0x20, 0x20, 0x20, 0x20, 0x20, 0x20, 0x20, 0x20, 0x20, 0x20, 0x20,
        0, 1, 1, 2, 3, 4] := by
  decide +kernel

example : wellTyped exFrame = true ∧ frameless exFrame = false ∧ (encode World.initial 5 exFrame ⟨[9], 0, 100⟩).2.2 = none := by
  decide +kernel

/-- **C30.** With enough stack, `encode` of a well-typed message succeeds exactly if no mandatory part is missing and the wire image
fits below the buffer's maximum capacity.  (Null strings, null lists and null bodies are not mandatory: see `complete`.) -/
theorem C30_success_iff (w : World) (n : Nat) (v : Val) (b : WBuf) (hv : wellTyped v = true) (hb : b.Valid)
    (hn : depth v ≤ n) :
    (encode w n v b).2.2 = none ↔ complete v = true ∧ b.data.length + (image v).length ≤ b.maxCap := by
  rcases encode_cases w n v b hv hb.1 hb.2 with ⟨h1, _, h2, h⟩ | ⟨h1, _, h2, h⟩ | ⟨h1 | h1, h⟩
  · rw [h]; exact ⟨fun _ => ⟨h1, h2⟩, fun _ => rfl⟩
  · rw [h]; simp; intro _; omega
  · refine ⟨fun hok => ?_, fun hc => ?_⟩
    · rcases h with h | h
      · rw [hok] at h; cases h
      · obtain ⟨x, hx⟩ := h.isSome; rw [hok] at hx; cases hx
    · rw [h1] at hc; simp at hc
  · omega

/-- **C30.** A complete message fails only for lack of room, and then with IndexOutOfBounds. -/
theorem C30_index_out_of_bounds (w : World) (n : Nat) (v : Val) (b : WBuf) (hv : wellTyped v = true) (hb : b.Valid)
    (hn : depth v ≤ n) (hc : complete v = true) :
    (encode w n v b).2.2 = some .indexOutOfBounds ↔ b.maxCap < b.data.length + (image v).length := by
  rcases encode_cases w n v b hv hb.1 hb.2 with ⟨h1, _, h2, h⟩ | ⟨h1, _, h2, h⟩ | ⟨h1 | h1, h⟩
  · rw [h]; simp; omega
  · rw [h]; simp; omega
  · rw [hc] at h1; cases h1
  · omega

/-- **C30.** With enough room, `encode` throws NullPointerException exactly if a mandatory part is missing. -/
theorem C30_null_pointer (w : World) (n : Nat) (v : Val) (b : WBuf) (hv : wellTyped v = true) (hb : b.Valid)
    (hn : depth v ≤ n) (hfit : b.data.length + (image v).length ≤ b.maxCap) :
    (encode w n v b).2.2 = some .nullPointer ↔ complete v = false := by
  rcases encode_cases w n v b hv hb.1 hb.2 with ⟨h1, _, h2, h⟩ | ⟨h1, _, h2, h⟩ | ⟨h1 | h1, h⟩
  · rw [h, h1]; simp
  · omega
  · refine ⟨fun _ => h1, fun _ => ?_⟩
    obtain ⟨c, fs, rfl, ht⟩ := wellTyped_obj v hv
    have := (encode_callBad w n).2 c fs b (by simp [hasType, ht]) (.inl h1) hb.1 hfit
    rcases this with h | h
    · exact h.1
    · omega
  · omega

/-- **C30.** No other exception is possible: in any case the outcome is success, IndexOutOfBounds, NullPointer (only if a
mandatory part is missing) or StackOverflow (only if the nesting is deeper than the stack allows). -/
theorem C30_outcomes (w : World) (n : Nat) (v : Val) (b : WBuf) (hv : wellTyped v = true) (hb : b.Valid) :
    (encode w n v b).2.2 = none ∨ (encode w n v b).2.2 = some .indexOutOfBounds
      ∨ ((encode w n v b).2.2 = some .nullPointer ∧ complete v = false)
      ∨ ((encode w n v b).2.2 = some .stackOverflow ∧ n < depth v) := by
  rcases encode_cases w n v b hv hb.1 hb.2 with ⟨_, _, _, h⟩ | ⟨_, _, _, h⟩ | ⟨_, h | h⟩
  · rw [h]; exact .inl rfl
  · exact .inr (.inl h)
  · exact .inr (.inl h)
  · exact .inr (.inr h)

example : wellTyped exIncomplete = true ∧ complete exIncomplete = false ∧ depth exIncomplete = 1 ∧
    (encode World.initial 5 exIncomplete ⟨[], 0, 100⟩).2.2 = some .nullPointer := by decide +kernel
example : complete exBody = true ∧ (encode World.initial 5 exBody ⟨[9], 0, 20⟩).2.2 = some .indexOutOfBounds := by decide +kernel

/-- **C37.** `encode` changes nothing in the message except length and checksum fields of frames. -/
theorem C37_only_computed_fields_change (w : World) (n : Nat) (v : Val) (b : WBuf) (hv : wellTyped v = true) (hb : b.Valid)
    (hok : (encode w n v b).2.2 = none) : blank (encode w n v b).1 = blank v := by
  rw [(C22_encode_appends_image w n v b hv hb hok).2.2.2]
  exact blank_settle w.svc b.readable v hv

/-- **C37.** Encoding the same object again into an equal buffer gives identical bytes and does not change it any more. -/
theorem C37_idempotent (w : World) (n : Nat) (v : Val) (b : WBuf) (hv : wellTyped v = true) (hb : b.Valid)
    (hok : (encode w n v b).2.2 = none) :
    encode w n (encode w n v b).1 b = encode w n v b := by
  rcases encode_cases w n v b hv hb.1 hb.2 with ⟨h1, h2, h3, h⟩ | ⟨_, _, _, h⟩ | ⟨_, h | h⟩
  · have hwt := settle_wellTyped w.svc b.readable v hv
    have hcp := settle_complete w.svc b.readable v hv
    have hdp := settle_depth w.svc b.readable v hv
    have hsz := image_settle_length w.svc b.readable v hv
    rcases encode_cases w n (settle w.svc b.readable v) b hwt hb.1 hb.2 with ⟨_, _, _, h'⟩ | ⟨_, _, h', _⟩ | ⟨h' | h', _⟩
    · rw [h, h', settle_idem _ _ _ hv]
    · omega
    · rw [hcp, h1] at h'; cases h'
    · omega
  · rw [hok] at h; cases h
  · rw [hok] at h; cases h
  · obtain ⟨x, hx⟩ := h.isSome; rw [hok] at hx; cases hx

/-- C37 at a frame whose length and checksum fields hold arbitrary values before the call (999 becomes 26). -/
example : blank (encode World.initial 5 exFrame ⟨[9], 0, 100⟩).1 = blank exFrame ∧ image (encode World.initial 5 exFrame ⟨[9], 0, 100⟩).1 ≠ image exFrame :=
  ⟨C37_only_computed_fields_change World.initial 5 exFrame ⟨[9], 0, 100⟩ (by decide +kernel) ⟨by decide, by decide⟩ (by decide +kernel), by decide +kernel⟩
example : encode World.initial 5 (encode World.initial 5 exFrame ⟨[9], 0, 100⟩).1 ⟨[9], 0, 100⟩ = encode World.initial 5 exFrame ⟨[9], 0, 100⟩ :=
  C37_idempotent World.initial 5 exFrame ⟨[9], 0, 100⟩ (by decide +kernel) ⟨by decide, by decide⟩ (by decide +kernel)

/-- `C22_encode_appends_image`, `C22_encode_plain` and C30 on the messages above. -/
example := C22_encode_appends_image World.initial 5 exFrame ⟨[9], 0, 100⟩ (by decide +kernel) ⟨by decide, by decide⟩ (by decide +kernel)
example := C22_encode_plain World.initial 5 exBody ⟨[9], 0, 100⟩ (by decide +kernel) ⟨by decide, by decide⟩ (by decide +kernel) (by decide +kernel)
example := C30_success_iff World.initial 5 exFrame ⟨[9], 0, 100⟩ (by decide +kernel) ⟨by decide, by decide⟩ (by decide +kernel)
example := C30_index_out_of_bounds World.initial 5 exBody ⟨[9], 0, 20⟩ (by decide +kernel) ⟨by decide, by decide⟩ (by decide +kernel) (by decide +kernel)
example := C30_null_pointer World.initial 5 exIncomplete ⟨[9], 0, 100⟩ (by decide +kernel) ⟨by decide, by decide⟩ (by decide +kernel) (by decide +kernel)

end FinProto
