import Verif.Proofs.Cut
/-
C91: the length field of encoded frames cuts a stream into its frames.

`cut` and `Cutter` (`Spec/Cut.lean`) are a receiver that only looks at the length fields, and refuses frames of more than `max` bytes.
-/
namespace FinProto

/-- **C91.** Whatever a frame holds and whatever is in the buffer: if `encode` succeeds, it has appended bytes whose length field, read as an
unsigned number, says exactly how many bytes of the frame follow. -/
theorem C91_encoded (w : World) (n : Nat) (c : Cls) (F : Framing) (hF : framing c = some F) (fs : List Val) (b : WBuf)
    (hv : wellTyped (.obj c fs) = true) (hb : b.Valid) (hcap : b.maxCap < 2 ^ 31) (hok : (encode w n (.obj c fs) b).2.2 = none) :
    ∃ p, (encode w n (.obj c fs) b).2.1.data = b.data ++ p ∧ F.Whole p :=
  encode_whole w n c F hF fs b hv hb hcap hok

/-- **C91.** Encode any frames of one kind one after the other and deliver the bytes in any chunks: the receiver cuts off exactly one piece for each
frame and has nothing left.  Each piece alone decodes, in any process that knows the message, to the message as it is after `encode` (a
message the process does not know affects no other piece). -/
theorem C91_stream (ws wr : World) (n m : Nat) (c : Cls) (F : Framing) (hF : framing c = some F) (max : Nat) (vs : List Val) (b : WBuf)
    (hcls : ∀ v ∈ vs, v.cls? = some c) (hv : ∀ v ∈ vs, wellTyped v = true) (hb : b.Valid) (hcap : b.maxCap < 2 ^ 31)
    (hmax : b.maxCap ≤ max) (hok : (sendAll ws n vs b).2.2 = none) :
    ∃ parts : List (List Byte), parts.length = vs.length ∧ (sendAll ws n vs b).2.1.data = b.data ++ parts.flatten
      ∧ (∀ chunks : List (List Byte), chunks.flatten = parts.flatten → Cutter.receiveChunks F max chunks = ⟨parts, [], false⟩)
      ∧ ∀ (i : Nat) (v : Val) (p : List Byte), vs[i]? = some v → parts[i]? = some p → canonical wr v → depth v ≤ m →
          ∃ fs', (sendAll ws n vs b).1[i]? = some (.obj c fs')
            ∧ decode wr m c (freshFields c) ⟨p, [], 0⟩ = (fs', ⟨p, [], p.length⟩, none) := by
  obtain ⟨parts, h1, h2, h3, h4⟩ := sent_parts ws wr n m c F hF vs b hcls hv hb hcap hok
  refine ⟨parts, h1, h2, fun chunks hch => ?_, h4⟩
  rw [receiveChunks_cut, hch]
  have := cut_parts F max [] parts (fun p hp => ⟨(h3 p hp).1, Nat.le_trans (h3 p hp).2 hmax⟩)
  rw [cut_short F max [] (by simp)] at this
  simpa using this

/-- **C91.** At any moment, with any beginning of the stream received in any chunks, the receiver has cut off exactly the frames that have arrived
completely, keeps the bytes of the next one, and has not given up. -/
theorem C91_so_far (ws : World) (n : Nat) (c : Cls) (F : Framing) (hF : framing c = some F) (max : Nat) (vs : List Val) (b : WBuf)
    (hcls : ∀ v ∈ vs, v.cls? = some c) (hv : ∀ v ∈ vs, wellTyped v = true) (hb : b.Valid) (hcap : b.maxCap < 2 ^ 31)
    (hmax : b.maxCap ≤ max) (hok : (sendAll ws n vs b).2.2 = none) :
    ∃ parts : List (List Byte), parts.length = vs.length ∧ (sendAll ws n vs b).2.1.data = b.data ++ parts.flatten
      ∧ ∀ chunks : List (List Byte), chunks.flatten <+: parts.flatten →
        ∃ k rest, k ≤ parts.length ∧ Cutter.receiveChunks F max chunks = ⟨parts.take k, rest, false⟩
          ∧ chunks.flatten = (parts.take k).flatten ++ rest ∧ ∀ p, parts[k]? = some p → rest.length < p.length := by
  obtain ⟨parts, h1, h2, h3, _⟩ := sent_parts ws ws n 0 c F hF vs b hcls hv hb hcap hok
  refine ⟨parts, h1, h2, fun chunks ⟨Y, hY⟩ => ?_⟩
  rw [receiveChunks_cut]
  exact cut_prefix F max parts _ Y (fun p hp => ⟨(h3 p hp).1, Nat.le_trans (h3 p hp).2 hmax⟩) hY.symm

/-- **C91.** Damage outside the length fields stays in its frame: if pieces of the stream arrive with any other bytes, but of the same number and with
the same length field, the receiver cuts at the same places; every undamaged frame is delivered as it was sent. -/
theorem C91_damaged (ws : World) (n : Nat) (c : Cls) (F : Framing) (hF : framing c = some F) (max : Nat) (vs : List Val) (b : WBuf)
    (hcls : ∀ v ∈ vs, v.cls? = some c) (hv : ∀ v ∈ vs, wellTyped v = true) (hb : b.Valid) (hcap : b.maxCap < 2 ^ 31)
    (hmax : b.maxCap ≤ max) (hok : (sendAll ws n vs b).2.2 = none) :
    ∃ parts : List (List Byte), parts.length = vs.length ∧ (sendAll ws n vs b).2.1.data = b.data ++ parts.flatten
      ∧ ∀ arrived : List (List Byte),
        arrived.length = parts.length →
        (∀ (i : Nat) (p q : List Byte), parts[i]? = some p → arrived[i]? = some q →
          q.length = p.length ∧ (q.drop F.lenAt).take 4 = (p.drop F.lenAt).take 4) →
        ∀ chunks : List (List Byte), chunks.flatten = arrived.flatten → Cutter.receiveChunks F max chunks = ⟨arrived, [], false⟩ := by
  obtain ⟨parts, h1, h2, h3, _⟩ := sent_parts ws ws n 0 c F hF vs b hcls hv hb hcap hok
  refine ⟨parts, h1, h2, fun arrived hl hd chunks hch => ?_⟩
  rw [receiveChunks_cut, hch]
  have hw : ∀ q ∈ arrived, F.Whole q ∧ q.length ≤ max := by
    intro q hq
    obtain ⟨i, hi⟩ := List.getElem?_of_mem hq
    obtain ⟨p, hp⟩ : ∃ p, parts[i]? = some p := by
      have := (List.getElem?_eq_some_iff.mp hi).1
      exact ⟨_, List.getElem?_eq_getElem (by omega)⟩
    obtain ⟨⟨a1, a2⟩, a3⟩ := h3 p (List.mem_of_getElem? hp)
    obtain ⟨d1, d2⟩ := hd i p q hp hi
    refine ⟨⟨by rw [d1]; exact a1, ?_⟩, by rw [d1]; omega⟩
    rw [Framing.total, d2, d1]
    exact a2
  have := cut_parts F max [] arrived hw
  rw [cut_short F max [] (by simp)] at this
  simpa using this

/-- Two SSE frames: the stream of 84 bytes is cut into two pieces, its first 60 bytes into one piece and
18 bytes that wait. -/
example : framing .sse_SseBinary = some ⟨12, .be, 4⟩
    ∧ (∀ v ∈ [exCanonical, exCanonical], v.cls? = some .sse_SseBinary ∧ wellTyped v = true ∧ depth v ≤ 3)
    ∧ (sendAll World.initial 3 [exCanonical, exCanonical] ⟨[7], 0, 200⟩).2.2 = none
    ∧ ((cut ⟨12, .be, 4⟩ 200 ((sendAll World.initial 3 [exCanonical, exCanonical] ⟨[7], 0, 200⟩).2.1.data.drop 1)).frames.map List.length) = [42, 42]
    ∧ ((cut ⟨12, .be, 4⟩ 200 (((sendAll World.initial 3 [exCanonical, exCanonical] ⟨[7], 0, 200⟩).2.1.data.drop 1).take 60)).frames.map List.length)
        = [42]
    ∧ (cut ⟨12, .be, 4⟩ 200 (((sendAll World.initial 3 [exCanonical, exCanonical] ⟨[7], 0, 200⟩).2.1.data.drop 1).take 60)).pending.length = 18 := by
  decide +kernel

example : canonical World.initial exCanonical := exCanonical_canonical

/-- A frame with a null body of each other kind. -/
example : (∀ c ∈ [Cls.szse_SzseBinary, .sample_RootPacket, .risk_RcBinary], wellTyped (.obj c (freshFields c)) = true
    ∧ (encode World.initial 3 (.obj c (freshFields c)) ⟨[7], 0, 200⟩).2.2 = none ∧ (framing c).isSome = true)
    ∧ (cut ⟨4, .be, 4⟩ 200 (encode World.initial 3 (.obj .szse_SzseBinary (freshFields .szse_SzseBinary)) ⟨[], 0, 200⟩).2.1.data).frames.length = 1
    ∧ (cut ⟨2, .le, 4⟩ 200 (encode World.initial 3 (.obj .sample_RootPacket (freshFields .sample_RootPacket)) ⟨[], 0, 200⟩).2.1.data).frames.length = 1
    ∧ (cut ⟨8, .be, 0⟩ 200 (encode World.initial 3 (.obj .risk_RcBinary (freshFields .risk_RcBinary)) ⟨[], 0, 200⟩).2.1.data).frames.length = 1 := by
  decide +kernel

/-- **C91 violated for bytes that no encode produced.** `decode` does not look at the length field (C36): there are bytes that it takes as one whole
frame and in which a receiver that goes by the length field sees no complete frame. -/
theorem C91_disagree_violated :
    ∃ bytes : List Byte, (decode World.initial 3 .sse_SseBinary (freshFields .sse_SseBinary) ⟨bytes, [], 0⟩).2.2 = none
      ∧ (decode World.initial 3 .sse_SseBinary (freshFields .sse_SseBinary) ⟨bytes, [], 0⟩).2.1.rd = bytes.length
      ∧ (cut ⟨12, .be, 4⟩ 1000 bytes).frames = [] :=
  ⟨(encode World.initial 3 exCanonical ⟨[], 0, 100⟩).2.1.data.set 15 200, by decide +kernel, by decide +kernel, by decide +kernel⟩

/-- The theorems on two frames, one after the other. -/
example := C91_encoded World.initial 3 .sse_SseBinary ⟨12, .be, 4⟩ (by decide +kernel) _ ⟨[7], 0, 200⟩ (by decide +kernel : wellTyped exCanonical = true)
  ⟨by decide, by decide⟩ (by decide) (by decide +kernel)
example := C91_stream World.initial World.initial 3 3 .sse_SseBinary ⟨12, .be, 4⟩ (by decide +kernel) 200 [exCanonical, exCanonical] ⟨[7], 0, 200⟩
  (by decide +kernel) (by decide +kernel) ⟨by decide, by decide⟩ (by decide) (by decide) (by decide +kernel)
example := C91_so_far World.initial 3 .sse_SseBinary ⟨12, .be, 4⟩ (by decide +kernel) 200 [exCanonical, exCanonical] ⟨[7], 0, 200⟩
  (by decide +kernel) (by decide +kernel) ⟨by decide, by decide⟩ (by decide) (by decide) (by decide +kernel)

end FinProto
