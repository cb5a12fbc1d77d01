import Verif.Proofs.Within
import Verif.Proofs.Slice
import Verif.Props.RoundTrip
import Verif.Props.Counts
import Verif.Props.DecodeErrors
import Verif.Props.DecodeLocal
/-
C55, C56, C57: what has been decoded can be sent on; classes inside a decoded message; the bytes of a decoded message.
-/
namespace FinProto

/-! ### C55 -/

/-- **C55.** Whatever bytes `decode` accepted (into a new object, with factories that supply new objects), the object it gives can be sent on: `encode`,
in any process and into any buffer, succeeds if there is room for its image. -/
theorem C55_sendable (w : World) (hw : FreshSuppliers w) (n : Nat) (c : Cls) (b b' : RBuf) (fs : List Val)
    (hd : decode w n c (freshFields c) b = (fs, b', none))
    (ws : World) (m : Nat) (hm : n ≤ m) (out : WBuf) (hout : out.Valid) (hroom : out.data.length + (image (.obj c fs)).length ≤ out.maxCap) :
    wellTyped (.obj c fs) = true ∧ (encode ws m (.obj c fs) out).2.2 = none := by
  have ht : wellTyped (.obj c fs) = true := by
    have := (decode_typed w hw.typed n c (freshFields c) b (typed_fresh c)).1
    rw [hd] at this
    simp only [wellTyped, hasType, Bool.true_and]
    exact this
  have hin := decode_in w hw _ (closed_true w) n c b fs b' trivial hd
  refine ⟨ht, (C30_success_iff ws m _ out ht hout ?_).mpr ⟨hin.2.1, hroom⟩⟩
  simp only [depth]
  omega

/-- **C55.** If no bytes were replaced or dropped (see `intact`), a second receiver gets the same message: decoding what `encode` wrote succeeds, consumes exactly
these bytes and gives the same fields, apart from the length and checksum fields that `encode` computed anew. -/
theorem C55_relay (w : World) (hw : FreshSuppliers w) (n : Nat) (c : Cls) (b b' : RBuf) (fs : List Val)
    (hd : decode w n c (freshFields c) b = (fs, b', none)) (hi : everywhere intact (.obj c fs))
    (ws : World) (m : Nat) (hm : n ≤ m) (out : WBuf) (hout : out.Valid) (hroom : out.data.length + (image (.obj c fs)).length ≤ out.maxCap) :
    ∃ bytes fs', (encode ws m (.obj c fs) out).2.1.data = out.data ++ bytes
      ∧ (∀ before after spare, decode w n c (freshFields c) ⟨before ++ bytes ++ after, spare, before.length⟩ =
          (fs', ⟨before ++ bytes ++ after, spare, before.length + bytes.length⟩, none))
      ∧ blank (.obj c fs') = blank (.obj c fs) := by
  obtain ⟨ht, hok⟩ := C55_sendable w hw n c b b' fs hd ws m hm out hout hroom
  have hcan := decode_canon w hw n c b fs b' hd hi
  obtain ⟨bytes, fs', h1, h2, h3⟩ := C23_round_trip ws w m n c fs out ht hout hok hcan.1 hcan.2
  refine ⟨bytes, fs', h1, h3, ?_⟩
  have := C37_only_computed_fields_change ws m _ out ht hout hok
  rwa [h2] at this

/-- **C55.** Messages without computed fields arrive identical. -/
theorem C55_relay_plain (w : World) (hw : FreshSuppliers w) (n : Nat) (c : Cls) (b b' : RBuf) (fs : List Val)
    (hd : decode w n c (freshFields c) b = (fs, b', none)) (hi : everywhere intact (.obj c fs)) (hf : frameless (.obj c fs) = true)
    (ws : World) (m : Nat) (hm : n ≤ m) (out : WBuf) (hout : out.Valid) (hroom : out.data.length + (image (.obj c fs)).length ≤ out.maxCap) :
    ∃ bytes, (encode ws m (.obj c fs) out).2.1.data = out.data ++ bytes
      ∧ ∀ before after spare, decode w n c (freshFields c) ⟨before ++ bytes ++ after, spare, before.length⟩ =
          (fs, ⟨before ++ bytes ++ after, spare, before.length + bytes.length⟩, none) := by
  obtain ⟨ht, hok⟩ := C55_sendable w hw n c b b' fs hd ws m hm out hout hroom
  have hcan := decode_canon w hw n c b fs b' hd hi
  exact C23_round_trip_plain ws w m n c fs out ht hout hok hcan.1 hcan.2 hf

/-! ### C57 -/

/-- **C57.** All messages inside a decoded message, at every level, belong to the protocol of the message (if every factory supplies only classes
that are registered with it by default). -/
theorem C57_one_protocol (w : World) (hw : FreshSuppliers w) (hdef : DefaultClasses w) (n : Nat) (c : Cls) (b b' : RBuf) (fs : List Val)
    (hd : decode w n c (freshFields c) b = (fs, b', none)) :
    everywhere (classesIn fun d => d.mod = c.mod) (.obj c fs) :=
  (decode_in w hw _ (closed_mod w hdef c.mod) n c b fs b' rfl hd).1

/-- **C57.** In a decoded message all mandatory parts are there, and it is not nested deeper than the call stack was. -/
theorem C57_complete (w : World) (hw : FreshSuppliers w) (n : Nat) (c : Cls) (b b' : RBuf) (fs : List Val)
    (hd : decode w n c (freshFields c) b = (fs, b', none)) : complete (.obj c fs) = true ∧ depth (.obj c fs) ≤ n := by
  have hin := decode_in w hw _ (closed_true w) n c b fs b' trivial hd
  exact ⟨hin.2.1, hin.2.2⟩

/-- **C55 for the exchange protocols** (all but the sample protocol): the only condition is that no text contains the replacement character. -/
theorem C55_exchange (w : World) (hw : FreshSuppliers w) (hdef : DefaultClasses w) (n : Nat) (c : Cls) (hc : c.mod ≠ .sample) (b b' : RBuf)
    (fs : List Val) (hd : decode w n c (freshFields c) b = (fs, b', none)) (hr : everywhere noReplacement (.obj c fs))
    (ws : World) (m : Nat) (hm : n ≤ m) (out : WBuf) (hout : out.Valid) (hroom : out.data.length + (image (.obj c fs)).length ≤ out.maxCap) :
    ∃ bytes fs', (encode ws m (.obj c fs) out).2.1.data = out.data ++ bytes
      ∧ (∀ before after spare, decode w n c (freshFields c) ⟨before ++ bytes ++ after, spare, before.length⟩ =
          (fs', ⟨before ++ bytes ++ after, spare, before.length + bytes.length⟩, none))
      ∧ blank (.obj c fs') = blank (.obj c fs) :=
  C55_relay w hw n c b b' fs hd (intact_of c fs hc (C57_one_protocol w hw hdef n c b b' fs hd) hr) ws m hm out hout hroom

/-- The hypotheses of the theorems of this file are met: the default factories, and the message of `Props/DecodeLocal.lean`. -/
def exDecoded : List Val := (decode World.initial 1 .sse_ExecRptInfo (freshFields .sse_ExecRptInfo) ⟨[9] ++ exBytes ++ [8], [], 1⟩).1

example : (decode World.initial 1 .sse_ExecRptInfo (freshFields .sse_ExecRptInfo) ⟨[9] ++ exBytes ++ [8], [], 1⟩).2.2 = none
    ∧ everywhere noReplacement (.obj .sse_ExecRptInfo exDecoded) ∧ everywhere intact (.obj .sse_ExecRptInfo exDecoded)
    ∧ everywhere present (.obj .sse_ExecRptInfo exDecoded) ∧ frameless (.obj .sse_ExecRptInfo exDecoded) = true := by decide +kernel

example : FreshSuppliers World.initial ∧ DefaultClasses World.initial ∧ Cls.mod .sse_ExecRptInfo ≠ .sample :=
  ⟨C31_default_factories, C28_default_world.2, by decide⟩

/-- The texts in a list. -/
def depthTexts : Val → List JStr
  | .list xs => xs.map Val.text
  | _ => []

/-- **C55 needs `noReplacement`.** Eight bytes that are not UTF-8 are decoded to eight U+FFFD; these take 24 bytes, of which `encode` writes the first
eight; the second receiver gets three of them. -/
theorem C55_replacement_violated :
    ∃ bytes : List Byte,
      let first := decode World.initial 1 .sse_ExecRptInfo (freshFields .sse_ExecRptInfo) ⟨bytes, [], 0⟩
      let sent := encode World.initial 1 (.obj .sse_ExecRptInfo first.1) ⟨[], 0, 100⟩
      let second := decode World.initial 1 .sse_ExecRptInfo (freshFields .sse_ExecRptInfo) ⟨sent.2.1.data, [], 0⟩
      first.2.2 = none ∧ sent.2.2 = none ∧ second.2.2 = none
        ∧ first.1[1]?.map depthTexts = some [[0xFFFD, 0xFFFD, 0xFFFD, 0xFFFD, 0xFFFD, 0xFFFD, 0xFFFD, 0xFFFD]]
        ∧ second.1[1]?.map depthTexts = some [[0xFFFD, 0xFFFD, 0xFFFD]] := by
  refine ⟨[0, 7, 0, 1, 0x80, 0x80, 0x80, 0x80, 0x80, 0x80, 0x80, 0x80, 0, 0], ?_⟩
  decide +kernel

/-- The number of elements of a list; none for null. -/
def listSize : Val → Option Nat
  | .list xs => some xs.length
  | _ => none

/-- **C55 needs `leftFilled` and `listFilled`** (sample protocol). A left-padded text that is all padding is decoded to the empty text, which `encode` leaves out
altogether: the second receiver fails.  A list of empty strings is decoded to an empty list, which the second receiver gets as null. -/
theorem C55_sample_violated :
    (∃ bytes : List Byte,
      let first := decode World.initial 1 .sample_BasicPacket (freshFields .sample_BasicPacket) ⟨bytes, [], 0⟩
      let sent := encode World.initial 1 (.obj .sample_BasicPacket first.1) ⟨[], 0, 100⟩
      first.2.2 = none ∧ sent.2.2 = none
        ∧ (decode World.initial 1 .sample_BasicPacket (freshFields .sample_BasicPacket) ⟨sent.2.1.data, [], 0⟩).2.2 = some .indexOutOfBounds)
    ∧ (∃ bytes : List Byte,
      let first := decode World.initial 1 .sample_StringPacket (freshFields .sample_StringPacket) ⟨bytes, [], 0⟩
      let sent := encode World.initial 1 (.obj .sample_StringPacket first.1) ⟨[], 0, 100⟩
      let second := decode World.initial 1 .sample_StringPacket (freshFields .sample_StringPacket) ⟨sent.2.1.data, [], 0⟩
      first.2.2 = none ∧ sent.2.2 = none ∧ second.2.2 = none ∧ first.1[6]?.map listSize = some (some 0) ∧ second.1[6]?.map listSize = some none) := by
  refine ⟨⟨List.replicate 15 0 ++ [0x30] ++ List.replicate 49 0, ?_⟩,
    ⟨[0, 0, 0, 0] ++ List.replicate 31 0x41 ++ [1, 0, 0, 0] ++ List.replicate 10 0, ?_⟩⟩
  · decide +kernel
  · decide +kernel

/-! ### C56 -/

/-- **C56.** If no bytes were replaced or dropped and no optional part is absent, the message is exactly the bytes `decode` consumed. -/
theorem C56_same_bytes (w : World) (hw : FreshSuppliers w) (n : Nat) (c : Cls) (b b' : RBuf) (fs : List Val)
    (hd : decode w n c (freshFields c) b = (fs, b', none)) (hi : everywhere intact (.obj c fs)) (hp : everywhere present (.obj c fs)) :
    Consumed b b' (image (.obj c fs)) :=
  decode_slice w hw n c b fs b' hd (everywhere_and c fs hi hp)

/-- **C56.** Sending on such a message writes exactly the bytes that were received, if `encode` finds nothing to change in it (its length and checksum fields,
if it has any, were right). -/
theorem C56_reproduced (w : World) (hw : FreshSuppliers w) (n : Nat) (c : Cls) (b b' : RBuf) (fs : List Val)
    (hd : decode w n c (freshFields c) b = (fs, b', none)) (hi : everywhere intact (.obj c fs)) (hp : everywhere present (.obj c fs))
    (ws : World) (m : Nat) (hm : n ≤ m) (out : WBuf) (hout : out.Valid) (hroom : out.data.length + (b'.rd - b.rd) ≤ out.maxCap)
    (hsame : (encode ws m (.obj c fs) out).1 = .obj c fs) :
    encode ws m (.obj c fs) out =
      (.obj c fs, { out with data := out.data ++ ((b.data ++ b.spare).drop b.rd).take (b'.rd - b.rd) }, none) := by
  obtain ⟨h1, h2⟩ := C56_same_bytes w hw n c b b' fs hd hi hp
  have hlen : b'.rd - b.rd = (image (.obj c fs)).length := by rw [h1]; simp
  rw [hlen] at hroom ⊢
  obtain ⟨ht, hok⟩ := C55_sendable w hw n c b b' fs hd ws m hm out hout hroom
  have h3 := (encode_ok ws m _ out ht hout hok).2.2
  rw [h3] at hsame ⊢
  dsimp only at hsame
  rw [hsame, ← List.prefix_iff_eq_take.mp h2]
  rfl

/-- **C56.** Such messages are unambiguous: if two buffers are decoded to the same object then the same bytes were consumed. -/
theorem C56_unambiguous (w : World) (hw : FreshSuppliers w) (n1 n2 : Nat) (c : Cls) (b1 b1' b2 b2' : RBuf) (fs : List Val)
    (hd1 : decode w n1 c (freshFields c) b1 = (fs, b1', none)) (hd2 : decode w n2 c (freshFields c) b2 = (fs, b2', none))
    (hi : everywhere intact (.obj c fs)) (hp : everywhere present (.obj c fs)) :
    ∃ bytes, Consumed b1 b1' bytes ∧ Consumed b2 b2' bytes :=
  ⟨_, C56_same_bytes w hw n1 c b1 b1' fs hd1 hi hp, C56_same_bytes w hw n2 c b2 b2' fs hd2 hi hp⟩

/-- **C56 needs `present`.** Two different byte sequences for the same message: the count of an absent list is 0 or -1. -/
theorem C56_absent_violated :
    ∃ (x y : List Byte), x ≠ y ∧
      let f := decode World.initial 1 .sse_ExecRptInfo (freshFields .sse_ExecRptInfo) ⟨x, [], 0⟩
      let g := decode World.initial 1 .sse_ExecRptInfo (freshFields .sse_ExecRptInfo) ⟨y, [], 0⟩
      f.1 = g.1 ∧ f.2.2 = none ∧ g.2.2 = none ∧ f.2.1.rd = x.length ∧ g.2.1.rd = y.length := by
  refine ⟨[0, 7, 0, 0, 0, 0], [0, 7, 0, 0, 0xFF, 0xFF], by decide, ?_⟩
  refine ⟨rfl, ?_⟩
  decide +kernel

private theorem exDecoded_of : ∃ b', decode World.initial 1 .sse_ExecRptInfo (freshFields .sse_ExecRptInfo) ⟨[9] ++ exBytes ++ [8], [], 1⟩ = (exDecoded, b', none)
    ∧ b'.rd = 1 + exBytes.length :=
  ⟨_, Prod.ext rfl (Prod.ext rfl (by decide +kernel)), by decide +kernel⟩

/-- The theorems on that message. -/
example : True := by
  obtain ⟨b', hd, hb⟩ := exDecoded_of
  have := C55_sendable World.initial C31_default_factories 1 .sse_ExecRptInfo _ b' exDecoded hd World.initial 1 (by decide) ⟨[7], 0, 100⟩ ⟨by decide, by decide⟩
    (by decide +kernel)
  have := C55_relay World.initial C31_default_factories 1 .sse_ExecRptInfo _ b' exDecoded hd (by decide +kernel) World.initial 1 (by decide) ⟨[7], 0, 100⟩
    ⟨by decide, by decide⟩ (by decide +kernel)
  have := C55_relay_plain World.initial C31_default_factories 1 .sse_ExecRptInfo _ b' exDecoded hd (by decide +kernel) (by decide +kernel) World.initial 1 (by decide)
    ⟨[7], 0, 100⟩ ⟨by decide, by decide⟩ (by decide +kernel)
  have := C57_one_protocol World.initial C31_default_factories C28_default_world.2 1 .sse_ExecRptInfo _ b' exDecoded hd
  have := C57_complete World.initial C31_default_factories 1 .sse_ExecRptInfo _ b' exDecoded hd
  have := C55_exchange World.initial C31_default_factories C28_default_world.2 1 .sse_ExecRptInfo (by decide) _ b' exDecoded hd (by decide +kernel) World.initial 1
    (by decide) ⟨[7], 0, 100⟩ ⟨by decide, by decide⟩ (by decide +kernel)
  have := C56_same_bytes World.initial C31_default_factories 1 .sse_ExecRptInfo _ b' exDecoded hd (by decide +kernel) (by decide +kernel)
  have := C56_reproduced World.initial C31_default_factories 1 .sse_ExecRptInfo _ b' exDecoded hd (by decide +kernel) (by decide +kernel) World.initial 1 (by decide)
    ⟨[7], 0, 100⟩ ⟨by decide, by decide⟩ (by rw [hb]; decide +kernel)
    (by rw [C22_encode_plain World.initial 1 (.obj .sse_ExecRptInfo exDecoded) ⟨[7], 0, 100⟩ (by decide +kernel) ⟨by decide, by decide⟩ (by decide +kernel)
      (by decide +kernel)])
  have := C56_unambiguous World.initial C31_default_factories 1 1 .sse_ExecRptInfo _ b' _ b' exDecoded hd hd (by decide +kernel) (by decide +kernel)
  trivial

end FinProto
