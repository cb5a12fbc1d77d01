import Verif.Model.Factory
import Verif.Proofs.Resume
import Verif.Proofs.DecodeErrors
import Verif.Props.DecodeLocal
/-
C54: decoding again when more bytes have arrived.
-/
namespace FinProto

/-- **C54.** A message arrives in pieces.  `decode` is tried when only its first bytes are there (whatever the outcome, and whatever is
behind the writer index), the reader index is reset, and `decode` is tried again on the same object when all bytes are there.  If the message
could have been decoded in one go, the second attempt has exactly the same result: nothing of the first one is left. -/
theorem C54_resume (w : World) (n : Nat) (c : Cls) (olds : List Val) (before part rest spare spare' : List Byte)
    (hv : wellTyped (.obj c olds) = true)
    (hok : (decode w n c olds ⟨before ++ part ++ rest, spare', before.length⟩).2.2 = none) :
    decode w n c (decode w n c olds ⟨before ++ part, spare, before.length⟩).1 ⟨before ++ part ++ rest, spare', before.length⟩
      = decode w n c olds ⟨before ++ part ++ rest, spare', before.length⟩ := by
  simp only [wellTyped, hasType, Bool.true_and] at hv
  exact decode_resume w n c olds _ _ hv ⟨⟨rest, rfl⟩, .inl rfl⟩ hok

/-- Attempts on several parts of a message, each with some leftover bytes behind the writer index, one after the other on the same object. -/
def pieces (w : World) (n : Nat) (c : Cls) (before : List Byte) : List (List Byte × List Byte) → List Val → List Val
  | [], fs => fs
  | (part, spare) :: more, fs => pieces w n c before more (decode w n c fs ⟨before ++ part, spare, before.length⟩).1

/-- **C54.** The same for any number of attempts, on any prefixes of the message, in any order. -/
theorem C54_pieces (w : World) (hw : TypedSuppliers w) (n : Nat) (c : Cls) (olds : List Val) (before message spare' : List Byte)
    (parts : List (List Byte × List Byte)) (hparts : ∀ p ∈ parts, p.1 <+: message)
    (hv : wellTyped (.obj c olds) = true)
    (hok : (decode w n c olds ⟨before ++ message, spare', before.length⟩).2.2 = none) :
    decode w n c (pieces w n c before parts olds) ⟨before ++ message, spare', before.length⟩
      = decode w n c olds ⟨before ++ message, spare', before.length⟩ := by
  simp only [wellTyped, hasType, Bool.true_and] at hv
  induction parts generalizing olds with
  | nil => rfl
  | cons p parts ih =>
    obtain ⟨part, spare⟩ := p
    have hp := hparts (part, spare) (by simp)
    have h1 := decode_resume w n c olds ⟨before ++ part, spare, before.length⟩ ⟨before ++ message, spare', before.length⟩ hv
      ⟨(List.prefix_append_right_inj before).mpr hp, .inl rfl⟩ hok
    simp only [pieces]
    rw [← h1]
    exact ih _ (fun q hq => hparts q (by simp [hq])) (by rw [h1]; exact hok)
      (decode_typed w hw n c olds _ hv).1

/-- The message of `Props/DecodeLocal.lean`: the first attempt stops in the second element of the first list. -/
example : wellTyped (.obj .sse_ExecRptInfo (freshFields .sse_ExecRptInfo)) = true
    ∧ (decode World.initial 1 .sse_ExecRptInfo (freshFields .sse_ExecRptInfo) ⟨[9] ++ exBytes.take 14, [], 1⟩).2.2 = some .indexOutOfBounds
    ∧ image (.obj .sse_ExecRptInfo
        (decode World.initial 1 .sse_ExecRptInfo (freshFields .sse_ExecRptInfo) ⟨[9] ++ exBytes.take 14, [], 1⟩).1)
      ≠ image (.obj .sse_ExecRptInfo (freshFields .sse_ExecRptInfo))
    ∧ (decode World.initial 1 .sse_ExecRptInfo (freshFields .sse_ExecRptInfo) ⟨[9] ++ exBytes.take 14 ++ exBytes.drop 14, [], 1⟩).2.2
      = none := by decide +kernel

/-- **C54 needs the same bytes again.** If the object is used for a different message after the failed attempt, parts of the first one can stay:
here a string of the first message shows up in the second, which has an empty one. -/
theorem C54_other_message_keeps :
    ∃ (first second : List Byte),
      (decode World.initial 1 .sample_StringPacket (freshFields .sample_StringPacket) ⟨first, [], 0⟩).2.2 = some .indexOutOfBounds
      ∧ (decode World.initial 1 .sample_StringPacket (freshFields .sample_StringPacket) ⟨second, [], 0⟩).2.2 = none
      ∧ (decode World.initial 1 .sample_StringPacket (freshFields .sample_StringPacket) ⟨second, [], 0⟩).1[0]?.map Val.text = some []
      ∧ (decode World.initial 1 .sample_StringPacket
          (decode World.initial 1 .sample_StringPacket (freshFields .sample_StringPacket) ⟨first, [], 0⟩).1 ⟨second, [], 0⟩).1[0]?.map Val.text
          = some (js "A") :=
  ⟨[1, 0, 0x41], List.replicate 100 0, by decide +kernel⟩

/-- `C54_resume` on that message. -/
example := C54_resume World.initial 1 .sse_ExecRptInfo (freshFields .sse_ExecRptInfo) [9] (exBytes.take 14) (exBytes.drop 14) [] [] (by decide +kernel)
  (by decide +kernel)

end FinProto
