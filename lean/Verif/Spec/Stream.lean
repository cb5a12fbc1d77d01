import Verif.Spec.Suppliers
/-
A receiver of a byte stream that is built on `decode`: it collects the bytes that arrive and tries to decode a new message from what it has.
On an index error it waits for more bytes; on any other exception it gives up.
-/
namespace FinProto

/-- What a receiver has: the messages (field values) delivered so far, the bytes not yet used, and whether it has given up. -/
structure Inbox where
  delivered : List (List Val)
  pending : List Byte
  gaveUp : Bool

/-- Take as many messages of class `c` from the bytes as there are.  (A message without bytes is not taken: there would be no end.) -/
def unpack (w : World) (n : Nat) (c : Cls) (bytes : List Byte) : Inbox :=
  match decode w n c (freshFields c) ⟨bytes, [], 0⟩ with
  | (fs, b, none) =>
    if _h : 0 < b.rd ∧ b.rd ≤ bytes.length then
      let rest := unpack w n c (bytes.drop b.rd)
      { rest with delivered := fs :: rest.delivered }
    else ⟨[], bytes, false⟩
  | (_, _, some .indexOutOfBounds) => ⟨[], bytes, false⟩
  | (_, _, some _) => ⟨[], bytes, true⟩
  termination_by bytes.length
  decreasing_by simp only [List.length_drop]; omega

/-- More bytes arrive. -/
def Inbox.receive (w : World) (n : Nat) (c : Cls) (i : Inbox) (chunk : List Byte) : Inbox :=
  if i.gaveUp then { i with pending := i.pending ++ chunk }
  else
    let r := unpack w n c (i.pending ++ chunk)
    { r with delivered := i.delivered ++ r.delivered }

/-- The bytes arrive in these chunks. -/
def Inbox.receiveChunks (w : World) (n : Nat) (c : Cls) (chunks : List (List Byte)) : Inbox :=
  chunks.foldl (Inbox.receive w n c) ⟨[], [], false⟩

/-- The same with a buffer that holds old bytes behind the writer index (a buffer that is reused, as receivers usually do). -/
def unpackWith (w : World) (n : Nat) (c : Cls) (old : List Byte) (bytes : List Byte) : Inbox :=
  match decode w n c (freshFields c) ⟨bytes, old, 0⟩ with
  | (fs, b, none) =>
    if _h : 0 < b.rd ∧ bytes ≠ [] then
      let rest := unpackWith w n c old (bytes.drop b.rd)
      { rest with delivered := fs :: rest.delivered }
    else ⟨[], bytes, false⟩
  | (_, _, some .indexOutOfBounds) => ⟨[], bytes, false⟩
  | (_, _, some _) => ⟨[], bytes, true⟩
  termination_by bytes.length
  decreasing_by
    have := List.length_pos_iff.mpr _h.2
    simp only [List.length_drop]; omega

/-- More bytes arrive; behind the writer index there are now these old bytes. -/
def Inbox.receiveWith (w : World) (n : Nat) (c : Cls) (i : Inbox) (chunk : List Byte × List Byte) : Inbox :=
  if i.gaveUp then { i with pending := i.pending ++ chunk.1 }
  else
    let r := unpackWith w n c chunk.2 (i.pending ++ chunk.1)
    { r with delivered := i.delivered ++ r.delivered }

/-- The bytes arrive in these chunks, each together with the old bytes that are then behind the writer index. -/
def Inbox.receiveChunksWith (w : World) (n : Nat) (c : Cls) (chunks : List (List Byte × List Byte)) : Inbox :=
  chunks.foldl (Inbox.receiveWith w n c) ⟨[], [], false⟩

end FinProto
