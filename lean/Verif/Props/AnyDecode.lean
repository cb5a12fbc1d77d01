import Verif.Proofs.CalmDecode
import Verif.Props.RoundTrip
import Verif.Proofs.Everywhere
/-
C114: decoding while anything happens to the objects in memory.
-/
namespace FinProto

/-- The three elements 1, 2, 3 of a list, behind the number 7; one byte of what follows. -/
private def threeBytes : RBuf := ⟨[7, 0, 0, 0, 3, 0, 1, 0, 2, 0, 3, 0, 99], [], 0⟩

/-- A new packet. -/
private def newSub : Heap := [.msg .sample_SubPacket [.num ⟨.i32, 0⟩, .null]]

/-- Before the access number `j` the elements of the list at 1 become `ys`. -/
private def relisted (j : Nat) (ys : List HVal) : Acts := fun k h =>
  if k = j then (match (h[1]? : Option HObj) with | some (.arr _) => h.set 1 (.arr ys) | _ => h) else h

private theorem relisted_steady (j : Nat) (ys : List HVal) : Steady (relisted j ys) := by
  refine steady_of fun k h hp r i => ?_
  unfold relisted
  split
  · split
    · next ha => exact .arr hp ha
    · exact .refl hp
  · exact .refl hp

private theorem newSub_ok : PartsOK newSub := by
  have : newSub = [] ++ [newMsg .sample_SubPacket] := rfl
  rw [this]
  exact PartsOK.more (fun r c ys h => by simp at h) (newMsg_parts _)

/-- **C114.** Whatever other threads do to the objects in memory during `decode`, it does not change the bytes in the buffer; the reader index does not go back, and not
beyond the bytes there are.  Also if it throws. -/
theorem C114_reads (sup : Suppliers) (o : Acts) (n r : Nat) (h : Heap) (k : Nat) (b : RBuf) :
    let b' := (adecode sup o n r h k b).2.2.1
    b'.data = b.data ∧ b'.spare = b.spare ∧ b.rd ≤ b'.rd ∧ b'.rd ≤ max b.rd (b.data ++ b.spare).length :=
  adecode_fwd sup o n r h k b

/-- The list becomes an empty one while its elements are read. -/
example : let r := adecode World.initial.suppliers (relisted 4 []) 9 0 newSub 0 threeBytes
    r.2.2.2 = none ∧ r.2.2.1.rd = 12 ∧ r.1[1]? = some (.arr [.num ⟨.i16, 2⟩, .num ⟨.i16, 3⟩]) := ⟨by decide +kernel, by decide +kernel, rfl⟩

/-- **C114.** If nothing else happens, it does what `decode` does alone (C65, C66). -/
theorem C114_quiet (sup : Suppliers) (n r : Nat) (h : Heap) (k : Nat) (b : RBuf) :
    ((adecode sup (fun _ h => h) n r h k b).1, (adecode sup (fun _ h => h) n r h k b).2.2) = hdecode sup n r h b := by
  obtain ⟨k', e⟩ := adecode_quiet sup n r h k b
  have e' : adecode sup (fun _ h => h) n r h k b = _ := e
  rw [e']

example : (adecode World.initial.suppliers (fun _ h => h) 9 0 newSub 0 threeBytes).1[1]? = some (.arr [.num ⟨.i16, 1⟩, .num ⟨.i16, 2⟩, .num ⟨.i16, 3⟩]) := rfl

/-- **C114.** Other threads may call setters of the message and of any other, at any time, change lists and create objects, as long as they do not set message types and
bodies.  If `decode` returns, it has read exactly the bytes it reads alone into a new message; so what follows in the stream is found where it is.  If alone it throws, it
throws here too. -/
theorem C114_position (w : World) (hw : FreshSuppliers w) (o : Acts) (ho : Steady o) (n r : Nat) (h : Heap) (hp : PartsOK h) (k : Nat) (b : RBuf) (c : Cls)
    (ys : List HVal) (hr : h[r]? = some (.msg c ys)) (hx : (adecode w.suppliers o n r h k b).2.2.2 = none) :
    (decode w n c (freshFields c) b).2 = ((adecode w.suppliers o n r h k b).2.2.1, none) :=
  ((adecode_ok hw ho n r c ys h k b hp hr).2 hx).1

example : FreshSuppliers World.initial ∧ Steady (relisted 4 [.num ⟨.i16, 9⟩]) ∧ PartsOK newSub ∧
    (adecode World.initial.suppliers (relisted 4 [.num ⟨.i16, 9⟩]) 9 0 newSub 0 threeBytes).2.2.2 = none :=
  ⟨fun f k v h => freshMap_initial f k v h, relisted_steady _ _, newSub_ok, by decide +kernel⟩

/-- A new SSE frame. -/
private def newFrame : Heap := [.msg .sse_SseBinary [.num ⟨.i32, 0⟩, .num ⟨.i64, 0⟩, .num ⟨.i32, 0⟩, .null, .num ⟨.i32, 0⟩]]

private theorem newFrame_ok : PartsOK newFrame := by
  have : newFrame = [] ++ [newMsg .sse_SseBinary] := rfl
  rw [this]
  exact PartsOK.more (fun r c ys h => by simp at h) (newMsg_parts _)

/-- A heartbeat in an SSE frame, and behind it bytes of what follows. -/
private def beatBytes : RBuf := ⟨[0, 0, 0, 33, 0, 0, 0, 0, 0, 0, 0, 7, 0, 0, 0, 0, 0, 0, 0, 9] ++ List.replicate 200 0x20, [], 0⟩

private theorem seq_plain : ¬ Steers .sse_SseBinary 1 := by
  rintro ⟨i, fac, key, h, hi⟩
  have hw : wire .sse_SseBinary = [.num .i32, .num .i64, .len .i32, .ext .sse_SseBinary 0, .cksum .i32 "SSE_BIN"] := rfl
  rw [hw] at h
  rcases i with _ | _ | _ | _ | _ | i <;> simp at h
  omega

/-- Others keep creating messages. -/
private def creating : Acts := fun _ h => h ++ [newMsg .sse_Logon]

private theorem creating_steady : Steady creating := steady_of fun _ _ hp _ _ => .new hp _

/-- **C114.** Message types and bodies are then as alone too: the same type, and a body of the same class. -/
theorem C114_kind (w : World) (hw : FreshSuppliers w) (o : Acts) (ho : Steady o) (n r : Nat) (h : Heap) (hp : PartsOK h) (k : Nat) (b : RBuf) (c : Cls)
    (ys : List HVal) (hr : h[r]? = some (.msg c ys)) (hx : (adecode w.suppliers o n r h k b).2.2.2 = none) (f : Nat) (hf : Steers c f) :
    ∃ y v, (adecode w.suppliers o n r h k b).1.field r f = some y ∧ (decode w n c (freshFields c) b).1[f]? = some v ∧
      LooksLike (adecode w.suppliers o n r h k b).1 y v := by
  have hlt : f < (wire c).length := by
    rcases steers_kind hf with ⟨_, _, h1⟩ | ⟨_, h1⟩ | ⟨_, _, _, h1⟩ <;> exact (List.getElem?_eq_some_iff.mp h1).1
  exact ((adecode_ok hw ho n r c ys h k b hp hr).2 hx).2 f hlt hf

set_option maxRecDepth 10000 in
example : FreshSuppliers World.initial ∧ Steady creating ∧ PartsOK newFrame ∧ Steers .sse_SseBinary 0 ∧ Steers .sse_SseBinary 3 ∧
    (let r := adecode World.initial.suppliers creating 9 0 newFrame 0 beatBytes
     r.2.2.2 = none ∧ r.1.field 0 0 = some (.num ⟨.i32, 33⟩) ∧ r.1.field 0 3 = some (.ref 5) ∧ r.1[5]? = some (.msg .sse_Heartbeat [])) :=
  ⟨fun f k v h => freshMap_initial f k v h, creating_steady, newFrame_ok, ⟨3, _, _, rfl, .inr rfl⟩, ⟨3, _, _, rfl, .inl rfl⟩, by decide +kernel, by decide +kernel,
    by decide +kernel, rfl⟩

/-- **C114.** Message types and bodies of all other messages stay, messages keep their classes, and parts are still of the declared classes; also if `decode` throws. -/
theorem C114_others (w : World) (hw : FreshSuppliers w) (o : Acts) (ho : Steady o) (n r : Nat) (h : Heap) (hp : PartsOK h) (k : Nat) (b : RBuf) (c : Cls)
    (ys : List HVal) (hr : h[r]? = some (.msg c ys)) :
    PartsOK (adecode w.suppliers o n r h k b).1 ∧
      ∀ (q : Nat) e zs, h[q]? = some (.msg e zs) → (∃ zs', (adecode w.suppliers o n r h k b).1[q]? = some (.msg e zs')) ∧
        ∀ f, Steers e f → q ≠ r → (adecode w.suppliers o n r h k b).1.field q f = h.field q f :=
  (adecode_ok hw ho n r c ys h k b hp hr).1

/-- Decoding into a packet beside a frame. -/
example : PartsOK (newFrame ++ [newMsg .sample_SubPacket]) ∧ (newFrame ++ [newMsg .sample_SubPacket])[1]? = some (newMsg .sample_SubPacket) ∧
    (newFrame ++ [newMsg .sample_SubPacket])[0]? = some (newMsg .sse_SseBinary) :=
  ⟨newFrame_ok.more (newMsg_parts _), rfl, rfl⟩

/-- **C114.** Setters of other fields than message types, bodies and parts are among what others may do. -/
theorem C114_setters (l : Nat → List SetCall) (hl : ∀ k, ∀ s ∈ l k, ¬ Steers s.c s.f ∧ ∀ d, (javaTypes s.c)[s.f]? ≠ some (.obj d)) : Steady (setActs l) :=
  steady_of fun k h hp r i => setActs_mild (l k) (hl k) h hp r i

/-- `setMsgSeqNum(5)` before each access. -/
private def seqSets : Nat → List SetCall := fun _ => [⟨.sse_SseBinary, 0, 1, .num ⟨.i64, 5⟩⟩]

private theorem seqSets_ok : ∀ k, ∀ s ∈ seqSets k, ¬ Steers s.c s.f ∧ ∀ d, (javaTypes s.c)[s.f]? ≠ some (.obj d) := by
  intro k s hs
  simp only [seqSets, List.mem_singleton] at hs
  subst hs
  exact ⟨seq_plain, fun d h => by cases h⟩

set_option maxRecDepth 10000 in
example : Steady (setActs seqSets) ∧ PartsOK newFrame ∧
    (let r := adecode World.initial.suppliers (setActs seqSets) 9 0 newFrame 0 beatBytes
     r.2.2.2 = none ∧ r.2.2.1.rd = 20 ∧ r.1 = [.msg .sse_SseBinary [.num ⟨.i32, 33⟩, .num ⟨.i64, 5⟩, .num ⟨.i32, 0⟩, .ref 1, .num ⟨.i32, 9⟩], .msg .sse_Heartbeat []]) :=
  ⟨C114_setters _ seqSets_ok, newFrame_ok, by decide +kernel, by decide +kernel, rfl⟩

/-! ### If lists and parts are not set -/

/-- **C114.** If others do not set lists and parts either, but any numbers and texts other than message types, and change the contents of lists, then `decode` ends as it
ends alone, into a new message: it returns or throws the same exception, with the reader index at the same place. -/
theorem C114_outcome (w : World) (hw : FreshSuppliers w) (o : Acts) (ho : Calm o) (n r : Nat) (h : Heap) (hp : PartsOK h) (k : Nat) (b : RBuf) (c : Cls)
    (ys : List HVal) (hr : h[r]? = some (.msg c ys)) : (adecode w.suppliers o n r h k b).2.2 = (decode w n c (freshFields c) b).2 :=
  (adecode_calm hw ho n r c ys h k b hp hr).1.symm

private theorem relisted_calm (j : Nat) (ys : List HVal) : Calm (relisted j ys) := by
  refine calm_of (relisted_steady j ys) fun k h hp => ?_
  unfold relisted
  split
  · split
    · next ha => exact .arr hp ha
    · exact .refl hp
  · exact .refl hp

/-- The bytes end in the second element. -/
example : Calm (relisted 4 [.num ⟨.i16, 9⟩]) ∧
    (let r := adecode World.initial.suppliers (relisted 4 [.num ⟨.i16, 9⟩]) 9 0 newSub 0 ⟨[7, 0, 0, 0, 3, 0, 1, 0, 2], [], 0⟩
     r.2.2.2 = some .indexOutOfBounds ∧ r.2.2.1.rd = 8 ∧ r.1[1]? = some (.arr [.num ⟨.i16, 9⟩])) :=
  ⟨relisted_calm _ _, by decide +kernel, by decide +kernel, rfl⟩

/-- **C114.** Bytes that `encode` has written are then decoded without an exception, and exactly these bytes, wherever they are in the buffer and whatever the receiving
object is like. -/
theorem C114_sent (ws wr : World) (hw : FreshSuppliers wr) (n m : Nat) (c : Cls) (fs : List Val) (b : WBuf) (hv : wellTyped (.obj c fs) = true)
    (hb : b.Valid) (hok : (encode ws n (.obj c fs) b).2.2 = none) (hl : legible wr (.obj c fs)) (hm : depth (.obj c fs) ≤ m) :
    ∃ bytes, (encode ws n (.obj c fs) b).2.1.data = b.data ++ bytes ∧ ∀ (o : Acts) (r : Nat) (h : Heap) (k : Nat) (ys : List HVal) (before after spare : List Byte),
      Calm o → PartsOK h → h[r]? = some (.msg c ys) →
      (adecode wr.suppliers o m r h k ⟨before ++ bytes ++ after, spare, before.length⟩).2.2 =
        (⟨before ++ bytes ++ after, spare, before.length + bytes.length⟩, none) := by
  obtain ⟨bytes, fs', h1, -, h2⟩ := C23_general ws wr n m c fs b hv hb hok hl hm
  refine ⟨bytes, h1, fun o r h k ys before after spare ho hp hr => ?_⟩
  rw [C114_outcome wr hw o ho m r h hp k _ c ys hr, h2]

/-- **C114.** Setters of numbers and texts, other than message types, are among what others may do. -/
theorem C114_setters_calm (l : Nat → List SetCall) (hl : ∀ k, ∀ s ∈ l k, ¬ Steers s.c s.f ∧ ¬ Held s.c s.f) : Calm (setActs l) :=
  calm_of (C114_setters l fun k s hs => ⟨(hl k s hs).1, fun d hd => (hl k s hs).2 (.inr ⟨d, hd⟩)⟩) fun k h hp => setActs_rest (l k) (fun s hs => (hl k s hs).2) h hp

/-- A packet with two elements. -/
private def sentSub : Val := .obj .sample_SubPacket [.num ⟨.i32, 7⟩, .list [.num ⟨.i16, 1⟩, .num ⟨.i16, 2⟩]]

/-- `setFieldU32(5)` before each access. -/
private def subSets : Nat → List SetCall := fun _ => [⟨.sample_SubPacket, 0, 0, .num ⟨.i32, 5⟩⟩]

private theorem subSets_ok : ∀ k, ∀ s ∈ subSets k, ¬ Steers s.c s.f ∧ ¬ Held s.c s.f := by
  intro k s hs
  simp only [subSets, List.mem_singleton] at hs
  subst hs
  constructor
  · rintro ⟨i, fac, key, h, -⟩
    have hw : wire .sample_SubPacket = [.num .i32, .list (.num .i16)] := rfl
    rw [hw] at h
    rcases i with _ | _ | i <;> simp at h
  · rintro (⟨e, h⟩ | ⟨d, h⟩) <;> cases h

example : Calm (setActs subSets) ∧ legible World.initial sentSub ∧ wellTyped sentSub = true ∧ (encode World.initial 9 sentSub ⟨[], 0, 100⟩).2.2 = none ∧ depth sentSub ≤ 9 ∧
    (adecode World.initial.suppliers (setActs subSets) 9 0 newSub 0 ⟨[1, 1, 7, 0, 0, 0, 2, 0, 1, 0, 2, 0, 99], [], 2⟩).1[0]? = some (.msg .sample_SubPacket [.num ⟨.i32, 5⟩, .ref 1]) :=
  ⟨C114_setters_calm _ subSets_ok, ⟨trivial, ⟨by decide +kernel, trivial, trivial, trivial⟩, trivial⟩, by decide +kernel, by decide +kernel, by decide +kernel, rfl⟩

/-! ### What does not hold -/

/-- **C114 violated.** If others change a list while its elements are added, elements may be lost, and others may be there instead; nothing is thrown. -/
theorem C114_list_violated :
    let r := adecode World.initial.suppliers (relisted 4 [.num ⟨.i16, 9⟩]) 9 0 newSub 0 threeBytes
    r.2.2.2 = none ∧ r.2.2.1.rd = 12 ∧ r.1 = [.msg .sample_SubPacket [.num ⟨.i32, 7⟩, .ref 1], .arr [.num ⟨.i16, 9⟩, .num ⟨.i16, 2⟩, .num ⟨.i16, 3⟩]] :=
  ⟨by decide +kernel, by decide +kernel, rfl⟩

/-- **C114 violated.** If another thread sets a list to null while its elements are read, `decode` throws although the bytes are in order. -/
theorem C114_null_violated :
    let r := adecode World.initial.suppliers (setActs fun k => if k = 4 then [⟨.sample_SubPacket, 0, 1, .null⟩] else []) 9 0 newSub 0 threeBytes
    r.2.2.2 = some .nullPointer ∧ r.2.2.1.rd = 10 := by
  decide +kernel

set_option maxRecDepth 10000 in
/-- **C114 violated.** If another thread sets the message type, the body may be read as a message of another class, made of bytes of the messages behind it. -/
theorem C114_type_violated :
    (let r := adecode World.initial.suppliers (setActs fun k => if k = 3 then [⟨.sse_SseBinary, 0, 0, .num ⟨.i32, 40⟩⟩] else []) 9 0 newFrame 0 beatBytes
     r.2.2.2 = none ∧ 20 < r.2.2.1.rd ∧ ∃ ys, r.1[1]? = some (.msg .sse_Logon ys)) ∧
    (let r := decode World.initial 9 .sse_SseBinary (freshFields .sse_SseBinary) beatBytes
     r.2.2 = none ∧ r.2.1.rd = 20) :=
  ⟨⟨by decide +kernel, by decide +kernel, _, rfl⟩, by decide +kernel, by decide +kernel⟩

/-- The frame at 0 gets the message at 1 as its body just before the body is decoded. -/
private def bodySwap : Acts := setActs fun k => if k = 5 then [⟨.sse_SseBinary, 0, 3, .ref 1⟩] else []

set_option maxRecDepth 10000 in
/-- **C114 violated.** If another thread sets the body, what follows the frame's head is decoded into that message: here into a logout that has nothing to do with the
frame. -/
theorem C114_body_violated :
    let r := adecode World.initial.suppliers bodySwap 9 0 (newFrame ++ [.msg .sse_Logout [.num ⟨.i32, 1⟩, .str [65]]]) 0 beatBytes
    r.2.2.2 = none ∧ 20 < r.2.2.1.rd ∧ r.1[1]? ≠ some (.msg .sse_Logout [.num ⟨.i32, 1⟩, .str [65]]) := by
  decide +kernel

end FinProto
