import Verif.Proofs.WeakHeap
import Verif.Props.RacingHeap
/-
C112: the same as C111, with reads as weak as the Java memory model allows for plain fields.
-/
namespace FinProto

/-- A sub packet (at 0) that occurs three times in a nested packet (at 4), which is the body of frames (at 6 to 9). -/
private def wkHeap : Heap :=
  [.msg .sample_SubPacket [.num ⟨.i32, 7⟩, .ref 1], .arr [.num ⟨.i16, 5⟩], .arr [.ref 0, .ref 0],
   .msg .sample_NestedPacket_InerPacket [.num ⟨.i32, 9⟩, .ref 1], .msg .sample_NestedPacket [.ref 0, .ref 2, .ref 3],
   .msg .sample_NestedPacket_InerPacket [.num ⟨.i32, 6⟩, .ref 1], .msg .sample_RootPacket [.num ⟨.i16, 4⟩, .num ⟨.i32, 0⟩, .ref 4, .num ⟨.i32, 0⟩],
   .msg .sse_SseBinary [.num ⟨.i32, 1⟩, .num ⟨.i64, 0x0000000100000002⟩, .num ⟨.i32, 0⟩, .ref 4, .num ⟨.i32, 3⟩],
   .msg .szse_SzseBinary [.num ⟨.i32, 1⟩, .num ⟨.i32, 0⟩, .ref 4, .num ⟨.i32, 3⟩], .msg .risk_RcBinary [.num ⟨.i32, 1⟩, .num ⟨.i32, 2⟩, .num ⟨.i32, 0⟩, .ref 4]]

/-- One thread calls `setFieldU32(8)` of the sub packet, another one `setMsgSeqNum` of the frame, each once. -/
private def once : Nat → Nat → HVal → Prop := fun r f y => (r = 0 ∧ f = 0 ∧ y = .num ⟨.i32, 8⟩) ∨ (r = 7 ∧ f = 1 ∧ y = .num ⟨.i64, 0x0000000300000004⟩)

/-- The sub packet is seen with the new value first and with the old one later; of the sequence number, two halves. -/
private def back : Seen := fun k r f =>
  if r = 0 ∧ f = 0 ∧ k < 8 then some (.num ⟨.i32, 8⟩) else if r = 7 ∧ f = 1 then some (.num ⟨.i64, 0x0000000300000002⟩) else none

private theorem back_may : MaySee wkHeap once back := by
  intro k r f y hy
  unfold back at hy
  split at hy
  · rename_i h
    obtain ⟨rfl, rfl, -⟩ := h
    cases hy
    exact ⟨.whole _ (.inr (.inl ⟨rfl, rfl, rfl⟩)), _, _, rfl, by decide, id⟩
  · split at hy
    · rename_i h
      obtain ⟨rfl, rfl⟩ := h
      cases hy
      exact ⟨.long 0x0000000300000004 0x0000000100000002 (.inr (.inr ⟨rfl, rfl, rfl⟩)) (.inl rfl), _, _, rfl, by decide, id⟩
    · cases hy

private theorem wkHeap_fits : HListsFit wkHeap := by
  intro a xs ha
  match a with
  | 0 | 3 | 4 | 5 | 6 | 7 | 8 | 9 => cases ha
  | 1 | 2 => cases ha; decide
  | a + 10 => simp [wkHeap] at ha

private theorem once_typed : STyped wkHeap once := by
  intro r f y hy c ys t hc ht
  rcases hy with ⟨rfl, rfl, rfl⟩ | ⟨rfl, rfl, rfl⟩ <;> cases hc <;> cases ht <;> exact .num rfl

/-- Values of the declared types, one by one. -/
private def Vals (h : Heap) : List FTy → List HVal → Prop
  | [], [] => True
  | t :: ts, y :: ys => ValOf h t y ∧ Vals h ts ys
  | _, _ => False

private theorem Vals.of (h : Heap) : ∀ (ts : List FTy) (ys : List HVal), Vals h ts ys →
    ys.length = ts.length ∧ ∀ (f : Nat) t y, ts[f]? = some t → ys[f]? = some y → ValOf h t y
  | [], [], _ => ⟨rfl, fun f t y h1 => by cases h1⟩
  | [], _ :: _, hv => hv.elim
  | _ :: _, [], hv => hv.elim
  | t :: ts, y :: ys, hv => by
    obtain ⟨h1, h2⟩ := Vals.of h ts ys hv.2
    refine ⟨by simp [h1], fun f t' y' g1 g2 => ?_⟩
    match f with
    | 0 => cases g1; cases g2; exact hv.1
    | f + 1 => exact h2 f t' y' g1 g2

private theorem wkHeap_typed : TypedHeap wkHeap := by
  have l1 : ValOf wkHeap (.list (.prim .i16)) (.ref 1) := .list (xs := [.num ⟨.i16, 5⟩]) rfl fun x hx => by
    rw [List.mem_singleton.1 hx]; exact .num rfl
  have l2 : ValOf wkHeap (.list (.obj .sample_SubPacket)) (.ref 2) := .list (xs := [.ref 0, .ref 0]) rfl fun x hx => by
    simp only [List.mem_cons, List.not_mem_nil, or_false, or_self] at hx
    rw [hx]; exact .obj (r := 0) rfl
  constructor
  · intro r c ys hr
    apply Vals.of
    match r with
    | 0 => cases hr; exact ⟨.num rfl, l1, trivial⟩
    | 1 | 2 => cases hr
    | 3 => cases hr; exact ⟨.num rfl, l1, trivial⟩
    | 4 => cases hr; exact ⟨.obj (r := 0) rfl, l2, .obj (r := 3) rfl, trivial⟩
    | 5 => cases hr; exact ⟨.num rfl, l1, trivial⟩
    | 6 => cases hr; exact ⟨.num rfl, .num rfl, .codec (r := 4) rfl, .num rfl, trivial⟩
    | 7 => cases hr; exact ⟨.num rfl, .num rfl, .num rfl, .codec (r := 4) rfl, .num rfl, trivial⟩
    | 8 => cases hr; exact ⟨.num rfl, .num rfl, .codec (r := 4) rfl, .num rfl, trivial⟩
    | 9 => cases hr; exact ⟨.num rfl, .num rfl, .num rfl, .codec (r := 4) rfl, trivial⟩
    | r + 10 => simp [wkHeap] at hr
  · have key : ∀ a e, Holds wkHeap a e → (a = 1 ∧ e = .prim .i16) ∨ (a = 2 ∧ e = .obj .sample_SubPacket) := by
      rintro a e ⟨r, c, ys, f, h1, h2, h3⟩
      match r with
      | 0 | 3 | 5 =>
        cases h1
        match f with
        | 0 => cases h2
        | 1 => cases h2; cases h3; exact .inl ⟨rfl, rfl⟩
        | f + 2 => cases h3
      | 1 | 2 => cases h1
      | 4 =>
        cases h1
        match f with
        | 0 | 2 => cases h2
        | 1 => cases h2; cases h3; exact .inr ⟨rfl, rfl⟩
        | f + 3 => cases h3
      | 7 =>
        cases h1
        match f with
        | 0 | 1 | 2 | 3 | 4 => cases h2
        | f + 5 => cases h3
      | 6 | 8 | 9 =>
        cases h1
        match f with
        | 0 | 1 | 2 | 3 => cases h2
        | f + 4 => cases h3
      | r + 10 => simp [wkHeap] at h1
    intro a e e' g1 g2
    rcases key a e g1 with ⟨rfl, rfl⟩ | ⟨rfl, rfl⟩ <;> rcases key _ e' g2 with ⟨h, rfl⟩ | ⟨h, rfl⟩ <;> first | rfl | cases h

/-- **C112.** While a thread encodes a message, other threads call setters of it and of any other message (`sets`), but not of lists and computed fields.  Each read
of a field may return anything the Java memory model could allow: a value from before the call, or one that is ever set, in any order, and for `long` and `double`
the halves of two of them.  If the call throws nothing, it has written exactly what it would, alone, with a message `v` each field of which is such a value. -/
theorem C112_mixture (w : World) (m : Seen) (n : Nat) (x : HVal) (h : Heap) (sets : Nat → Nat → HVal → Prop) (b : WBuf) (hm : MaySee h sets m) (hfit : HListsFit h)
    (h' : Heap) (k' : Nat) (b' : WBuf) (hrun : wencode w m n x h 0 b = (h', k', b', none)) : ∃ v, Picked h sets x v ∧ (encode w n v b).2 = (b', none) := by
  obtain ⟨g, hg, -⟩ := wencode_as hm hrun
  obtain ⟨v, hv, he⟩ := C111_mixture w _ n x h b (asSets_spares m h) hfit g k' b' hg
  exact ⟨v, saw_picked hm hv, he⟩

/-- The first occurrence has the new value, later ones have the old one. -/
example : MaySee wkHeap once back ∧ HListsFit wkHeap ∧
    (let r := wencode World.initial back 9 (.ref 4) wkHeap 0 ⟨[], 0, 100⟩
     r.2.2.1.data = [8, 0, 0, 0, 1, 0, 5, 0, 2, 0, 7, 0, 0, 0, 1, 0, 5, 0, 7, 0, 0, 0, 1, 0, 5, 0, 9, 0, 0, 0, 1, 0, 5, 0] ∧ r.2.2.2 = none) :=
  ⟨back_may, wkHeap_fits, by decide +kernel⟩

/-- **C112.** If variables hold values of their declared types, so does what was read: the bytes written are the wire form of a well-typed message of the class of
the encoded one, with its lengths and checksums computed (`settle`). -/
theorem C112_image (w : World) (m : Seen) (n r : Nat) (h : Heap) (sets : Nat → Nat → HVal → Prop) (b : WBuf) (hm : MaySee h sets m) (hfit : HListsFit h) (ht : TypedHeap h)
    (hs : STyped h sets) (c : Cls) (ys : List HVal) (hr : h[r]? = some (.msg c ys)) (hb : b.Valid) (h' : Heap) (k' : Nat) (b' : WBuf)
    (hrun : wencode w m n (.ref r) h 0 b = (h', k', b', none)) :
    ∃ vs, Picked h sets (.ref r) (.obj c vs) ∧ wellTyped (.obj c vs) = true ∧ b' = b.app (image (settle w.svc b.readable (.obj c vs))) := by
  obtain ⟨g, hg, -⟩ := wencode_as hm hrun
  obtain ⟨vs, hv, hw, e⟩ := C111_image w _ n r h b (asSets_spares m h) hfit ht (asSets_typed hm ht hs) c ys hr hb g k' b' hg
  exact ⟨vs, saw_picked hm hv, hw, e⟩

example : MaySee wkHeap once back ∧ HListsFit wkHeap ∧ TypedHeap wkHeap ∧ STyped wkHeap once ∧ (⟨[], 0, 100⟩ : WBuf).Valid ∧
    (wencode World.initial back 9 (.ref 4) wkHeap 0 ⟨[], 0, 100⟩).2.2.2 = none :=
  ⟨back_may, wkHeap_fits, wkHeap_typed, once_typed, ⟨by simp, by simp⟩, by decide +kernel⟩

/-- **C112.** A frame stays consistent whatever is read: the length is the number of body bytes that were really written, and the checksum is that of the bytes that
are really in front of it. -/
theorem C112_frame_sse (w : World) (m : Seen) (n r : Nat) (h : Heap) (sets : Nat → Nat → HVal → Prop) (b : WBuf) (hm : MaySee h sets m) (hfit : HListsFit h) (ht : TypedHeap h)
    (hs : STyped h sets) (ys : List HVal) (hr : h[r]? = some (.msg .sse_SseBinary ys)) (hb : b.Valid) (h' : Heap) (k' : Nat) (b' : WBuf)
    (hrun : wencode w m n (.ref r) h 0 b = (h', k', b', none)) :
    ∃ (ty seq ck : Num) (body : List Byte), b'.data = b.data ++ ty.bytes .be ++ seq.bytes .be ++ toBytes .be 4 body.length ++ body ++ ck.bytes .be
      ∧ ∀ s, w.svc.getService "SSE_BIN" = some s →
          ck = .int (s.calcOn ((b.data ++ ty.bytes .be ++ seq.bytes .be ++ toBytes .be 4 body.length ++ body).drop b.rd)) := by
  obtain ⟨g, hg, -⟩ := wencode_as hm hrun
  exact C111_frame_sse w _ n r h b (asSets_spares m h) hfit ht (asSets_typed hm ht hs) ys hr hb g k' b' hg

set_option maxRecDepth 10000 in
/-- The sequence number is torn, the part is seen to go back; the length is 34. -/
example : MaySee wkHeap once back ∧ HListsFit wkHeap ∧ TypedHeap wkHeap ∧ STyped wkHeap once ∧ (⟨[], 0, 100⟩ : WBuf).Valid ∧
    (let r := wencode World.initial back 9 (.ref 7) wkHeap 0 ⟨[], 0, 100⟩
     r.2.2.2 = none ∧ r.2.2.1.data = [0, 0, 0, 1, 0, 0, 0, 3, 0, 0, 0, 2, 0, 0, 0, 34, 8, 0, 0, 0, 1, 0, 5, 0, 2, 0, 7, 0, 0, 0, 1, 0, 5, 0, 7, 0, 0, 0, 1, 0, 5, 0, 9, 0, 0, 0, 1, 0, 5, 0, 0, 0, 0, 3]) :=
  ⟨back_may, wkHeap_fits, wkHeap_typed, once_typed, ⟨by simp, by simp⟩, by decide +kernel⟩

/-- **C112.** The same for `SzseBinary`. -/
theorem C112_frame_szse (w : World) (m : Seen) (n r : Nat) (h : Heap) (sets : Nat → Nat → HVal → Prop) (b : WBuf) (hm : MaySee h sets m) (hfit : HListsFit h) (ht : TypedHeap h)
    (hs : STyped h sets) (ys : List HVal) (hr : h[r]? = some (.msg .szse_SzseBinary ys)) (hb : b.Valid) (h' : Heap) (k' : Nat) (b' : WBuf)
    (hrun : wencode w m n (.ref r) h 0 b = (h', k', b', none)) :
    ∃ (ty ck : Num) (body : List Byte), b'.data = b.data ++ ty.bytes .be ++ toBytes .be 4 body.length ++ body ++ ck.bytes .be
      ∧ ∀ s, w.svc.getService "SZSE_BIN" = some s →
          ck = .int (s.calcOn ((b.data ++ ty.bytes .be ++ toBytes .be 4 body.length ++ body).drop b.rd)) := by
  obtain ⟨g, hg, -⟩ := wencode_as hm hrun
  exact C111_frame_szse w _ n r h b (asSets_spares m h) hfit ht (asSets_typed hm ht hs) ys hr hb g k' b' hg

set_option maxRecDepth 10000 in
example : MaySee wkHeap once back ∧ HListsFit wkHeap ∧ TypedHeap wkHeap ∧ STyped wkHeap once ∧ (⟨[], 0, 100⟩ : WBuf).Valid ∧
    (let r := wencode World.initial back 9 (.ref 8) wkHeap 0 ⟨[], 0, 100⟩
     r.2.2.2 = none ∧ r.2.2.1.data = [0, 0, 0, 1, 0, 0, 0, 34, 8, 0, 0, 0, 1, 0, 5, 0, 2, 0, 7, 0, 0, 0, 1, 0, 5, 0, 7, 0, 0, 0, 1, 0, 5, 0, 9, 0, 0, 0, 1, 0, 5, 0, 0, 0, 0, 3]) :=
  ⟨back_may, wkHeap_fits, wkHeap_typed, once_typed, ⟨by simp, by simp⟩, by decide +kernel⟩

/-- **C112.** The same for `RootPacket`. -/
theorem C112_frame_root (w : World) (m : Seen) (n r : Nat) (h : Heap) (sets : Nat → Nat → HVal → Prop) (b : WBuf) (hm : MaySee h sets m) (hfit : HListsFit h) (ht : TypedHeap h)
    (hs : STyped h sets) (ys : List HVal) (hr : h[r]? = some (.msg .sample_RootPacket ys)) (hb : b.Valid) (h' : Heap) (k' : Nat) (b' : WBuf)
    (hrun : wencode w m n (.ref r) h 0 b = (h', k', b', none)) :
    ∃ (ty ck : Num) (body : List Byte), b'.data = b.data ++ ty.bytes .le ++ toBytes .le 4 body.length ++ body ++ ck.bytes .le
      ∧ ∀ s, w.svc.getService "CRC32" = some s →
          ck = .int (s.calcOn ((b.data ++ ty.bytes .le ++ toBytes .le 4 body.length ++ body).drop b.rd)) := by
  obtain ⟨g, hg, -⟩ := wencode_as hm hrun
  exact C111_frame_root w _ n r h b (asSets_spares m h) hfit ht (asSets_typed hm ht hs) ys hr hb g k' b' hg

example : MaySee wkHeap once back ∧ HListsFit wkHeap ∧ TypedHeap wkHeap ∧ STyped wkHeap once ∧ (⟨[], 0, 100⟩ : WBuf).Valid ∧
    (let r := wencode World.initial back 9 (.ref 6) wkHeap 0 ⟨[], 0, 100⟩
     r.2.2.2 = none ∧ r.2.2.1.data.take 40 = [4, 0, 34, 0, 0, 0, 8, 0, 0, 0, 1, 0, 5, 0, 2, 0, 7, 0, 0, 0, 1, 0, 5, 0, 7, 0, 0, 0, 1, 0, 5, 0, 9, 0, 0, 0, 1, 0, 5, 0]
      ∧ r.2.2.1.data.length = 44) :=
  ⟨back_may, wkHeap_fits, wkHeap_typed, once_typed, ⟨by simp, by simp⟩, by decide +kernel⟩

/-- **C112.** The same for `RcBinary`, which has no checksum. -/
theorem C112_frame_rc (w : World) (m : Seen) (n r : Nat) (h : Heap) (sets : Nat → Nat → HVal → Prop) (b : WBuf) (hm : MaySee h sets m) (hfit : HListsFit h) (ht : TypedHeap h)
    (hs : STyped h sets) (ys : List HVal) (hr : h[r]? = some (.msg .risk_RcBinary ys)) (hb : b.Valid) (h' : Heap) (k' : Nat) (b' : WBuf)
    (hrun : wencode w m n (.ref r) h 0 b = (h', k', b', none)) :
    ∃ (ty ver : Num) (body : List Byte), b'.data = b.data ++ ty.bytes .be ++ ver.bytes .be ++ toBytes .be 4 body.length ++ body := by
  obtain ⟨g, hg, -⟩ := wencode_as hm hrun
  exact C111_frame_rc w _ n r h b (asSets_spares m h) hfit ht (asSets_typed hm ht hs) ys hr hb g k' b' hg

set_option maxRecDepth 10000 in
example : MaySee wkHeap once back ∧ HListsFit wkHeap ∧ TypedHeap wkHeap ∧ STyped wkHeap once ∧ (⟨[], 0, 100⟩ : WBuf).Valid ∧
    (let r := wencode World.initial back 9 (.ref 9) wkHeap 0 ⟨[], 0, 100⟩
     r.2.2.2 = none ∧ r.2.2.1.data = [0, 0, 0, 1, 0, 0, 0, 2, 0, 0, 0, 34, 8, 0, 0, 0, 1, 0, 5, 0, 2, 0, 7, 0, 0, 0, 1, 0, 5, 0, 7, 0, 0, 0, 1, 0, 5, 0, 9, 0, 0, 0, 1, 0, 5, 0]) :=
  ⟨back_may, wkHeap_fits, wkHeap_typed, once_typed, ⟨by simp, by simp⟩, by decide +kernel⟩

/-- **C112.** The encoding thread stores nothing but lengths and checksums: whatever it reads, and whatever is thrown, every object is still there, lists have the
elements they had, and fields it does not compute hold, for this thread, what they held. -/
theorem C112_kept (w : World) (m : Seen) (n : Nat) (x : HVal) (h : Heap) (sets : Nat → Nat → HVal → Prop) (b : WBuf) (hm : MaySee h sets m) :
    let r := wencode w m n x h 0 b
    (∀ (a : Nat) xs, r.1[a]? = some (.arr xs) ↔ h[a]? = some (.arr xs)) ∧
      ∀ (q : Nat) c ys, h[q]? = some (.msg c ys) → (∃ ys', r.1[q]? = some (.msg c ys') ∧ ys'.length = ys.length) ∧ ∀ f, ¬ Computed c f → r.1.field q f = h.field q f := by
  intro r
  obtain ⟨g, hg, R⟩ := wencode_as (w := w) (n := n) (x := x) (b := b) hm rfl
  refine ⟨fun a xs => shape_arr (R.left a) xs, fun q c ys hq => ⟨shape_msg (R.left q).symm hq, fun f hf => ?_⟩⟩
  by_cases ht : Touchy c f
  · have h1 := (C111_kept w (asSets m h) n x h b).2.2 q c ys hq
    rw [hg] at h1
    rw [R.touchy q c ys f hq ht, h1.2 f hf, fieldAt_spared (asSets_spares m h) hq ht]
  · exact R.plain q c ys f hq ht

example : MaySee wkHeap once back ∧ (wencode World.initial back 9 (.ref 7) wkHeap 0 ⟨[], 0, 100⟩).1.field 7 2 = some (.num ⟨.i32, 34⟩) :=
  ⟨back_may, by decide +kernel⟩

/-- **C112.** If each read returns what memory holds, the call does what it does alone. -/
theorem C112_quiet (w : World) (n : Nat) (x : HVal) (h : Heap) (b : WBuf) (hfit : HListsFit h) :
    let r := wencode w (fun _ _ _ => none) n x h 0 b
    (r.1, r.2.2.1, r.2.2.2) = hencode w n x h b := by
  rw [wencode_none]
  exact C111_quiet w n x h 0 b hfit

example : HListsFit wkHeap ∧ (hencode World.initial 9 (.ref 4) wkHeap ⟨[], 0, 100⟩).2.2 = none := ⟨wkHeap_fits, by decide +kernel⟩

/-! ### What does not hold -/

/-- **C112 violated.** A frame may be written with a sequence number nobody ever set: the fields are not `volatile`, so a `long` may be read in two halves.  The two
that were stored are 0x100000002 and 0x300000004, the one written is 0x300000002. -/
theorem C112_torn_violated : MaySee wkHeap once back ∧ wkHeap.field 7 1 = some (.num ⟨.i64, 0x100000002⟩) ∧ (∀ y, once 7 1 y → y = .num ⟨.i64, 0x300000004⟩) ∧
    (let r := wencode World.initial back 9 (.ref 7) wkHeap 0 ⟨[], 0, 100⟩; r.2.2.2 = none ∧ (r.2.2.1.data.drop 4).take 8 = toBytes .be 8 0x300000002) := by
  refine ⟨back_may, rfl, ?_, by decide +kernel⟩
  rintro y (⟨h, -⟩ | ⟨-, -, rfl⟩)
  · cases h
  · rfl

/-- **C112 violated.** What is further back in the bytes need not be from later moments (it is in C111, where threads take turns): `setFieldU32(8)` is called once, the
first occurrence has the new value and later ones have the old one. -/
theorem C112_back_violated : MaySee wkHeap once back ∧ (∀ y, once 0 0 y → y = .num ⟨.i32, 8⟩) ∧ wkHeap.field 0 0 = some (.num ⟨.i32, 7⟩) ∧
    (let r := wencode World.initial back 9 (.ref 4) wkHeap 0 ⟨[], 0, 100⟩; r.2.2.2 = none ∧
      r.2.2.1.data.take 26 = [8, 0, 0, 0, 1, 0, 5, 0, 2, 0, 7, 0, 0, 0, 1, 0, 5, 0, 7, 0, 0, 0, 1, 0, 5, 0]) := by
  refine ⟨back_may, ?_, rfl, by decide +kernel⟩
  rintro y (⟨-, -, rfl⟩ | ⟨h, -⟩)
  · rfl
  · cases h

end FinProto
