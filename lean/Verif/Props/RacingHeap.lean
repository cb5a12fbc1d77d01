import Verif.Proofs.RacingHeap
import Verif.Props.Frames
import Verif.Model.Factory
import Verif.Model.Checksum
/-
C111: other threads call the setters of a message and of its parts, at any depth, while it is being encoded.
-/
namespace FinProto

/-- A sub packet (at 0) that occurs three times in a nested packet (at 4), which is the body of frames (at 6 to 9). -/
private def exHeap (id : BitVec 32) : Heap :=
  [.msg .sample_SubPacket [.num ⟨.i32, id⟩, .ref 1], .arr [.num ⟨.i16, 5⟩], .arr [.ref 0, .ref 0],
   .msg .sample_NestedPacket_InerPacket [.num ⟨.i32, 9⟩, .ref 1], .msg .sample_NestedPacket [.ref 0, .ref 2, .ref 3],
   .msg .sample_NestedPacket_InerPacket [.num ⟨.i32, 6⟩, .ref 1], .msg .sample_RootPacket [.num ⟨.i16, 4⟩, .num ⟨.i32, 0⟩, .ref 4, .num ⟨.i32, 0⟩],
   .msg .sse_SseBinary [.num ⟨.i32, 1⟩, .num ⟨.i64, 2⟩, .num ⟨.i32, 0⟩, .ref 4, .num ⟨.i32, 3⟩],
   .msg .szse_SzseBinary [.num ⟨.i32, 1⟩, .num ⟨.i32, 0⟩, .ref 4, .num ⟨.i32, 3⟩], .msg .risk_RcBinary [.num ⟨.i32, 1⟩, .num ⟨.i32, 2⟩, .num ⟨.i32, 0⟩, .ref 4]]

/-- `setFieldU32(8)` of the sub packet before its second occurrence; then another last part for the nested packet. -/
private def both : HOthers := fun k => if k = 10 then [(0, 0, .num ⟨.i32, 8⟩)] else if k = 20 then [(4, 2, .ref 5)] else []

private theorem exHeap_fits (id : BitVec 32) : HListsFit (exHeap id) := by
  intro a xs ha
  match a with
  | 0 | 3 | 4 | 5 | 6 | 7 | 8 | 9 => cases ha
  | 1 | 2 => cases ha; decide
  | a + 10 => simp [exHeap] at ha

private theorem both_at {k : Nat} {p : Nat × Nat × HVal} (hp : p ∈ both k) : p = (0, 0, .num ⟨.i32, 8⟩) ∨ p = (4, 2, .ref 5) := by
  unfold both at hp
  split at hp
  · exact .inl (List.mem_singleton.1 hp)
  · split at hp
    · exact .inr (List.mem_singleton.1 hp)
    · cases hp

private theorem both_spares : HSpares (exHeap 7) both := by
  intro k p hp c ys hc
  rcases both_at hp with rfl | rfl <;> cases hc <;> exact id

/-- Values of the declared types, one by one. -/
private def Vals (h : Heap) : List FTy → List HVal → Prop
  | [], [] => True
  | t :: ts, y :: ys => ValOf h t y ∧ Vals h ts ys
  | _, _ => False

private theorem Vals.of (h : Heap) : ∀ (ts : List FTy) (ys : List HVal), Vals h ts ys →
    ys.length = ts.length ∧ ∀ (f : Nat) t y, ts[f]? = some t → ys[f]? = some y → ValOf h t y
  | [], [], _ => ⟨rfl, fun f t y h1 => by cases h1⟩
  | [], _ :: _, hv => hv.elim
  | _ :: _, [], hv => hv.elim
  | t :: ts, y :: ys, hv => by
    obtain ⟨h1, h2⟩ := Vals.of h ts ys hv.2
    refine ⟨by simp [h1], fun f t' y' g1 g2 => ?_⟩
    match f with
    | 0 => cases g1; cases g2; exact hv.1
    | f + 1 => exact h2 f t' y' g1 g2

private theorem exHeap_typed : TypedHeap (exHeap 7) := by
  have l1 : ValOf (exHeap 7) (.list (.prim .i16)) (.ref 1) := .list (xs := [.num ⟨.i16, 5⟩]) rfl fun x hx => by
    rw [List.mem_singleton.1 hx]; exact .num rfl
  have l2 : ValOf (exHeap 7) (.list (.obj .sample_SubPacket)) (.ref 2) := .list (xs := [.ref 0, .ref 0]) rfl fun x hx => by
    simp only [List.mem_cons, List.not_mem_nil, or_false, or_self] at hx
    rw [hx]; exact .obj (r := 0) rfl
  constructor
  · intro r c ys hr
    apply Vals.of
    match r with
    | 0 => cases hr; exact ⟨.num rfl, l1, trivial⟩
    | 1 | 2 => cases hr
    | 3 => cases hr; exact ⟨.num rfl, l1, trivial⟩
    | 4 => cases hr; exact ⟨.obj (r := 0) rfl, l2, .obj (r := 3) rfl, trivial⟩
    | 5 => cases hr; exact ⟨.num rfl, l1, trivial⟩
    | 6 => cases hr; exact ⟨.num rfl, .num rfl, .codec (r := 4) rfl, .num rfl, trivial⟩
    | 7 => cases hr; exact ⟨.num rfl, .num rfl, .num rfl, .codec (r := 4) rfl, .num rfl, trivial⟩
    | 8 => cases hr; exact ⟨.num rfl, .num rfl, .codec (r := 4) rfl, .num rfl, trivial⟩
    | 9 => cases hr; exact ⟨.num rfl, .num rfl, .num rfl, .codec (r := 4) rfl, trivial⟩
    | r + 10 => simp [exHeap] at hr
  · have key : ∀ a e, Holds (exHeap 7) a e → (a = 1 ∧ e = .prim .i16) ∨ (a = 2 ∧ e = .obj .sample_SubPacket) := by
      rintro a e ⟨r, c, ys, f, h1, h2, h3⟩
      match r with
      | 0 | 3 | 5 =>
        cases h1
        match f with
        | 0 => cases h2
        | 1 => cases h2; cases h3; exact .inl ⟨rfl, rfl⟩
        | f + 2 => cases h3
      | 1 | 2 => cases h1
      | 4 =>
        cases h1
        match f with
        | 0 | 2 => cases h2
        | 1 => cases h2; cases h3; exact .inr ⟨rfl, rfl⟩
        | f + 3 => cases h3
      | 7 =>
        cases h1
        match f with
        | 0 | 1 | 2 | 3 | 4 => cases h2
        | f + 5 => cases h3
      | 6 | 8 | 9 =>
        cases h1
        match f with
        | 0 | 1 | 2 | 3 => cases h2
        | f + 4 => cases h3
      | r + 10 => simp [exHeap] at h1
    intro a e e' g1 g2
    rcases key a e g1 with ⟨rfl, rfl⟩ | ⟨rfl, rfl⟩ <;> rcases key _ e' g2 with ⟨h, rfl⟩ | ⟨h, rfl⟩ <;> first | rfl | cases h

private theorem both_typed : HTyped (exHeap 7) both := by
  intro k p hp c ys t hc ht
  rcases both_at hp with rfl | rfl <;> cases hc <;> cases ht
  · exact .num rfl
  · exact .obj (r := 5) rfl

/-- **C111.** While a thread encodes a message, other threads call setters of it and of any other message, whenever and as often as they like, but not of lists and
computed fields.  If the call throws nothing, it has written exactly what it would, alone, with a message `v` that was seen during the call: each field of the
message, of its parts, of their parts and so on is as it was at a moment of its own; what is further back in the bytes is from later moments.  A part is seen
within the interval in which its field was.  Parts may be shared, and references may form cycles. -/
theorem C111_mixture (w : World) (o : HOthers) (n : Nat) (x : HVal) (h : Heap) (b : WBuf) (hsp : HSpares h o) (hfit : HListsFit h) (h' : Heap) (k' : Nat) (b' : WBuf)
    (hrun : rhencode w o n x h 0 b = (h', k', b', none)) : ∃ v, Saw o h 0 k' x v ∧ (encode w n v b).2 = (b', none) :=
  rhencode_saw hsp hfit n x h 0 b h' k' b' ⟨fun _ => rfl, fun q _ _ f _ _ => (fieldAt_zero o h q f).symm⟩ hrun

/-- The second and the third occurrence of the shared part have the new value, the last part is the new one. -/
example : HSpares (exHeap 7) both ∧ HListsFit (exHeap 7) ∧
    (let r := rhencode World.initial both 9 (.ref 4) (exHeap 7) 0 ⟨[], 0, 100⟩
     r.2.2.1.data = [7, 0, 0, 0, 1, 0, 5, 0, 2, 0, 8, 0, 0, 0, 1, 0, 5, 0, 8, 0, 0, 0, 1, 0, 5, 0, 6, 0, 0, 0, 1, 0, 5, 0] ∧ r.2.2.2 = none) :=
  ⟨both_spares, exHeap_fits 7, by decide +kernel⟩

/-- **C111.** No setter is lost, at any depth: whatever other threads set, lists and computed fields included, and whatever is thrown, all objects are still
there, lists have the elements they had, and a field `encode` does not compute holds the value set last during the call, or its value from before if none was set. -/
theorem C111_kept (w : World) (o : HOthers) (n : Nat) (x : HVal) (h : Heap) (b : WBuf) :
    let r := rhencode w o n x h 0 b
    r.1.length = h.length ∧ (∀ (a : Nat) xs, h[a]? = some (.arr xs) → r.1[a]? = some (.arr xs)) ∧
      ∀ (q : Nat) c ys, h[q]? = some (.msg c ys) → (∃ ys', r.1[q]? = some (.msg c ys') ∧ ys'.length = ys.length) ∧
        ∀ f, ¬ Computed c f → r.1.field q f = fieldAt o h q f r.2.1 := by
  intro r
  have g : HGood w o h r.1 r.2.1 := (run_rhencode (h0 := h) n x h 0 b ⟨fun _ => rfl, fun q _ _ f _ _ => (fieldAt_zero o h q f).symm⟩).1
  refine ⟨?_, fun a xs ha => (g.arr xs).2 ha, ?_⟩
  · apply Nat.le_antisymm
    · refine Nat.le_of_not_lt fun hl => ?_
      have := g.shape h.length
      rw [List.getElem?_eq_getElem hl, List.getElem?_eq_none (Nat.le_refl _)] at this
      cases this
    · refine Nat.le_of_not_lt fun hl => ?_
      have := g.shape r.1.length
      rw [List.getElem?_eq_getElem hl, List.getElem?_eq_none (Nat.le_refl _)] at this
      cases this
  · intro q c ys hq
    refine ⟨g.msg' hq, fun f hf => g.field q c ys f hq (not_comp w c f ?_)⟩
    rw [computed_iff] at hf
    simpa using hf

/-- What was set is there after the call, although the buffer is full and the call throws. -/
example : let r := rhencode World.initial both 9 (.ref 4) (exHeap 7) 0 ⟨[], 0, 20⟩
    r.2.2.2 = some .indexOutOfBounds ∧ 10 < r.2.1 ∧ r.1.field 0 0 = some (.num ⟨.i32, 8⟩) ∧ fieldAt both (exHeap 7) 0 0 r.2.1 = some (.num ⟨.i32, 8⟩) := by
  decide +kernel

/-- **C111.** Without other threads it is `encode` alone: the same bytes, the same exception, the same objects. -/
theorem C111_quiet (w : World) (n : Nat) (x : HVal) (h : Heap) (k : Nat) (b : WBuf) (hfit : HListsFit h) :
    let r := rhencode w (fun _ => []) n x h k b
    (r.1, r.2.2.1, r.2.2.2) = hencode w n x h b :=
  rhencode_nobody w n x h k b hfit

example : HListsFit (exHeap 7) ∧ (hencode World.initial 9 (.ref 4) (exHeap 7) ⟨[], 0, 100⟩).2.2 = none
    ∧ (hencode World.initial 9 (.ref 4) (exHeap 7) ⟨[], 0, 100⟩).2.1.data.length = 34 := ⟨exHeap_fits 7, by decide +kernel⟩

/-- **C111.** If variables hold values of their declared types, so does what was seen: the bytes written are the wire form of a well-typed message of the class of
the encoded one, with its lengths and checksums computed (`settle`). -/
theorem C111_image (w : World) (o : HOthers) (n r : Nat) (h : Heap) (b : WBuf) (hsp : HSpares h o) (hfit : HListsFit h) (ht : TypedHeap h) (ho : HTyped h o)
    (c : Cls) (ys : List HVal) (hr : h[r]? = some (.msg c ys)) (hb : b.Valid) (h' : Heap) (k' : Nat) (b' : WBuf)
    (hrun : rhencode w o n (.ref r) h 0 b = (h', k', b', none)) :
    ∃ vs, Saw o h 0 k' (.ref r) (.obj c vs) ∧ wellTyped (.obj c vs) = true ∧ b' = b.app (image (settle w.svc b.readable (.obj c vs))) := by
  obtain ⟨v, hv, he⟩ := C111_mixture w o n (.ref r) h b hsp hfit h' k' b' hrun
  have hty := (saw_typed ht ho hv).1 (.obj c) (.obj hr)
  obtain ⟨vs, rfl⟩ : ∃ vs, v = .obj c vs := by
    cases hv with
    | list _ _ _ _ _ _ _ ha => rw [hr] at ha; cases ha
    | msg _ _ _ _ _ vs _ _ ha => rw [hr] at ha; cases ha; exact ⟨vs, rfl⟩
  have hw : wellTyped (.obj c vs) = true := by simpa [wellTyped, hasType] using hty
  refine ⟨vs, hv, hw, ?_⟩
  rcases encode_cases w n _ b hw hb.1 hb.2 with ⟨_, _, _, e⟩ | ⟨_, _, _, e⟩ | ⟨_, e | e⟩
  · rw [e] at he; exact (congrArg Prod.fst he).symm
  · rw [he] at e; cases e
  · rw [he] at e; cases e
  · obtain ⟨x, hx⟩ := e.isSome; rw [he] at hx; cases hx

example : TypedHeap (exHeap 7) ∧ HTyped (exHeap 7) both ∧ HSpares (exHeap 7) both ∧ HListsFit (exHeap 7) ∧ (⟨[], 0, 100⟩ : WBuf).Valid ∧
    (rhencode World.initial both 9 (.ref 4) (exHeap 7) 0 ⟨[], 0, 100⟩).2.2.2 = none :=
  ⟨exHeap_typed, both_typed, both_spares, exHeap_fits 7, ⟨by simp, by simp⟩, by decide +kernel⟩

/-- **C111.** A frame stays consistent whatever setters are called meanwhile, of the frame, of its body and of the parts of the body: the length is the number of
body bytes that were really written, and the checksum is that of the bytes that are really in front of it. -/
theorem C111_frame_sse (w : World) (o : HOthers) (n r : Nat) (h : Heap) (b : WBuf) (hsp : HSpares h o) (hfit : HListsFit h) (ht : TypedHeap h) (ho : HTyped h o)
    (ys : List HVal) (hr : h[r]? = some (.msg .sse_SseBinary ys)) (hb : b.Valid) (h' : Heap) (k' : Nat) (b' : WBuf)
    (hrun : rhencode w o n (.ref r) h 0 b = (h', k', b', none)) :
    ∃ (ty seq ck : Num) (body : List Byte), b'.data = b.data ++ ty.bytes .be ++ seq.bytes .be ++ toBytes .be 4 body.length ++ body ++ ck.bytes .be
      ∧ ∀ s, w.svc.getService "SSE_BIN" = some s →
          ck = .int (s.calcOn ((b.data ++ ty.bytes .be ++ seq.bytes .be ++ toBytes .be 4 body.length ++ body).drop b.rd)) := by
  obtain ⟨vs, hv, hw, hb'⟩ := C111_image w o n r h b hsp hfit ht ho _ ys hr hb h' k' b' hrun
  obtain ⟨ty, seq, len, body, ck, rfl, hbody⟩ : ∃ ty seq len body ck, vs = [.num ty, .num seq, .num len, body, .num ck] ∧ hasType .codec body = true := by
    have hf0 : fieldsHaveType (javaTypes .sse_SseBinary) vs = true := by simpa [wellTyped, hasType] using hw
    obtain ⟨ty, vs1, rfl, hf1⟩ := ftyped_num hf0
    obtain ⟨seq, vs2, rfl, hf2⟩ := ftyped_num hf1
    obtain ⟨len, vs3, rfl, hf3⟩ := ftyped_num hf2
    obtain ⟨body, vs4, rfl, hbody, hf4⟩ := ftyped_cons hf3
    obtain ⟨ck, vs5, rfl, hf5⟩ := ftyped_num hf4
    obtain rfl := ftyped_nil hf5
    exact ⟨ty, seq, len, body, ck, rfl, hbody⟩
  obtain ⟨body', ck', hs1, hs2, hs3, hs4⟩ := settle_sse w.svc b.readable ty seq len ck body hbody
  rw [hs1] at hb'
  refine ⟨ty, seq, ck', image body', ?_, fun s hsv => ?_⟩
  · rw [hb', WBuf.app, hs2]
    simp only [List.append_assoc]
  · rw [hs4, checksumAfter, hsv]
    simp only [List.append_assoc]
    rw [List.drop_append_of_le_length hb.1]
    rfl

set_option maxRecDepth 10000 in
/-- The part occurs with the old value and with the new one; the length is 34. -/
example : TypedHeap (exHeap 7) ∧ HTyped (exHeap 7) both ∧ HSpares (exHeap 7) both ∧ HListsFit (exHeap 7) ∧ (⟨[], 0, 100⟩ : WBuf).Valid ∧
    (let r := rhencode World.initial both 9 (.ref 7) (exHeap 7) 0 ⟨[], 0, 100⟩
     r.2.2.2 = none ∧ r.2.2.1.data = [0, 0, 0, 1, 0, 0, 0, 0, 0, 0, 0, 2, 0, 0, 0, 34, 7, 0, 0, 0, 1, 0, 5, 0, 2, 0, 8, 0, 0, 0, 1, 0, 5, 0, 8, 0, 0, 0, 1, 0, 5, 0, 6, 0, 0, 0, 1, 0, 5, 0, 0, 0, 0, 3]) :=
  ⟨exHeap_typed, both_typed, both_spares, exHeap_fits 7, ⟨by simp, by simp⟩, by decide +kernel⟩

/-- **C111.** The same for `SzseBinary`. -/
theorem C111_frame_szse (w : World) (o : HOthers) (n r : Nat) (h : Heap) (b : WBuf) (hsp : HSpares h o) (hfit : HListsFit h) (ht : TypedHeap h) (ho : HTyped h o)
    (ys : List HVal) (hr : h[r]? = some (.msg .szse_SzseBinary ys)) (hb : b.Valid) (h' : Heap) (k' : Nat) (b' : WBuf)
    (hrun : rhencode w o n (.ref r) h 0 b = (h', k', b', none)) :
    ∃ (ty ck : Num) (body : List Byte), b'.data = b.data ++ ty.bytes .be ++ toBytes .be 4 body.length ++ body ++ ck.bytes .be
      ∧ ∀ s, w.svc.getService "SZSE_BIN" = some s →
          ck = .int (s.calcOn ((b.data ++ ty.bytes .be ++ toBytes .be 4 body.length ++ body).drop b.rd)) := by
  obtain ⟨vs, hv, hw, hb'⟩ := C111_image w o n r h b hsp hfit ht ho _ ys hr hb h' k' b' hrun
  obtain ⟨ty, len, body, ck, rfl, hbody⟩ : ∃ ty len body ck, vs = [.num ty, .num len, body, .num ck] ∧ hasType .codec body = true := by
    have hf0 : fieldsHaveType (javaTypes .szse_SzseBinary) vs = true := by simpa [wellTyped, hasType] using hw
    obtain ⟨ty, vs1, rfl, hf1⟩ := ftyped_num hf0
    obtain ⟨len, vs2, rfl, hf2⟩ := ftyped_num hf1
    obtain ⟨body, vs3, rfl, hbody, hf3⟩ := ftyped_cons hf2
    obtain ⟨ck, vs4, rfl, hf4⟩ := ftyped_num hf3
    obtain rfl := ftyped_nil hf4
    exact ⟨ty, len, body, ck, rfl, hbody⟩
  obtain ⟨body', ck', hs1, hs2, hs3, hs4⟩ := settle_szse w.svc b.readable ty len ck body hbody
  rw [hs1] at hb'
  refine ⟨ty, ck', image body', ?_, fun s hsv => ?_⟩
  · rw [hb', WBuf.app, hs2]
    simp only [List.append_assoc]
  · rw [hs4, checksumAfter, hsv]
    simp only [List.append_assoc]
    rw [List.drop_append_of_le_length hb.1]
    rfl

set_option maxRecDepth 10000 in
/-- The part occurs with the old value and with the new one; the length is 34. -/
example : TypedHeap (exHeap 7) ∧ HTyped (exHeap 7) both ∧ HSpares (exHeap 7) both ∧ HListsFit (exHeap 7) ∧ (⟨[], 0, 100⟩ : WBuf).Valid ∧
    (let r := rhencode World.initial both 9 (.ref 8) (exHeap 7) 0 ⟨[], 0, 100⟩
     r.2.2.2 = none ∧ r.2.2.1.data = [0, 0, 0, 1, 0, 0, 0, 34, 7, 0, 0, 0, 1, 0, 5, 0, 2, 0, 8, 0, 0, 0, 1, 0, 5, 0, 8, 0, 0, 0, 1, 0, 5, 0, 6, 0, 0, 0, 1, 0, 5, 0, 0, 0, 0, 3]) :=
  ⟨exHeap_typed, both_typed, both_spares, exHeap_fits 7, ⟨by simp, by simp⟩, by decide +kernel⟩

/-- **C111.** The same for `RootPacket`. -/
theorem C111_frame_root (w : World) (o : HOthers) (n r : Nat) (h : Heap) (b : WBuf) (hsp : HSpares h o) (hfit : HListsFit h) (ht : TypedHeap h) (ho : HTyped h o)
    (ys : List HVal) (hr : h[r]? = some (.msg .sample_RootPacket ys)) (hb : b.Valid) (h' : Heap) (k' : Nat) (b' : WBuf)
    (hrun : rhencode w o n (.ref r) h 0 b = (h', k', b', none)) :
    ∃ (ty ck : Num) (body : List Byte), b'.data = b.data ++ ty.bytes .le ++ toBytes .le 4 body.length ++ body ++ ck.bytes .le
      ∧ ∀ s, w.svc.getService "CRC32" = some s →
          ck = .int (s.calcOn ((b.data ++ ty.bytes .le ++ toBytes .le 4 body.length ++ body).drop b.rd)) := by
  obtain ⟨vs, hv, hw, hb'⟩ := C111_image w o n r h b hsp hfit ht ho _ ys hr hb h' k' b' hrun
  obtain ⟨ty, len, body, ck, rfl, hbody⟩ : ∃ ty len body ck, vs = [.num ty, .num len, body, .num ck] ∧ hasType .codec body = true := by
    have hf0 : fieldsHaveType (javaTypes .sample_RootPacket) vs = true := by simpa [wellTyped, hasType] using hw
    obtain ⟨ty, vs1, rfl, hf1⟩ := ftyped_num hf0
    obtain ⟨len, vs2, rfl, hf2⟩ := ftyped_num hf1
    obtain ⟨body, vs3, rfl, hbody, hf3⟩ := ftyped_cons hf2
    obtain ⟨ck, vs4, rfl, hf4⟩ := ftyped_num hf3
    obtain rfl := ftyped_nil hf4
    exact ⟨ty, len, body, ck, rfl, hbody⟩
  obtain ⟨body', ck', hs1, hs2, hs3, hs4⟩ := settle_root w.svc b.readable ty len ck body hbody
  rw [hs1] at hb'
  refine ⟨ty, ck', image body', ?_, fun s hsv => ?_⟩
  · rw [hb', WBuf.app, hs2]
    simp only [List.append_assoc]
  · rw [hs4, checksumAfter, hsv]
    simp only [List.append_assoc]
    rw [List.drop_append_of_le_length hb.1]
    rfl

/-- The part occurs with the old value and with the new one; the length is 34 and the checksum fits. -/
example : TypedHeap (exHeap 7) ∧ HTyped (exHeap 7) both ∧ HSpares (exHeap 7) both ∧ HListsFit (exHeap 7) ∧ (⟨[], 0, 100⟩ : WBuf).Valid ∧
    (let r := rhencode World.initial both 9 (.ref 6) (exHeap 7) 0 ⟨[], 0, 100⟩
     r.2.2.2 = none ∧ r.2.2.1.data.take 40 = [4, 0, 34, 0, 0, 0, 7, 0, 0, 0, 1, 0, 5, 0, 2, 0, 8, 0, 0, 0, 1, 0, 5, 0, 8, 0, 0, 0, 1, 0, 5, 0, 6, 0, 0, 0, 1, 0, 5, 0]
      ∧ r.2.2.1.data.length = 44) :=
  ⟨exHeap_typed, both_typed, both_spares, exHeap_fits 7, ⟨by simp, by simp⟩, by decide +kernel⟩

/-- **C111.** The same for `RcBinary`, which has no checksum. -/
theorem C111_frame_rc (w : World) (o : HOthers) (n r : Nat) (h : Heap) (b : WBuf) (hsp : HSpares h o) (hfit : HListsFit h) (ht : TypedHeap h) (ho : HTyped h o)
    (ys : List HVal) (hr : h[r]? = some (.msg .risk_RcBinary ys)) (hb : b.Valid) (h' : Heap) (k' : Nat) (b' : WBuf)
    (hrun : rhencode w o n (.ref r) h 0 b = (h', k', b', none)) :
    ∃ (ty ver : Num) (body : List Byte), b'.data = b.data ++ ty.bytes .be ++ ver.bytes .be ++ toBytes .be 4 body.length ++ body := by
  obtain ⟨vs, hv, hw, hb'⟩ := C111_image w o n r h b hsp hfit ht ho _ ys hr hb h' k' b' hrun
  obtain ⟨ty, ver, len, body, rfl, hbody⟩ : ∃ ty ver len body, vs = [.num ty, .num ver, .num len, body] ∧ hasType .codec body = true := by
    have hf0 : fieldsHaveType (javaTypes .risk_RcBinary) vs = true := by simpa [wellTyped, hasType] using hw
    obtain ⟨ty, vs1, rfl, hf1⟩ := ftyped_num hf0
    obtain ⟨ver, vs2, rfl, hf2⟩ := ftyped_num hf1
    obtain ⟨len, vs3, rfl, hf3⟩ := ftyped_num hf2
    obtain ⟨body, vs4, rfl, hbody, hf4⟩ := ftyped_cons hf3
    obtain rfl := ftyped_nil hf4
    exact ⟨ty, ver, len, body, rfl, hbody⟩
  obtain ⟨body', hs1, hs2, hs3⟩ := settle_rc w.svc b.readable ty ver len body hbody
  rw [hs1] at hb'
  refine ⟨ty, ver, image body', ?_⟩
  rw [hb', WBuf.app, hs2]
  simp only [List.append_assoc]

set_option maxRecDepth 10000 in
/-- The part occurs with the old value and with the new one; the length is 34. -/
example : TypedHeap (exHeap 7) ∧ HTyped (exHeap 7) both ∧ HSpares (exHeap 7) both ∧ HListsFit (exHeap 7) ∧ (⟨[], 0, 100⟩ : WBuf).Valid ∧
    (let r := rhencode World.initial both 9 (.ref 9) (exHeap 7) 0 ⟨[], 0, 100⟩
     r.2.2.2 = none ∧ r.2.2.1.data = [0, 0, 0, 1, 0, 0, 0, 2, 0, 0, 0, 34, 7, 0, 0, 0, 1, 0, 5, 0, 2, 0, 8, 0, 0, 0, 1, 0, 5, 0, 8, 0, 0, 0, 1, 0, 5, 0, 6, 0, 0, 0, 1, 0, 5, 0]) :=
  ⟨exHeap_typed, both_typed, both_spares, exHeap_fits 7, ⟨by simp, by simp⟩, by decide +kernel⟩

/-! ### What does not hold -/

/-- `setFieldU32(8)` before the second occurrence, `setFieldU32(9)` before the third. -/
private def ids : HOthers := fun k => if k = 8 then [(0, 0, .num ⟨.i32, 8⟩)] else if k = 18 then [(0, 0, .num ⟨.i32, 9⟩)] else []

/-- **C111 violated.** One part that occurs several times may be written differently each time, so the bytes may be those of the message at no moment. -/
theorem C111_shared_violated :
    (let r := rhencode World.initial ids 9 (.ref 4) (exHeap 7) 0 ⟨[], 0, 100⟩;
      r.2.2.1.data = [7, 0, 0, 0, 1, 0, 5, 0, 2, 0, 8, 0, 0, 0, 1, 0, 5, 0, 9, 0, 0, 0, 1, 0, 5, 0, 9, 0, 0, 0, 1, 0, 5, 0] ∧ r.2.2.2 = none ∧ r.1.field 0 0 = some (.num ⟨.i32, 9⟩))
    ∧ (hencode World.initial 9 (.ref 4) (exHeap 7) ⟨[], 0, 100⟩).2.1.data
        = [7, 0, 0, 0, 1, 0, 5, 0, 2, 0, 7, 0, 0, 0, 1, 0, 5, 0, 7, 0, 0, 0, 1, 0, 5, 0, 9, 0, 0, 0, 1, 0, 5, 0]
    ∧ (hencode World.initial 9 (.ref 4) (exHeap 8) ⟨[], 0, 100⟩).2.1.data
        = [8, 0, 0, 0, 1, 0, 5, 0, 2, 0, 8, 0, 0, 0, 1, 0, 5, 0, 8, 0, 0, 0, 1, 0, 5, 0, 9, 0, 0, 0, 1, 0, 5, 0]
    ∧ (hencode World.initial 9 (.ref 4) (exHeap 9) ⟨[], 0, 100⟩).2.1.data
        = [9, 0, 0, 0, 1, 0, 5, 0, 2, 0, 9, 0, 0, 0, 1, 0, 5, 0, 9, 0, 0, 0, 1, 0, 5, 0, 9, 0, 0, 0, 1, 0, 5, 0] := by
  decide +kernel

/-- `setFieldI16List(null)` before access number `j`. -/
private def nullList (j : Nat) : HOthers := fun k => if k = j then [(0, 1, .null)] else []

/-- **C111 violated.** A list that is set to null just after `encode` has checked that it is not null, or while its elements are written, makes `encode` throw, with a part
of the message in the buffer; although the message can be encoded before and after.  So the condition on lists is needed. -/
theorem C111_null_violated :
    (let r := rhencode World.initial (nullList 2) 9 (.ref 0) (exHeap 7) 0 ⟨[], 0, 100⟩; r.2.2.1.data = [7, 0, 0, 0] ∧ r.2.2.2 = some .nullPointer) ∧
    (let r := rhencode World.initial (nullList 5) 9 (.ref 0) (exHeap 7) 0 ⟨[], 0, 100⟩; r.2.2.1.data = [7, 0, 0, 0, 1, 0] ∧ r.2.2.2 = some .nullPointer) ∧
    (let r := hencode World.initial 9 (.ref 0) (exHeap 7) ⟨[], 0, 100⟩; r.2.1.data = [7, 0, 0, 0, 1, 0, 5, 0] ∧ r.2.2 = none) ∧
    (let r := hencode World.initial 9 (.ref 0) ((exHeap 7).setField 0 1 .null) ⟨[], 0, 100⟩; r.2.1.data = [7, 0, 0, 0, 0, 0] ∧ r.2.2 = none) := by
  decide +kernel

end FinProto
