import Verif.Props.Encode
import Verif.Props.DecodeLocal
import Verif.Proofs.Canonical
/-
C23, C24, C26, C47: `decode` inverts `encode`.
`ws` is the state of the sender's registries, `wr` of the receiver's (they may differ); `n`, `m` are call-stack depths.
-/
namespace FinProto

/-- What a successful `encode` appended is the image of the object after the call. -/
theorem encode_ok (w : World) (n : Nat) (v : Val) (b : WBuf) (hv : wellTyped v = true) (hb : b.Valid)
    (hok : (encode w n v b).2.2 = none) :
    complete v = true ∧ depth v ≤ n ∧
      encode w n v b = (settle w.svc b.readable v, b.app (image (settle w.svc b.readable v)), none) := by
  rcases encode_cases w n v b hv hb.1 hb.2 with ⟨h1, h2, _, h⟩ | ⟨_, _, _, h⟩ | ⟨_, h | h⟩
  · exact ⟨h1, h2, h⟩
  · rw [hok] at h; cases h
  · rw [hok] at h; cases h
  · obtain ⟨x, hx⟩ := h.isSome; rw [hok] at hx; cases hx

/-- `encode` keeps the class of the object. -/
theorem settle_obj (svc : Registry) (pre : List Byte) (c : Cls) (fs : List Val) :
    ∃ fs', settle svc pre (.obj c fs) = .obj c fs' := ⟨_, rfl⟩

theorem decode_image (w : World) (n : Nat) (c : Cls) (fs : List Val) (hv : wellTyped (.obj c fs) = true)
    (hc : complete (.obj c fs) = true) (hl : legible w (.obj c fs)) (hd : depth (.obj c fs) ≤ n) :
    Reads (decode w n c (freshFields c)) (image (.obj c fs)) (receivedFields (wire c) fs) := by
  obtain ⟨c', fs', h, ht⟩ := wellTyped_obj _ hv
  cases h
  exact decode_reads w n c fs ht hc hl (by simp only [depth] at hd; omega)

/-- **C23 (general form).** Encode any message the receiver can follow; decode the bytes, wherever they are in a buffer and whatever
comes behind them, into a new object of the same class: `decode` succeeds, consumes exactly these bytes and gives `received` of the
message as it is after `encode`. -/
theorem C23_general (ws wr : World) (n m : Nat) (c : Cls) (fs : List Val) (b : WBuf) (hv : wellTyped (.obj c fs) = true)
    (hb : b.Valid) (hok : (encode ws n (.obj c fs) b).2.2 = none) (hl : legible wr (.obj c fs)) (hm : depth (.obj c fs) ≤ m) :
    ∃ bytes fs', (encode ws n (.obj c fs) b).2.1.data = b.data ++ bytes
      ∧ received (encode ws n (.obj c fs) b).1 = .obj c fs'
      ∧ ∀ before after spare, decode wr m c (freshFields c) ⟨before ++ bytes ++ after, spare, before.length⟩ =
          (fs', ⟨before ++ bytes ++ after, spare, before.length + bytes.length⟩, none) := by
  obtain ⟨h1, _, h2⟩ := encode_ok ws n _ b hv hb hok
  obtain ⟨gs, hgs⟩ := settle_obj ws.svc b.readable c fs
  have hv' := settle_wellTyped ws.svc b.readable _ hv
  have hc' := settle_complete ws.svc b.readable _ hv
  have hd' := settle_depth ws.svc b.readable _ hv
  have hl' := (legible_settle wr ws.svc b.readable _ hv).mpr hl
  rw [hgs] at hv' hc' hd' hl' h2
  refine ⟨image (.obj c gs), receivedFields (wire c) gs, by rw [h2]; rfl, by rw [h2]; rfl, ?_⟩
  exact decode_image wr m c gs hv' (by rw [hc', h1]) hl' (by omega)

/-- **C23.** Encode any canonical message; decode the bytes, wherever they are in a buffer and whatever comes behind them, into a new object
of the same class: `decode` succeeds, consumes exactly these bytes, and the new object has the same fields as the message after `encode`.
(`encode` changes the message in computed fields only: C37.) -/
theorem C23_round_trip (ws wr : World) (n m : Nat) (c : Cls) (fs : List Val) (b : WBuf) (hv : wellTyped (.obj c fs) = true)
    (hb : b.Valid) (hok : (encode ws n (.obj c fs) b).2.2 = none) (hcan : canonical wr (.obj c fs)) (hm : depth (.obj c fs) ≤ m) :
    ∃ bytes fs', (encode ws n (.obj c fs) b).2.1.data = b.data ++ bytes
      ∧ (encode ws n (.obj c fs) b).1 = .obj c fs'
      ∧ ∀ before after spare, decode wr m c (freshFields c) ⟨before ++ bytes ++ after, spare, before.length⟩ =
          (fs', ⟨before ++ bytes ++ after, spare, before.length + bytes.length⟩, none) := by
  obtain ⟨_, hl, _⟩ := canonical_facts wr _ hv hcan
  obtain ⟨bytes, fs', h1, h2, h3⟩ := C23_general ws wr n m c fs b hv hb hok hl hm
  refine ⟨bytes, fs', h1, ?_, h3⟩
  have he := (encode_ok ws n _ b hv hb hok).2.2
  have hv' := settle_wellTyped ws.svc b.readable _ hv
  have := (canonical_facts wr _ hv' ((canonical_settle wr ws.svc b.readable _ hv).mpr hcan)).2.2
  rw [he] at h2 ⊢
  exact this.symm.trans h2

/-- **C23.** For messages without computed fields (everything but the frames) the new object has the same fields as the original. -/
theorem C23_round_trip_plain (ws wr : World) (n m : Nat) (c : Cls) (fs : List Val) (b : WBuf) (hv : wellTyped (.obj c fs) = true)
    (hb : b.Valid) (hok : (encode ws n (.obj c fs) b).2.2 = none) (hcan : canonical wr (.obj c fs)) (hm : depth (.obj c fs) ≤ m)
    (hf : frameless (.obj c fs) = true) :
    ∃ bytes, (encode ws n (.obj c fs) b).2.1.data = b.data ++ bytes
      ∧ ∀ before after spare, decode wr m c (freshFields c) ⟨before ++ bytes ++ after, spare, before.length⟩ =
          (fs, ⟨before ++ bytes ++ after, spare, before.length + bytes.length⟩, none) := by
  obtain ⟨bytes, fs', h1, h2, h3⟩ := C23_round_trip ws wr n m c fs b hv hb hok hcan hm
  rw [C22_encode_plain ws n _ b hv hb hf hok] at h2
  cases h2
  exact ⟨bytes, h1, h3⟩

/-- A canonical frame: SSE frame with an execution report request. -/
def exCanonical : Val := .obj .sse_SseBinary
  [.num ⟨.i32, 206⟩, .num ⟨.i64, 5⟩, .num ⟨.i32, 999⟩,
    .obj .sse_ExecRptSync [.list [.obj .sse_ExecRptSync_SubExecRptSync [.str (js "AB"), .num ⟨.i32, 1⟩, .num ⟨.i64, 2⟩]]],
    .num ⟨.i32, 0x55⟩]

theorem exCanonical_canonical : canonical World.initial exCanonical := by
  refine ⟨trivial, trivial, trivial, ⟨⟨_, rfl, rfl⟩, ⟨?_, trivial⟩⟩, trivial, trivial⟩
  refine ⟨by simp, by decide, ⟨⟨?_, trivial, trivial, trivial⟩, trivial⟩⟩
  exact ⟨by decide +kernel, by decide +kernel, by decide +kernel, by decide⟩

example : wellTyped exCanonical = true ∧ depth exCanonical ≤ 3
    ∧ (encode World.initial 3 exCanonical ⟨[9], 0, 100⟩).2.2 = none
    ∧ (encode World.initial 3 exCanonical ⟨[9], 0, 100⟩).2.1.data.length = 43 := by decide +kernel

/-! ### C24: streams -/

/-- The sender: encode the messages one after the other; stop at the first exception. -/
def sendAll (w : World) (n : Nat) : List Val → WBuf → List Val × WBuf × Option JErr
  | [], b => ([], b, none)
  | v :: vs, b =>
    match encode w n v b with
    | (v', b', none) => let r := sendAll w n vs b'; (v' :: r.1, r.2.1, r.2.2)
    | (v', b', some e) => (v' :: vs, b', some e)

/-- The receiver: decode new objects of the given classes one after the other; stop at the first exception. -/
def receiveAll (w : World) (n : Nat) : List Cls → RBuf → List Val × RBuf × Option JErr
  | [], b => ([], b, none)
  | c :: cs, b =>
    match decode w n c (freshFields c) b with
    | (fs, b', none) => let r := receiveAll w n cs b'; (.obj c fs :: r.1, r.2.1, r.2.2)
    | (_, b', some e) => ([], b', some e)

/-- The class of a message. -/
def Val.cls? : Val → Option Cls
  | .obj c _ => some c
  | _ => none

/-- **C24.** Encode any sequence of canonical messages back to back behind anything; decode with the same class sequence: the receiver
gets the messages (as they are after `encode`) in order, and its reader index ends exactly behind the last one, whatever follows. -/
theorem C24_stream (ws wr : World) (n m : Nat) (vs : List Val) (cs : List Cls) (b : WBuf)
    (hcls : vs.map Val.cls? = cs.map some)
    (hv : ∀ v ∈ vs, wellTyped v = true ∧ canonical wr v ∧ depth v ≤ m) (hb : b.Valid)
    (hok : (sendAll ws n vs b).2.2 = none) :
    ∃ bytes, (sendAll ws n vs b).2.1.data = b.data ++ bytes
      ∧ ∀ before after spare, receiveAll wr m cs ⟨before ++ bytes ++ after, spare, before.length⟩ =
          ((sendAll ws n vs b).1, ⟨before ++ bytes ++ after, spare, before.length + bytes.length⟩, none) := by
  induction vs generalizing cs b with
  | nil =>
    cases cs with
    | nil => exact ⟨[], by simp [sendAll], by simp [sendAll, receiveAll]⟩
    | cons c cs => simp at hcls
  | cons v vs ih =>
    cases cs with
    | nil => simp at hcls
    | cons c cs =>
      simp only [List.map_cons, List.cons.injEq] at hcls
      obtain ⟨hv1, hcan, hd⟩ := hv v (by simp)
      obtain ⟨c', fs, rfl, _⟩ := wellTyped_obj v hv1
      obtain rfl : c' = c := by simpa [Val.cls?] using hcls.1
      have hok1 : (encode ws n (.obj c' fs) b).2.2 = none := by
        revert hok
        simp only [sendAll]
        rcases encode ws n (.obj c' fs) b with ⟨v', b', _ | e⟩ <;> simp
      obtain ⟨X, fs', h1, h2, h3⟩ := C23_round_trip ws wr n m c' fs b hv1 hb hok1 hcan hd
      have hb' : (encode ws n (.obj c' fs) b).2.1.Valid := by
        have he := (encode_good ws n (.obj c' fs)).ext b
        have hcap := C22_encode_appends_image ws n _ b hv1 hb hok1
        rcases encode_cases ws n _ b hv1 hb.1 hb.2 with ⟨_, _, hfit, h⟩ | ⟨_, _, _, h⟩ | ⟨_, h | h⟩
        · have hl := image_settle_length ws.svc b.readable _ hv1
          constructor
          · rw [h]; have := hb.1; simp [WBuf.app]; omega
          · rw [h]; simp only [WBuf.app, List.length_append, hl]; exact hfit
        · rw [hok1] at h; cases h
        · rw [hok1] at h; cases h
        · obtain ⟨x, hx⟩ := h.isSome; rw [hok1] at hx; cases hx
      have hsend : sendAll ws n (.obj c' fs :: vs) b =
          ((encode ws n (.obj c' fs) b).1 :: (sendAll ws n vs (encode ws n (.obj c' fs) b).2.1).1,
            (sendAll ws n vs (encode ws n (.obj c' fs) b).2.1).2) := by
        simp only [sendAll]
        revert hok1
        rcases encode ws n (.obj c' fs) b with ⟨v', b', _ | e⟩ <;> simp
      rw [hsend] at hok ⊢
      obtain ⟨Y, g1, g2⟩ := ih cs (encode ws n (.obj c' fs) b).2.1 hcls.2 (fun x hx => hv x (by simp [hx])) hb' hok
      refine ⟨X ++ Y, by rw [g1, h1, List.append_assoc], ?_⟩
      intro before after spare
      have e1 := h3 before (Y ++ after) spare
      have e2 := g2 (before ++ X) after spare
      simp only [List.append_assoc, List.length_append] at e1 e2 ⊢
      simp only [receiveAll, e1, e2, h2, Nat.add_assoc]

example : (sendAll World.initial 3 [exCanonical, .obj .sse_Heartbeat [], exCanonical] ⟨[], 0, 200⟩).2.2 = none
    ∧ [exCanonical, .obj .sse_Heartbeat [], exCanonical].map Val.cls? = [.sse_SseBinary, .sse_Heartbeat, .sse_SseBinary].map some := by
  decide +kernel

/-! ### C26 -/

/-- **C26.** A strict prefix of the encoding of any message the receiver can follow, in a buffer with nothing behind it, is rejected with an
index-out-of-bounds error. -/
theorem C26_truncated_encoding (ws wr : World) (n m : Nat) (c : Cls) (fs : List Val) (b : WBuf) (hv : wellTyped (.obj c fs) = true)
    (hb : b.Valid) (hok : (encode ws n (.obj c fs) b).2.2 = none) (hl : legible wr (.obj c fs)) (hm : depth (.obj c fs) ≤ m)
    (before cut : List Byte) (hcut : b.data ++ cut <+: (encode ws n (.obj c fs) b).2.1.data)
    (hlt : b.data ++ cut ≠ (encode ws n (.obj c fs) b).2.1.data) :
    (decode wr m c (freshFields c) ⟨before ++ cut, [], before.length⟩).2.2 = some .indexOutOfBounds := by
  obtain ⟨X, fs', h1, _, h3⟩ := C23_general ws wr n m c fs b hv hb hok hl hm
  have e := h3 [] [] []
  simp only [List.nil_append, List.append_nil, List.length_nil, Nat.zero_add] at e
  rw [h1] at hcut hlt
  have hcut' : cut <+: X := (List.prefix_append_right_inj _).mp hcut
  refine C26_truncated_fails wr m c (freshFields c) ⟨X, [], 0⟩ (by rw [e]) before cut (by simpa using hcut') ?_
  rw [e]
  have hle := hcut'.length_le
  rcases Nat.lt_or_ge cut.length X.length with h | h
  · simpa using h
  · exact absurd (by rw [List.IsPrefix.eq_of_length hcut' (by omega)]) hlt

/-- The frame of the example above without its last three bytes: nothing of the checksum but its first byte. -/
example : (decode World.initial 3 .sse_SseBinary (freshFields .sse_SseBinary)
    ⟨[1, 2] ++ ((encode World.initial 3 exCanonical ⟨[9], 0, 100⟩).2.1.data.drop 1).take 39, [], 2⟩).2.2 = some .indexOutOfBounds :=
  C26_truncated_encoding World.initial World.initial 3 3 .sse_SseBinary _ ⟨[9], 0, 100⟩ (by decide +kernel) ⟨by decide, by decide⟩ (by decide +kernel)
    (canonical_facts World.initial exCanonical (by decide +kernel) exCanonical_canonical).2.1 (by decide +kernel) [1, 2] _
    ⟨((encode World.initial 3 exCanonical ⟨[9], 0, 100⟩).2.1.data.drop 1).drop 39, by decide +kernel⟩ (by decide +kernel)

/-! ### C47 -/

/-- **C47.** If the encoding of one canonical message is a prefix of the encoding of another one of the same class (written to any two
buffers), then the two messages, as they are after `encode`, are the same; in particular no encoding is a proper prefix of another. -/
theorem C47_prefix_free (w1 w2 wr : World) (n1 n2 : Nat) (c : Cls) (fs gs : List Val) (b1 b2 : WBuf) (X Y : List Byte)
    (hv1 : wellTyped (.obj c fs) = true) (hv2 : wellTyped (.obj c gs) = true) (hb1 : b1.Valid) (hb2 : b2.Valid)
    (hc1 : canonical wr (.obj c fs)) (hc2 : canonical wr (.obj c gs))
    (hok1 : (encode w1 n1 (.obj c fs) b1).2.2 = none) (hok2 : (encode w2 n2 (.obj c gs) b2).2.2 = none)
    (hX : (encode w1 n1 (.obj c fs) b1).2.1.data = b1.data ++ X) (hY : (encode w2 n2 (.obj c gs) b2).2.1.data = b2.data ++ Y)
    (h : X <+: Y) : (encode w1 n1 (.obj c fs) b1).1 = (encode w2 n2 (.obj c gs) b2).1 ∧ X = Y := by
  let m := max (depth (.obj c fs)) (depth (.obj c gs))
  obtain ⟨X', fs', h1, h2, h3⟩ := C23_round_trip w1 wr n1 m c fs b1 hv1 hb1 hok1 hc1 (Nat.le_max_left _ _)
  obtain ⟨Y', gs', g1, g2, g3⟩ := C23_round_trip w2 wr n2 m c gs b2 hv2 hb2 hok2 hc2 (Nat.le_max_right _ _)
  rw [h1] at hX
  rw [g1] at hY
  obtain rfl := List.append_cancel_left hX
  obtain rfl := List.append_cancel_left hY
  obtain ⟨Z, rfl⟩ := h
  have e1 := h3 [] Z []
  have e2 := g3 [] [] []
  simp only [List.nil_append, List.append_nil] at e1 e2
  rw [e1] at e2
  simp only [Prod.mk.injEq, RBuf.mk.injEq, List.length_append, and_true, true_and] at e2
  obtain ⟨e2, e3⟩ := e2
  refine ⟨by rw [h2, g2, e2], ?_⟩
  have : Z = [] := List.eq_nil_of_length_eq_zero (by omega)
  simp [this]

/-- **C47.** Two canonical messages of the same class with the same encoding agree in everything but computed fields. -/
theorem C47_injective (w1 w2 wr : World) (n1 n2 : Nat) (c : Cls) (fs gs : List Val) (b1 b2 : WBuf) (X : List Byte)
    (hv1 : wellTyped (.obj c fs) = true) (hv2 : wellTyped (.obj c gs) = true) (hb1 : b1.Valid) (hb2 : b2.Valid)
    (hc1 : canonical wr (.obj c fs)) (hc2 : canonical wr (.obj c gs))
    (hok1 : (encode w1 n1 (.obj c fs) b1).2.2 = none) (hok2 : (encode w2 n2 (.obj c gs) b2).2.2 = none)
    (hX : (encode w1 n1 (.obj c fs) b1).2.1.data = b1.data ++ X) (hY : (encode w2 n2 (.obj c gs) b2).2.1.data = b2.data ++ X) :
    blank (.obj c fs) = blank (.obj c gs) := by
  have h := (C47_prefix_free w1 w2 wr n1 n2 c fs gs b1 b2 X X hv1 hv2 hb1 hb2 hc1 hc2 hok1 hok2 hX hY (List.prefix_refl _)).1
  rw [← C37_only_computed_fields_change w1 n1 _ b1 hv1 hb1 hok1, h, C37_only_computed_fields_change w2 n2 _ b2 hv2 hb2 hok2]

/-- **C47.** For messages without computed fields: the same encoding only for the same message. -/
theorem C47_injective_plain (w1 w2 wr : World) (n1 n2 : Nat) (c : Cls) (fs gs : List Val) (b1 b2 : WBuf) (X : List Byte)
    (hv1 : wellTyped (.obj c fs) = true) (hv2 : wellTyped (.obj c gs) = true) (hb1 : b1.Valid) (hb2 : b2.Valid)
    (hc1 : canonical wr (.obj c fs)) (hc2 : canonical wr (.obj c gs)) (hf1 : frameless (.obj c fs) = true)
    (hf2 : frameless (.obj c gs) = true)
    (hok1 : (encode w1 n1 (.obj c fs) b1).2.2 = none) (hok2 : (encode w2 n2 (.obj c gs) b2).2.2 = none)
    (hX : (encode w1 n1 (.obj c fs) b1).2.1.data = b1.data ++ X) (hY : (encode w2 n2 (.obj c gs) b2).2.1.data = b2.data ++ X) :
    fs = gs := by
  have h := (C47_prefix_free w1 w2 wr n1 n2 c fs gs b1 b2 X X hv1 hv2 hb1 hb2 hc1 hc2 hok1 hok2 hX hY (List.prefix_refl _)).1
  rw [C22_encode_plain w1 n1 _ b1 hv1 hb1 hf1 hok1, C22_encode_plain w2 n2 _ b2 hv2 hb2 hf2 hok2] at h
  simpa using h

/-- The same frame with other values in its computed fields, written to another buffer: same bytes, and equal but for those fields. -/
def exCanonical' : Val := .obj .sse_SseBinary
  [.num ⟨.i32, 206⟩, .num ⟨.i64, 5⟩, .num ⟨.i32, 0⟩,
    .obj .sse_ExecRptSync [.list [.obj .sse_ExecRptSync_SubExecRptSync [.str (js "AB"), .num ⟨.i32, 1⟩, .num ⟨.i64, 2⟩]]],
    .num ⟨.i32, 0x55⟩]

theorem exCanonical'_canonical : canonical World.initial exCanonical' := by
  refine ⟨trivial, trivial, trivial, ⟨⟨_, rfl, rfl⟩, ⟨?_, trivial⟩⟩, trivial, trivial⟩
  refine ⟨by simp, by decide, ⟨⟨?_, trivial, trivial, trivial⟩, trivial⟩⟩
  exact ⟨by decide +kernel, by decide +kernel, by decide +kernel, by decide⟩

example : blank exCanonical = blank exCanonical' :=
  C47_injective World.initial World.initial World.initial 3 4 .sse_SseBinary _ _ ⟨[9], 0, 100⟩ ⟨[], 0, 200⟩ (image (encode World.initial 3 exCanonical ⟨[9], 0, 100⟩).1)
    (by decide +kernel) (by decide +kernel) ⟨by decide, by decide⟩ ⟨by decide, by decide⟩ exCanonical_canonical exCanonical'_canonical
    (by decide +kernel) (by decide +kernel) (by decide +kernel) (by decide +kernel)

/-- Two execution report requests whose encodings differ, because the messages do: one of them is not the beginning of the other. -/
example : ¬ image (.obj .sse_ExecRptSync_SubExecRptSync [.str (js "AB"), .num ⟨.i32, 1⟩, .num ⟨.i64, 2⟩])
    <+: image (.obj .sse_ExecRptSync_SubExecRptSync [.str (js "A"), .num ⟨.i32, 1⟩, .num ⟨.i64, 2⟩]) := by
  intro h
  have := (C47_prefix_free World.initial World.initial World.initial 1 1 .sse_ExecRptSync_SubExecRptSync
    [.str (js "AB"), .num ⟨.i32, 1⟩, .num ⟨.i64, 2⟩] [.str (js "A"), .num ⟨.i32, 1⟩, .num ⟨.i64, 2⟩] ⟨[], 0, 100⟩ ⟨[], 0, 100⟩ _ _
    (by decide +kernel) (by decide +kernel) ⟨by decide, by decide⟩ ⟨by decide, by decide⟩
    ⟨⟨by decide +kernel, by decide +kernel, by decide +kernel, by decide⟩, trivial, trivial, trivial⟩
    ⟨⟨by decide +kernel, by decide +kernel, by decide +kernel, by decide⟩, trivial, trivial, trivial⟩
    (by decide +kernel) (by decide +kernel) (by decide +kernel) (by decide +kernel) h).2
  exact absurd this (by decide +kernel)

/-- C23 on `exCanonical` and, without a frame, on one of its parts. -/
example := C23_general World.initial World.initial 3 3 _ _ ⟨[9], 0, 100⟩ (by decide +kernel : wellTyped exCanonical = true) ⟨by decide, by decide⟩
  (by decide +kernel) (canonical_facts World.initial exCanonical (by decide +kernel) exCanonical_canonical).2.1 (by decide +kernel)
example := C23_round_trip World.initial World.initial 3 3 _ _ ⟨[9], 0, 100⟩ (by decide +kernel : wellTyped exCanonical = true) ⟨by decide, by decide⟩
  (by decide +kernel) exCanonical_canonical (by decide +kernel)
example := C23_round_trip_plain World.initial World.initial 1 1 .sse_ExecRptSync_SubExecRptSync [.str (js "AB"), .num ⟨.i32, 1⟩, .num ⟨.i64, 2⟩]
  ⟨[9], 0, 100⟩ (by decide +kernel) ⟨by decide, by decide⟩ (by decide +kernel)
  ⟨⟨by decide +kernel, by decide +kernel, by decide +kernel, by decide⟩, trivial, trivial, trivial⟩ (by decide +kernel) (by decide +kernel)
example := C47_injective_plain World.initial World.initial World.initial 1 1 .sse_ExecRptSync_SubExecRptSync
  [.str (js "AB"), .num ⟨.i32, 1⟩, .num ⟨.i64, 2⟩] [.str (js "AB"), .num ⟨.i32, 1⟩, .num ⟨.i64, 2⟩] ⟨[9], 0, 100⟩ ⟨[], 0, 100⟩
  (image (.obj .sse_ExecRptSync_SubExecRptSync [.str (js "AB"), .num ⟨.i32, 1⟩, .num ⟨.i64, 2⟩]))
  (by decide +kernel) (by decide +kernel) ⟨by decide, by decide⟩ ⟨by decide, by decide⟩
  ⟨⟨by decide +kernel, by decide +kernel, by decide +kernel, by decide⟩, trivial, trivial, trivial⟩
  ⟨⟨by decide +kernel, by decide +kernel, by decide +kernel, by decide⟩, trivial, trivial, trivial⟩
  (by decide +kernel) (by decide +kernel) (by decide +kernel) (by decide +kernel) (by decide +kernel) (by decide +kernel)

end FinProto
