import Verif.Spec.Stream
import Verif.Proofs.Stream
import Verif.Props.DecodeErrors
import Verif.Props.DecodeLocal
import Verif.Props.Dispatch
import Verif.Props.RoundTrip
/-
C72: receiving from a byte stream.
-/
namespace FinProto

/-- **C72.** Every outcome of `decode` other than an index error is final: with any further bytes behind those it had, `decode` gives the same
object, consumes the same bytes and throws the same exception (or none). -/
theorem C72_final (w : World) (n : Nat) (c : Cls) (fs : List Val) (before got more spare : List Byte)
    (h : (decode w n c fs ⟨before ++ got, [], before.length⟩).2.2 ≠ some .indexOutOfBounds) :
    decode w n c fs ⟨before ++ got ++ more, spare, before.length⟩ =
      ((decode w n c fs ⟨before ++ got, [], before.length⟩).1,
        ⟨before ++ got ++ more, spare, (decode w n c fs ⟨before ++ got, [], before.length⟩).2.1.rd⟩,
        (decode w n c fs ⟨before ++ got, [], before.length⟩).2.2) := by
  have key : ∀ X : List Byte, X <+: ((before ++ got) ++ []).drop before.length → ∃ r, got = X ++ r := by
    intro X hX
    rw [List.append_nil, List.drop_left] at hX
    obtain ⟨r, hr⟩ := hX
    exact ⟨r, hr.symm⟩
  rcases hr : (decode w n c fs ⟨before ++ got, [], before.length⟩).2.2 with _ | e
  · obtain ⟨X, h1, h2, h3⟩ := (stream_decode w n c fs).local' _ hr
    obtain ⟨r, rfl⟩ := key X h1
    have := (h3 before).1 (r ++ more) spare
    simp only [List.append_assoc] at this h2 ⊢
    rw [this, h2]
  · obtain ⟨X, h1, h2, h3⟩ := (stream_decode w n c fs).final _ e hr (fun he => h (by rw [hr, he]))
    obtain ⟨r, rfl⟩ := key X h1
    have := h3 before (r ++ more) spare
    simp only [List.append_assoc] at this h2 ⊢
    rw [this, h2]

/-- **C72.** Conversely an index error means that bytes are missing: there are bytes which, behind those that were there, make `decode` succeed
or find an unknown key.  (In a process whose suppliers give objects of the classes registered by default.) -/
theorem C72_incomplete (w : World) (hw : TypedSuppliers w) (hd : DefaultClasses w) (n : Nat) (c : Cls) (fs : List Val)
    (hv : wellTyped (.obj c fs) = true) (hn : 3 ≤ n) (before got : List Byte) :
    ∃ more, (decode w n c fs ⟨before ++ got ++ more, [], before.length⟩).2.2 = none
      ∨ (decode w n c fs ⟨before ++ got ++ more, [], before.length⟩).2.2 = some .illegalArgument := by
  obtain ⟨Y, hY⟩ := (stream_decode w n c fs).more (before ++ got) before.length (by simp)
  refine ⟨Y, ?_⟩
  rcases C28_default_depth w hw hd n c fs ⟨before ++ got ++ Y, [], before.length⟩ hv hn with h | h | h
  · exact .inl h
  · exact absurd h hY
  · exact .inr h

theorem decode_within (w : World) (n : Nat) (c : Cls) (fs : List Val) (bytes : List Byte) :
    (decode w n c fs ⟨bytes, [], 0⟩).2.1.rd ≤ bytes.length := by
  have := (stream_decode w n c fs).inside ⟨bytes, [], 0⟩
  simpa using this

theorem decode_final0 (w : World) (n : Nat) (c : Cls) (fs : List Val) (got more : List Byte)
    (h : (decode w n c fs ⟨got, [], 0⟩).2.2 ≠ some .indexOutOfBounds) :
    decode w n c fs ⟨got ++ more, [], 0⟩ =
      ((decode w n c fs ⟨got, [], 0⟩).1, ⟨got ++ more, [], (decode w n c fs ⟨got, [], 0⟩).2.1.rd⟩, (decode w n c fs ⟨got, [], 0⟩).2.2) := by
  have := C72_final w n c fs [] got more []
  simp only [List.nil_append, List.length_nil] at this
  exact this h

theorem unpack_wait (w : World) (n : Nat) (c : Cls) (A : List Byte)
    (h : (decode w n c (freshFields c) ⟨A, [], 0⟩).2.2 = some .indexOutOfBounds) : unpack w n c A = ⟨[], A, false⟩ := by
  rw [unpack]
  revert h
  rcases decode w n c (freshFields c) ⟨A, [], 0⟩ with ⟨fs, b, _ | e⟩ <;> intro h
  · cases h
  · cases h; rfl

theorem unpack_stop (w : World) (n : Nat) (c : Cls) (A : List Byte) (e : JErr) (he : e ≠ .indexOutOfBounds)
    (h : (decode w n c (freshFields c) ⟨A, [], 0⟩).2.2 = some e) : unpack w n c A = ⟨[], A, true⟩ := by
  rw [unpack]
  revert h
  rcases decode w n c (freshFields c) ⟨A, [], 0⟩ with ⟨fs, b, _ | e'⟩ <;> intro h
  · cases h
  · cases h
    cases e <;> first | rfl | exact absurd rfl he

theorem unpack_none (w : World) (n : Nat) (c : Cls) (A : List Byte)
    (h : (decode w n c (freshFields c) ⟨A, [], 0⟩).2.2 = none) (hz : (decode w n c (freshFields c) ⟨A, [], 0⟩).2.1.rd = 0) :
    unpack w n c A = ⟨[], A, false⟩ := by
  rw [unpack]
  revert h hz
  rcases decode w n c (freshFields c) ⟨A, [], 0⟩ with ⟨fs, b, _ | e⟩ <;> intro h hz
  · dsimp only at hz ⊢
    rw [dif_neg (by omega)]
  · cases h

theorem unpack_take (w : World) (n : Nat) (c : Cls) (A : List Byte)
    (h : (decode w n c (freshFields c) ⟨A, [], 0⟩).2.2 = none) (hp : 0 < (decode w n c (freshFields c) ⟨A, [], 0⟩).2.1.rd) :
    unpack w n c A =
      ⟨(decode w n c (freshFields c) ⟨A, [], 0⟩).1 ::
          (unpack w n c (A.drop (decode w n c (freshFields c) ⟨A, [], 0⟩).2.1.rd)).delivered,
        (unpack w n c (A.drop (decode w n c (freshFields c) ⟨A, [], 0⟩).2.1.rd)).pending,
        (unpack w n c (A.drop (decode w n c (freshFields c) ⟨A, [], 0⟩).2.1.rd)).gaveUp⟩ := by
  have hin := decode_within w n c (freshFields c) A
  rw [unpack]
  revert h hp hin
  rcases decode w n c (freshFields c) ⟨A, [], 0⟩ with ⟨fs, b, _ | e⟩ <;> intro h hp hin
  · dsimp only at hp hin ⊢
    rw [dif_pos ⟨hp, hin⟩]
  · cases h

theorem unpack_append (w : World) (n : Nat) (c : Cls) (k : Nat) : ∀ A B : List Byte, A.length ≤ k →
    unpack w n c (A ++ B) =
      if (unpack w n c A).gaveUp then ⟨(unpack w n c A).delivered, (unpack w n c A).pending ++ B, true⟩
      else ⟨(unpack w n c A).delivered ++ (unpack w n c ((unpack w n c A).pending ++ B)).delivered,
        (unpack w n c ((unpack w n c A).pending ++ B)).pending, (unpack w n c ((unpack w n c A).pending ++ B)).gaveUp⟩ := by
  induction k with
  | zero =>
    intro A B hA
    have hA : A = [] := List.length_eq_zero_iff.mp (by omega)
    rcases hr : (decode w n c (freshFields c) ⟨A, [], 0⟩).2.2 with _ | e
    · have hin := decode_within w n c (freshFields c) A
      rw [unpack_none w n c A hr (by rw [hA] at hin ⊢; simpa using hin)]
      simp
    · by_cases he : e = .indexOutOfBounds
      · rw [unpack_wait w n c A (by rw [hr, he])]; simp
      · have hf := decode_final0 w n c (freshFields c) A B (by rw [hr]; simpa using he)
        rw [unpack_stop w n c A e he hr, unpack_stop w n c (A ++ B) e he (by rw [hf]; exact hr)]
        simp
  | succ k ih =>
    intro A B hA
    rcases hr : (decode w n c (freshFields c) ⟨A, [], 0⟩).2.2 with _ | e
    · have hf := decode_final0 w n c (freshFields c) A B (by rw [hr]; simp)
      have hin := decode_within w n c (freshFields c) A
      by_cases hp : 0 < (decode w n c (freshFields c) ⟨A, [], 0⟩).2.1.rd
      · rw [unpack_take w n c A hr hp, unpack_take w n c (A ++ B) (by rw [hf]; exact hr) (by rw [hf]; exact hp), hf]
        dsimp only
        rw [List.drop_append_of_le_length hin,
          ih (A.drop (decode w n c (freshFields c) ⟨A, [], 0⟩).2.1.rd) B (by rw [List.length_drop]; omega)]
        split
        · rfl
        · simp
      · rw [unpack_none w n c A hr (by omega)]
        simp
    · by_cases he : e = .indexOutOfBounds
      · rw [unpack_wait w n c A (by rw [hr, he])]; simp
      · have hf := decode_final0 w n c (freshFields c) A B (by rw [hr]; simpa using he)
        rw [unpack_stop w n c A e he hr, unpack_stop w n c (A ++ B) e he (by rw [hf]; exact hr)]
        simp

theorem receive_unpack (w : World) (n : Nat) (c : Cls) (A B : List Byte) :
    Inbox.receive w n c (unpack w n c A) B = unpack w n c (A ++ B) := by
  rw [unpack_append w n c A.length A B (Nat.le_refl _)]
  unfold Inbox.receive
  by_cases hg : (unpack w n c A).gaveUp = true
  · rw [if_pos hg, if_pos hg, ← hg]
  · rw [if_neg hg, if_neg hg]

/-- **C72.** However the bytes of a stream are cut into chunks, a receiver that tries `decode` on what it has, waits on index errors and gives up on
any other exception, ends with exactly the messages, the unused bytes and the verdict of one that gets all bytes at once. -/
theorem C72_chunks (w : World) (n : Nat) (c : Cls) (chunks : List (List Byte)) (hne : chunks ≠ []) :
    Inbox.receiveChunks w n c chunks = unpack w n c chunks.flatten := by
  have key : ∀ (chunks : List (List Byte)) (A : List Byte),
      chunks.foldl (Inbox.receive w n c) (unpack w n c A) = unpack w n c (A ++ chunks.flatten) := by
    intro chunks
    induction chunks with
    | nil => intro A; simp
    | cons B chunks ih =>
      intro A
      rw [List.foldl_cons, receive_unpack, ih]
      simp
  cases chunks with
  | nil => exact absurd rfl hne
  | cons B chunks =>
    have h0 : Inbox.receive w n c ⟨[], [], false⟩ B = unpack w n c B := by
      simp [Inbox.receive]
    rw [Inbox.receiveChunks, List.foldl_cons, h0, key]
    simp

theorem consumes_start (w : World) (m : Nat) (c : Cls) (o : Nat) (ho : offset? (wire c) 1 = some o) (b : RBuf)
    (hok : (decode w m c (freshFields c) b).2.2 = none) : o ≤ (decode w m c (freshFields c) b).2.1.rd - b.rd := by
  obtain ⟨X, h1, h2, h3⟩ := (stream_decode w m c (freshFields c)).local' b hok
  rw [h2, Nat.add_sub_cancel_left]
  refine Nat.le_of_not_lt fun hlt => ?_
  have := (h3 []).1 [] []
  simp only [List.nil_append, List.append_nil, List.length_nil] at this
  cases m with
  | zero => simp [decode] at this
  | succ m =>
    have h := C35_header_incomplete w m c 1 o (freshFields c) ⟨X, [], 0⟩ ho (freshFields_length c) (by simp) (by simpa using hlt) rfl
    rw [this] at h
    cases h

/-- **C72.** Encode any canonical messages of one class (one that starts with a fixed-width field, such as every frame) one after the other, and
deliver the bytes in any chunks: the receiver gets these messages (as they are after `encode`), in order, has no bytes left and did not give up. -/
theorem C72_delivers (ws wr : World) (n m : Nat) (c : Cls) (o : Nat) (ho : offset? (wire c) 1 = some o) (hpos : 0 < o)
    (vs : List Val) (hcls : ∀ v ∈ vs, v.cls? = some c) (hv : ∀ v ∈ vs, wellTyped v = true ∧ canonical wr v ∧ depth v ≤ m)
    (b : WBuf) (hb : b.Valid) (hm : 0 < m) (hok : (sendAll ws n vs b).2.2 = none) (chunks : List (List Byte)) (hne : chunks ≠ [])
    (hch : (sendAll ws n vs b).2.1.data = b.data ++ chunks.flatten) :
    (Inbox.receiveChunks wr m c chunks).delivered.map (Val.obj c) = (sendAll ws n vs b).1
      ∧ (Inbox.receiveChunks wr m c chunks).pending = [] ∧ (Inbox.receiveChunks wr m c chunks).gaveUp = false := by
  rw [C72_chunks wr m c chunks hne]
  obtain ⟨bytes, h1, h2⟩ := C24_stream ws wr n m vs (List.replicate vs.length c) b (by
    rw [List.map_replicate]
    exact List.eq_replicate_of_mem (by
      intro x hx
      obtain ⟨v, hv, rfl⟩ := List.mem_map.mp hx
      exact hcls v hv) |>.trans (by simp)) hv hb hok
  have hbytes : chunks.flatten = bytes := List.append_cancel_left (hch.symm.trans h1)
  rw [hbytes]
  have key : ∀ (k : Nat) (A : List Byte) (r : List Val) (pre : List Byte),
      receiveAll wr m (List.replicate k c) ⟨pre ++ A, [], pre.length⟩ = (r, ⟨pre ++ A, [], pre.length + A.length⟩, none) →
      (unpack wr m c A).delivered.map (Val.obj c) = r ∧ (unpack wr m c A).pending = [] ∧ (unpack wr m c A).gaveUp = false := by
    intro k
    induction k with
    | zero =>
      intro A r pre h
      simp only [List.replicate_zero, receiveAll, Prod.mk.injEq, RBuf.mk.injEq, true_and, and_true] at h
      have hA : A = [] := List.length_eq_zero_iff.mp (by omega)
      subst hA
      have : unpack wr m c [] = ⟨[], [], false⟩ := by
        obtain ⟨m', rfl⟩ : ∃ m', m = m' + 1 := ⟨m - 1, by omega⟩
        exact unpack_wait _ _ _ _ (C35_header_incomplete wr m' c 1 o (freshFields c) ⟨[], [], 0⟩ ho (freshFields_length c) (by simp)
          (by simpa using hpos) rfl)
      rw [this]
      exact ⟨by rw [← h.1]; rfl, rfl, rfl⟩
    | succ k ih =>
      intro A r pre h
      simp only [List.replicate_succ, receiveAll] at h
      rcases hd : decode wr m c (freshFields c) ⟨pre ++ A, [], pre.length⟩ with ⟨fs, b1, _ | e⟩
      · rw [hd] at h
        have hok1 : (decode wr m c (freshFields c) ⟨pre ++ A, [], pre.length⟩).2.2 = none := by rw [hd]
        obtain ⟨X, p1, p2, p3⟩ := (stream_decode wr m c (freshFields c)).local' _ hok1
        have hge := consumes_start wr m c o ho _ hok1
        rw [p2, Nat.add_sub_cancel_left] at hge
        rw [List.append_nil, List.drop_left] at p1
        obtain ⟨R, rfl⟩ := p1
        have e0 := (p3 []).1 R []
        have d1 := (stream_decode wr m c (freshFields c)).data ⟨pre ++ (X ++ R), [], pre.length⟩
        have d2 := (stream_decode wr m c (freshFields c)).spare ⟨pre ++ (X ++ R), [], pre.length⟩
        simp only [List.nil_append, List.length_nil, Nat.zero_add] at e0
        rw [hd] at e0 p2 d1 d2
        dsimp only at e0 p2 h d1 d2
        have hb1 : b1 = ⟨(pre ++ X) ++ R, [], (pre ++ X).length⟩ := RBuf.ext' (by rw [d1]; simp) d2 (by rw [p2]; simp)
        rw [hb1] at h
        simp only [Prod.mk.injEq] at h
        obtain ⟨h3, h4, h5⟩ := h
        have hrest := ih R (receiveAll wr m (List.replicate k c) ⟨pre ++ X ++ R, [], (pre ++ X).length⟩).1 (pre ++ X) (by
          refine Prod.ext rfl (Prod.ext ?_ h5)
          rw [h4]; simp [Nat.add_assoc])
        have hu := unpack_take wr m c (X ++ R) (by rw [e0]) (by rw [e0]; dsimp only; omega)
        rw [e0] at hu
        dsimp only at hu
        rw [List.drop_left] at hu
        rw [hu]
        refine ⟨?_, hrest.2.1, hrest.2.2⟩
        rw [List.map_cons, hrest.1, h3]
      · rw [hd] at h
        simp at h
  have := h2 [] [] []
  simp only [List.nil_append, List.append_nil, List.length_nil, Nat.zero_add] at this
  exact key vs.length bytes _ [] (by simpa using this)

/-- Two SSE frames in chunks of 30 bytes. -/
example : offset? (wire .sse_SseBinary) 1 = some 4
    ∧ (sendAll World.initial 3 [exCanonical, exCanonical] ⟨[], 0, 200⟩).2.2 = none
    ∧ (sendAll World.initial 3 [exCanonical, exCanonical] ⟨[], 0, 200⟩).2.1.data.length = 84
    ∧ wellTyped exCanonical = true ∧ depth exCanonical ≤ 3 := by decide +kernel

/-- An SSE header with a message type nobody registered (16 bytes: refused), and a part of it (15 bytes: incomplete). -/
example : (decode World.initial 3 .sse_SseBinary (freshFields .sse_SseBinary) ⟨[7] ++ [0, 1, 2, 3, 0, 0, 0, 0, 0, 0, 0, 5, 0, 0, 0, 9], [], 1⟩).2.2
      = some .illegalArgument
    ∧ (decode World.initial 3 .sse_SseBinary (freshFields .sse_SseBinary) ⟨[7] ++ [0, 1, 2, 3, 0, 0, 0, 0, 0, 0, 0, 5, 0, 0, 0], [], 1⟩).2.2
      = some .indexOutOfBounds
    ∧ wellTyped (.obj .sse_SseBinary (freshFields .sse_SseBinary)) = true := by decide +kernel

/-- **C72 needs a buffer without spare capacity.** With old bytes behind the writer index the outcome is not final: a logout message of which the
first 4 bytes have arrived is "decoded", and with all 68 bytes there it is another one.  (The cause is the one of C52.) -/
theorem C72_spare_violated :
    ∃ (got more spare : List Byte) (fs : List Val) (b : RBuf),
      decode World.initial 1 .sse_Logout (freshFields .sse_Logout) ⟨got, spare, 0⟩ = (fs, b, none)
      ∧ (decode World.initial 1 .sse_Logout (freshFields .sse_Logout) ⟨got ++ more, [], 0⟩).2.2 = none
      ∧ (decode World.initial 1 .sse_Logout (freshFields .sse_Logout) ⟨got ++ more, [], 0⟩).1 ≠ fs :=
  ⟨[0, 0, 0, 1], List.replicate 64 0x42, List.replicate 64 0x41, _, _, rfl, by decide +kernel, fun h => absurd (congrArg (List.map Val.text) h) (by decide +kernel)⟩

/-- C72 on a frame with an unknown type and on the beginning of a frame. -/
example := C72_final World.initial 3 .sse_SseBinary (freshFields .sse_SseBinary) [7] [0, 1, 2, 3, 0, 0, 0, 0, 0, 0, 0, 5, 0, 0, 0, 9] [1, 2] [3] (by decide +kernel)
example := C72_incomplete World.initial C28_default_world.1 C28_default_world.2 3 .sse_SseBinary (freshFields .sse_SseBinary) (by decide +kernel) (by decide)
  [7] [0, 0, 0, 206, 0, 0]
example := C72_chunks World.initial 3 .sse_SseBinary [(sendAll World.initial 3 [exCanonical, exCanonical] ⟨[], 0, 200⟩).2.1.data.take 50,
  (sendAll World.initial 3 [exCanonical, exCanonical] ⟨[], 0, 200⟩).2.1.data.drop 50] (by simp)

end FinProto
