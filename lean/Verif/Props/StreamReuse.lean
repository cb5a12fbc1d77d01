import Verif.Props.Stream
import Verif.Proofs.Doom
import Verif.Proofs.Resume
import Verif.Props.Beyond
/-
C73: receiving from a byte stream with a reused buffer.
-/
namespace FinProto

/-- A new object of class `c` cannot be decoded from these bytes, whatever bytes follow. -/
def Hopeless (w : World) (n : Nat) (c : Cls) (bytes : List Byte) : Prop :=
  ∀ more, (decode w n c (freshFields c) ⟨bytes ++ more, [], 0⟩).2.2 ≠ none

structure Inbox.Rel (w : World) (n : Nat) (c : Cls) (i i0 : Inbox) : Prop where
  delivered : i.delivered = i0.delivered
  pending : i.pending = i0.pending
  sooner : i0.gaveUp = true → i.gaveUp = true
  hopeless : i.gaveUp = true → Hopeless w n c i.pending

theorem hopeless_final (w : World) (n : Nat) (c : Cls) (A : List Byte) (e : JErr) (he : e ≠ .indexOutOfBounds)
    (h : (decode w n c (freshFields c) ⟨A, [], 0⟩).2.2 = some e) : Hopeless w n c A := by
  intro more
  rw [decode_final0 w n c (freshFields c) A more (by rw [h]; simpa using he), h]
  simp

theorem unpackWith_rel (w : World) (hw : TypedSuppliers w) (hd : DefaultClasses w) (n : Nat) (hn : 3 ≤ n) (c : Cls)
    (hlast : endsInText c = false) (S : List Byte) (k : Nat) :
    ∀ A : List Byte, A.length ≤ k → Inbox.Rel w n c (unpackWith w n c S A) (unpack w n c A) := by
  have hfresh : wellTyped (.obj c (freshFields c)) = true := by simp [wellTyped, hasType, freshTyped c]
  have key : ∀ A, (decode w n c (freshFields c) ⟨A, [], 0⟩).2.2 = some .indexOutOfBounds →
      (decode w n c (freshFields c) ⟨A, S, 0⟩).2.2 = some .indexOutOfBounds
        ∨ (decode w n c (freshFields c) ⟨A, S, 0⟩).2.2 = some .illegalArgument ∧ Hopeless w n c A := by
    intro A h
    rcases C28_default_depth w hw hd n c (freshFields c) ⟨A, S, 0⟩ hfresh hn with h' | h' | h'
    · exfalso
      have hin := C52_no_text_at_the_end_partial w hw hd n c hlast (freshFields c) hfresh ⟨A, S, 0⟩ (Nat.zero_le _) h'
      have := (law_decode w n c (freshFields c)).carry (data := A) (sp := S) (rd := 0) (Nat.zero_le _)
        (a := (decode w n c (freshFields c) ⟨A, S, 0⟩).1) (b' := (decode w n c (freshFields c) ⟨A, S, 0⟩).2.1)
        (by rw [← h']) hin [] []
      rw [List.append_nil] at this
      rw [this] at h
      cases h
    · exact .inl h'
    · exact .inr ⟨h', fun more => (doom_decode w n c (freshFields c)).doom A S 0 more [] (Nat.zero_le _) h'⟩
  have same : ∀ A, (decode w n c (freshFields c) ⟨A, [], 0⟩).2.2 ≠ some .indexOutOfBounds →
      decode w n c (freshFields c) ⟨A, S, 0⟩ = ((decode w n c (freshFields c) ⟨A, [], 0⟩).1,
        ⟨A, S, (decode w n c (freshFields c) ⟨A, [], 0⟩).2.1.rd⟩, (decode w n c (freshFields c) ⟨A, [], 0⟩).2.2) := by
    intro A h
    have := C72_final w n c (freshFields c) [] A [] S (by simpa using h)
    simpa using this
  have base : ∀ A, (decode w n c (freshFields c) ⟨A, [], 0⟩).2.2 ≠ none → Inbox.Rel w n c (unpackWith w n c S A) (unpack w n c A) := by
    intro A hne
    rcases hr : (decode w n c (freshFields c) ⟨A, [], 0⟩).2.2 with _ | e
    · exact absurd hr hne
    by_cases he : e = .indexOutOfBounds
    · rw [unpack_wait w n c A (by rw [hr, he])]
      rcases key A (by rw [hr, he]) with h | ⟨h, hh⟩
      · have : unpackWith w n c S A = ⟨[], A, false⟩ := by
          rw [unpackWith]
          revert h
          rcases decode w n c (freshFields c) ⟨A, S, 0⟩ with ⟨fs, b, _ | e⟩ <;> intro h <;> cases h
          rfl
        rw [this]
        exact ⟨rfl, rfl, id, fun h => by cases h⟩
      · have : unpackWith w n c S A = ⟨[], A, true⟩ := by
          rw [unpackWith]
          revert h
          rcases decode w n c (freshFields c) ⟨A, S, 0⟩ with ⟨fs, b, _ | e⟩ <;> intro h <;> cases h
          rfl
        rw [this]
        exact ⟨rfl, rfl, fun _ => rfl, fun _ => hh⟩
    · rw [unpack_stop w n c A e he hr]
      have h := same A (by rw [hr]; simpa using he)
      have : unpackWith w n c S A = ⟨[], A, true⟩ := by
        rw [unpackWith, h, hr]
        cases e <;> first | rfl | exact absurd rfl he
      rw [this]
      exact ⟨rfl, rfl, id, fun _ => hopeless_final w n c A e he hr⟩
  induction k with
  | zero =>
    intro A hA
    have hA : A = [] := List.length_eq_zero_iff.mp (by omega)
    subst hA
    by_cases hr : (decode w n c (freshFields c) ⟨[], [], 0⟩).2.2 = none
    · have hin := decode_within w n c (freshFields c) []
      rw [unpack_none w n c [] hr (by simpa using hin)]
      have : unpackWith w n c S [] = ⟨[], [], false⟩ := by
        rw [unpackWith, same [] (by rw [hr]; simp), hr]
        simp
      rw [this]
      exact ⟨rfl, rfl, id, fun h => by cases h⟩
    · exact base [] hr
  | succ k ih =>
    intro A hA
    by_cases hr : (decode w n c (freshFields c) ⟨A, [], 0⟩).2.2 = none
    · have hin := decode_within w n c (freshFields c) A
      have h := same A (by rw [hr]; simp)
      by_cases hp : 0 < (decode w n c (freshFields c) ⟨A, [], 0⟩).2.1.rd
      · have hA0 : A ≠ [] := by intro h; rw [h] at hin hp; simp at hin; omega
        have r := ih (A.drop (decode w n c (freshFields c) ⟨A, [], 0⟩).2.1.rd) (by rw [List.length_drop]; omega)
        rw [unpack_take w n c A hr hp]
        have : unpackWith w n c S A = ⟨(decode w n c (freshFields c) ⟨A, [], 0⟩).1 ::
            (unpackWith w n c S (A.drop (decode w n c (freshFields c) ⟨A, [], 0⟩).2.1.rd)).delivered,
            (unpackWith w n c S (A.drop (decode w n c (freshFields c) ⟨A, [], 0⟩).2.1.rd)).pending,
            (unpackWith w n c S (A.drop (decode w n c (freshFields c) ⟨A, [], 0⟩).2.1.rd)).gaveUp⟩ := by
          rw [unpackWith, h, hr]
          dsimp only
          rw [dif_pos ⟨hp, hA0⟩]
        rw [this]
        exact ⟨by dsimp only; rw [r.delivered], r.pending, r.sooner, r.hopeless⟩
      · rw [unpack_none w n c A hr (by omega)]
        have : unpackWith w n c S A = ⟨[], A, false⟩ := by
          rw [unpackWith, h, hr]
          dsimp only
          rw [dif_neg (by omega)]
        rw [this]
        exact ⟨rfl, rfl, id, fun h => by cases h⟩
    · exact base A hr

theorem receiveWith_rel (w : World) (hw : TypedSuppliers w) (hd : DefaultClasses w) (n : Nat) (hn : 3 ≤ n) (c : Cls)
    (hlast : endsInText c = false) (i i0 : Inbox) (h : Inbox.Rel w n c i i0)
    (chunk old : List Byte) : Inbox.Rel w n c (i.receiveWith w n c (chunk, old)) (i0.receive w n c chunk) := by
  unfold Inbox.receiveWith Inbox.receive
  by_cases hg : i.gaveUp = true
  · rw [if_pos hg]
    have hh := h.hopeless hg
    have hh' : Hopeless w n c (i.pending ++ chunk) := by
      intro more
      rw [List.append_assoc]
      exact hh _
    by_cases hg0 : i0.gaveUp = true
    · rw [if_pos hg0]
      exact ⟨h.delivered, by dsimp only; rw [h.pending], fun _ => hg, fun _ => hh'⟩
    · rw [if_neg hg0]
      have hne : (decode w n c (freshFields c) ⟨i0.pending ++ chunk, [], 0⟩).2.2 ≠ none := by
        have := hh chunk
        rwa [h.pending] at this
      have : (unpack w n c (i0.pending ++ chunk)).delivered = [] ∧ (unpack w n c (i0.pending ++ chunk)).pending = i0.pending ++ chunk := by
        rcases hr : (decode w n c (freshFields c) ⟨i0.pending ++ chunk, [], 0⟩).2.2 with _ | e
        · exact absurd hr hne
        · by_cases he : e = .indexOutOfBounds
          · rw [unpack_wait w n c _ (by rw [hr, he])]
            exact ⟨rfl, rfl⟩
          · rw [unpack_stop w n c _ e he hr]
            exact ⟨rfl, rfl⟩
      refine ⟨?_, ?_, fun _ => hg, fun _ => hh'⟩
      · dsimp only; rw [this.1, List.append_nil, h.delivered]
      · dsimp only; rw [this.2, h.pending]
  · rw [if_neg hg, if_neg (fun hg0 => hg (h.sooner hg0))]
    have r := unpackWith_rel w hw hd n hn c hlast old _ (i.pending ++ chunk) (Nat.le_refl _)
    rw [h.pending] at r ⊢
    exact ⟨by dsimp only; rw [r.delivered, h.delivered], r.pending, r.sooner, r.hopeless⟩

/-- **C73.** Take a class whose messages never end, on the wire, with text, such as every frame that ends with a checksum.  A receiver whose buffer has arbitrary old
bytes behind the writer index (others at each attempt) delivers exactly the messages, and keeps exactly the unused bytes, of a receiver whose
buffer has none.  It gives up only when the unused bytes cannot become a message any more, whatever follows, and when the other one gives up it
has given up, too. -/
theorem C73_reused_buffer (w : World) (hw : TypedSuppliers w) (hd : DefaultClasses w) (n : Nat) (hn : 3 ≤ n) (c : Cls)
    (hlast : endsInText c = false) (chunks : List (List Byte × List Byte)) :
    (Inbox.receiveChunksWith w n c chunks).delivered = (Inbox.receiveChunks w n c (chunks.map Prod.fst)).delivered
    ∧ (Inbox.receiveChunksWith w n c chunks).pending = (Inbox.receiveChunks w n c (chunks.map Prod.fst)).pending
    ∧ ((Inbox.receiveChunks w n c (chunks.map Prod.fst)).gaveUp = true → (Inbox.receiveChunksWith w n c chunks).gaveUp = true)
    ∧ ((Inbox.receiveChunksWith w n c chunks).gaveUp = true → ∀ more,
        (decode w n c (freshFields c) ⟨(Inbox.receiveChunksWith w n c chunks).pending ++ more, [], 0⟩).2.2 ≠ none) := by
  have key : ∀ (chunks : List (List Byte × List Byte)) (i i0 : Inbox), Inbox.Rel w n c i i0 →
      Inbox.Rel w n c (chunks.foldl (Inbox.receiveWith w n c) i) ((chunks.map Prod.fst).foldl (Inbox.receive w n c) i0) := by
    intro chunks
    induction chunks with
    | nil => intro i i0 h; exact h
    | cons ch chunks ih =>
      intro i i0 h
      exact ih _ _ (receiveWith_rel w hw hd n hn c hlast i i0 h ch.1 ch.2)
  have h := key chunks ⟨[], [], false⟩ ⟨[], [], false⟩ ⟨rfl, rfl, id, fun h => by cases h⟩
  exact ⟨h.delivered, h.pending, h.sooner, h.hopeless⟩

theorem unpack_nonempty (w : World) (n : Nat) (c : Cls) (A : List Byte) (h : (unpack w n c A).delivered ≠ []) :
    (decode w n c (freshFields c) ⟨A, [], 0⟩).2.2 = none := by
  rcases hr : (decode w n c (freshFields c) ⟨A, [], 0⟩).2.2 with _ | e
  · rfl
  · by_cases he : e = .indexOutOfBounds
    · rw [unpack_wait w n c _ (by rw [hr, he])] at h
      exact absurd rfl h
    · rw [unpack_stop w n c _ e he hr] at h
      exact absurd rfl h

theorem sendAll_length (ws : World) (n : Nat) (vs : List Val) : ∀ b, (sendAll ws n vs b).1.length = vs.length := by
  induction vs with
  | nil => intro b; rfl
  | cons v vs ih =>
    intro b
    rw [sendAll]
    rcases encode ws n v b with ⟨v', b', _ | e⟩
    · simp [ih]
    · rfl

/-- **C73.** So canonical messages sent one after the other arrive through a reused buffer as well: all of them, in order, nothing else, no bytes
left, and the receiver did not give up. -/
theorem C73_delivers (ws wr : World) (hw : TypedSuppliers wr) (hd : DefaultClasses wr) (n m : Nat) (hm : 3 ≤ m) (c : Cls)
    (hlast : endsInText c = false) (o : Nat) (ho : offset? (wire c) 1 = some o) (hpos : 0 < o)
    (vs : List Val) (hvs : vs ≠ []) (hcls : ∀ v ∈ vs, v.cls? = some c) (hv : ∀ v ∈ vs, wellTyped v = true ∧ canonical wr v ∧ depth v ≤ m)
    (b : WBuf) (hb : b.Valid) (hok : (sendAll ws n vs b).2.2 = none) (chunks : List (List Byte × List Byte)) (hne : chunks ≠ [])
    (hch : (sendAll ws n vs b).2.1.data = b.data ++ (chunks.map Prod.fst).flatten) :
    (Inbox.receiveChunksWith wr m c chunks).delivered.map (Val.obj c) = (sendAll ws n vs b).1
      ∧ (Inbox.receiveChunksWith wr m c chunks).pending = [] ∧ (Inbox.receiveChunksWith wr m c chunks).gaveUp = false := by
  have hne' : chunks.map Prod.fst ≠ [] := by simpa using hne
  obtain ⟨h1, h2, h3⟩ := C72_delivers ws wr n m c o ho hpos vs hcls hv b hb (by omega) hok (chunks.map Prod.fst) hne' hch
  obtain ⟨g1, g2, -, g4⟩ := C73_reused_buffer wr hw hd m hm c hlast chunks
  refine ⟨by rw [g1, h1], by rw [g2, h2], ?_⟩
  by_cases hg : (Inbox.receiveChunksWith wr m c chunks).gaveUp = true
  · exfalso
    have := g4 hg (chunks.map Prod.fst).flatten
    rw [g2, h2, List.nil_append] at this
    refine this (unpack_nonempty wr m c _ ?_)
    rw [← C72_chunks wr m c _ hne']
    intro h0
    rw [h0] at h1
    have hl := sendAll_length ws n vs b
    rw [← h1] at hl
    exact hvs (List.length_eq_zero_iff.mp hl.symm)
  · simpa using hg

/-- The frames that end with a checksum. -/
example : ∀ c ∈ [Cls.sse_SseBinary, .szse_SzseBinary, .bjse_BjseBinary, .sample_RootPacket],
    ∃ t, (decl c).fields.getLast? = some t ∧ ∃ p, t.2 = .prim p := by
  intro c hc
  simp only [List.mem_cons, List.not_mem_nil, or_false] at hc
  rcases hc with rfl | rfl | rfl | rfl <;> exact ⟨_, rfl, _, rfl⟩

/-- Two SSE frames of 42 bytes each in chunks of 50 and 34 bytes, with old bytes behind the writer index, meet the hypotheses of `C73_delivers`. -/
example (S S' : List Byte) :
    (Inbox.receiveChunksWith World.initial 3 .sse_SseBinary
      [((sendAll World.initial 3 [exCanonical, exCanonical] ⟨[], 0, 200⟩).2.1.data.take 50, S),
       ((sendAll World.initial 3 [exCanonical, exCanonical] ⟨[], 0, 200⟩).2.1.data.drop 50, S')]).delivered.map (Val.obj .sse_SseBinary)
      = (sendAll World.initial 3 [exCanonical, exCanonical] ⟨[], 0, 200⟩).1 :=
  (C73_delivers World.initial World.initial C28_default_world.1 C28_default_world.2 3 3 (by decide) .sse_SseBinary (by decide +kernel) 4
    (by decide +kernel) (by decide) [exCanonical, exCanonical] (by simp) (by
      intro v hv
      simp only [List.mem_cons, List.not_mem_nil, or_false, or_self] at hv
      rw [hv]; rfl) (by
      intro v hv
      simp only [List.mem_cons, List.not_mem_nil, or_false, or_self] at hv
      rw [hv]; exact ⟨by decide +kernel, exCanonical_canonical, by decide +kernel⟩) ⟨[], 0, 200⟩ (by simp [WBuf.Valid]) (by decide +kernel) _ (by simp)
    (by simp)).1

/-- What arrives of an order confirmation in a risk-control frame when its last byte, `B`, is still missing. -/
def exRcStart : List Byte :=
  ((encode World.initial 2 (.obj .risk_RcBinary [.num ⟨.i32, 200102⟩, .num ⟨.i32, 1⟩, .num ⟨.i32, 0⟩,
    .obj .risk_OrderConfirm [.str (js "1"), .str (js "2"), .str (js "3"), .str (js "F"), .num ⟨.i32, 0⟩, .str (js "B")]]) ⟨[], 0, 100⟩).2.1.data).dropLast

/-- The order-confirmation number of the first message a receiver has delivered. -/
def Inbox.firstConfirm (i : Inbox) : Option JStr := match i.delivered.head? with
  | some [_, _, _, .obj _ body] => body[5]?.map Val.text
  | _ => none

/-- **C73 fails for the frame without a checksum** (the cause is the one of C52).  The bytes of a risk-control frame arrive in two chunks, the
second with the last byte, `B`.  A receiver whose buffer has the old byte `A` behind the writer index delivers the message after the first chunk, with
`A` instead of `B`. -/
theorem C73_no_checksum_violated :
    (Inbox.receiveChunks World.initial 3 .risk_RcBinary [exRcStart, [0x42]]).firstConfirm = some (js "B")
    ∧ (Inbox.receiveChunksWith World.initial 3 .risk_RcBinary [(exRcStart, [0x41]), ([0x42], [])]).firstConfirm = some (js "A") := by
  constructor
  · rw [C72_chunks _ _ _ _ (by simp), unpack_take _ _ _ _ (by decide +kernel) (by decide +kernel), Inbox.firstConfirm, List.head?_cons]
    decide +kernel
  · have h : (unpackWith World.initial 3 .risk_RcBinary [0x41] exRcStart).delivered =
        (decode World.initial 3 .risk_RcBinary (freshFields .risk_RcBinary) ⟨exRcStart, [0x41], 0⟩).1 ::
          (unpackWith World.initial 3 .risk_RcBinary [0x41]
            (exRcStart.drop (decode World.initial 3 .risk_RcBinary (freshFields .risk_RcBinary) ⟨exRcStart, [0x41], 0⟩).2.1.rd)).delivered := by
      have h0 : (decode World.initial 3 .risk_RcBinary (freshFields .risk_RcBinary) ⟨exRcStart, [0x41], 0⟩).2.2 = none := by decide +kernel
      have h1 : 0 < (decode World.initial 3 .risk_RcBinary (freshFields .risk_RcBinary) ⟨exRcStart, [0x41], 0⟩).2.1.rd := by decide +kernel
      have h2 : exRcStart ≠ [] := by decide +kernel
      rw [unpackWith]
      revert h0 h1
      rcases decode World.initial 3 .risk_RcBinary (freshFields .risk_RcBinary) ⟨exRcStart, [0x41], 0⟩ with ⟨fs, b, _ | e⟩ <;> intro h0 h1
      · dsimp only at h1 ⊢
        rw [dif_pos ⟨h1, h2⟩]
      · cases h0
    have hh : ∀ (i : Inbox) (ch : List Byte × List Byte) (fs : List Val), i.delivered.head? = some fs →
        (i.receiveWith World.initial 3 .risk_RcBinary ch).delivered.head? = some fs := by
      intro i ch fs hi
      unfold Inbox.receiveWith
      split
      · exact hi
      · dsimp only
        rw [List.head?_append, hi]; rfl
    rw [Inbox.firstConfirm, Inbox.receiveChunksWith, List.foldl_cons, List.foldl_cons, List.foldl_nil,
      hh _ _ (decode World.initial 3 .risk_RcBinary (freshFields .risk_RcBinary) ⟨exRcStart, [0x41], 0⟩).1
        (by simp only [Inbox.receiveWith, List.nil_append, Bool.false_eq_true, if_false]; rw [h]; rfl)]
    decide +kernel

/-- The message is a text of one byte and nothing else. -/
def isOneByte : List WTy → Bool
  | [.text 1 _ _] => true
  | _ => false

set_option maxRecDepth 100000 in
theorem textBytes_long : allCls.all (fun c => !endsInText c || isOneByte (wire c) || decide (2 ≤ (textBytes 3 c).length)) = true := by decide +kernel

/-- **C73 fails for all other classes** (but those whose messages are one byte of text, which cannot arrive in part): for every class whose
messages can end with text, some bytes, received in one chunk, make the receiver with old bytes in its buffer deliver something the other one does
not deliver. -/
theorem C73_other_classes_violated (c : Cls) (h : endsInText c = true) (h1b : isOneByte (wire c) = false) :
    ∃ chunks : List (List Byte × List Byte), (Inbox.receiveChunksWith World.initial 3 c chunks).delivered
      ≠ (Inbox.receiveChunks World.initial 3 c (chunks.map Prod.fst)).delivered := by
  have h1 := List.all_eq_true.mp textBytes_table c (mem_allCls c)
  have h2 := List.all_eq_true.mp textBytes_long c (mem_allCls c)
  rw [h] at h1 h2
  rw [h1b] at h2
  simp only [Bool.not_true, Bool.false_or, Bool.and_eq_true, decide_eq_true_eq, Option.isNone_iff_eq_none] at h1 h2
  refine ⟨[((textBytes 3 c).dropLast, (textBytes 3 c).drop ((textBytes 3 c).length - 1))], ?_⟩
  generalize (textBytes 3 c).drop ((textBytes 3 c).length - 1) = S at h1 ⊢
  have hne : (textBytes 3 c).dropLast ≠ [] := by
    intro he
    have := congrArg List.length he
    simp at this
    omega
  generalize (textBytes 3 c).dropLast = A at h1 hne ⊢
  have hrd : 0 < (decode World.initial 3 c (freshFields c) ⟨A, S, 0⟩).2.1.rd := by omega
  have hw : (unpackWith World.initial 3 c S A).delivered ≠ [] := by
    rw [unpackWith]
    have h0 := h1.1
    revert h0 hrd
    rcases decode World.initial 3 c (freshFields c) ⟨A, S, 0⟩ with ⟨fs, b, _ | e⟩ <;> intro hrd h0
    · dsimp only at hrd ⊢
      rw [dif_pos ⟨hrd, hne⟩]
      simp
    · cases h0
  have hu : (unpack World.initial 3 c A).delivered = [] := by
    rcases hr : (decode World.initial 3 c (freshFields c) ⟨A, [], 0⟩).2.2 with _ | e
    · exfalso
      have := C72_final World.initial 3 c (freshFields c) [] A [] S (by rw [List.nil_append, List.length_nil, hr]; simp)
      simp only [List.nil_append, List.append_nil, List.length_nil] at this
      have hin := decode_within World.initial 3 c (freshFields c) A
      rw [this] at h1
      dsimp only at h1
      omega
    · by_cases he : e = .indexOutOfBounds
      · rw [unpack_wait _ _ _ _ (by rw [hr, he])]
      · rw [unpack_stop _ _ _ _ e he hr]
  simp only [Inbox.receiveChunksWith, Inbox.receiveChunks, List.map_cons, List.map_nil, List.foldl_cons, List.foldl_nil, Inbox.receiveWith,
    Inbox.receive, List.nil_append, Bool.false_eq_true, if_false]
  rw [hu]
  exact hw

/-- There are 13 classes of the exceptional kind, all of them extensions that occur inside other messages only. -/
example : (allCls.filter fun c => isOneByte (wire c)).length = 13 ∧ isOneByte (wire .risk_RcBinary) = false := by decide +kernel

/-- `C73_reused_buffer` on the chunks above. -/
example := C73_reused_buffer World.initial C28_default_world.1 C28_default_world.2 3 (by decide) .sse_SseBinary (by decide +kernel)
  [((sendAll World.initial 3 [exCanonical, exCanonical] ⟨[], 0, 200⟩).2.1.data.take 50, [1, 2, 3]),
   ((sendAll World.initial 3 [exCanonical, exCanonical] ⟨[], 0, 200⟩).2.1.data.drop 50, [])]

end FinProto
