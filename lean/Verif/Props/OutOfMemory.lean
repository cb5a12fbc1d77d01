import Verif.Proofs.OutOfMemory
import Verif.Proofs.MsgQueue
import Verif.Props.Retry
import Verif.Spec.OutOfMemory
/-
C94: the buffer runs out of memory while it grows.
-/
namespace FinProto
open Netty MsgQueue OutOfMemory

/-- **C94.** As long as there is no `OutOfMemoryError` it does not matter that there could be one: message, exception and bytes are those that C22 and the other properties
of `encode` speak about. -/
theorem C94_no_error (grow : Grow) (hg : grow.Fair) (w : World) (n : Nat) (v : Val) (b : NBuf) (hb : b.Valid) (ha : b.alive = true) :
    let r := Netty.encode grow w n v b
    let s := encode w n v ⟨b.mem.take b.wr, b.rd, b.maxCap⟩
    r.2.2 ≠ some .outOfMemory → r.1 = s.1 ∧ r.2.2 = s.2.2.map .java ∧ r.2.1.mem.take r.2.1.wr = s.2.1.data := by
  intro r s hne
  obtain ⟨g, hok, M, _, _, h1, _, _, _, h2, h3, h4⟩ := encode_limited hg w n v b hb ha
  have := h1 hne
  subst this
  obtain ⟨g1, g2, g3, _⟩ := C90_bytes g hok w n v _ h3 h4
  rw [h2] at g1 g2 g3
  refine ⟨g1, ?_, g3⟩
  have : r.2.2.map asLimit = r.2.2 := by
    rcases hr : r.2.2 with _ | _ | _ | _
    · rfl
    · rfl
    · rfl
    · exact absurd hr hne
  rw [← this]
  exact g2

/-- **C94.** Running out of memory is like running into the limit of a smaller buffer, one that may not become longer than the array is at that point: the same bytes have
been written, and the same has happened to the message. -/
theorem C94_error (grow : Grow) (hg : grow.Fair) (w : World) (n : Nat) (v : Val) (b : NBuf) (hb : b.Valid) (ha : b.alive = true) :
    let r := Netty.encode grow w n v b
    let s := encode w n v ⟨b.mem.take b.wr, b.rd, r.2.1.mem.length⟩
    r.2.2 = some .outOfMemory → r.1 = s.1 ∧ s.2.2 = some .indexOutOfBounds ∧ r.2.1.mem.take r.2.1.wr = s.2.1.data := by
  intro r s he
  obtain ⟨g, hok, M, _, _, _, h1, _, _, h2, h3, h4⟩ := encode_limited hg w n v b hb ha
  have := h1 he
  subst this
  obtain ⟨g1, g2, g3, _⟩ := C90_bytes g hok w n v _ h3 h4
  rw [h2] at g1 g2 g3
  refine ⟨g1, ?_, g3⟩
  change r.2.2.map asLimit = s.2.2.map NErr.java at g2
  rw [he] at g2
  rcases hs : s.2.2 with _ | e
  · rw [hs] at g2; cases g2
  · rw [hs] at g2; cases g2; rfl

/-- **C94.** However the call ends, the buffer stays in order and begins with the bytes that were in it; reader index and limit stay. -/
theorem C94_buffer (grow : Grow) (hg : grow.Fair) (w : World) (n : Nat) (v : Val) (b : NBuf) (hb : b.Valid) (ha : b.alive = true) :
    let r := Netty.encode grow w n v b
    r.2.1.Valid ∧ r.2.1.alive = true ∧ r.2.1.rd = b.rd ∧ r.2.1.maxCap = b.maxCap ∧ b.wr ≤ r.2.1.wr ∧ b.mem.length ≤ r.2.1.mem.length
      ∧ b.mem.take b.wr <+: r.2.1.mem.take r.2.1.wr := by
  intro r
  obtain ⟨g, hok, M, h0, hM, _, _, hcap, hlen, h2, h3, h4⟩ := encode_limited hg w n v b hb ha
  obtain ⟨g1, g2, g3, g4, g5, g6, g7⟩ := C90_bytes g hok w n v _ h3 h4
  have hmono := ((encode_sim hok w n v _ ⟨h3, h4⟩).2).mono
  rw [h2] at g3 g4 g6 g7 hmono
  have hp := C22_prefix_untouched w n v ⟨b.mem.take b.wr, b.rd, M⟩
  refine ⟨⟨g6.1, g6.2.1, ?_⟩, g7, g4.trans hp.2.1, hcap, hmono, (encode_cap hg w b.maxCap n v b rfl).mono, ?_⟩
  · show r.2.1.mem.length ≤ r.2.1.maxCap
    change r.2.1.maxCap = b.maxCap at hcap
    change r.2.1.mem.length ≤ M at hlen
    omega
  · have : r.2.1.mem.take r.2.1.wr = (encode w n v ⟨b.mem.take b.wr, b.rd, M⟩).2.1.data := g3
    rw [this]
    exact hp.1

/-- **C94.** However the call ends, the message keeps its content: only length fields and checksums of registered algorithms may have changed.  A message without them is not
changed at all, and what has been written is a piece of its wire image from its beginning. -/
theorem C94_message (grow : Grow) (hg : grow.Fair) (w : World) (n : Nat) (v : Val) (hv : wellTyped v = true) (b : NBuf) (hb : b.Valid) (ha : b.alive = true) :
    let r := Netty.encode grow w n v b
    wellTyped r.1 = true ∧ content w.svc r.1 = content w.svc v
      ∧ (frameless v = true → r.1 = v ∧ ∃ p, r.2.1.mem.take r.2.1.wr = b.mem.take b.wr ++ p ∧ p <+: image v) := by
  intro r
  obtain ⟨g, hok, M, h0, _, _, _, _, _, h2, h3, h4⟩ := encode_limited hg w n v b hb ha
  obtain ⟨g1, _, g3, _⟩ := C90_bytes g hok w n v _ h3 h4
  rw [h2] at g1 g3
  have e1 : r.1 = (encode w n v ⟨b.mem.take b.wr, b.rd, M⟩).1 := g1
  have e3 : r.2.1.mem.take r.2.1.wr = (encode w n v ⟨b.mem.take b.wr, b.rd, M⟩).2.1.data := g3
  have hl : (b.mem.take b.wr).length = b.wr := by rw [List.length_take]; have := hb.2.1; omega
  have k := C53_content_kept w n v ⟨b.mem.take b.wr, b.rd, M⟩ hv
  rw [e1, e3]
  refine ⟨k.1, k.2, fun hf => ?_⟩
  obtain ⟨p1, p, p2, p3⟩ := C53_partial_output w n v ⟨b.mem.take b.wr, b.rd, M⟩ hv
    ⟨by rw [hl]; exact hb.1, by show _ ≤ M; rw [hl]; exact Nat.le_trans hb.2.1 h0⟩ hf
  exact ⟨p1, p, by rw [p2], p3⟩

/-- **C94.** Where there is room in the array already, no memory is needed: a complete message is written. -/
theorem C94_room (grow : Grow) (hg : grow.Fair) (w : World) (n : Nat) (v : Val) (hv : wellTyped v = true) (hc : complete v = true) (hn : depth v ≤ n)
    (b : NBuf) (hb : b.Valid) (ha : b.alive = true) (hroom : b.wr + (image v).length ≤ b.mem.length) :
    (Netty.encode grow w n v b).2.2 = none := by
  obtain ⟨g, hok, M, h0, _, _, _, _, _, h2, h3, h4⟩ := encode_limited hg w n v b hb ha
  obtain ⟨_, g2, _⟩ := C90_bytes g hok w n v _ h3 h4
  rw [h2] at g2
  have hl : (b.mem.take b.wr).length = b.wr := by rw [List.length_take]; have := hb.2.1; omega
  have hs := (C30_success_iff w n v ⟨b.mem.take b.wr, b.rd, M⟩ hv
    ⟨by rw [hl]; exact hb.1, by show _ ≤ M; rw [hl]; exact Nat.le_trans hb.2.1 h0⟩ hn).mpr ⟨hc, by show _ + _ ≤ M; rw [hl]; omega⟩
  change _ = (encode w n v ⟨b.mem.take b.wr, b.rd, M⟩).2.2.map _ at g2
  rw [hs] at g2
  rcases hr : (Netty.encode grow w n v b).2.2 with _ | e
  · rfl
  · rw [hr] at g2; cases g2

/-- **C94.** So `ensureWritable` before `encode` - with the number of bytes of the message or more - is where a lack of memory shows: if it returns, `encode` of the
complete message succeeds, whatever has become of the memory in between. -/
theorem C94_ensured (grow later : Grow) (hg : grow.Fair) (hl : later.Fair) (w : World) (n : Nat) (v : Val) (hv : wellTyped v = true) (hc : complete v = true)
    (hn : depth v ≤ n) (k : Nat) (hk : (image v).length ≤ k) (b b' : NBuf) (hb : b.Valid) (ha : b.alive = true) (he : b.ensureWritable grow k = (b', none)) :
    (Netty.encode later w n v b').2.2 = none ∧ b'.readable = b.readable := by
  unfold NBuf.ensureWritable at he
  rw [ha, if_neg (by decide)] at he
  by_cases h1 : b.wr + k ≤ b.mem.length
  · rw [if_pos h1] at he
    have := congrArg Prod.fst he
    dsimp only at this
    subst this
    exact ⟨C94_room later hl w n v hv hc hn b hb ha (by omega), rfl⟩
  · rw [if_neg h1] at he
    by_cases h2 : b.maxCap < b.wr + k
    · rw [if_pos h2] at he
      cases congrArg Prod.snd he
    · rw [if_neg h2] at he
      rcases hm : grow b k with _ | m
      · rw [hm] at he; cases congrArg Prod.snd he
      · rw [hm] at he
        have := congrArg Prod.fst he
        dsimp only at this
        subst this
        obtain ⟨f1, f2⟩ := hg b k m (by omega) (by omega) hm
        refine ⟨C94_room later hl w n v hv hc hn _ ⟨hb.1, ?_, ?_⟩ rfl ?_, ?_⟩
        · show b.wr ≤ (b.mem ++ m).length; rw [List.length_append]; have := hb.2.1; omega
        · show (b.mem ++ m).length ≤ b.maxCap; rw [List.length_append]; exact f2
        · show b.wr + _ ≤ (b.mem ++ m).length; rw [List.length_append]; omega
        · show ((b.mem ++ m).take b.wr).drop b.rd = (b.mem.take b.wr).drop b.rd
          rw [List.take_append_of_le_length hb.2.1]

/-- **C94.** Trying again: after any number of attempts, however they ended, `encode` into any buffer writes what the first attempt would have written there. -/
theorem C94_retry (w : World) (as : List Attempt) (hs : ∀ a ∈ as, a.Ok) (v : Val) (hv : wellTyped v = true) (grow : Grow) (hg : grow.Ok) (n : Nat)
    (b : NBuf) (hb : b.Valid) (ha : b.alive = true) :
    let r := Netty.encode grow w n (afterAttempts w as v) b
    let s := Netty.encode grow w n v b
    r.2.2 = s.2.2 ∧ r.2.1.mem.take r.2.1.wr = s.2.1.mem.take s.2.1.wr ∧ (s.2.2 = none → r.1 = s.1) := by
  have key : wellTyped (afterAttempts w as v) = true ∧ content w.svc (afterAttempts w as v) = content w.svc v := by
    clear hg hb ha
    induction as generalizing v with
    | nil => exact ⟨hv, rfl⟩
    | cons a as ih =>
      obtain ⟨f1, f2, f3⟩ := hs a List.mem_cons_self
      obtain ⟨k1, k2, _⟩ := C94_message a.grow f1 w a.depth v hv a.buf f2 f3
      obtain ⟨i1, i2⟩ := ih (fun a' h' => hs a' (List.mem_cons_of_mem _ h')) _ k1
      exact ⟨i1, i2.trans k2⟩
  obtain ⟨h1, h2, h3, _⟩ := C90_bytes grow hg w n (afterAttempts w as v) b hb ha
  obtain ⟨g1, g2, g3, _⟩ := C90_bytes grow hg w n v b hb ha
  have c := C53_same_content w n _ v ⟨b.mem.take b.wr, b.rd, b.maxCap⟩ key.1 hv key.2
  have e1 := congrArg Prod.fst c.1
  have e2 := congrArg Prod.snd c.1
  intro r s
  refine ⟨h2.trans (by rw [e2]; exact g2.symm), h3.trans (by rw [e1]; exact g3.symm), fun hn => ?_⟩
  have hn' : (encode w n v ⟨b.mem.take b.wr, b.rd, b.maxCap⟩).2.2 = none := by
    change s.2.2 = _ at g2
    rw [hn] at g2
    revert g2
    cases (encode w n v ⟨b.mem.take b.wr, b.rd, b.maxCap⟩).2.2 with
    | none => intro _; rfl
    | some e => intro h; cases h
  exact h1.trans ((c.2 (by rw [e2]; exact hn')).trans g1.symm)

/-- **C94.** The queue of C92 on a buffer that may or may not be able to grow, differently each time: messages that are refused for lack of memory leave no trace, and the
others come out once, in their order and with their content. -/
theorem C94_queue (ws wr : World) (n m : Nat) (c : Cls) (hc : numbered c = true) (ops : List (Grow × Op)) (hg : ∀ p ∈ ops, p.1.Fair)
    (hs : ∀ p ∈ ops, Sendable wr m c p.2) (b : NBuf) (hb : b.Valid) (ha : b.alive = true) (he : b.rd = b.wr) :
    let r := runWith ws wr n m c b ops
    ∃ waiting, Fifo [] (ops.map Prod.snd) r.2 waiting ∧ r.1.readable = (waiting.map image).flatten ∧ r.1.Valid ∧ r.1.alive = true := by
  have send_any : ∀ (g : Grow), g.Fair → ∀ (fs : List Val) (b : NBuf) (q : List Val), Holds wr m c b q → wellTyped (.obj c fs) = true → canonical wr (.obj c fs) →
      depth (.obj c fs) ≤ m →
      (∃ v', (send g ws n (.obj c fs) b).2 = .sent v' ∧ blank v' = blank (.obj c fs) ∧ Holds wr m c (send g ws n (.obj c fs) b).1 (q ++ [v']))
      ∨ ∃ e, (send g ws n (.obj c fs) b).2 = .refused e ∧ Holds wr m c (send g ws n (.obj c fs) b).1 q := by
    intro g hg fs b q h hv hcan hm
    obtain ⟨g', hok, M, h0, hM, h1, h1', hcap, hlen, h2, h3, h4⟩ := encode_limited hg ws n (.obj c fs) b h.valid h.alive
    have hl : Holds wr m c (b.limit M) q := ⟨h3, h4, h.bytes, h.waits⟩
    by_cases ho : (Netty.encode g ws n (.obj c fs) b).2.2 = some .outOfMemory
    · right
      rw [ho] at h2
      have e1 : send g' ws n (.obj c fs) (b.limit M)
          = ({ (Netty.encode g ws n (.obj c fs) b).2.1.limit M with wr := b.wr }, .refused (.java .indexOutOfBounds)) := by
        unfold send; rw [h2]; rfl
      have e2 : send g ws n (.obj c fs) b = ({ (Netty.encode g ws n (.obj c fs) b).2.1 with wr := b.wr }, .refused .outOfMemory) := by
        unfold send; dsimp only; rw [ho]
      rcases send_cases hok ws wr n m c fs hl hv hcan hm with ⟨v', k1, _⟩ | ⟨e, _, k2⟩
      · rw [e1] at k1; cases k1
      · rw [e1] at k2
        rw [e2]
        refine ⟨_, rfl, ⟨k2.valid.1, k2.valid.2.1, ?_⟩, k2.alive, k2.bytes, k2.waits⟩
        show (Netty.encode g ws n (.obj c fs) b).2.1.mem.length ≤ (Netty.encode g ws n (.obj c fs) b).2.1.maxCap
        omega
    · have := h1 ho
      subst this
      have e0 : (Netty.encode g ws n (.obj c fs) b).2.2.map asLimit = (Netty.encode g ws n (.obj c fs) b).2.2 := by
        rcases hr : (Netty.encode g ws n (.obj c fs) b).2.2 with _ | _ | _ | _
        · rfl
        · rfl
        · rfl
        · exact absurd hr ho
      have e1 : Netty.encode g' ws n (.obj c fs) b = Netty.encode g ws n (.obj c fs) b := by
        have e2 : (Netty.encode g ws n (.obj c fs) b).2.1.limit b.maxCap = (Netty.encode g ws n (.obj c fs) b).2.1 := by
          rw [← hcap]; rfl
        rw [e0, e2] at h2
        exact h2
      have e2 : send g ws n (.obj c fs) b = send g' ws n (.obj c fs) b := by unfold send; rw [e1]
      rw [e2]
      exact send_cases hok ws wr n m c fs h hv hcan hm
  have key : ∀ (ops : List (Grow × Op)), (∀ p ∈ ops, p.1.Fair) → (∀ p ∈ ops, Sendable wr m c p.2) → ∀ (b : NBuf) (q : List Val), Holds wr m c b q →
      ∃ q', Fifo q (ops.map Prod.snd) (runWith ws wr n m c b ops).2 q' ∧ Holds wr m c (runWith ws wr n m c b ops).1 q' := by
    intro ops
    induction ops with
    | nil => intro _ _ b q h; exact ⟨q, .nil q, h⟩
    | cons p os ih =>
      intro hg hs b q h
      obtain ⟨g, o⟩ := p
      have ih := ih (fun p hp => hg p (List.mem_cons_of_mem _ hp)) (fun p hp => hs p (List.mem_cons_of_mem _ hp))
      cases o with
      | send v =>
        obtain ⟨⟨fs, rfl⟩, hv, hcan, hd⟩ := hs _ List.mem_cons_self
        rcases send_any g (hg _ List.mem_cons_self) fs b q h hv hcan hd with ⟨v', h1, h0, h2⟩ | ⟨e, h1, h2⟩
        · obtain ⟨q', f, k⟩ := ih _ _ h2
          refine ⟨q', ?_, k⟩
          show Fifo q (_ :: _) ((send g ws n (.obj c fs) b).2 :: _) q'
          rw [h1]; exact .sent h0 f
        · obtain ⟨q', f, k⟩ := ih _ _ h2
          refine ⟨q', ?_, k⟩
          show Fifo q (_ :: _) ((send g ws n (.obj c fs) b).2 :: _) q'
          rw [h1]; exact .refused f
      | take =>
        cases q with
        | nil =>
          obtain ⟨e, h1⟩ := take_none hc h
          have h2 : Holds wr m c (take wr m c b).1 [] := by rw [h1]; exact h
          obtain ⟨q', f, k⟩ := ih _ _ h2
          refine ⟨q', ?_, k⟩
          show Fifo [] (_ :: _) ((take wr m c b).2 :: _) q'
          rw [congrArg Prod.snd h1]; exact .nothing f
        | cons v q =>
          obtain ⟨h1, h2⟩ := take_some h
          obtain ⟨q', f, k⟩ := ih _ _ h2
          refine ⟨q', ?_, k⟩
          show Fifo (v :: q) (_ :: _) ((take wr m c b).2 :: _) q'
          rw [h1]; exact .took f
      | discard =>
        obtain ⟨q', f, k⟩ := ih _ _ (discard_holds h)
        exact ⟨q', .discarded f, k⟩
  have hr : b.readable = [] := List.eq_nil_of_length_eq_zero (by rw [readable_length hb]; omega)
  obtain ⟨q, h1, h2⟩ := key ops hg hs b [] ⟨hb, ha, by rw [hr]; rfl, by simp⟩
  exact ⟨q, h1, h2.bytes, h2.valid, h2.alive⟩

/-! ### Cases -/

/-- Unpooled buffers in a heap that has room for arrays of `k` bytes and not for longer ones. -/
def heapOf (k : Nat) : Grow := fun b n => if newCapacity (b.wr + n) b.maxCap ≤ k then unpooled b n else none

theorem heapOf_fair (k : Nat) : (heapOf k).Fair := by
  intro b n m h1 h2 h
  unfold heapOf at h
  split at h
  · obtain ⟨m', g1, g2⟩ := C90_unpooled b n h1 h2
    rw [g1] at h
    cases h
    exact g2
  · cases h

/-- 40 bytes written, of 44; the frame has 42 bytes. -/
private def nearlyFull : NBuf := ⟨List.replicate 44 7, 3, 40, 200, true⟩

example : nearlyFull.Valid ∧ nearlyFull.alive = true := ⟨⟨by decide, by decide, by decide⟩, rfl⟩

/-- 64 bytes can be had, 128 cannot: 24 of the 42 bytes are written. -/
example : (Netty.encode (heapOf 64) World.initial 3 exCanonical nearlyFull).2.2 = some .outOfMemory
    ∧ (Netty.encode (heapOf 64) World.initial 3 exCanonical nearlyFull).2.1.mem.length = 64
    ∧ (Netty.encode (heapOf 64) World.initial 3 exCanonical nearlyFull).2.1.wr = 64 := by decide +kernel

/-- With 128 bytes all is well, and after a failed attempt the same bytes come. -/
example : (Netty.encode (heapOf 128) World.initial 3 exCanonical nearlyFull).2.2 = none
    ∧ (Netty.encode (heapOf 128) World.initial 3 (afterAttempts World.initial [⟨heapOf 64, 3, nearlyFull⟩] exCanonical) nearlyFull).2.1
      = (Netty.encode (heapOf 128) World.initial 3 exCanonical nearlyFull).2.1 := by decide +kernel

example : (Attempt.mk (heapOf 64) 3 nearlyFull).Ok := ⟨heapOf_fair 64, ⟨by decide, by decide, by decide⟩, rfl⟩

/-- `ensureWritable(42)` says beforehand whether there is memory. -/
example : (nearlyFull.ensureWritable (heapOf 64) 42).2 = some .outOfMemory ∧ (nearlyFull.ensureWritable (heapOf 128) 42).2 = none
    ∧ (image exCanonical).length = 42 ∧ complete exCanonical = true := by decide +kernel

/-- No memory at first; the second time the message goes in, and comes out. -/
example : (∀ p ∈ [(heapOf 0, Op.send exCanonical), (heapOf 64, .send exCanonical), (heapOf 0, .take), (heapOf 0, .take)],
      p.1.Fair ∧ Sendable World.initial 3 .sse_SseBinary p.2)
    ∧ (runWith World.initial World.initial 3 3 .sse_SseBinary ⟨[], 0, 0, 200, true⟩
        [(heapOf 0, .send exCanonical), (heapOf 64, .send exCanonical), (heapOf 0, .take), (heapOf 0, .take)]).2.map
      (fun o => match o with | .sent _ => 1 | .refused .outOfMemory => 2 | .took _ => 3 | .nothing _ => 4 | _ => 5) = [2, 1, 3, 4] := by
  have hs : Sendable World.initial 3 .sse_SseBinary (.send exCanonical) := ⟨⟨_, rfl⟩, by decide +kernel, exCanonical_canonical, by decide +kernel⟩
  refine ⟨?_, by decide +kernel⟩
  intro p hp
  simp only [List.mem_cons, List.not_mem_nil, or_false] at hp
  rcases hp with rfl | rfl | rfl | rfl
  · exact ⟨heapOf_fair _, hs⟩
  · exact ⟨heapOf_fair _, hs⟩
  · exact ⟨heapOf_fair _, trivial⟩
  · exact ⟨heapOf_fair _, trivial⟩

private theorem nearlyFull_valid : nearlyFull.Valid := ⟨by decide, by decide, by decide⟩

/-- The theorems on this buffer. -/
example := C94_no_error (heapOf 128) (heapOf_fair _) World.initial 3 exCanonical nearlyFull nearlyFull_valid rfl
example := C94_error (heapOf 64) (heapOf_fair _) World.initial 3 exCanonical nearlyFull nearlyFull_valid rfl
example := C94_buffer (heapOf 64) (heapOf_fair _) World.initial 3 exCanonical nearlyFull nearlyFull_valid rfl
example := C94_message (heapOf 64) (heapOf_fair _) World.initial 3 exCanonical (by decide +kernel) nearlyFull nearlyFull_valid rfl
example := C94_room (heapOf 0) (heapOf_fair _) World.initial 3 exCanonical (by decide +kernel) (by decide +kernel) (by decide +kernel)
  ⟨List.replicate 100 7, 3, 40, 200, true⟩ ⟨by decide, by decide, by decide⟩ rfl (by decide +kernel)
example := C94_ensured (heapOf 128) (heapOf 0) (heapOf_fair _) (heapOf_fair _) World.initial 3 exCanonical (by decide +kernel) (by decide +kernel)
  (by decide +kernel) 42 (by decide +kernel) nearlyFull _ nearlyFull_valid rfl rfl
example := C94_retry World.initial [⟨heapOf 64, 3, nearlyFull⟩]
  (by intro a ha; rw [List.mem_singleton] at ha; subst ha; exact ⟨heapOf_fair 64, nearlyFull_valid, rfl⟩)
  exCanonical (by decide +kernel) unpooled C90_unpooled 3 nearlyFull nearlyFull_valid rfl
example := C94_queue World.initial World.initial 3 3 .sse_SseBinary (by decide +kernel) [(heapOf 0, .take), (heapOf 64, .send exCanonical)]
  (by intro p hp; simp only [List.mem_cons, List.not_mem_nil, or_false] at hp; rcases hp with rfl | rfl <;> exact heapOf_fair _)
  (by
    intro p hp
    simp only [List.mem_cons, List.not_mem_nil, or_false] at hp
    rcases hp with rfl | rfl
    · trivial
    · exact ⟨⟨_, rfl⟩, by decide +kernel, exCanonical_canonical, by decide +kernel⟩)
  ⟨[], 0, 0, 200, true⟩ ⟨by decide, by decide, by decide⟩ rfl rfl

end FinProto
