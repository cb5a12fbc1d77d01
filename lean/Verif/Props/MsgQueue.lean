import Verif.Proofs.MsgQueue
/-
C92: reading from the buffer as it is implemented, and one buffer used as a queue of messages.
-/
namespace FinProto
open Netty MsgQueue

/-- **C92.** `decode` from a buffer of any capacity: the fields, the exception and the reader index are those that C25 and the other properties of `decode` speak about.
Nothing else of the buffer changes. -/
theorem C92_decode (w : World) (n : Nat) (c : Cls) (fs : List Val) (b : NBuf) (hb : b.Valid) (ha : b.alive = true) :
    let r := Netty.decode w n c fs b
    let s := decode w n c fs ⟨b.mem.take b.wr, b.mem.drop b.wr, b.rd⟩
    r.1 = s.1 ∧ r.2.2 = s.2.2.map .java ∧ r.2.1 = { b with rd := s.2.1.rd } := by
  obtain ⟨fs', k', e, h1, h2⟩ := decode_of w n c fs b hb ha
  rw [h1, h2]
  exact ⟨rfl, rfl, rfl⟩

/-- **C92.** One buffer as a queue: whatever the application does - sends, takes, moves the unread bytes to the front, in any order and any number of times, with exceptions
on the way -, it sees a queue: the messages come out in the order in which they went in, each once, and `take` says that there is nothing only when there is nothing.
The unread bytes are the messages that have not been taken out. -/
theorem C92_queue (grow : Grow) (hg : grow.Ok) (ws wr : World) (n m : Nat) (c : Cls) (hc : numbered c = true) (ops : List Op)
    (hs : ∀ o ∈ ops, Sendable wr m c o) (b : NBuf) (hb : b.Valid) (ha : b.alive = true) (he : b.rd = b.wr) :
    let r := run grow ws wr n m c b ops
    ∃ waiting, Fifo [] ops r.2 waiting ∧ r.1.readable = (waiting.map image).flatten ∧ r.1.Valid ∧ r.1.alive = true := by
  have hr : b.readable = [] := List.eq_nil_of_length_eq_zero (by rw [readable_length hb]; omega)
  obtain ⟨q, h1, h2⟩ := run_fifo hg ws wr n m c hc ops b [] hs ⟨hb, ha, by rw [hr]; rfl, by simp⟩
  exact ⟨q, h1, h2.bytes, h2.valid, h2.alive⟩

/-- **C92.** A message is refused only for the reasons of C30: a missing part, too little stack, or no room between the writer index and the limit. -/
theorem C92_room (grow : Grow) (hg : grow.Ok) (w : World) (n : Nat) (v : Val) (hv : wellTyped v = true) (b : NBuf) (hb : b.Valid) (ha : b.alive = true) :
    (∃ v', (send grow w n v b).2 = .sent v') ↔ complete v = true ∧ depth v ≤ n ∧ b.wr + (image v).length ≤ b.maxCap := by
  have h2 := (C90_bytes grow hg w n v b hb ha).2.1
  have hlen : (b.mem.take b.wr).length = b.wr := by rw [List.length_take]; have := hb.2.1; omega
  have hout : (∃ v', (send grow w n v b).2 = .sent v') ↔ (encode w n v ⟨b.mem.take b.wr, b.rd, b.maxCap⟩).2.2 = none := by
    unfold send
    dsimp only at h2 ⊢
    rw [h2]
    cases (encode w n v ⟨b.mem.take b.wr, b.rd, b.maxCap⟩).2.2 with
    | none => exact ⟨fun _ => rfl, fun _ => ⟨_, rfl⟩⟩
    | some e => exact ⟨fun h => (by obtain ⟨_, h⟩ := h; cases h), fun h => (by cases h)⟩
  rw [hout]
  have := encode_cases w n v ⟨b.mem.take b.wr, b.rd, b.maxCap⟩ hv (by show b.rd ≤ (b.mem.take b.wr).length; rw [hlen]; exact hb.1)
    (by show (b.mem.take b.wr).length ≤ b.maxCap; rw [hlen]; exact Nat.le_trans hb.2.1 hb.2.2)
  dsimp only at this
  rw [hlen] at this
  rcases this with ⟨g1, g2, g3, g⟩ | ⟨g1, g2, g3, g⟩ | ⟨g1, g⟩
  · rw [g]; exact ⟨fun _ => ⟨g1, g2, g3⟩, fun _ => rfl⟩
  · rw [g]; exact ⟨fun h => (by cases h), fun h => (by omega)⟩
  · refine ⟨fun hok => ?_, fun hc => ?_⟩
    · rcases g with g | g
      · rw [hok] at g; cases g
      · obtain ⟨x, hx⟩ := g.isSome; rw [hok] at hx; cases hx
    · rcases g1 with g1 | g1
      · rw [g1] at hc; cases hc.1
      · omega

/-- **C92.** … and after `discardReadBytes` the room is what the unread messages leave: messages that have been taken out do not count. -/
theorem C92_fits (grow : Grow) (hg : grow.Ok) (w : World) (n : Nat) (v : Val) (hv : wellTyped v = true) (b : NBuf) (hb : b.Valid) (ha : b.alive = true) :
    b.discardReadBytes.2 = none ∧ b.discardReadBytes.1.readable = b.readable
    ∧ ((∃ v', (send grow w n v b.discardReadBytes.1).2 = .sent v') ↔
        complete v = true ∧ depth v ≤ n ∧ b.readable.length + (image v).length ≤ b.maxCap) := by
  obtain ⟨h1, h2, h3, _, h5, h6, h7⟩ := discard_valid hb ha
  have := C92_room grow hg w n v hv _ h1 h2
  rw [h5, h6] at this
  exact ⟨h7, h3, this⟩

/-- **C92.** A buffer that has been released: `decode` changes nothing in it.  A class with fields is refused with Netty's exception, its object stays as it is
(`NestedPacket`, which begins with a message, creates that message first). -/
theorem C92_released (w : World) (n : Nat) (c : Cls) (fs : List Val) (b : NBuf) (ha : b.alive = false) :
    (Netty.decode w n c fs b).2.1 = b
    ∧ (wire c ≠ [] → c ≠ .sample_NestedPacket → Netty.decode w (n + 1) c fs b = (fs, b, some .released)) := by
  refine ⟨decode_dead ha w n c fs, fun hc hn => ?_⟩
  rcases readsFirst_decl c with h | h | h
  · refine absurd ?_ hc
    have htab : ∀ c, (decl c).dec = [] → wire c = [] := by intro c; cases c <;> first | exact fun _ => rfl | exact fun h => nomatch h
    exact htab c h
  · exact absurd h hn
  · unfold Netty.decode
    rw [decStmts_released ha w _ _ _ h]

/-- **C92 does not hold for all classes.** The classes that have only fixed-width texts (or nothing at all): on an empty queue `take` gives a message that nobody has sent, as
long as the array is large enough, because texts are read from behind the writer index. -/
theorem C92_ghost_violated (w : World) (n : Nat) (c : Cls) (hc : onlyTexts (wire c) = true) (s : Nat) (hs : size? c = some s) (b : NBuf) (hb : b.Valid)
    (ha : b.alive = true) (he : b.rd = b.wr) (hroom : b.wr + s ≤ b.mem.length) :
    ∃ v, take w (n + 1) c b = ({ b with rd := b.wr + s }, .took v) := by
  obtain ⟨fs', k', e, h1, h2⟩ := decode_of w (n + 1) c (freshFields c) b hb ha
  have h := readFields_texts w (decode w n) (conv c.mod) (wire c) [] (freshFields c) ⟨b.mem.take b.wr, b.mem.drop b.wr, b.rd⟩ s hc (freshFields_length c) hs
    (by show b.rd + s ≤ (b.mem.take b.wr).length + (b.mem.drop b.wr).length; rw [List.length_take, List.length_drop]; have := hb.2.1; omega)
  rw [← decode_eq w n c _ _ (freshFields_length c), h2] at h
  simp only [Prod.mk.injEq, RBuf.mk.injEq, true_and] at h
  obtain ⟨rfl, rfl⟩ := h
  refine ⟨.obj c fs', ?_⟩
  unfold take
  rw [h1, he]
  rfl

/-- **C92.** Every class is of one kind or the other.  65 are of the second kind: 28 without fields and 37 with texts only. -/
theorem C92_kinds : (∀ c : Cls, numbered c = !onlyTexts (wire c)) ∧ (allCls.filter fun c => onlyTexts (wire c)).length = 65
    ∧ (allCls.filter fun c => (wire c).isEmpty).length = 28 := by
  refine ⟨fun c => by cases c <;> rfl, by decide +kernel, by decide +kernel⟩

/-! ### Cases -/

example : numbered .sse_SseBinary = true ∧ numbered .sample_NestedPacket = true := ⟨rfl, rfl⟩

example : Sendable World.initial 3 .sse_SseBinary (.send exCanonical) := ⟨⟨_, rfl⟩, by decide +kernel, exCanonical_canonical, by decide +kernel⟩

/-- A buffer of at most 100 bytes, 30 of them used before; a frame has 42 bytes.  Two go in only after the first has been taken out and the bytes have been moved. -/
private def before : NBuf := ⟨List.replicate 64 7, 30, 30, 100, true⟩

private def seen : Out → Nat
  | .sent _ => 1
  | .refused _ => 2
  | .took _ => 3
  | .nothing _ => 4
  | .discarded => 5

example : before.Valid ∧ before.rd = before.wr := ⟨⟨by decide, by decide, by decide⟩, rfl⟩

example : ((run unpooled World.initial World.initial 3 3 .sse_SseBinary before
    [.take, .send exCanonical, .send exCanonical, .discard, .send exCanonical, .send exCanonical, .take, .send exCanonical, .take, .take]).2.map seen)
    = [4, 1, 2, 5, 1, 2, 3, 2, 3, 4] := by decide +kernel

/-- The ghost: one message has been sent and taken, the bytes are moved, and there it is again. -/
example : ((run unpooled World.initial World.initial 3 3 .szse_Extend100601 ⟨[], 0, 0, 100, true⟩
    [.send (.obj .szse_Extend100601 [.str (js "1")]), .take, .discard, .take]).2.map seen) = [1, 3, 5, 3] := by decide +kernel

example : onlyTexts (wire .szse_Extend100601) = true ∧ size? .szse_Extend100601 = some 1 := by decide +kernel

example : (Netty.decode World.initial 3 .sse_SseBinary (freshFields .sse_SseBinary) { before with alive := false }).2.2 = some .released := by decide +kernel

/-- The theorems on this buffer. -/
example := C92_decode World.initial 3 .sse_SseBinary (freshFields .sse_SseBinary) before ⟨by decide, by decide, by decide⟩ rfl
example := C92_queue unpooled C90_unpooled World.initial World.initial 3 3 .sse_SseBinary rfl
  [.take, .send exCanonical, .send exCanonical, .discard, .send exCanonical, .take, .take]
  (by
    have h : Sendable World.initial 3 .sse_SseBinary (.send exCanonical) := ⟨⟨_, rfl⟩, by decide +kernel, exCanonical_canonical, by decide +kernel⟩
    intro o ho
    simp only [List.mem_cons, List.not_mem_nil, or_false] at ho
    rcases ho with rfl | rfl | rfl | rfl | rfl | rfl | rfl <;> first | exact h | trivial)
  before ⟨by decide, by decide, by decide⟩ rfl rfl
example := C92_room unpooled C90_unpooled World.initial 3 exCanonical (by decide +kernel) before ⟨by decide, by decide, by decide⟩ rfl
example := C92_fits unpooled C90_unpooled World.initial 3 exCanonical (by decide +kernel) before ⟨by decide, by decide, by decide⟩ rfl
example := C92_released World.initial 3 .sse_SseBinary (freshFields .sse_SseBinary) { before with alive := false } rfl

end FinProto
