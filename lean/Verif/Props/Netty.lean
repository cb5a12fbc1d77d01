import Verif.Proofs.Netty
import Verif.Props.RoundTrip
/-
C90: the buffer as it is implemented - how large it is, what it held before, how it grows, whether it has been released.
-/
namespace FinProto
open Netty

/-- **C90.** `encode` into a buffer of any capacity that holds anything behind the writer index and grows in any way: the message, the exception and the bytes below the
writer index are those that C22 and the other properties of `encode` speak about.  The reader index stays and the buffer stays in order. -/
theorem C90_bytes (grow : Grow) (hg : grow.Ok) (w : World) (n : Nat) (v : Val) (b : NBuf) (hb : b.Valid) (ha : b.alive = true) :
    let r := Netty.encode grow w n v b
    let s := encode w n v ⟨b.mem.take b.wr, b.rd, b.maxCap⟩
    r.1 = s.1 ∧ r.2.2 = s.2.2.map .java ∧ r.2.1.mem.take r.2.1.wr = s.2.1.data ∧ r.2.1.rd = s.2.1.rd ∧ r.2.1.maxCap = s.2.1.maxCap
      ∧ r.2.1.Valid ∧ r.2.1.alive = true := by
  obtain ⟨h1, h2⟩ := encode_sim hg w n v b ⟨hb, ha⟩
  exact ⟨h1, h2.err, congrArg WBuf.data h2.view, congrArg WBuf.rd h2.view, congrArg WBuf.maxCap h2.view, h2.good.1, h2.good.2⟩

/-- **C90.** Two buffers with the same bytes below the writer index, the same reader index and the same limit - whatever else they hold, however they are allocated:
`encode` does the same. -/
theorem C90_any_buffer (g g' : Grow) (hg : g.Ok) (hg' : g'.Ok) (w : World) (n : Nat) (v : Val) (b b' : NBuf) (hb : b.Valid) (hb' : b'.Valid)
    (ha : b.alive = true) (ha' : b'.alive = true) (hd : b.mem.take b.wr = b'.mem.take b'.wr) (hr : b.rd = b'.rd) (hm : b.maxCap = b'.maxCap) :
    let r := Netty.encode g w n v b
    let r' := Netty.encode g' w n v b'
    r.1 = r'.1 ∧ r.2.2 = r'.2.2 ∧ r.2.1.mem.take r.2.1.wr = r'.2.1.mem.take r'.2.1.wr ∧ r.2.1.rd = r'.2.1.rd := by
  obtain ⟨h1, h2, h3, h4, _⟩ := C90_bytes g hg w n v b hb ha
  obtain ⟨g1, g2, g3, g4, _⟩ := C90_bytes g' hg' w n v b' hb' ha'
  rw [← hd, ← hr, ← hm] at g1 g2 g3 g4
  exact ⟨h1.trans g1.symm, h2.trans g2.symm, h3.trans g3.symm, h4.trans g4.symm⟩

/-- **C90.** Growing as Netty's unpooled buffers do is a way of growing in this sense: the new array has room for what is to be written and is not beyond the limit. -/
theorem C90_unpooled : Grow.Ok unpooled := unpooled_ok

/-- **C90.** Send and receive through one buffer as it is implemented: after `encode` into it, `decode` from where the message begins - from the array as it is, with
whatever stands behind the writer index - gives the message and stops at the writer index. -/
theorem C90_through_buffer (grow : Grow) (hg : grow.Ok) (ws wr : World) (n m : Nat) (c : Cls) (fs : List Val) (b : NBuf) (hb : b.Valid) (ha : b.alive = true)
    (hv : wellTyped (.obj c fs) = true) (hcan : canonical wr (.obj c fs)) (hm : depth (.obj c fs) ≤ m) :
    let r := Netty.encode grow ws n (.obj c fs) b
    r.2.2 = none → ∃ fs', r.1 = .obj c fs' ∧
      decode wr m c (freshFields c) ⟨r.2.1.mem.take r.2.1.wr, r.2.1.mem.drop r.2.1.wr, b.wr⟩ =
        (fs', ⟨r.2.1.mem.take r.2.1.wr, r.2.1.mem.drop r.2.1.wr, r.2.1.wr⟩, none) := by
  intro r hok
  obtain ⟨h1, h2, h3, h4, _, h6, _⟩ := C90_bytes grow hg ws n (.obj c fs) b hb ha
  have hl : (b.mem.take b.wr).length = b.wr := by rw [List.length_take]; have := hb.2.1; omega
  have hok' : (encode ws n (.obj c fs) ⟨b.mem.take b.wr, b.rd, b.maxCap⟩).2.2 = none := by
    change r.2.2 = _ at h2
    rw [hok] at h2
    revert h2
    cases (encode ws n (.obj c fs) ⟨b.mem.take b.wr, b.rd, b.maxCap⟩).2.2 with
    | none => intro _; rfl
    | some e => intro h; cases h
  obtain ⟨bytes, fs', g1, g2, g3⟩ := C23_round_trip ws wr n m c fs ⟨b.mem.take b.wr, b.rd, b.maxCap⟩ hv
    ⟨by rw [hl]; exact hb.1, by rw [hl]; exact Nat.le_trans hb.2.1 hb.2.2⟩ hok' hcan hm
  refine ⟨fs', h1.trans g2, ?_⟩
  have hdata : r.2.1.mem.take r.2.1.wr = b.mem.take b.wr ++ bytes := h3.trans g1
  have hwr : r.2.1.wr = b.wr + bytes.length := by
    have : (r.2.1.mem.take r.2.1.wr).length = r.2.1.wr := by rw [List.length_take]; exact Nat.min_eq_left h6.2.1
    rw [← this, hdata, List.length_append, hl]
  have := g3 (b.mem.take b.wr) [] (r.2.1.mem.drop r.2.1.wr)
  rw [List.append_nil, hl] at this
  rw [hdata, this, hwr]

/-- **C90.** A buffer that has been released: nothing is written, the message stays as it is.  Without an exception there was nothing to write, on any
buffer; an exception other than Netty's comes on every buffer. -/
theorem C90_released (grow : Grow) (w : World) (n : Nat) (v : Val) (b : NBuf) (ha : b.alive = false) :
    let r := Netty.encode grow w n v b
    r.1 = v ∧ r.2.1 = b
      ∧ (r.2.2 = none → ∀ b', Netty.encode grow w n v b' = (v, b', none))
      ∧ (∀ e, e ≠ .released → r.2.2 = some e → ∀ b', (Netty.encode grow w n v b').2.2 = some e) := by
  have h := encode_dead (grow := grow) w n
  exact ⟨h.val v b ha, h.buf v b ha, h.ok v b ha, h.java v b ha⟩

/-- **C90.** … so a message that can be written, and has at least one byte, is always refused with Netty's exception. -/
theorem C90_released_refused (grow : Grow) (hg : grow.Ok) (w : World) (n : Nat) (v : Val) (b : NBuf) (ha : b.alive = false)
    (before : WBuf) (hb : before.Valid) (hok : (encode w n v before).2.2 = none) (hsome : (encode w n v before).2.1.data ≠ before.data) :
    Netty.encode grow w n v b = (v, b, some .released) := by
  obtain ⟨h1, h2, h3, h4⟩ := C90_released grow w n v b ha
  let b0 : NBuf := ⟨before.data, before.rd, before.data.length, before.maxCap, true⟩
  have hb0 : b0.mem.take b0.wr = before.data := List.take_length
  obtain ⟨_, g2, g3, _⟩ := C90_bytes grow hg w n v b0 ⟨hb.1, Nat.le_refl _, hb.2⟩ rfl
  rw [hb0] at g2 g3
  change _ = (encode w n v before).2.2.map _ at g2
  change _ = (encode w n v before).2.1.data at g3
  rw [hok] at g2
  have he : (Netty.encode grow w n v b).2.2 = some .released := by
    rcases hr : (Netty.encode grow w n v b).2.2 with _ | e
    · have := h3 hr b0
      rw [this] at g3
      exact absurd (g3.symm.trans hb0) hsome
    · cases e with
      | released => rfl
      | java e =>
        have := h4 (.java e) (by intro h; cases h) hr b0
        rw [this] at g2
        cases g2
      | outOfMemory =>
        have := h4 .outOfMemory (by intro h; cases h) hr b0
        rw [this] at g2
        cases g2
  exact Prod.ext h1 (Prod.ext h2 he)

/-! ### Cases -/

/-- An array of 64 bytes, 40 of them written and 3 of these read, with old bytes behind. -/
private def used : NBuf := ⟨List.replicate 40 7 ++ List.replicate 24 9, 3, 40, 200, true⟩

example : used.Valid ∧ used.alive = true := ⟨⟨by decide, by decide, by decide⟩, rfl⟩

/-- The 42 bytes of the frame do not fit into the array; the new one has 128 bytes. -/
example : (Netty.encode unpooled World.initial 3 exCanonical used).2.2 = none
    ∧ (Netty.encode unpooled World.initial 3 exCanonical used).2.1.wr = 82
    ∧ (Netty.encode unpooled World.initial 3 exCanonical used).2.1.mem.length = 128 := by decide +kernel

example : depth exCanonical ≤ 3 ∧ wellTyped exCanonical = true := by decide +kernel

/-- The limit is reached in the middle: the bytes that fit are written. -/
example : (Netty.encode unpooled World.initial 3 exCanonical { used with maxCap := 70 }).2.2 = some (.java .indexOutOfBounds)
    ∧ 40 < (Netty.encode unpooled World.initial 3 exCanonical { used with maxCap := 70 }).2.1.wr := by decide +kernel

example : Netty.encode unpooled World.initial 3 exCanonical { used with alive := false } = (exCanonical, { used with alive := false }, some .released) :=
  C90_released_refused unpooled C90_unpooled World.initial 3 exCanonical _ rfl ⟨[], 0, 100⟩ ⟨by decide, by decide⟩ (by decide +kernel)
    (by intro h; exact absurd (congrArg List.length h) (by decide +kernel))

/-- A message without fields writes nothing and does not notice. -/
example : (Netty.encode unpooled World.initial 3 (.obj .sse_Heartbeat []) { used with alive := false }).2.2 = none := by decide +kernel

/-- The theorems on this buffer. -/
example := C90_bytes unpooled C90_unpooled World.initial 3 exCanonical used ⟨by decide, by decide, by decide⟩ rfl
example := C90_any_buffer unpooled unpooled C90_unpooled C90_unpooled World.initial 3 exCanonical used ⟨List.replicate 40 7, 3, 40, 200, true⟩
  ⟨by decide, by decide, by decide⟩ ⟨by decide, by decide, by decide⟩ rfl rfl (by decide) rfl rfl
example := C90_through_buffer unpooled C90_unpooled World.initial World.initial 3 3 _ _ used ⟨by decide, by decide, by decide⟩ rfl
  (by decide +kernel : wellTyped exCanonical = true) exCanonical_canonical (by decide +kernel) (by decide +kernel)
example := C90_released unpooled World.initial 3 exCanonical { used with alive := false } rfl

end FinProto
