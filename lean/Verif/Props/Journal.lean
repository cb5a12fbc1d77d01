import Verif.Spec.Journal
import Verif.Proofs.Journal
/-
C98: a journal of messages survives crashes.

`Journal.Life`, `Journal.file` (`Spec/Journal.lean`): a process writes messages to a file, crashes, reads the file, cuts off the torn end and goes on.
-/
namespace FinProto
open Journal

section
variable (cap : Nat) (wr : World) (m : Nat) (c : Cls) (o : Nat) (ho : offset? (wire c) 1 = some o) (hpos : 0 < o) (hm : 0 < m)
include ho hpos hm

/-- **C98.** After any number of lives, each ended by a crash after any number of bytes, reading the journal gives exactly the messages (as `encode` left them)
whose bytes are all in the file, in the order in which they were written; the reader does not give up; and no message of the last life that is not whole
is taken for one. -/
theorem C98_recovered (lives : List Life) (hs : ∀ l ∈ lives, l.Writes cap wr m c) :
    (unpack wr m c (file cap wr m c lives)).delivered.map (Val.obj c) = (lives.map (Life.saved cap)).flatten
      ∧ (unpack wr m c (file cap wr m c lives)).gaveUp = false := by
  obtain ⟨whole, ds, torn, h1, h2, h3, -⟩ := journal_all cap wr m c o ho hpos hm lives hs
  rw [h1, h2]
  exact ⟨h3, rfl⟩

/-- **C98.** Nothing that was recovered once is lost later: the messages read after some lives are the first ones of those read after further lives. -/
theorem C98_stays (lives more : List Life) (hs : ∀ l ∈ lives ++ more, l.Writes cap wr m c) :
    (unpack wr m c (file cap wr m c lives)).delivered.map (Val.obj c)
      <+: (unpack wr m c (file cap wr m c (lives ++ more))).delivered.map (Val.obj c) := by
  rw [(C98_recovered cap wr m c o ho hpos hm (lives ++ more) hs).1,
    (C98_recovered cap wr m c o ho hpos hm lives fun l hl => hs l (List.mem_append_left _ hl)).1, List.map_append, List.flatten_append]
  exact List.prefix_append _ _

/-- **C98.** Zeros behind the last whole frame (file systems leave them when the size of a file was changed before its contents) are no messages, as long as
nobody has registered a body for message type 0. -/
theorem C98_zeros (lives : List Life) (hs : ∀ l ∈ lives, l.Writes cap wr m c) (f : Fac) (k : Key) (hz : zeroKey c = some (f, k)) (hno : wr.fac f k = none)
    (hw : (unpack wr m c (file cap wr m c lives)).pending = []) (j : Nat) :
    (unpack wr m c (file cap wr m c lives ++ List.replicate j 0)).delivered = (unpack wr m c (file cap wr m c lives)).delivered
      ∧ (unpack wr m c (file cap wr m c lives ++ List.replicate j 0)).pending = List.replicate j 0 := by
  obtain ⟨whole, ds, torn, h1, h2, h3, h4⟩ := journal_all cap wr m c o ho hpos hm lives hs
  rw [h1, h2] at hw
  dsimp only at hw
  subst hw
  obtain ⟨m', rfl⟩ : ∃ m', m = m' + 1 := ⟨m - 1, by omega⟩
  have key : ∀ (i oo : Nat), (wire c)[i]? = some (.ext f 0) → offset? (wire c) i = some oo →
      (∀ j, ((headValues (conv c.mod) ((wire c).take i) (List.replicate (j + oo) 0))[0]?).map keyOf = some k) →
      unpack wr (m' + 1) c (List.replicate j 0) = ⟨[], List.replicate j 0, false⟩ ∨ unpack wr (m' + 1) c (List.replicate j 0) = ⟨[], List.replicate j 0, true⟩ := by
    intro i oo hi hoo hk
    rcases Nat.lt_or_ge j oo with hj | hj
    · exact .inl (unpack_wait _ _ _ _ (C35_header_incomplete wr m' c i oo (freshFields c) ⟨List.replicate j 0, [], 0⟩ hoo (freshFields_length c) (by simp)
        (by simpa using hj) rfl))
    · obtain ⟨head, kv, g1, -, g2, g3, -⟩ := C35_dispatch wr m' c i oo 0 f (freshFields c) ⟨List.replicate j 0, [], 0⟩ hi hoo (freshFields_length c) (by simpa using hj)
      have := hk (j - oo)
      rw [Nat.sub_add_cancel hj] at this
      rw [g1, List.drop_zero] at g2
      rw [g2] at this
      have hkv : keyOf kv = k := by simpa using this
      exact .inr (unpack_stop _ _ _ _ .illegalArgument (by simp) (by rw [g3 (by rw [hkv]; exact hno)]))
  have hu : unpack wr (m' + 1) c (List.replicate j 0) = ⟨[], List.replicate j 0, false⟩ ∨ unpack wr (m' + 1) c (List.replicate j 0) = ⟨[], List.replicate j 0, true⟩ := by
    unfold zeroKey at hz
    split at hz <;> cases hz
    · exact key 3 16 rfl (by decide) fun _ => rfl
    · exact key 2 8 rfl (by decide) fun _ => rfl
    · exact key 2 8 rfl (by decide) fun _ => rfl
    · exact key 2 6 rfl (by decide) fun _ => rfl
    · exact key 3 12 rfl (by decide) fun _ => rfl
  rw [h1, h2, List.append_nil, h4]
  rcases hu with hu | hu <;> rw [hu] <;> simp

end

/-- **C98.** What "saved" means: the first `i` messages of a life are saved just if all their bytes are in the file. -/
theorem C98_saved_iff (cap : Nat) (l : Life) (i : Nat) (hi : i ≤ l.msgs.length) :
    i ≤ (l.saved cap).length ↔ ((l.msgs.take i).map (l.record cap)).flatten.length ≤ l.kept := by
  have key : ∀ (vs : List Val) (i k : Nat), i ≤ vs.length →
      (i ≤ wholeIn (vs.map fun v => (l.record cap v).length) k ↔ ((vs.take i).map (l.record cap)).flatten.length ≤ k) := by
    intro vs
    induction vs with
    | nil => intro i k h; obtain rfl : i = 0 := by simpa using h
             simp
    | cons v vs ih =>
      intro i k h
      cases i with
      | zero => simp
      | succ i =>
        rw [List.map_cons, wholeIn, List.take_succ_cons, List.map_cons, List.flatten_cons, List.length_append]
        have := ih i (k - (l.record cap v).length) (by simpa using h)
        split
        · omega
        · constructor <;> intro h' <;> omega
  have hle : ∀ (ls : List Nat) (k : Nat), wholeIn ls k ≤ ls.length := by
    intro ls
    induction ls with
    | nil => intro k; simp [wholeIn]
    | cons x ls ih =>
      intro k
      rw [wholeIn, List.length_cons]
      split
      · have := ih (k - x); omega
      · omega
  rw [← key l.msgs i l.kept hi, Life.saved, List.length_take, List.length_map]
  have := hle (l.msgs.map fun v => (l.record cap v).length) l.kept
  rw [List.length_map] at this
  omega

/-! ### Cases -/

/-- Two lives: two frames of 42 bytes each are written, and the crash leaves 60 bytes; then two more frames, and 83 bytes. -/
def twoLives : List Life := [⟨World.initial, 3, [exCanonical, exCanonical], 60⟩, ⟨World.initial, 3, [exCanonical, exCanonical], 83⟩]

theorem twoLives_write : ∀ l ∈ twoLives, l.Writes 200 World.initial 3 .sse_SseBinary := by
  intro l hl
  simp only [twoLives, List.mem_cons, List.not_mem_nil, or_false] at hl
  rcases hl with rfl | rfl <;>
  · intro v hv
    simp only [List.mem_cons, List.not_mem_nil, or_false, or_self] at hv
    subst hv
    exact ⟨⟨_, rfl⟩, by decide +kernel, exCanonical_canonical, by decide +kernel, by decide +kernel⟩

example := C98_recovered 200 World.initial 3 .sse_SseBinary 4 (by decide) (by decide) (by decide) twoLives twoLives_write
example := C98_stays 200 World.initial 3 .sse_SseBinary 4 (by decide) (by decide) (by decide) (twoLives.take 1) (twoLives.drop 1) twoLives_write
example := C98_saved_iff 200 ⟨World.initial, 3, [exCanonical, exCanonical], 60⟩ 1 (by decide)

example : (twoLives.map fun l => (l.saved 200).length) = [1, 1] ∧ (file 200 World.initial 3 .sse_SseBinary twoLives).length = 125 := by decide +kernel

private theorem oneLife_writes : ∀ l ∈ [(⟨World.initial, 3, [exCanonical, exCanonical], 84⟩ : Life)], l.Writes 200 World.initial 3 .sse_SseBinary := by
  intro l hl
  rw [List.mem_singleton] at hl
  subst hl
  intro v hv
  exact twoLives_write _ (List.mem_cons_self ..) v hv

example (j : Nat) := C98_zeros 200 World.initial 3 .sse_SseBinary 4 (by decide) (by decide) (by decide) [⟨World.initial, 3, [exCanonical, exCanonical], 84⟩]
  oneLife_writes _ _ rfl (by decide +kernel) (by decide +kernel) j

def exRecord : List Byte := (Life.mk World.initial 3 [] 0).record 200 exCanonical

/-- **C98, violated for zeros behind a torn message.** A frame of which the crash has left 41 of 42 bytes, followed by zeros, is read as a message, with another
checksum than the one written; if 35 bytes are left, with another body. -/
theorem C98_torn_zeros_violated :
    let u := unpack World.initial 3 .sse_SseBinary (exRecord.take 35 ++ List.replicate 7 0)
    u.delivered.length = 1 ∧ u.pending = []
      ∧ (u.delivered.map fun fs => (image (.obj .sse_SseBinary fs))) ≠ [image ((Life.mk World.initial 3 [] 0).written 200 exCanonical).1] := by
  decide +kernel

/-- **C98, violated without cutting off the torn end.** A process that appends its messages behind a torn one: the reader takes bytes of the second message for
the end of the first and delivers a message nobody has written. -/
theorem C98_not_cut_violated :
    let u := unpack World.initial 3 .sse_SseBinary (exRecord.take 35 ++ exRecord)
    u.delivered.length = 1
      ∧ (u.delivered.map fun fs => (image (.obj .sse_SseBinary fs))) ≠ [image ((Life.mk World.initial 3 [] 0).written 200 exCanonical).1] := by
  decide +kernel

end FinProto
