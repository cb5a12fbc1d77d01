import Verif.Model.Factory
import Verif.Proofs.Decode
import Verif.Proofs.DecodeLaw
/-
C26, C27 and C52: which bytes `decode` looks at.
`decode w n c fs b` decodes from buffer `b` into an object of class `c` with fields `fs` (registries `w`, call-stack depth `n`) and
returns the fields and the buffer after the call and the exception, if any.
All theorems hold for every class, object, registry state and stack depth.
-/
namespace FinProto

/-- **C27.** Whatever the outcome, `decode` changes neither the bytes nor the writer index, and never moves the reader index back. -/
theorem C27_buffer_unchanged (w : World) (n : Nat) (c : Cls) (fs : List Val) (b : RBuf) :
    (decode w n c fs b).2.1.data = b.data ∧ (decode w n c fs b).2.1.spare = b.spare
      ∧ b.rd ≤ (decode w n c fs b).2.1.rd :=
  ⟨(law_decode w n c fs).data b, (law_decode w n c fs).spare b, (law_decode w n c fs).forward b⟩

/-- **C27.** A successful `decode` depends on the bytes it consumed only: on any other buffer that has these bytes at its reader index
it gives the same object and consumes the same number of bytes, whatever is in front of them and behind them. -/
theorem C27_sees_only_consumed (w : World) (n : Nat) (c : Cls) (fs : List Val) (b : RBuf)
    (hok : (decode w n c fs b).2.2 = none) :
    ∃ consumed : List Byte,
      consumed <+: (b.data ++ b.spare).drop b.rd
      ∧ (decode w n c fs b).2.1.rd = b.rd + consumed.length
      ∧ ∀ before after spare : List Byte,
          decode w n c fs ⟨before ++ consumed ++ after, spare, before.length⟩ =
            ((decode w n c fs b).1, ⟨before ++ consumed ++ after, spare, before.length + consumed.length⟩, none) := by
  obtain ⟨X, h1, h2, h3⟩ := (law_decode w n c fs).local' b hok
  exact ⟨X, h1, h2, fun before after spare => (h3 before).1 after spare⟩

/-- **C26.** If `decode` succeeds, then on a buffer that lacks any number of the last bytes it consumed (and has nothing behind) it
fails with an index-out-of-bounds error. -/
theorem C26_truncated_fails (w : World) (n : Nat) (c : Cls) (fs : List Val) (b : RBuf)
    (hok : (decode w n c fs b).2.2 = none) (before cut : List Byte)
    (hcut : cut <+: (b.data ++ b.spare).drop b.rd) (hlen : cut.length < (decode w n c fs b).2.1.rd - b.rd) :
    (decode w n c fs ⟨before ++ cut, [], before.length⟩).2.2 = some .indexOutOfBounds := by
  obtain ⟨X, h1, h2, h3⟩ := (law_decode w n c fs).local' b hok
  refine (h3 before).2 cut (List.prefix_of_prefix_length_le hcut h1 (by omega)) ?_
  intro h
  rw [h2, h] at hlen
  omega

/-- A message with two lists, decoded from the middle of a buffer. -/
def exBytes : List Byte :=
  [0, 7, 0, 2, 0x41, 0x42, 0x20, 0x20, 0x20, 0x20, 0x20, 0x20, 0x20, 0x20, 0x20, 0x20, 0x20, 0x20, 0x20, 0x20, 0, 1, 1, 2, 3, 4]

example : (decode World.initial 1 .sse_ExecRptInfo (freshFields .sse_ExecRptInfo) ⟨[9] ++ exBytes ++ [8], [], 1⟩).2.2 = none
    ∧ (decode World.initial 1 .sse_ExecRptInfo (freshFields .sse_ExecRptInfo) ⟨[9] ++ exBytes ++ [8], [], 1⟩).2.1.rd = 27
    ∧ (decode World.initial 1 .sse_ExecRptInfo (freshFields .sse_ExecRptInfo) ⟨[9] ++ exBytes.take 25, [], 1⟩).2.2
        = some .indexOutOfBounds := by decide +kernel

/-- **C52 (first part).** If the backing array ends at the writer index, `decode` never moves the reader index beyond the writer
index, whatever the outcome. -/
theorem C52_no_spare_partial (w : World) (n : Nat) (c : Cls) (fs : List Val) (b : RBuf) (hs : b.spare = [])
    (hv : b.rd ≤ b.data.length) : (decode w n c fs b).2.1.rd ≤ b.data.length := by
  have := (law_decode w n c fs).inside b
  rw [hs, List.append_nil] at this
  omega

theorem last_num_inside (w : World) (call : DecCall) (tys : List FTy) (xs : List DecStmt) (f : Nat) (p : PTy) (e : Endian)
    (st : DecSt) (hok : (decStmts w call tys (xs ++ [.num f p e]) st).2 = none) :
    (decStmts w call tys (xs ++ [.num f p e]) st).1.buf.rd ≤ (decStmts w call tys (xs ++ [.num f p e]) st).1.buf.data.length := by
  rw [decStmts_append] at hok ⊢
  revert hok
  rcases decStmts w call tys xs st with ⟨st', _ | err⟩ <;> intro hok
  · simp only [decStmts, decStmt] at hok ⊢
    rcases hr : st'.buf.readNum e p with ⟨b', err | m⟩
    · rw [hr] at hok; cases hok
    · have hb : b'.rd ≤ b'.data.length := by
        unfold RBuf.readNum at hr
        split at hr
        · next hle =>
          simp only [Prod.mk.injEq] at hr
          rw [← hr.1]
          exact hle
        · simp at hr
      dsimp only
      cases tys[f]?.bind (assignNum · m) <;> exact hb
  · cases hok

/-- **C52 (second part).** The same holds for a successful `decode` of a class whose last field is a number (this includes the frames
with a checksum), whatever is behind the writer index. -/
theorem C52_last_number_partial (w : World) (n : Nat) (c : Cls) (fs : List Val) (b : RBuf)
    (hlast : ∃ t, (decl c).fields.getLast? = some t ∧ ∃ p, t.2 = .prim p)
    (hok : (decode w n c fs b).2.2 = none) : (decode w n c fs b).2.1.rd ≤ b.data.length := by
  cases n with
  | zero => cases hok
  | succ n =>
    have hw : ∃ ts t, wire c = ts ++ [t] ∧ ∃ p, decOf (conv c.mod) ts.length t = [.num ts.length p (ordOf (conv c.mod) p)] := by
      obtain ⟨⟨nm, ty⟩, h1, p, rfl⟩ := hlast
      have h2 : (javaTypes c).getLast? = some (.prim p) := by
        rw [javaTypes, List.getLast?_map, h1]; rfl
      rw [type_table, List.getLast?_map] at h2
      rcases List.eq_nil_or_concat (wire c) with h | ⟨ts, t, h⟩
      · rw [h] at h2; cases h2
      · rw [h] at h2
        simp only [List.concat_eq_append, List.getLast?_append, List.getLast?_singleton, Option.some_or, Option.map_some,
          Option.some.injEq] at h2
        refine ⟨ts, t, by simpa using h, p, ?_⟩
        cases t <;> simp only [WTy.java] at h2 <;> cases h2 <;> rfl
    obtain ⟨ts, t, h1, p, h2⟩ := hw
    have happ : ∀ (k : Conv) (ts : List WTy) (i : Nat) (t : WTy),
        compileDec k i (ts ++ [t]) = compileDec k i ts ++ decOf k (i + ts.length) t := by
      intro k ts
      induction ts with
      | nil => intro i t; simp [compileDec]
      | cons s ss ih =>
        intro i t
        simp only [List.cons_append, compileDec, ih, List.append_assoc, List.length_cons]
        rw [show i + 1 + ss.length = i + (ss.length + 1) by omega]
    have hd : (decl c).dec = compileDec (conv c.mod) 0 ts ++ [.num ts.length p (ordOf (conv c.mod) p)] := by
      rw [dec_table, h1, happ, Nat.zero_add, h2]
    have hdata := (law_decode w (n + 1) c fs).data b
    rw [← hdata]
    have hdec : decode w (n + 1) c fs b =
        let r := decStmts w (decode w n) (javaTypes c) (compileDec (conv c.mod) 0 ts ++ [.num ts.length p (ordOf (conv c.mod) p)])
          ⟨fs, b⟩
        (r.1.fs, r.1.buf, r.2) := by
      rw [← hd]; rfl
    rw [hdec] at hok ⊢
    exact last_num_inside w (decode w n) (javaTypes c) _ _ _ _ _ hok

/-- **C52 violated.** In general `decode` does read beyond the writer index: a logout message of which only the first 4 bytes have been
received decodes successfully, its text is what an earlier use left in the buffer's array, and the reader index ends up beyond the
writer index. -/
theorem C52_violated :
    ∃ (b : RBuf), b.rd ≤ b.data.length ∧ ∃ fs b',
      decode World.initial 1 .sse_Logout (freshFields .sse_Logout) b = (fs, b', none)
      ∧ b'.data.length < b'.rd ∧ fs[1]?.map Val.text = some (List.replicate 64 0x41) := by
  refine ⟨⟨[0, 0, 0, 1], List.replicate 64 0x41, 0⟩, by decide, _, _, rfl, by decide +kernel, by decide +kernel⟩

/-- The theorems on this message. -/
example := C27_sees_only_consumed World.initial 1 .sse_ExecRptInfo (freshFields .sse_ExecRptInfo) ⟨[9] ++ exBytes ++ [8], [], 1⟩ (by decide +kernel)
example := C26_truncated_fails World.initial 1 .sse_ExecRptInfo (freshFields .sse_ExecRptInfo) ⟨[9] ++ exBytes ++ [8], [], 1⟩ (by decide +kernel) [5]
  (exBytes.take 25) ⟨[4, 8], by decide⟩ (by decide +kernel)
example := C52_no_spare_partial World.initial 1 .sse_ExecRptInfo (freshFields .sse_ExecRptInfo) ⟨[9] ++ exBytes ++ [8], [], 1⟩ rfl (by decide)
example := C52_last_number_partial World.initial 1 .sse_ExecRptSync_SubExecRptSync (freshFields .sse_ExecRptSync_SubExecRptSync)
  ⟨[0x41, 0x42, 0x20, 0x20, 0x20, 0x20, 0x20, 0x20, 0, 0, 0, 1, 0, 0, 0, 0, 0, 0, 0, 2], [3, 4], 0⟩ ⟨_, rfl, _, rfl⟩ (by decide +kernel)

end FinProto
