import Verif.Spec.Integrity
import Verif.Proofs.Bytes
import Verif.Proofs.Checksum
import Verif.Props.DecodeLocal
/-
Helpers for C75.
-/
namespace FinProto

/-! ### The last four bytes of a decoded frame are its checksum field -/

theorem decStmt_len (w : World) (call : DecCall) (tys : List FTy) (s : DecStmt) (st : DecSt) :
    (decStmt w call tys s st).1.fs.length = st.fs.length := by
  unfold decStmt
  repeat' split
  all_goals first | rfl | simp [List.length_set]

theorem decStmts_len (w : World) (call : DecCall) (tys : List FTy) (ss : List DecStmt) :
    ∀ st, (decStmts w call tys ss st).1.fs.length = st.fs.length := by
  induction ss with
  | nil => intro st; rfl
  | cons s ss ih =>
    intro st
    have h := decStmt_len w call tys s st
    simp only [decStmts]
    revert h
    rcases decStmt w call tys s st with ⟨st', _ | e⟩ <;> intro h
    · exact (ih st').trans h
    · exact h

/-- The shape of the three `decode` methods. -/
theorem sumOrder_dec (c : Cls) (e : Endian) (h : sumOrder c = some e) :
    ∃ xs k, (decl c).dec = xs ++ [.num k .i32 e] ∧ ((decl c).fields.map (·.2))[k]? = some (.prim .i32)
      ∧ (freshFields c).length = k + 1 := by
  cases c <;> first | (simp [sumOrder] at h; done) | skip
  · simp only [sumOrder, Option.some.injEq] at h
    subst h
    exact ⟨Sample.RootPacket.dec.dropLast, 3, rfl, rfl, rfl⟩
  · simp only [sumOrder, Option.some.injEq] at h
    subst h
    exact ⟨Sse.SseBinary.dec.dropLast, 4, rfl, rfl, rfl⟩
  · simp only [sumOrder, Option.some.injEq] at h
    subst h
    exact ⟨Szse.SzseBinary.dec.dropLast, 3, rfl, rfl, rfl⟩

theorem assign_i32 (n : Num) (h : n.ty = .i32) : assignNum (.prim .i32) n = some (.num n) := by
  obtain ⟨t, v⟩ := n
  cases h
  rfl

theorem decode_sum (w : World) (n : Nat) (c : Cls) (e : Endian) (h : sumOrder c = some e) (b : RBuf)
    (hok : (decode w n c (freshFields c) b).2.2 = none) :
    4 ≤ (decode w n c (freshFields c) b).2.1.rd
    ∧ (decode w n c (freshFields c) b).2.1.rd ≤ b.data.length
    ∧ (decode w n c (freshFields c) b).1.getLast? =
        some (.num (Num.ofBytes e .i32 ((b.data.drop ((decode w n c (freshFields c) b).2.1.rd - 4)).take 4))) := by
  cases n with
  | zero => cases hok
  | succ n =>
    obtain ⟨xs, k, h1, h2, h3⟩ := sumOrder_dec c e h
    have hdata := (law_decode w (n + 1) c (freshFields c)).data b
    have hdec : decode w (n + 1) c (freshFields c) b =
        let r := decStmts w (decode w n) ((decl c).fields.map (·.2)) (xs ++ [.num k .i32 e]) ⟨freshFields c, b⟩
        (r.1.fs, r.1.buf, r.2) := by
      rw [← h1]; rfl
    rw [hdec] at hok hdata ⊢
    have hlen := decStmts_len w (decode w n) ((decl c).fields.map (·.2)) xs ⟨freshFields c, b⟩
    dsimp only at hok hdata hlen ⊢
    rw [decStmts_append] at hok hdata ⊢
    generalize decStmts w (decode w n) ((decl c).fields.map (·.2)) xs ⟨freshFields c, b⟩ = r at hok hdata hlen ⊢
    obtain ⟨st', _ | err⟩ := r
    · simp only [decStmts, decStmt] at hok hdata ⊢
      unfold RBuf.readNum at hok hdata ⊢
      by_cases hle : st'.buf.rd + PTy.i32.size ≤ st'.buf.data.length
      · rw [if_pos hle] at hok hdata ⊢
        rw [h2] at hok hdata ⊢
        simp only [Option.bind_some, assign_i32 _ (show (Num.ofBytes e .i32 _).ty = .i32 from rfl)] at hok hdata ⊢
        have hs : PTy.i32.size = 4 := rfl
        rw [hs] at hle ⊢
        have hd : st'.buf.data = b.data := hdata
        rw [hd] at hle ⊢
        refine ⟨by omega, hle, ?_⟩
        rw [Nat.add_sub_cancel, List.getLast?_eq_getElem?, List.length_set, hlen, h3, Nat.add_sub_cancel,
          List.getElem?_set_self (by rw [hlen, h3]; omega)]
      · rw [if_neg hle] at hok; cases hok
    · cases hok

/-- Whoever is accepted ends in the checksum of what is in front, and conversely. -/
theorem accepts_form (s : Service) (w : World) (n : Nat) (c : Cls) (e : Endian) (h : sumOrder c = some e) (F : List Byte) :
    accepts s w n c F = true ↔
      (∃ fs b, decode w n c (freshFields c) ⟨F, [], 0⟩ = (fs, b, none) ∧ b.rd = F.length)
      ∧ ∃ front, F = front ++ (Num.int (s.calcOn front)).bytes e := by
  have hs := decode_sum w n c e h ⟨F, [], 0⟩
  unfold accepts
  revert hs
  rcases decode w n c (freshFields c) ⟨F, [], 0⟩ with ⟨fs, b, _ | err⟩ <;> intro hs
  · obtain ⟨h4, _, hl⟩ := hs rfl
    dsimp only at h4 hl ⊢
    rw [hl]
    dsimp only [Num.ofBytes]
    constructor
    · intro ha
      simp only [Bool.and_eq_true, beq_iff_eq] at ha
      obtain ⟨hr, hv⟩ := ha
      refine ⟨⟨fs, b, rfl, hr⟩, F.take (F.length - 4), ?_⟩
      rw [hr] at h4 hv
      simp only [Service.verify, RBuf.readable, List.drop_zero, beq_iff_eq] at hv
      rw [Option.some.inj hv]
      have hb := Num.bytes_ofBytes e .i32 ((F.drop (F.length - 4)).take 4) (by simp [PTy.size]; omega)
      show F = _ ++ (Num.ofBytes e .i32 ((F.drop (F.length - 4)).take 4)).bytes e
      rw [hb, List.take_of_length_le (l := F.drop (F.length - 4)) (by simp; omega), List.take_append_drop]
    · rintro ⟨⟨fs', b', hd, hr⟩, front, hF⟩
      cases hd
      simp only [Bool.and_eq_true, beq_iff_eq]
      refine ⟨hr, ?_⟩
      have hlb : ((Num.int (s.calcOn front)).bytes e).length = 4 := by
        cases e <;> simp [Num.bytes, toBytes, leBytes_length, PTy.size]
      have hlen : F.length - 4 = front.length := by
        have := congrArg List.length hF
        rw [List.length_append, hlb] at this
        omega
      rw [hr, hlen, hF, List.drop_left, List.take_left, ← hlb, List.take_length]
      have hn : Num.ofBytes e .i32 ((Num.int (s.calcOn front)).bytes e) = Num.int (s.calcOn front) :=
        Num.ofBytes_bytes e (Num.int (s.calcOn front))
      have hn' : BitVec.ofNat 32 (ofBytes e ((Num.int (s.calcOn front)).bytes e)) = s.calcOn front := by
        injection hn with _ h'
      simp only [Service.verify, RBuf.readable, List.drop_zero, beq_iff_eq]
      exact congrArg some hn'.symm
  · constructor
    · intro ha; cases ha
    · rintro ⟨⟨fs', b', hd, _⟩, _⟩
      cases hd

/-! ### A changed byte -/

theorem split_last (A B p q : List Byte) (x : Byte) (h : A ++ B = p ++ x :: q) :
    (∃ q', A = p ++ x :: q' ∧ q = q' ++ B) ∨ (∃ p', p = A ++ p' ∧ B = p' ++ x :: q) := by
  rcases List.append_eq_append_iff.mp h with ⟨t, h1, h2⟩ | ⟨t, h1, h2⟩
  · exact .inr ⟨t, h1, h2⟩
  · cases t with
    | nil => exact .inr ⟨[], by simpa using h1.symm, by simpa using h2.symm⟩
    | cons y t =>
      simp only [List.cons_append, List.cons.injEq] at h2
      obtain ⟨rfl, rfl⟩ := h2
      exact .inl ⟨t, h1, rfl⟩

/-- A service that tells byte strings apart that differ in one byte notices one changed byte anywhere in front ++ checksum. -/
theorem one_byte_noticed (s : Service) (e : Endian) (A A' : List Byte)
    (hs : ∀ p x y q, A = p ++ x :: q → A' = p ++ y :: q → x ≠ y → s.calcOn A ≠ s.calcOn A')
    (hc : OneByteChanged (A ++ (Num.int (s.calcOn A)).bytes e) (A' ++ (Num.int (s.calcOn A')).bytes e)) : False := by
  have hlb : ∀ v, ((Num.int v).bytes e).length = 4 := by
    intro v; cases e <;> simp [Num.bytes, toBytes, leBytes_length, PTy.size]
  have hinj : ∀ v v', (Num.int v).bytes e = (Num.int v').bytes e → v = v' := by
    intro v v' h
    have := congrArg (Num.ofBytes e .i32) h
    rw [show Num.ofBytes e .i32 = Num.ofBytes e (Num.int v).ty from rfl, Num.ofBytes_bytes,
      show Num.ofBytes e (Num.int v).ty = Num.ofBytes e (Num.int v').ty from rfl, Num.ofBytes_bytes] at this
    cases this; rfl
  obtain ⟨p, x, y, q, h1, h2, hne⟩ := hc
  have hA : A.length = A'.length := by
    have a := congrArg List.length h1
    have b := congrArg List.length h2
    simp only [List.length_append, hlb, List.length_cons] at a b
    omega
  rcases split_last _ _ _ _ _ h1 with ⟨q1, a1, b1⟩ | ⟨p1, a1, b1⟩ <;>
  rcases split_last _ _ _ _ _ h2 with ⟨q2, a2, b2⟩ | ⟨p2, a2, b2⟩
  · have hq := (List.append_inj' (b1.symm.trans b2) (by rw [hlb, hlb]))
    obtain ⟨rfl, hk⟩ := hq
    exact hs p x y q1 a1 a2 hne (hinj _ _ hk)
  · have h1 := congrArg List.length a1
    have h2 := congrArg List.length a2
    simp at h1 h2; omega
  · have h1 := congrArg List.length a1
    have h2 := congrArg List.length a2
    simp at h1 h2; omega
  · have hp := List.append_inj (a1.symm.trans a2) hA
    obtain ⟨rfl, rfl⟩ := hp
    rw [b1] at b2
    have := List.append_cancel_left b2
    simp only [List.cons.injEq] at this
    exact hne this.1

/-! ### The residue of CRC-32 -/

/-- The 32 bits of a word, least significant first. -/
def wordBits (x : BitVec 32) : List Bool := (List.range 32).map x.getLsbD

theorem crc_eat_prefix (poly s : BitVec 32) (k : Nat) (hk : k ≤ 32) :
    ((List.range k).map s.getLsbD).foldl (crcBit poly) s = s >>> k := by
  induction k with
  | zero => simp
  | succ k ih =>
    rw [List.range_succ, List.map_append, List.foldl_append, ih (by omega)]
    simp only [List.map_cons, List.map_nil, List.foldl_cons, List.foldl_nil, crcBit, BitVec.getLsbD_ushiftRight, Nat.add_zero,
      bne_self_eq_false, Bool.false_eq_true, if_false, BitVec.shiftRight_add]

theorem crc_eat (poly s : BitVec 32) : (wordBits s).foldl (crcBit poly) s = 0#32 := by
  rw [wordBits, crc_eat_prefix poly s 32 (by omega)]
  apply BitVec.eq_of_getLsbD_eq
  intro i hi
  simp

theorem wordBits_xor (x y : BitVec 32) : List.zipWith (· != ·) (wordBits x) (wordBits y) = wordBits (x ^^^ y) := by
  simp only [wordBits, List.zipWith_map, List.zipWith_self]
  apply List.map_congr_left
  intro i _
  simp

theorem msgBits_word (x : BitVec 32) : msgBits (toBytes .le 4 x.toNat) = wordBits x := by
  have hb : ∀ i k, k < 8 → (BitVec.ofNat 8 (x.toNat / 2 ^ i)).getLsbD k = x.getLsbD (i + k) := by
    intro i k hk
    rw [BitVec.getLsbD_ofNat, Nat.testBit_div_two_pow, BitVec.getLsbD, Nat.add_comm k i]
    simp [hk]
  have h0 := hb 0
  have h1 := hb 8
  have h2 := hb 16
  have h3 := hb 24
  simp only [Nat.reducePow, Nat.div_one, Nat.zero_add] at h0 h1 h2 h3
  simp only [toBytes, leBytes, Nat.div_div_eq_div_mul, Nat.reduceMul, msgBits, List.flatMap_cons, List.flatMap_nil, byteBits, wordBits,
    List.range, List.range.loop, List.map_cons, List.map_nil, List.append_nil, List.cons_append, List.nil_append]
  simp only [h0 _ (by omega : 0 < 8), h0 _ (by omega : 1 < 8), h0 _ (by omega : 2 < 8), h0 _ (by omega : 3 < 8), h0 _ (by omega : 4 < 8),
    h0 _ (by omega : 5 < 8), h0 _ (by omega : 6 < 8), h0 _ (by omega : 7 < 8),
    h1 _ (by omega : 0 < 8), h1 _ (by omega : 1 < 8), h1 _ (by omega : 2 < 8), h1 _ (by omega : 3 < 8), h1 _ (by omega : 4 < 8),
    h1 _ (by omega : 5 < 8), h1 _ (by omega : 6 < 8), h1 _ (by omega : 7 < 8),
    h2 _ (by omega : 0 < 8), h2 _ (by omega : 1 < 8), h2 _ (by omega : 2 < 8), h2 _ (by omega : 3 < 8), h2 _ (by omega : 4 < 8),
    h2 _ (by omega : 5 < 8), h2 _ (by omega : 6 < 8), h2 _ (by omega : 7 < 8),
    h3 _ (by omega : 0 < 8), h3 _ (by omega : 1 < 8), h3 _ (by omega : 2 < 8), h3 _ (by omega : 3 < 8), h3 _ (by omega : 4 < 8),
    h3 _ (by omega : 5 < 8), h3 _ (by omega : 6 < 8), h3 _ (by omega : 7 < 8), Nat.reduceAdd]

theorem crc_residue (A : List Byte) :
    crc32IsoHdlc (A ++ (Num.int (crc32IsoHdlc A)).bytes .le) = 0x2144DF1C#32 := by
  obtain ⟨r, hr⟩ : ∃ r, r = (msgBits A).foldl (crcBit 0xEDB88320#32) 0xFFFFFFFF#32 := ⟨_, rfl⟩
  have hA : crc32IsoHdlc A = r ^^^ 0xFFFFFFFF#32 := by rw [hr]; rfl
  have hw : (Num.int (crc32IsoHdlc A)).bytes .le = toBytes .le 4 (r ^^^ 0xFFFFFFFF#32).toNat := by rw [hA]; rfl
  rw [hw, crc32IsoHdlc, crcRef, msgBits_append, List.foldl_append, ← hr, msgBits_word]
  have hx := crcBits_xor 0xEDB88320#32 (wordBits (r ^^^ 0xFFFFFFFF#32)) (wordBits 0xFFFFFFFF#32) (by simp [wordBits]) r 0#32
  rw [wordBits_xor, BitVec.xor_assoc, BitVec.xor_self, BitVec.xor_zero, crc_eat, BitVec.xor_eq_zero_iff] at hx
  rw [hx]
  decide +kernel

end FinProto
