import Verif.Props.RoundTrip
import Verif.Proofs.Exact
import Verif.Proofs.Everywhere
/-
C31: lengths the signed prefixes cannot hold.
-/
namespace FinProto

/-- The limits: 32767 for sample, SSE and BJSE messages, 2147483647 for SZSE and risk messages. -/
theorem C31_limits (n : Nat) :
    (∀ p : Mod, p = .sample ∨ p = .sse ∨ p = .bjse →
      (countFits (conv p).listLen n ↔ n ≤ 32767) ∧ (countFits (conv p).strLen n ↔ n ≤ 32767)) ∧
    (∀ p : Mod, p = .szse ∨ p = .risk →
      (countFits (conv p).listLen n ↔ n ≤ 2147483647) ∧ (countFits (conv p).strLen n ↔ n ≤ 2147483647)) := by
  unfold countFits
  constructor
  · rintro p (rfl | rfl | rfl) <;> simp only [conv, PTy.size] <;> omega
  · rintro p (rfl | rfl) <;> simp only [conv, PTy.size] <;> omega

/-- What the decoder sees of a count: the number modulo 2^16 (or 2^32) as a signed number; when the count does not fit, this is
negative, zero or smaller than the count. -/
theorem C31_count_seen (k : Conv) (t : PTy) (m : Nat) (ht : t = .i16 ∨ t = .i32) (before after spare : List Byte) :
    ∃ n : Num, RBuf.readNum ⟨before ++ countImage k t m ++ after, spare, before.length⟩ k.order t
        = (⟨before ++ countImage k t m ++ after, spare, before.length + t.size⟩, .ok n)
      ∧ n.bits.toInt = Int.bmod m (2 ^ (8 * t.size))
      ∧ (countFits t m → n.bits.toInt = m) ∧ (¬ countFits t m → n.bits.toInt < m) := by
  have hc : t.isCount = true := by rcases ht with rfl | rfl <;> rfl
  have hbm : (BitVec.ofNat t.bits m).toInt = Int.bmod m (2 ^ t.bits) := by
    rw [BitVec.toInt_eq_toNat_bmod, BitVec.toNat_ofNat, Int.natCast_emod, Int.natCast_pow]
    exact Int.emod_bmod ..
  refine ⟨⟨t, BitVec.ofNat t.bits m⟩, ?_, ?_, ?_, ?_⟩
  · have := reads_count_any k t m hc before after spare
    simp only [toReader] at this
    revert this
    rcases RBuf.readNum ⟨before ++ countImage k t m ++ after, spare, before.length⟩ k.order t with ⟨b1, e | n⟩ <;> intro h
    · simp at h
    · simp only [Prod.mk.injEq, Option.some.injEq, and_true] at h
      obtain ⟨rfl, rfl⟩ := h
      simp [countImage_length]
  · show (BitVec.ofNat t.bits m).toInt = _
    exact hbm
  · intro h
    show (BitVec.ofNat t.bits m).toInt = _
    rw [hbm]
    unfold countFits at h
    rcases ht with rfl | rfl <;> simp only [PTy.bits, PTy.size] at h ⊢ <;> rw [Int.bmod_eq_of_le] <;> omega
  · intro h
    show (BitVec.ofNat t.bits m).toInt < _
    rw [hbm]
    unfold countFits at h
    rcases ht with rfl | rfl <;> simp only [PTy.bits, PTy.size, Int.bmod_def] at h ⊢ <;> split <;> omega

/-- **C31.** If a list or length-prefixed string anywhere in a message has more elements or bytes than the signed prefix can count, then
decoding the encoding never gives the message back: `decode` throws or the new object differs from what was sent.
(Restricted to messages without empty left-padded texts, which leave out their field, and to factories that supply new objects.) -/
theorem C31_no_round_trip (ws wr : World) (n m : Nat) (c : Cls) (fs : List Val) (b : WBuf) (hv : wellTyped (.obj c fs) = true)
    (hb : b.Valid) (hok : (encode ws n (.obj c fs) b).2.2 = none) (hw : FreshSuppliers wr)
    (hleft : everywhere leftFilled (.obj c fs)) (hbig : ¬ everywhere fitsPrefix (.obj c fs)) :
    ∃ bytes fs', (encode ws n (.obj c fs) b).2.1.data = b.data ++ bytes ∧ (encode ws n (.obj c fs) b).1 = .obj c fs'
      ∧ ∀ before after spare b', decode wr m c (freshFields c) ⟨before ++ bytes ++ after, spare, before.length⟩ ≠ (fs', b', none) := by
  obtain ⟨_, _, h2⟩ := encode_ok ws n _ b hv hb hok
  obtain ⟨gs, hgs⟩ := settle_obj ws.svc b.readable c fs
  have hv' := settle_wellTyped ws.svc b.readable _ hv
  have hl' := (everywhere_settle _ blind_leftFilled ws.svc b.readable _ hv).mpr hleft
  have hb' : ¬ everywhere fitsPrefix (settle ws.svc b.readable (.obj c fs)) := fun h =>
    hbig ((everywhere_settle _ blind_fitsPrefix ws.svc b.readable _ hv).mp h)
  rw [hgs] at hv' hl' h2 hb'
  refine ⟨image (.obj c gs), gs, by rw [h2]; rfl, by rw [h2], ?_⟩
  intro before after spare b' hd
  obtain ⟨c', fs', he, ht⟩ := wellTyped_obj _ hv'
  cases he
  exact hb' (decode_exact wr hw m c gs before after spare b' ht hl' hd).1

/-- The other direction: a decode that gives the message back has consumed exactly its bytes. -/
theorem C31_exact_consumption (ws wr : World) (n m : Nat) (c : Cls) (fs : List Val) (b : WBuf) (hv : wellTyped (.obj c fs) = true)
    (hb : b.Valid) (hok : (encode ws n (.obj c fs) b).2.2 = none) (hw : FreshSuppliers wr)
    (hleft : everywhere leftFilled (.obj c fs)) (bytes fs' : _) (before after spare : List Byte) (b' : RBuf)
    (hbytes : (encode ws n (.obj c fs) b).2.1.data = b.data ++ bytes) (hfs : (encode ws n (.obj c fs) b).1 = .obj c fs')
    (hd : decode wr m c (freshFields c) ⟨before ++ bytes ++ after, spare, before.length⟩ = (fs', b', none)) :
    everywhere fitsPrefix (.obj c fs) ∧ b'.rd = before.length + bytes.length := by
  obtain ⟨_, _, h2⟩ := encode_ok ws n _ b hv hb hok
  have hv' := settle_wellTyped ws.svc b.readable _ hv
  have hl' := (everywhere_settle _ blind_leftFilled ws.svc b.readable _ hv).mpr hleft
  rw [h2] at hbytes hfs
  dsimp only at hfs
  have hX : bytes = image (settle ws.svc b.readable (.obj c fs)) := (List.append_cancel_left hbytes).symm
  rw [hfs] at hv' hl' hX
  subst hX
  obtain ⟨c', fs', he, ht⟩ := wellTyped_obj _ hv'
  cases he
  have := decode_exact wr hw m c fs' before after spare b' ht hl' hd
  refine ⟨(everywhere_settle _ blind_fitsPrefix ws.svc b.readable _ hv).mp (by rw [hfs]; exact this.1), ?_⟩
  have h := this.2
  rw [Got] at h
  rw [h]
  rfl

/-- The factories of a freshly started process supply new objects. -/
theorem C31_default_factories : FreshSuppliers World.initial := fun f k v h => freshMap_initial f k v h

/-- An execution report info message with `n` platforms. -/
def exMany (n : Nat) : Val := .obj .sse_ExecRptInfo [.num ⟨.i16, 7⟩, .list [.str (js "AB")], .list (List.replicate n (.num ⟨.i32, 5⟩))]

theorem exMany_facts (n : Nat) : wellTyped (exMany n) = true ∧ complete (exMany n) = true ∧ depth (exMany n) = 1
    ∧ everywhere leftFilled (exMany n) ∧ (everywhere fitsPrefix (exMany n) ↔ n ≤ 32767) := by
  have h1 : ∀ n, elemsHaveType (.prim .i32) (List.replicate n (.num ⟨.i32, 5⟩)) = true := by
    intro n; induction n with
    | zero => rfl
    | succ n ih => simp only [List.replicate_succ, elemsHaveType, ih]; rfl
  have h2 : ∀ n, completeElems (.num .i32) (List.replicate n (.num ⟨.i32, 5⟩)) = true := by
    intro n; induction n with
    | zero => rfl
    | succ n ih => simp only [List.replicate_succ, completeElems, ih]; rfl
  have h3 : ∀ n, depthList (List.replicate n (.num ⟨.i32, 5⟩)) = 0 := by
    intro n; induction n with
    | zero => rfl
    | succ n ih => simp only [List.replicate_succ, depthList, ih]; rfl
  have h4 : ∀ P : Conv → WTy → Val → Prop, ∀ k, P k (.num .i32) (.num ⟨.i32, 5⟩) →
      ∀ n, everyElems P k (.num .i32) (List.replicate n (.num ⟨.i32, 5⟩)) := by
    intro P k hP n; induction n with
    | zero => trivial
    | succ n ih => exact ⟨hP, ih⟩
  refine ⟨?_, ?_, ?_, ?_, ?_⟩
  · show (true && (true && (true && (elemsHaveType (.prim .i32) _ && true)))) = true
    rw [h1]; rfl
  · show (true && (true && (completeElems (.num .i32) _ && true))) = true
    rw [h2]; rfl
  · show max 0 (max (max 0 0) (max (depthList _) 0)) + 1 = 1
    rw [h3]; rfl
  · exact ⟨trivial, ⟨trivial, trivial, trivial⟩, ⟨trivial, h4 _ _ trivial n⟩, trivial⟩
  · refine ⟨fun h => ?_, fun h => ?_⟩
    · have : countFits .i16 (List.replicate n (Val.num ⟨.i32, 5⟩)).length := h.2.2.1.1
      rw [List.length_replicate] at this
      exact Nat.le_of_lt_succ this
    · refine ⟨trivial, ⟨(by decide : countFits .i16 1), trivial, trivial⟩, ⟨?_, h4 _ _ trivial n⟩, trivial⟩
      show countFits .i16 (List.replicate n (Val.num ⟨.i32, 5⟩)).length
      rw [List.length_replicate]
      exact Nat.lt_succ_of_le h

/-- The hypotheses of `C31_no_round_trip` are met by this message with any number of platforms above 32767. -/
example (n : Nat) (h : 32767 < n) : ∃ c fs, exMany n = .obj c fs ∧ wellTyped (.obj c fs) = true ∧
    (encode World.initial 5 (.obj c fs) ⟨[], 0, (image (exMany n)).length⟩).2.2 = none ∧ FreshSuppliers World.initial
    ∧ everywhere leftFilled (.obj c fs) ∧ ¬ everywhere fitsPrefix (.obj c fs) := by
  obtain ⟨h1, h2, h3, h4, h5⟩ := exMany_facts n
  refine ⟨_, _, rfl, h1, ?_, C31_default_factories, h4, fun hf => by have := h5.mp hf; omega⟩
  exact (C30_success_iff World.initial 5 (exMany n) ⟨[], 0, _⟩ h1 ⟨by simp, by simp⟩ (by omega)).mpr ⟨h2, by simp⟩

/-- The theorems on these messages. -/
example := C31_count_seen (conv .sse) .i16 32768 (.inl rfl) [1] [2] []

example (n : Nat) (h : 32767 < n) := C31_no_round_trip World.initial World.initial 5 5 .sse_ExecRptInfo _ ⟨[], 0, (image (exMany n)).length⟩
  (exMany_facts n).1 ⟨by simp, by simp⟩
  ((C30_success_iff World.initial 5 (exMany n) ⟨[], 0, _⟩ (exMany_facts n).1 ⟨by simp, by simp⟩ (by have := (exMany_facts n).2.2.1; omega)).mpr
    ⟨(exMany_facts n).2.1, by simp⟩) C31_default_factories (exMany_facts n).2.2.2.1 (fun hf => by have := (exMany_facts n).2.2.2.2.mp hf; omega)

example := C31_exact_consumption World.initial World.initial 5 5 .sse_ExecRptInfo _ ⟨[], 0, 100⟩ (exMany_facts 1).1 ⟨by decide, by decide⟩
  (by decide +kernel) C31_default_factories (exMany_facts 1).2.2.2.1 (image (exMany 1)) _ [1] [2] []
  ⟨[1] ++ image (exMany 1) ++ [2], [], 1 + (image (exMany 1)).length⟩ (by decide +kernel) rfl rfl

end FinProto
