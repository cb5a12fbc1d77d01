import Verif.Model.Netty
import Verif.Proofs.Bytes
/-
A buffer as Netty implements it, seen as the bytes below the writer index.
-/
namespace FinProto.Netty

/-- What `Buf.lean` sees of a buffer. -/
def NBuf.view (b : NBuf) : WBuf := ⟨b.mem.take b.wr, b.rd, b.maxCap⟩

def NBuf.Good (b : NBuf) : Prop := b.Valid ∧ b.alive = true

theorem view_length {b : NBuf} (h : b.Valid) : b.view.data.length = b.wr := by
  show (b.mem.take b.wr).length = b.wr
  rw [List.length_take]
  have := h.2.1
  omega

/-- The result of an operation on the buffer, and that of the operation on what is seen of it; `k` is where the writer index was. -/
structure OpSim (k : Nat) (r : NBuf × Option NErr) (s : WBuf × Option JErr) : Prop where
  view : r.1.view = s.1
  good : r.1.Good
  err : r.2 = s.2.map .java
  mono : k ≤ r.1.wr

theorem take_overwrite (d : List Byte) (i : Nat) (bs : List Byte) (h : i + bs.length ≤ d.length) :
    (overwrite d i bs).take (i + bs.length) = d.take i ++ bs := by
  unfold overwrite
  rw [List.take_append_of_le_length (by simp; omega)]
  rw [List.take_of_length_le (by simp; omega)]

theorem overwrite_length (d : List Byte) (i : Nat) (bs : List Byte) (h : i + bs.length ≤ d.length) : (overwrite d i bs).length = d.length := by
  unfold overwrite
  simp
  omega

theorem overwrite_take (d : List Byte) (i k : Nat) (bs : List Byte) (h : i + bs.length ≤ k) (hk : k ≤ d.length) :
    (overwrite d i bs).take k = overwrite (d.take k) i bs := by
  apply List.ext_getElem?
  intro j
  unfold overwrite
  simp only [List.getElem?_take, List.getElem?_append, List.getElem?_drop, List.length_append, List.length_take]
  repeat' split
  all_goals first | rfl | omega | (congr 1; omega)

theorem write_sim {grow : Grow} (hg : grow.Ok) {b : NBuf} (h : b.Good) (bs : List Byte) : OpSim b.wr (b.write grow bs) (b.view.write bs) := by
  obtain ⟨⟨h1, h2, h3⟩, ha⟩ := h
  have hv : b.view.data.length = b.wr := view_length ⟨h1, h2, h3⟩
  have hm : b.view.maxCap = b.maxCap := rfl
  unfold NBuf.write NBuf.ensureWritable WBuf.write
  rw [hv, hm, if_neg (by rw [ha]; decide)]
  by_cases hfit : b.wr + bs.length ≤ b.mem.length
  · rw [if_pos hfit, if_pos (by omega : b.wr + bs.length ≤ b.maxCap)]
    refine ⟨?_, ⟨⟨?_, ?_, ?_⟩, ha⟩, rfl, ?_⟩
    · simp only [NBuf.view, take_overwrite _ _ _ hfit]
    · show b.rd ≤ b.wr + bs.length; omega
    · show b.wr + bs.length ≤ (overwrite b.mem b.wr bs).length
      rw [overwrite_length _ _ _ hfit]; exact hfit
    · show (overwrite b.mem b.wr bs).length ≤ b.maxCap
      rw [overwrite_length _ _ _ hfit]; exact h3
    · show b.wr ≤ b.wr + bs.length; omega
  · rw [if_neg hfit]
    by_cases hmax : b.maxCap < b.wr + bs.length
    · rw [if_pos hmax, if_neg (by omega : ¬ b.wr + bs.length ≤ b.maxCap)]
      exact ⟨rfl, ⟨⟨h1, h2, h3⟩, ha⟩, rfl, Nat.le_refl _⟩
    · rw [if_neg hmax, if_pos (by omega : b.wr + bs.length ≤ b.maxCap)]
      obtain ⟨m, g0, g1, g2⟩ := hg b bs.length (by omega) (by omega)
      rw [g0]
      have hl : b.wr + bs.length ≤ (b.mem ++ m).length := by rw [List.length_append]; exact g1
      refine ⟨?_, ⟨⟨?_, ?_, ?_⟩, ha⟩, rfl, ?_⟩
      · simp only [NBuf.view, take_overwrite _ _ _ hl]
        rw [List.take_append_of_le_length h2]
      · show b.rd ≤ b.wr + bs.length; omega
      · show b.wr + bs.length ≤ (overwrite (b.mem ++ m) b.wr bs).length
        rw [overwrite_length _ _ _ hl]; exact hl
      · show (overwrite (b.mem ++ m) b.wr bs).length ≤ b.maxCap
        rw [overwrite_length _ _ _ hl, List.length_append]; exact g2
      · show b.wr ≤ b.wr + bs.length; omega

theorem set_sim {b : NBuf} (h : b.Good) (i : Nat) (bs : List Byte) (hi : i + bs.length ≤ b.wr) : OpSim b.wr (b.set i bs) (b.view.set i bs) := by
  obtain ⟨⟨h1, h2, h3⟩, ha⟩ := h
  have hv : b.view.data.length = b.wr := view_length ⟨h1, h2, h3⟩
  have hl : i + bs.length ≤ b.mem.length := by omega
  unfold NBuf.set WBuf.set
  rw [hv, if_neg (by rw [ha]; decide), if_pos hl, if_pos hi]
  refine ⟨?_, ⟨⟨h1, ?_, ?_⟩, ha⟩, rfl, Nat.le_refl _⟩
  · simp only [NBuf.view]
    rw [overwrite_take _ _ _ _ hi h2]
  · show b.wr ≤ (overwrite b.mem i bs).length
    rw [overwrite_length _ _ _ hl]; exact h2
  · show (overwrite b.mem i bs).length ≤ b.maxCap
    rw [overwrite_length _ _ _ hl]; exact h3

/-- Both go on, or both stop with the same exception. -/
theorem OpSim.split {k : Nat} {r : NBuf × Option NErr} {s : WBuf × Option JErr} (h : OpSim k r s) : ∃ b : NBuf, b.Good ∧ k ≤ b.wr
    ∧ ((r = (b, none) ∧ s = (b.view, none)) ∨ ∃ e, r = (b, some (.java e)) ∧ s = (b.view, some e)) := by
  obtain ⟨b, e⟩ := r
  obtain ⟨c, e'⟩ := s
  obtain ⟨hv, hgood, he, hm⟩ := h
  dsimp only at hv he hm hgood
  subst hv
  cases e' with
  | none => simp only [Option.map_none] at he; subst he; exact ⟨b, hgood, hm, .inl ⟨rfl, rfl⟩⟩
  | some e' => simp only [Option.map_some] at he; subst he; exact ⟨b, hgood, hm, .inr ⟨e', rfl, rfl⟩⟩

theorem OpSim.from {k j : Nat} {r : NBuf × Option NErr} {s : WBuf × Option JErr} (h : OpSim k r s) (hj : j ≤ k) : OpSim j r s :=
  ⟨h.view, h.good, h.err, Nat.le_trans hj h.mono⟩

theorem stay_sim {b : NBuf} (h : b.Good) (e : Option JErr) : OpSim b.wr (b, e.map NErr.java) (b.view, e) := ⟨rfl, h, rfl, Nat.le_refl _⟩

variable {grow : Grow} (hg : grow.Ok)
include hg

theorem padChar_sim (n : Nat) (c : JChar) : ∀ {b : NBuf}, b.Good → OpSim b.wr (padChar grow b n c) (FinProto.padChar b.view n c) := by
  induction n with
  | zero => intro b h; exact stay_sim h none
  | succ n ih =>
    intro b h
    unfold padChar FinProto.padChar
    obtain ⟨b1, h1, hm, ⟨er, es⟩ | ⟨e, er, es⟩⟩ := (write_sim hg h [c.setWidth 8]).split
    · rw [er, es]; exact (ih h1).from hm
    · rw [er, es]; exact (stay_sim h1 (some e)).from hm

theorem writeFixedString_sim {b : NBuf} (h : b.Good) (v : Option JStr) (n : Nat) (pad : JChar) (left : Bool) :
    OpSim b.wr (writeFixedString grow b v n pad left) (FinProto.writeFixedString b.view v n pad left) := by
  have pad_sim : ∀ (p : Bool) (k : Nat) (b : NBuf), b.Good → OpSim b.wr (if p = true then padChar grow b k pad else (b, none))
      (if p = true then FinProto.padChar b.view k pad else (b.view, none)) := by
    intro p k b hb
    cases p with
    | true => exact padChar_sim hg k pad hb
    | false => exact stay_sim hb none
  unfold writeFixedString FinProto.writeFixedString
  rcases v with _ | _ | ⟨c, cs⟩
  · exact pad_sim (!left && decide (0 < n)) (n - 0) b h
  · exact pad_sim (!left && decide (0 < n)) (n - 0) b h
  · dsimp only
    obtain ⟨b1, h1, hm, ⟨er, es⟩ | ⟨e, er, es⟩⟩ := (pad_sim (left && decide (min (utf8Enc (c :: cs)).length n < n)) (n - min (utf8Enc (c :: cs)).length n) b h).split
    · rw [er, es]
      dsimp only
      obtain ⟨b2, h2, hm2, ⟨er, es⟩ | ⟨e, er, es⟩⟩ := (write_sim hg h1 (List.take (min (utf8Enc (c :: cs)).length n) (utf8Enc (c :: cs)))).split
      · rw [er, es]
        exact (pad_sim (!left && decide (min (utf8Enc (c :: cs)).length n < n)) _ b2 h2).from (Nat.le_trans hm hm2)
      · rw [er, es]; exact (stay_sim h2 (some e)).from (Nat.le_trans hm hm2)
    · rw [er, es]; exact (stay_sim h1 (some e)).from hm

theorem writeVal_sim {b : NBuf} (h : b.Good) (t : PTy) (e : Endian) (v : Val) : OpSim b.wr (writeVal grow b t e v) (FinProto.writeVal b.view t e v) := by
  unfold writeVal FinProto.writeVal
  cases v with
  | num n =>
    dsimp only
    cases n.convert t with
    | none => exact stay_sim h (some .illTyped)
    | some m => exact write_sim hg h _
  | null => exact stay_sim h (some .nullPointer)
  | _ => exact stay_sim h (some .illTyped)

theorem writeInt_sim {b : NBuf} (h : b.Good) (t : PTy) (e : Endian) (k : Nat) : OpSim b.wr (writeInt grow b t e k) (FinProto.writeInt b.view t e k) :=
  writeVal_sim hg h t e _

theorem writeDyn_sim {b : NBuf} (h : b.Good) (zt t : PTy) (e : Endian) (s : Option JStr) :
    OpSim b.wr (writeDyn grow b zt t e s) (FinProto.writeDyn b.view zt t e s) := by
  unfold writeDyn FinProto.writeDyn
  rcases s with _ | _ | ⟨c, cs⟩
  · exact writeInt_sim hg h _ _ _
  · exact writeInt_sim hg h _ _ _
  · dsimp only
    obtain ⟨b1, h1, hm, ⟨er, es⟩ | ⟨e, er, es⟩⟩ := (writeInt_sim hg h t e (utf8Enc (c :: cs)).length).split
    · rw [er, es]; exact (write_sim hg h1 _).from hm
    · rw [er, es]; exact (stay_sim h1 (some _)).from hm

theorem writeFixedVal_sim {b : NBuf} (h : b.Good) (v : Val) (n : Nat) (pad : JChar) (left : Bool) :
    OpSim b.wr (writeFixedVal grow b v n pad left) (FinProto.writeFixedVal b.view v n pad left) := by
  unfold writeFixedVal FinProto.writeFixedVal
  cases v.asStr with
  | none => exact stay_sim h (some .illTyped)
  | some s => exact writeFixedString_sim hg h s n pad left

theorem writeDynVal_sim {b : NBuf} (h : b.Good) (v : Val) (zt t : PTy) (e : Endian) :
    OpSim b.wr (writeDynVal grow b v zt t e) (FinProto.writeDynVal b.view v zt t e) := by
  unfold writeDynVal FinProto.writeDynVal
  cases v.asStr with
  | none => exact stay_sim h (some .illTyped)
  | some s => exact writeDyn_sim hg h zt t e s

omit hg in
/-- Calls with a message. -/
def CallSim (f : NCall) (g : EncCall) : Prop := ∀ (v : Val) (b : NBuf), b.Good → (f v b).1 = (g v b.view).1 ∧ OpSim b.wr (f v b).2 (g v b.view).2

theorem encElem_sim {f : NCall} {g : EncCall} (hc : CallSim f g) (el : EncElem) (v : Val) {b : NBuf} (h : b.Good) :
    (encElem grow f el v b).1 = (FinProto.encElem g el v b.view).1 ∧ OpSim b.wr (encElem grow f el v b).2 (FinProto.encElem g el v b.view).2 := by
  cases el with
  | num t e => exact ⟨rfl, writeVal_sim hg h t e v⟩
  | fixed n pad left => exact ⟨rfl, writeFixedVal_sim hg h v n pad left⟩
  | dyn zt t e => exact ⟨rfl, writeDynVal_sim hg h v zt t e⟩
  | obj => exact hc v b h

theorem encElems_sim {f : NCall} {g : EncCall} (hc : CallSim f g) (el : EncElem) (vs : List Val) : ∀ {b : NBuf}, b.Good →
    (encElems grow f el vs b).1 = (FinProto.encElems g el vs b.view).1 ∧ OpSim b.wr (encElems grow f el vs b).2 (FinProto.encElems g el vs b.view).2 := by
  induction vs with
  | nil => intro b h; exact ⟨rfl, stay_sim h none⟩
  | cons v vs ih =>
    intro b h
    obtain ⟨h1, h2⟩ := encElem_sim hg hc el v h
    unfold encElems FinProto.encElems
    revert h1 h2
    generalize encElem grow f el v b = r
    generalize FinProto.encElem g el v b.view = s
    obtain ⟨v1, b1, e1⟩ := r
    obtain ⟨v2, b2, e2⟩ := s
    rintro rfl ⟨hv, hgood, he, hm⟩
    dsimp only at hv he hm
    subst hv
    cases e2 with
    | some e2 =>
      simp only [Option.map_some] at he
      subst he
      exact ⟨rfl, rfl, hgood, rfl, hm⟩
    | none =>
      simp only [Option.map_none] at he
      subst he
      obtain ⟨g1, g2⟩ := ih hgood
      dsimp only
      refine ⟨by rw [g1], g2.view, g2.good, g2.err, Nat.le_trans hm g2.mono⟩

omit hg

/-! ### The statements: what is overwritten has been written before -/

/-- What the statements so far guarantee about the local variables: at least so many bytes have been written since the variable was set. -/
def after (k : Nat → Option Nat) : EncStmt → Nat → Option Nat
  | .save x => fun y => if y = x then some 0 else k y
  | .zero t _ => fun y => (k y).map (· + t.size)
  | _ => k

def fits (k : Nat → Option Nat) : EncStmt → Bool
  | .patch x _ t _ => match k x with | some m => decide (t.size ≤ m) | none => false
  | _ => true

def allFit : (Nat → Option Nat) → List EncStmt → Bool
  | _, [] => true
  | k, s :: ss => fits k s && allFit (after k s) ss

theorem allFit_decl (c : Cls) : allFit (fun _ => none) (decl c).enc = true := by cases c <;> rfl

structure StSim (st : NSt) (s : EncSt) : Prop where
  fs : st.fs = s.fs
  view : st.buf.view = s.buf
  good : st.buf.Good
  loc : st.loc = s.loc

def Kept (k : Nat → Option Nat) (st : NSt) : Prop := ∀ x p, st.loc x = some p → ∀ m, k x = some m → p + m ≤ st.buf.wr

theorem convert_ty {n m : Num} {t : PTy} (h : n.convert t = some m) : m.ty = t := by
  unfold Num.convert at h
  split at h
  · cases h; rfl
  · split at h
    · cases h; rfl
    · cases h

theorem encStmt_sim (hg : grow.Ok) (w : World) {f : NCall} {g : EncCall} (hc : CallSim f g) (k : Nat → Option Nat) (s : EncStmt) (hfit : fits k s = true) {st : NSt} {e : EncSt} (h : StSim st e)
    (hk : Kept k st) : StSim (encStmt grow w f s st).1 (FinProto.encStmt w g s e).1 ∧ (encStmt grow w f s st).2 = (FinProto.encStmt w g s e).2.map .java
      ∧ ((encStmt grow w f s st).2 = none → Kept (after k s) (encStmt grow w f s st).1) ∧ st.buf.wr ≤ (encStmt grow w f s st).1.buf.wr := by
  obtain ⟨fs, b, loc⟩ := st
  obtain ⟨fs', b', loc'⟩ := e
  obtain ⟨h1, h2, hgood, h4⟩ := h
  dsimp only at h1 h2 hgood h4
  subst h1; subst h2; subst h4
  have mono : ∀ {b1 : NBuf} {fs1 : List Val}, b.wr ≤ b1.wr → Kept k ⟨fs1, b1, loc⟩ := by
    intro b1 fs1 hm x p hx m hkm
    exact Nat.le_trans (hk x p hx m hkm) hm
  have op : ∀ {r : NBuf × Option NErr} {s : WBuf × Option JErr}, OpSim b.wr r s →
      StSim ⟨fs, r.1, loc⟩ ⟨fs, s.1, loc⟩ ∧ r.2 = s.2.map .java ∧ (r.2 = none → Kept k ⟨fs, r.1, loc⟩) ∧ b.wr ≤ r.1.wr :=
    fun hr => ⟨⟨rfl, hr.view, hr.good, rfl⟩, hr.err, fun _ => mono hr.mono, hr.mono⟩
  have bad : StSim ⟨fs, b, loc⟩ ⟨fs, b.view, loc⟩ ∧ some (NErr.java .illTyped) = (some JErr.illTyped).map .java
      ∧ (some (NErr.java .illTyped) = none → Kept k ⟨fs, b, loc⟩) ∧ b.wr ≤ b.wr :=
    ⟨⟨rfl, rfl, hgood, rfl⟩, rfl, (fun h => by cases h), Nat.le_refl _⟩
  have call : ∀ (f' : Nat) (v : Val), StSim ⟨fs.set f' (f v b).1, (f v b).2.1, loc⟩ ⟨fs.set f' (g v b.view).1, (g v b.view).2.1, loc⟩
      ∧ (f v b).2.2 = (g v b.view).2.2.map .java ∧ ((f v b).2.2 = none → Kept k ⟨fs.set f' (f v b).1, (f v b).2.1, loc⟩) ∧ b.wr ≤ (f v b).2.1.wr := by
    intro f' v
    obtain ⟨c1, c2⟩ := hc v b hgood
    exact ⟨⟨by rw [c1], c2.view, c2.good, rfl⟩, c2.err, fun _ => mono c2.mono, c2.mono⟩
  cases s with
  | num f' t en =>
    simp only [encStmt, FinProto.encStmt, after]
    rcases fs[f']? with _ | v
    · exact bad
    · cases v with
      | num n => exact op (writeVal_sim hg hgood t en _)
      | _ => exact bad
  | fixed f' n pad left =>
    simp only [encStmt, FinProto.encStmt, after]
    rcases fs[f']? with _ | v
    · exact bad
    · exact op (writeFixedVal_sim hg hgood v n pad left)
  | dyn f' zt t en =>
    simp only [encStmt, FinProto.encStmt, after]
    rcases fs[f']? with _ | v
    · exact bad
    · exact op (writeDynVal_sim hg hgood v zt t en)
  | list f' zt t en el =>
    simp only [encStmt, FinProto.encStmt, after]
    rcases fs[f']? with _ | v
    · exact bad
    · cases v with
      | null => exact op (writeInt_sim hg hgood zt .be 0)
      | list xs =>
        cases xs with
        | nil => exact op (writeInt_sim hg hgood zt .be 0)
        | cons x xs =>
          dsimp only
          have hw := writeInt_sim hg hgood t en (x :: xs).length
          revert hw
          generalize writeInt grow b t en (x :: xs).length = r
          generalize FinProto.writeInt b.view t en (x :: xs).length = s
          obtain ⟨b1, e1⟩ := r
          obtain ⟨b2, e2⟩ := s
          rintro ⟨hv, hgood', he, hm⟩
          dsimp only at hv he hm hgood'
          subst hv
          cases e2 with
          | some e2 =>
            simp only [Option.map_some] at he
            subst he
            exact ⟨⟨rfl, rfl, hgood', rfl⟩, rfl, (fun h => by cases h), hm⟩
          | none =>
            simp only [Option.map_none] at he
            subst he
            obtain ⟨g1, g2⟩ := encElems_sim hg hc el (x :: xs) hgood'
            dsimp only
            exact ⟨⟨by rw [g1], g2.view, g2.good, rfl⟩, g2.err, fun _ => mono (Nat.le_trans hm g2.mono), Nat.le_trans hm g2.mono⟩
      | _ => exact bad
  | obj f' =>
    simp only [encStmt, FinProto.encStmt, after]
    rcases fs[f']? with _ | v
    · exact bad
    · exact call f' v
  | objOpt f' =>
    simp only [encStmt, FinProto.encStmt, after]
    rcases fs[f']? with _ | v
    · exact bad
    · cases v with
      | null => exact ⟨⟨rfl, rfl, hgood, rfl⟩, rfl, fun _ => hk, Nat.le_refl _⟩
      | _ => exact call f' _
  | save x =>
    simp only [encStmt, FinProto.encStmt, after]
    refine ⟨⟨rfl, rfl, hgood, ?_⟩, rfl, fun _ y p hy m hm => ?_, Nat.le_refl _⟩
    · show setLoc loc x b.wr = setLoc loc x b.view.data.length
      rw [view_length hgood.1]
    · have hy : setLoc loc x b.wr y = some p := hy
      show p + m ≤ b.wr
      simp only [setLoc] at hy
      dsimp only at hm
      by_cases hxy : y = x
      · rw [if_pos hxy] at hy hm
        cases hy; cases hm
        exact Nat.le_refl _
      · rw [if_neg hxy] at hy hm
        exact hk y p hy m hm
  | zero t en =>
    simp only [encStmt, FinProto.encStmt, after]
    have hw := writeInt_sim hg hgood t en 0
    refine ⟨⟨rfl, hw.view, hw.good, rfl⟩, hw.err, fun hnone x p hx m hm => ?_, hw.mono⟩
    obtain ⟨m', hm', rfl⟩ := Option.map_eq_some_iff.mp hm
    have := hk x p hx m' hm'
    have hgrow : (writeInt grow b t en 0).1.wr = b.wr + t.size := by
      revert hnone
      unfold writeInt writeVal
      dsimp only
      cases hcv : (Num.int (BitVec.ofNat 32 0)).convert t with
      | none => intro h; cases h
      | some n =>
        dsimp only
        have hl : (n.bytes en).length = t.size := by rw [Num.bytes_length, convert_ty hcv]
        unfold NBuf.write NBuf.ensureWritable
        intro hnone
        split at hnone
        · cases hnone
        · next b1 he =>
          show b1.wr + _ = _
          rw [hl]
          have : b1.wr = b.wr := by
            have hb1 := congrArg Prod.fst he
            dsimp only at hb1
            rw [← hb1]
            split
            · rfl
            · split
              · rfl
              · split
                · rfl
                · split <;> rfl
          rw [this]
    show p + (m' + t.size) ≤ (writeInt grow b t en 0).1.wr
    rw [hgrow]
    have : p + m' ≤ b.wr := this
    omega
  | setLen f' x y =>
    simp only [encStmt, FinProto.encStmt, after]
    rcases loc x with _ | a
    · exact bad
    · rcases loc y with _ | c
      · exact bad
      · exact ⟨⟨rfl, rfl, hgood, rfl⟩, rfl, fun _ => mono (Nat.le_refl _), Nat.le_refl _⟩
  | patch x f' t en =>
    simp only [encStmt, FinProto.encStmt, after]
    rcases hx : loc x with _ | p
    · exact bad
    · rcases fs[f']? with _ | v
      · exact bad
      · cases v with
        | num n =>
          dsimp only
          cases hcv : n.convert t with
          | none => exact bad
          | some m =>
            dsimp only
            have hl : (m.bytes en).length = t.size := by rw [Num.bytes_length, convert_ty hcv]
            have hp : p + t.size ≤ b.wr := by
              simp only [fits] at hfit
              rcases hkx : k x with _ | q
              · rw [hkx] at hfit; cases hfit
              · rw [hkx] at hfit
                have h1 : t.size ≤ q := by simpa using hfit
                have h2 : p + q ≤ b.wr := hk x p hx q hkx
                omega
            exact op (set_sim hgood p (m.bytes en) (by rw [hl]; exact hp))
        | _ => exact bad
  | checksum f' alg =>
    simp only [encStmt, FinProto.encStmt, after]
    cases Registry.getService w.svc alg with
    | none => exact ⟨⟨rfl, rfl, hgood, rfl⟩, rfl, fun _ => hk, Nat.le_refl _⟩
    | some s => exact ⟨⟨rfl, rfl, hgood, rfl⟩, rfl, fun _ => mono (Nat.le_refl _), Nat.le_refl _⟩

theorem encStmts_sim (hg : grow.Ok) (w : World) {f : NCall} {g : EncCall} (hc : CallSim f g) (ss : List EncStmt) : ∀ (k : Nat → Option Nat), allFit k ss = true →
    ∀ {st : NSt} {e : EncSt}, StSim st e → Kept k st →
      StSim (encStmts grow w f ss st).1 (FinProto.encStmts w g ss e).1 ∧ (encStmts grow w f ss st).2 = (FinProto.encStmts w g ss e).2.map .java
        ∧ st.buf.wr ≤ (encStmts grow w f ss st).1.buf.wr := by
  induction ss with
  | nil => intro k _ st e h _; exact ⟨h, rfl, Nat.le_refl _⟩
  | cons s ss ih =>
    intro k hfit st e h hk
    simp only [allFit, Bool.and_eq_true] at hfit
    obtain ⟨h1, h2, h3, h4⟩ := encStmt_sim hg w hc k s hfit.1 h hk
    unfold encStmts FinProto.encStmts
    revert h1 h2 h3 h4
    generalize encStmt grow w f s st = r
    generalize FinProto.encStmt w g s e = q
    obtain ⟨st1, e1⟩ := r
    obtain ⟨st2, e2⟩ := q
    intro h1 h2 h3 h4
    dsimp only at h1 h2 h3 h4
    cases e2 with
    | some e2 => simp only [Option.map_some] at h2; subst h2; exact ⟨h1, rfl, h4⟩
    | none =>
      simp only [Option.map_none] at h2
      subst h2
      obtain ⟨g1, g2, g3⟩ := ih _ hfit.2 h1 (h3 rfl)
      exact ⟨g1, g2, Nat.le_trans h4 g3⟩

theorem encode_sim (hg : grow.Ok) (w : World) (n : Nat) : CallSim (encode grow w n) (FinProto.encode w n) := by
  induction n with
  | zero =>
    intro v b h
    cases v with
    | null => exact ⟨rfl, stay_sim h (some .nullPointer)⟩
    | _ => exact ⟨rfl, stay_sim h (some .stackOverflow)⟩
  | succ n ih =>
    intro v b h
    cases v with
    | null => exact ⟨rfl, stay_sim h (some .nullPointer)⟩
    | obj c fs =>
      obtain ⟨h1, h2, h3⟩ := encStmts_sim hg w ih (decl c).enc (fun _ => none) (allFit_decl c) (st := ⟨fs, b, fun _ => none⟩) (e := ⟨fs, b.view, fun _ => none⟩)
        ⟨rfl, rfl, h, rfl⟩ (fun x p hx => by cases hx)
      simp only [encode, FinProto.encode]
      exact ⟨by rw [h1.fs], h1.view, h1.good, h2, h3⟩
    | _ => exact ⟨rfl, stay_sim h (some .illTyped)⟩

/-! ### A released buffer -/

/-- Nothing has been done to the buffer; if there was no exception then there was nothing to do on any buffer; if there was one that has nothing to do with the buffer
then it comes on any buffer. -/
structure Nothing (b : NBuf) (f : NBuf → NBuf × Option NErr) : Prop where
  buf : (f b).1 = b
  ok : (f b).2 = none → ∀ b', f b' = (b', none)
  java : ∀ e, e ≠ .released → (f b).2 = some e → ∀ b', (f b').2 = some e

theorem write_dead {b : NBuf} (h : b.alive = false) (bs : List Byte) : b.write grow bs = (b, some .released) := by
  unfold NBuf.write NBuf.ensureWritable
  rw [if_pos (by rw [h]; rfl)]

theorem nothing_released {b : NBuf} {f : NBuf → NBuf × Option NErr} (h : f b = (b, some .released)) : Nothing b f :=
  ⟨by rw [h], fun e => by (rw [h] at e; cases e), fun e hne he => by (rw [h] at he; cases he; exact absurd rfl hne)⟩

theorem nothing_const {b : NBuf} {e : Option JErr} : Nothing b (fun b => (b, e.map .java)) := by
  cases e with
  | none => exact ⟨rfl, fun _ _ => rfl, fun e _ h => by cases h⟩
  | some e => exact ⟨rfl, (fun h => by cases h), fun e _ h _ => h⟩

theorem padChar_dead {b : NBuf} (h : b.alive = false) (n : Nat) (c : JChar) : Nothing b (padChar grow · n c) := by
  cases n with
  | zero => exact nothing_const (e := none)
  | succ n =>
    apply nothing_released
    unfold padChar
    rw [write_dead h]

theorem pad_dead {b : NBuf} (h : b.alive = false) (p : Bool) (n : Nat) (c : JChar) :
    Nothing b (fun b => if p = true then padChar grow b n c else (b, none)) := by
  cases p with
  | true => exact padChar_dead h n c
  | false => exact nothing_const (e := none)

theorem writeFixedString_dead {b : NBuf} (h : b.alive = false) (v : Option JStr) (n : Nat) (pad : JChar) (left : Bool) :
    Nothing b (writeFixedString grow · v n pad left) := by
  unfold writeFixedString
  rcases v with _ | _ | ⟨c, cs⟩
  · exact pad_dead h (!left && decide (0 < n)) (n - 0) pad
  · exact pad_dead h (!left && decide (0 < n)) (n - 0) pad
  · apply nothing_released
    dsimp only
    by_cases hp : (left && decide (min (utf8Enc (c :: cs)).length n < n)) = true
    · rw [if_pos hp]
      have hn : n - min (utf8Enc (c :: cs)).length n ≠ 0 := by
        simp only [Bool.and_eq_true, decide_eq_true_eq] at hp
        omega
      obtain ⟨k, hk⟩ := Nat.exists_eq_succ_of_ne_zero hn
      rw [hk]
      unfold padChar
      rw [write_dead h]
    · rw [if_neg hp]
      dsimp only
      rw [write_dead h]

theorem writeVal_dead {b : NBuf} (h : b.alive = false) (t : PTy) (e : Endian) (v : Val) : Nothing b (writeVal grow · t e v) := by
  unfold writeVal
  cases v with
  | num n =>
    dsimp only
    cases n.convert t with
    | none => exact nothing_const (e := some .illTyped)
    | some m => exact nothing_released (write_dead h _)
  | null => exact nothing_const (e := some .nullPointer)
  | _ => exact nothing_const (e := some .illTyped)

theorem writeInt_dead {b : NBuf} (h : b.alive = false) (t : PTy) (e : Endian) (k : Nat) : Nothing b (writeInt grow · t e k) := writeVal_dead h t e _

theorem writeVal_fails {b : NBuf} (h : b.alive = false) (t : PTy) (e : Endian) (v : Val) : (writeVal grow b t e v).2 ≠ none := by
  unfold writeVal
  cases v with
  | num n =>
    dsimp only
    cases n.convert t with
    | none => simp
    | some m => simp [write_dead h]
  | _ => simp

theorem writeDyn_dead {b : NBuf} (h : b.alive = false) (zt t : PTy) (e : Endian) (s : Option JStr) : Nothing b (writeDyn grow · zt t e s) := by
  rcases s with _ | _ | ⟨c, cs⟩
  · exact writeInt_dead h zt .be _
  · exact writeInt_dead h zt .be _
  · obtain ⟨h1, h2, h3⟩ := writeInt_dead (grow := grow) h t e (utf8Enc (c :: cs)).length
    have h5 : (writeInt grow b t e (utf8Enc (c :: cs)).length).2 ≠ none := writeVal_fails (grow := grow) h t e _
    have h6 : writeDyn grow b zt t e (some (c :: cs)) = writeInt grow b t e (utf8Enc (c :: cs)).length := by
      unfold writeDyn
      revert h5
      dsimp only
      generalize writeInt grow b t e (utf8Enc (c :: cs)).length = r
      obtain ⟨b1, _ | e1⟩ := r
      · intro h; exact absurd rfl h
      · intro _; rfl
    refine ⟨?_, fun hn => ?_, fun err hne he b' => ?_⟩
    · rw [h6]; exact h1
    · rw [h6] at hn; exact absurd hn h5
    · rw [h6] at he
      have := h3 err hne he b'
      unfold writeDyn
      revert this
      dsimp only
      generalize writeInt grow b' t e (utf8Enc (c :: cs)).length = r
      obtain ⟨b1, _ | e1⟩ := r
      · intro h; cases h
      · intro h; exact h

theorem writeFixedVal_dead {b : NBuf} (h : b.alive = false) (v : Val) (n : Nat) (pad : JChar) (left : Bool) : Nothing b (writeFixedVal grow · v n pad left) := by
  unfold writeFixedVal
  cases v.asStr with
  | none => exact nothing_const (e := some .illTyped)
  | some s => exact writeFixedString_dead h s n pad left

theorem writeDynVal_dead {b : NBuf} (h : b.alive = false) (v : Val) (zt t : PTy) (e : Endian) : Nothing b (writeDynVal grow · v zt t e) := by
  unfold writeDynVal
  cases v.asStr with
  | none => exact nothing_const (e := some .illTyped)
  | some s => exact writeDyn_dead h zt t e s

/-- A statement of a message without computed fields, or a write of a number. -/
def plainStmt : EncStmt → Bool
  | .save _ | .setLen .. | .patch .. | .checksum .. => false
  | _ => true

/-- A frame writes a number first; other messages have no computed fields. -/
def startsPlain (ss : List EncStmt) : Bool := ss.all plainStmt || (match ss with | .num .. :: _ => true | _ => false)

theorem startsPlain_decl (c : Cls) : startsPlain (decl c).enc = true := by cases c <;> rfl

structure DeadCall (f : NCall) : Prop where
  val : ∀ (v : Val) (b : NBuf), b.alive = false → (f v b).1 = v
  buf : ∀ (v : Val) (b : NBuf), b.alive = false → (f v b).2.1 = b
  ok : ∀ (v : Val) (b : NBuf), b.alive = false → (f v b).2.2 = none → ∀ b', f v b' = (v, b', none)
  java : ∀ (v : Val) (b : NBuf), b.alive = false → ∀ e, e ≠ .released → (f v b).2.2 = some e → ∀ b', (f v b').2.2 = some e

/-- The same for a statement; `f` is the statement with the rest of its state. -/
structure DeadStep (st : NSt) (f : NSt → NSt × Option NErr) : Prop where
  same : (f st).1 = st
  ok : (f st).2 = none → ∀ b', f { st with buf := b' } = ({ st with buf := b' }, none)
  java : ∀ e, e ≠ .released → (f st).2 = some e → ∀ b', (f { st with buf := b' }).2 = some e

theorem dead_stmt (w : World) {f : NCall} (hf : DeadCall f) (s : EncStmt) (hs : plainStmt s = true) (st : NSt) (hb : st.buf.alive = false) :
    DeadStep st (encStmt grow w f s) := by
  obtain ⟨fs, b, loc⟩ := st
  dsimp only at hb
  have op : ∀ {g : NBuf → NBuf × Option NErr} {F : NSt → NSt × Option NErr}, (∀ b', F ⟨fs, b', loc⟩ = (⟨fs, (g b').1, loc⟩, (g b').2)) → Nothing b g →
      DeadStep ⟨fs, b, loc⟩ F := by
    intro g F hF h
    refine ⟨by rw [hF]; dsimp only; rw [h.buf], fun hn b' => ?_, fun e hne he b' => ?_⟩
    · dsimp only
      rw [hF] at hn ⊢
      rw [h.ok hn b']
    · dsimp only
      rw [hF] at he ⊢
      exact h.java e hne he b'
  have bad : ∀ {F : NSt → NSt × Option NErr}, (∀ b', F ⟨fs, b', loc⟩ = (⟨fs, b', loc⟩, some (.java .illTyped))) → DeadStep ⟨fs, b, loc⟩ F :=
    fun hF => op (g := fun b => (b, some (.java .illTyped))) hF (nothing_const (e := some .illTyped))
  have set_self : ∀ {f' : Nat} {v : Val}, fs[f']? = some v → fs.set f' v = fs := by
    intro f' v h
    apply List.ext_getElem?
    intro j
    rw [List.getElem?_set]
    split
    · next e =>
      subst e
      split
      · exact h.symm
      · next hl => rw [List.getElem?_eq_none (by omega)]
    · rfl
  have call : ∀ {f' : Nat} {v : Val} {F : NSt → NSt × Option NErr}, fs[f']? = some v →
      (∀ b', F ⟨fs, b', loc⟩ = (⟨fs.set f' (f v b').1, (f v b').2.1, loc⟩, (f v b').2.2)) → DeadStep ⟨fs, b, loc⟩ F := by
    intro f' v F hv hF
    refine ⟨?_, fun hn b' => ?_, fun e hne he b' => ?_⟩
    · rw [hF]; dsimp only; rw [hf.val v b hb, hf.buf v b hb, set_self hv]
    · dsimp only
      rw [hF] at hn ⊢
      rw [hf.ok v b hb hn b']
      dsimp only
      rw [set_self hv]
    · dsimp only
      rw [hF] at he ⊢
      exact hf.java v b hb e hne he b'
  cases s with
  | num f' t en =>
    rcases hv : fs[f']? with _ | v
    · exact bad fun b' => by simp only [encStmt, hv]
    · cases v with
      | num n => exact op (fun b' => by simp only [encStmt, hv]) (writeVal_dead (grow := grow) hb t en (.num n))
      | _ => exact bad fun b' => by simp only [encStmt, hv]
  | fixed f' n pad left =>
    rcases hv : fs[f']? with _ | v
    · exact bad fun b' => by simp only [encStmt, hv]
    · exact op (fun b' => by simp only [encStmt, hv]) (writeFixedVal_dead (grow := grow) hb v n pad left)
  | dyn f' zt t en =>
    rcases hv : fs[f']? with _ | v
    · exact bad fun b' => by simp only [encStmt, hv]
    · exact op (fun b' => by simp only [encStmt, hv]) (writeDynVal_dead (grow := grow) hb v zt t en)
  | list f' zt t en el =>
    rcases hv : fs[f']? with _ | v
    · exact bad fun b' => by simp only [encStmt, hv]
    · cases v with
      | null => exact op (fun b' => by simp only [encStmt, hv]) (writeInt_dead (grow := grow) hb zt .be 0)
      | list xs =>
        cases xs with
        | nil => exact op (fun b' => by simp only [encStmt, hv]) (writeInt_dead (grow := grow) hb zt .be 0)
        | cons x xs =>
          obtain ⟨h1, h2, h3⟩ := writeInt_dead (grow := grow) hb t en (x :: xs).length
          have h5 : (writeInt grow b t en (x :: xs).length).2 ≠ none := writeVal_fails (grow := grow) hb t en _
          have hF : encStmt grow w f (.list f' zt t en el) ⟨fs, b, loc⟩
              = (⟨fs, (writeInt grow b t en (x :: xs).length).1, loc⟩, (writeInt grow b t en (x :: xs).length).2) := by
            simp only [encStmt, hv]
            revert h5
            generalize writeInt grow b t en (x :: xs).length = r
            obtain ⟨b1, _ | e1⟩ := r
            · intro h; exact absurd rfl h
            · intro _; rfl
          refine ⟨by rw [hF]; dsimp only; rw [h1], fun hn => ?_, fun e hne he b' => ?_⟩
          · rw [hF] at hn; exact absurd hn h5
          · rw [hF] at he
            have := h3 e hne he b'
            simp only [encStmt, hv]
            revert this
            generalize writeInt grow b' t en (x :: xs).length = r
            obtain ⟨b1, _ | e1⟩ := r
            · intro h; cases h
            · intro h; exact h
      | _ => exact bad fun b' => by simp only [encStmt, hv]
  | obj f' =>
    rcases hv : fs[f']? with _ | v
    · exact bad fun b' => by simp only [encStmt, hv]
    · exact call hv fun b' => by simp only [encStmt, hv]
  | objOpt f' =>
    rcases hv : fs[f']? with _ | v
    · exact bad fun b' => by simp only [encStmt, hv]
    · cases v with
      | null => exact op (g := fun b => (b, none)) (fun b' => by simp only [encStmt, hv]) (nothing_const (e := none))
      | _ => exact call hv fun b' => by simp only [encStmt, hv]
  | zero t en => exact op (fun b' => by simp only [encStmt]) (writeInt_dead (grow := grow) hb t en 0)
  | save x => cases hs
  | setLen f' x y => cases hs
  | patch x f' t en => cases hs
  | checksum f' alg => cases hs

theorem dead_stmts (w : World) {f : NCall} (hf : DeadCall f) (ss : List EncStmt) : ss.all plainStmt = true → ∀ (st : NSt), st.buf.alive = false →
    DeadStep st (encStmts grow w f ss) := by
  induction ss with
  | nil => intro _ st _; exact ⟨rfl, fun _ _ => rfl, fun e _ h => by cases h⟩
  | cons s ss ih =>
    intro hs st hb
    simp only [List.all_cons, Bool.and_eq_true] at hs
    obtain ⟨h1, h2, h3⟩ := dead_stmt (grow := grow) w hf s hs.1 st hb
    obtain ⟨g1, g2, g3⟩ := ih hs.2 st hb
    rcases hr : encStmt grow w f s st with ⟨st1, _ | e1⟩
    · rw [hr] at h1 h2
      dsimp only at h1
      subst h1
      have hrun : encStmts grow w f (s :: ss) st1 = encStmts grow w f ss st1 := by rw [encStmts, hr]
      have hrun' : ∀ b', encStmts grow w f (s :: ss) { st1 with buf := b' } = encStmts grow w f ss { st1 with buf := b' } := by
        intro b'
        rw [encStmts, h2 rfl b']
      refine ⟨by rw [hrun]; exact g1, fun hn b' => ?_, fun e hne he b' => ?_⟩
      · rw [hrun] at hn; rw [hrun']; exact g2 hn b'
      · rw [hrun] at he; rw [hrun']; exact g3 e hne he b'
    · have hrun : encStmts grow w f (s :: ss) st = (st1, some e1) := by rw [encStmts, hr]
      rw [hr] at h1 h3
      refine ⟨by rw [hrun]; exact h1, fun hn => (by rw [hrun] at hn; cases hn), fun e hne he b' => ?_⟩
      rw [hrun] at he
      have := h3 e hne he b'
      revert this
      unfold encStmts
      generalize encStmt grow w f s { st with buf := b' } = r
      obtain ⟨b1, _ | e1⟩ := r
      · intro h; cases h
      · intro h; exact h

theorem encode_dead (w : World) (n : Nat) : DeadCall (encode grow w n) := by
  have key : ∀ n, (∀ m, m < n → DeadCall (encode grow w m)) → ∀ (v : Val) (b : NBuf), b.alive = false →
      (encode grow w n v b).1 = v ∧ (encode grow w n v b).2.1 = b ∧ ((encode grow w n v b).2.2 = none → ∀ b', encode grow w n v b' = (v, b', none))
        ∧ ∀ e, e ≠ .released → (encode grow w n v b).2.2 = some e → ∀ b', (encode grow w n v b').2.2 = some e := by
    intro n ih v b hb
    have const : ∀ (e : JErr), (∀ b', encode grow w n v b' = (v, b', some (.java e))) →
        (encode grow w n v b).1 = v ∧ (encode grow w n v b).2.1 = b ∧ ((encode grow w n v b).2.2 = none → ∀ b', encode grow w n v b' = (v, b', none))
          ∧ ∀ e, e ≠ .released → (encode grow w n v b).2.2 = some e → ∀ b', (encode grow w n v b').2.2 = some e := by
      intro e h
      refine ⟨by rw [h], by rw [h], fun hn => (by rw [h] at hn; cases hn), fun e' hne he b' => ?_⟩
      rw [h] at he ⊢
      exact he
    cases v with
    | null => exact const .nullPointer fun b' => by rw [encode]
    | obj c fs =>
      cases n with
      | zero => exact const .stackOverflow fun b' => by rw [encode]; intro h; cases h
      | succ n =>
        have ih := ih n (Nat.lt_succ_self n)
        have steps : DeadStep ⟨fs, b, fun _ => none⟩ (encStmts grow w (encode grow w n) (decl c).enc) := by
          have hc := startsPlain_decl c
          simp only [startsPlain, Bool.or_eq_true] at hc
          rcases hc with hc | hc
          · exact dead_stmts (grow := grow) w ih (decl c).enc hc ⟨fs, b, fun _ => none⟩ hb
          · revert hc
            rcases (decl c).enc with _ | ⟨s, ss⟩
            · intro hc; cases hc
            · intro hc
              cases s with
              | num f t e =>
                obtain ⟨h1, h2, h3⟩ := dead_stmt (grow := grow) w ih (.num f t e) rfl ⟨fs, b, fun _ => none⟩ hb
                have hfail : (encStmt grow w (encode grow w n) (.num f t e) ⟨fs, b, fun _ => none⟩).2 ≠ none := by
                  simp only [encStmt]
                  rcases fs[f]? with _ | v
                  · simp
                  · cases v with
                    | num m => exact writeVal_fails (grow := grow) hb t e (.num m)
                    | _ => simp
                rcases hr : encStmt grow w (encode grow w n) (.num f t e) ⟨fs, b, fun _ => none⟩ with ⟨st1, _ | e1⟩
                · rw [hr] at hfail; exact absurd rfl hfail
                · have hrun : encStmts grow w (encode grow w n) (.num f t e :: ss) ⟨fs, b, fun _ => none⟩ = (st1, some e1) := by rw [encStmts, hr]
                  rw [hr] at h1 h3
                  refine ⟨by rw [hrun]; exact h1, fun hn => (by rw [hrun] at hn; cases hn), fun e' hne he b' => ?_⟩
                  rw [hrun] at he
                  have := h3 e' hne he b'
                  revert this
                  unfold encStmts
                  generalize encStmt grow w (encode grow w n) (.num f t e) { (⟨fs, b, fun _ => none⟩ : NSt) with buf := b' } = r
                  obtain ⟨b1, _ | e1⟩ := r
                  · intro h; cases h
                  · intro h; exact h
              | _ => cases hc
        obtain ⟨h1, h2, h3⟩ := steps
        have run : ∀ b', encode grow w (n + 1) (.obj c fs) b' = (.obj c (encStmts grow w (encode grow w n) (decl c).enc ⟨fs, b', fun _ => none⟩).1.fs,
            (encStmts grow w (encode grow w n) (decl c).enc ⟨fs, b', fun _ => none⟩).1.buf, (encStmts grow w (encode grow w n) (decl c).enc ⟨fs, b', fun _ => none⟩).2) := by
          intro b'; rw [encode]
        refine ⟨by rw [run, h1], by rw [run, h1], fun hn b' => ?_, fun e hne he b' => ?_⟩
        · rw [run] at hn
          rw [run, h2 hn b']
        · rw [run] at he
          rw [run]
          exact h3 e hne he b'
    | _ =>
      cases n with
      | zero => exact const .stackOverflow fun b' => by rw [encode]; intro h; cases h
      | succ n => exact const .illTyped fun b' => by rw [encode] <;> intros <;> simp_all
  induction n using Nat.strongRecOn with
  | ind n ih =>
    exact ⟨fun v b hb => (key n ih v b hb).1, fun v b hb => (key n ih v b hb).2.1, fun v b hb => (key n ih v b hb).2.2.1,
      fun v b hb => (key n ih v b hb).2.2.2⟩

/-! ### How Netty grows a buffer -/

theorem powerFrom_ge (n : Nat) : ∀ fuel p, n ≤ 2 ^ fuel * p → n ≤ powerFrom n fuel p := by
  intro fuel
  induction fuel with
  | zero => intro p h; simpa [powerFrom] using h
  | succ fuel ih =>
    intro p h
    unfold powerFrom
    split
    · assumption
    · exact ih (2 * p) (by rw [Nat.pow_succ] at h; rw [← Nat.mul_assoc]; exact h)

theorem newCapacity_ok (min max : Nat) (h : min ≤ max) : min ≤ newCapacity min max ∧ newCapacity min max ≤ max := by
  unfold newCapacity
  dsimp only
  split
  · omega
  · split
    · split
      · omega
      · have := Nat.div_add_mod min 4194304
        have := Nat.mod_lt min (show 0 < 4194304 by decide)
        omega
    · have : Nat.max min 64 ≤ powerFrom (Nat.max min 64) 32 1 := powerFrom_ge _ _ _ (by
        have : Nat.max min 64 ≤ 4194304 := Nat.max_le.mpr ⟨by omega, by omega⟩
        omega)
      have h1 : min ≤ Nat.max min 64 := Nat.le_max_left ..
      exact ⟨Nat.le_min.mpr ⟨by omega, h⟩, Nat.min_le_right ..⟩

theorem unpooled_ok : Grow.Ok unpooled := by
  intro b n h1 h2
  obtain ⟨g1, g2⟩ := newCapacity_ok (b.wr + n) b.maxCap h2
  refine ⟨_, rfl, ?_⟩
  simp only [List.length_replicate]
  omega

end FinProto.Netty
