import Verif.Spec.AnyHeap
import Verif.Proofs.RacingHeap
import Verif.Proofs.Frames
/-
Helper lemmas for C113: encode while anything may happen to the memory.
-/
namespace FinProto

/-! ### The call only appends -/

/-- Positions that were saved are behind the original content. -/
def ABeyond (b0 : WBuf) (st : RHSt) : Prop := Ext b0 st.buf ∧ ∀ x p, st.loc x = some p → b0.data.length ≤ p

/-- The buffer stays as it is. -/
def AIdle {α : Type} (st : RHSt) (r : RHSt × α) : Prop := r.1.buf = st.buf ∧ r.1.loc = st.loc

theorem ABeyond.idle {α : Type} {b0 : WBuf} {st : RHSt} {r : RHSt × α} (h : ABeyond b0 st) (hr : AIdle st r) : ABeyond b0 r.1 :=
  ⟨by rw [hr.1]; exact h.1, by rw [hr.2]; exact h.2⟩

theorem ABeyond.wrote {b0 : WBuf} {st : RHSt} (h : ABeyond b0 st) {f : WBuf → WBuf × Option JErr} (hf : Good f) : ABeyond b0 (st.wrote (f st.buf)).1 :=
  ⟨h.1.trans (hf.ext _), h.2⟩

section
variable {w : World} {o : Acts}

theorem idle_look (r f : Nat) (st : RHSt) : AIdle st (st.alook o r f) := ⟨rfl, rfl⟩

theorem idle_elems (r f : Nat) (st : RHSt) : AIdle st (st.aelems o r f) := by
  have hi := idle_look (o := o) r f st
  unfold RHSt.aelems
  revert hi
  rcases st.alook o r f with ⟨st1, _ | (_ | _ | _ | a)⟩ <;> intro hi <;> try exact hi
  dsimp only
  rcases st1.h[a]? with _ | (⟨c, ys⟩ | xs) <;> exact hi

theorem idle_get (r f i : Nat) (st : RHSt) : AIdle st (st.aget o r f i) := by
  have hi := idle_elems (o := o) r f st
  unfold RHSt.aget
  revert hi
  rcases st.aelems o r f with ⟨st1, _ | xs⟩ <;> intro hi
  · exact hi
  · dsimp only
    rcases xs[i]? with _ | x <;> exact hi

theorem idle_field (r f : Nat) (st : RHSt) : AIdle st (st.afield o r f) := by
  have hi := idle_look (o := o) r f st
  unfold RHSt.afield
  revert hi
  rcases st.alook o r f with ⟨st1, _ | x⟩ <;> intro hi <;> exact hi

theorem abeyond_dyn {b0 : WBuf} {x : RHSt → RHSt × Except JErr HVal} (hx : ∀ st, AIdle st (x st)) (zt t : PTy) (e : Endian) {st : RHSt} (h : ABeyond b0 st) :
    ABeyond b0 (rhdyn x zt t e st).1 := by
  unfold rhdyn
  have h1 := h.idle (hx st)
  revert h1
  rcases x st with ⟨st1, _ | v⟩ <;> intro h1
  · exact h1
  · dsimp only at h1 ⊢
    rcases v.leaf.asStr with _ | (_ | (_ | ⟨ch, cs⟩))
    · exact h1
    · exact h1.wrote (Good.writeInt _ _ _)
    · exact h1.wrote (Good.writeInt _ _ _)
    · dsimp only
      have h2 := h1.idle (hx st1)
      revert h2
      rcases x st1 with ⟨st2, _ | (_ | _ | s | _)⟩ <;> intro h2 <;> try exact h2
      dsimp only at h2 ⊢
      have h3 := (Good.writeInt t e (utf8Enc s).length).ext st2.buf
      revert h3
      rcases writeInt st2.buf t e (utf8Enc s).length with ⟨b, _ | err⟩ <;> intro h3 <;> dsimp only at h3 ⊢
      · exact ⟨(h2.1.trans h3).trans ((Good.write (utf8Enc s)).ext b), h2.2⟩
      · exact ⟨h2.1.trans h3, h2.2⟩

/-- A call only appends. -/
def ACallExt (call : RHCall) : Prop := ∀ x h k b, Ext b (call x h k b).2.2.1

theorem ABeyond.call {b0 : WBuf} {st : RHSt} (h : ABeyond b0 st) {call : RHCall} (hc : ACallExt call) (x : HVal) : ABeyond b0 (st.call call x).1 :=
  ⟨h.1.trans (hc x st.h st.k st.buf), h.2⟩

theorem abeyond_elem {b0 : WBuf} {call : RHCall} (hc : ACallExt call) (el : EncElem) (r f i : Nat) {st : RHSt} (h : ABeyond b0 st) :
    ABeyond b0 (aelem o call el r f i st).1 := by
  have h1 := h.idle (idle_get (o := o) r f i st)
  cases el with
  | dyn zt t e => exact abeyond_dyn (fun st => idle_get r f i st) zt t e h
  | num t e =>
    simp only [aelem]
    revert h1
    rcases st.aget o r f i with ⟨st1, _ | x⟩ <;> intro h1
    · exact h1
    · exact h1.wrote (Good.writeVal _ _ _)
  | fixed n pad left =>
    simp only [aelem]
    revert h1
    rcases st.aget o r f i with ⟨st1, _ | x⟩ <;> intro h1
    · exact h1
    · exact h1.wrote (Good.writeFixedVal _ _ _ _)
  | obj =>
    simp only [aelem]
    revert h1
    rcases st.aget o r f i with ⟨st1, _ | x⟩ <;> intro h1
    · exact h1
    · exact h1.call hc x

theorem abeyond_loop {b0 : WBuf} {call : RHCall} (hc : ACallExt call) (el : EncElem) (r f : Nat) : ∀ (m i : Nat) (st : RHSt), ABeyond b0 st →
    ABeyond b0 (aloop o call el r f m i st).1 := by
  intro m
  induction m with
  | zero => intro i st h; exact h
  | succ m ih =>
    intro i st h
    simp only [aloop]
    have h1 := h.idle (idle_elems (o := o) r f st)
    revert h1
    rcases st.aelems o r f with ⟨st1, _ | xs⟩ <;> intro h1
    · exact h1
    · dsimp only at h1 ⊢
      by_cases hi : i < xs.length
      · rw [if_pos hi]
        have h2 := abeyond_elem (o := o) hc el r f i h1
        revert h2
        rcases aelem o call el r f i st1 with ⟨st2, _ | err⟩ <;> intro h2
        · exact ih (i + 1) st2 h2
        · exact h2
      · rw [if_neg hi]
        exact h1

theorem abeyond_stmt {b0 : WBuf} {call : RHCall} (hc : ACallExt call) (r : Nat) (s : EncStmt) {st : RHSt} (h : ABeyond b0 st) :
    ABeyond b0 (astmt w o call r s st).1 := by
  cases s with
  | num f t e =>
    have h1 := h.idle (idle_look (o := o) r f st)
    simp only [astmt]
    revert h1
    rcases st.alook o r f with ⟨st1, _ | (_ | n | _ | a)⟩ <;> intro h1 <;> try exact h1
    exact h1.wrote (Good.writeVal _ _ _)
  | fixed f n pad left =>
    have h1 := h.idle (idle_look (o := o) r f st)
    simp only [astmt]
    revert h1
    rcases st.alook o r f with ⟨st1, _ | x⟩ <;> intro h1
    · exact h1
    · exact h1.wrote (Good.writeFixedVal _ _ _ _)
  | dyn f zt t e => exact abeyond_dyn (fun st => idle_field r f st) zt t e h
  | list f zt t e el =>
    have h1 := h.idle (idle_look (o := o) r f st)
    simp only [astmt]
    revert h1
    have key : ∀ st1 : RHSt, ABeyond b0 st1 → ABeyond b0 (match st1.aelems o r f with
        | (st, .error err) => (st, some err)
        | (st, .ok []) => st.wrote (writeInt st.buf zt .be 0)
        | (st, .ok (_ :: _)) =>
          match st.aelems o r f with
          | (st, .error err) => (st, some err)
          | (st, .ok xs) =>
            match st.wrote (writeInt st.buf t e xs.length) with
            | (st, some err) => (st, some err)
            | (st, none) => aloop o call el r f 2147483647 0 st).1 := by
      intro st1 h1
      have h2 := h1.idle (idle_elems (o := o) r f st1)
      revert h2
      rcases st1.aelems o r f with ⟨st2, _ | (_ | ⟨y, ys⟩)⟩ <;> intro h2
      · exact h2
      · exact h2.wrote (Good.writeInt _ _ _)
      · dsimp only at h2 ⊢
        have h3 := h2.idle (idle_elems (o := o) r f st2)
        revert h3
        rcases st2.aelems o r f with ⟨st3, _ | xs⟩ <;> intro h3
        · exact h3
        · dsimp only at h3 ⊢
          have h4 := h3.wrote (Good.writeInt t e xs.length)
          revert h4
          rcases st3.wrote (writeInt st3.buf t e xs.length) with ⟨st4, _ | err⟩ <;> intro h4
          · exact abeyond_loop hc el r f _ _ st4 h4
          · exact h4
    rcases st.alook o r f with ⟨st1, _ | (_ | n | _ | a)⟩ <;> intro h1
    · exact h1
    · exact h1.wrote (Good.writeInt _ _ _)
    · exact key st1 h1
    · exact key st1 h1
    · exact key st1 h1
  | obj f =>
    have h1 := h.idle (idle_look (o := o) r f st)
    simp only [astmt]
    revert h1
    rcases st.alook o r f with ⟨st1, _ | x⟩ <;> intro h1
    · exact h1
    · exact h1.call hc x
  | objOpt f =>
    have h1 := h.idle (idle_look (o := o) r f st)
    simp only [astmt]
    revert h1
    have key : ∀ st1 : RHSt, ABeyond b0 st1 → ABeyond b0 (match st1.alook o r f with
        | (st, some x) => st.call call x
        | (st, none) => (st, some .illTyped)).1 := by
      intro st1 h1
      have h2 := h1.idle (idle_look (o := o) r f st1)
      revert h2
      rcases st1.alook o r f with ⟨st2, _ | x⟩ <;> intro h2
      · exact h2
      · exact h2.call hc x
    rcases st.alook o r f with ⟨st1, _ | (_ | n | _ | a)⟩ <;> intro h1
    · exact h1
    · exact h1
    · exact key st1 h1
    · exact key st1 h1
    · exact key st1 h1
  | save x =>
    refine ⟨h.1, fun y p hy => ?_⟩
    simp only [astmt, setLoc] at hy
    split at hy
    · cases hy; exact h.1.len
    · exact h.2 y p hy
  | zero t e => exact h.wrote (Good.writeInt _ _ _)
  | setLen f x y =>
    simp only [astmt]
    rcases st.loc x with _ | a <;> rcases st.loc y with _ | b <;> exact h
  | patch x f t e =>
    have h1 := h.idle (idle_look (o := o) r f st)
    simp only [astmt]
    revert h1
    rcases st.alook o r f with ⟨st1, _ | (_ | n | _ | a)⟩ <;> intro h1 <;> try exact h1
    dsimp only at h1 ⊢
    rcases hp : st1.loc x with _ | p <;> rcases n.convert t with _ | q <;> try exact h1
    dsimp only [RHSt.wrote, WBuf.set]
    by_cases hl : p + (q.bytes e).length ≤ st1.buf.data.length
    · rw [if_pos hl]
      exact ⟨⟨h1.1.1, h1.1.2.1, overwrite_prefix _ _ _ _ h1.1.2.2 (h1.2 x p hp)⟩, h1.2⟩
    · rw [if_neg hl]
      exact h1
  | checksum f alg =>
    simp only [astmt]
    rcases Registry.getService w.svc alg with _ | s <;> exact h

theorem abeyond_stmts {b0 : WBuf} {call : RHCall} (hc : ACallExt call) (r : Nat) : ∀ (ss : List EncStmt) (st : RHSt), ABeyond b0 st →
    ABeyond b0 (astmts w o call r ss st).1 := by
  intro ss
  induction ss with
  | nil => intro st h; exact h
  | cons s ss ih =>
    intro st h
    simp only [astmts]
    have h1 := abeyond_stmt (w := w) (o := o) hc r s h
    revert h1
    rcases astmt w o call r s st with ⟨st1, _ | err⟩ <;> intro h1
    · exact ih st1 h1
    · exact h1

theorem aencode_ext : ∀ n, ACallExt (aencode w o n) := by
  intro n
  induction n with
  | zero => intro x h k b; cases x <;> exact Ext.refl b
  | succ n ih =>
    intro x h k b
    cases x with
    | ref r =>
      simp only [aencode]
      rcases h[r]? with _ | (⟨c, ys⟩ | xs)
      · exact Ext.refl b
      · exact (abeyond_stmts (w := w) (o := o) ih r (decl c).enc ⟨h, k, b, fun _ => none⟩ ⟨Ext.refl b, fun _ _ h => nomatch h⟩).1
      · exact Ext.refl b
    | _ => exact Ext.refl b

/-! ### The parts of a frame -/

theorem astmts_append (call : RHCall) (r : Nat) : ∀ (xs ys : List EncStmt) (st st' : RHSt), astmts w o call r (xs ++ ys) st = (st', none) →
    ∃ st1, astmts w o call r xs st = (st1, none) ∧ astmts w o call r ys st1 = (st', none) := by
  intro xs
  induction xs with
  | nil => intro ys st st' h; exact ⟨st, rfl, h⟩
  | cons x xs ih =>
    intro ys st st' h
    simp only [List.cons_append, astmts] at h ⊢
    rcases hx : astmt w o call r x st with ⟨st1, _ | err⟩
    · rw [hx] at h
      exact ih ys st1 st' h
    · rw [hx] at h
      cases h

theorem astmts_cons {call : RHCall} {r : Nat} {x : EncStmt} {xs : List EncStmt} {st st' : RHSt} (h : astmts w o call r (x :: xs) st = (st', none)) :
    ∃ st1, astmt w o call r x st = (st1, none) ∧ astmts w o call r xs st1 = (st', none) := by
  simp only [astmts] at h
  rcases hx : astmt w o call r x st with ⟨st1, _ | err⟩
  · rw [hx] at h; exact ⟨st1, rfl, h⟩
  · rw [hx] at h; cases h

theorem convert_ty {n m : Num} {t : PTy} (h : n.convert t = some m) : m.ty = t := by
  unfold Num.convert at h
  split at h
  · cases h; rfl
  · split at h
    · cases h; rfl
    · cases h

/-- The buffer with more bytes. -/
def AMore (b : WBuf) (bs : List Byte) (b' : WBuf) : Prop := b'.data = b.data ++ bs ∧ b'.rd = b.rd ∧ b'.maxCap = b.maxCap

theorem AMore.trans {a b c : WBuf} {x y : List Byte} (h1 : AMore a x b) (h2 : AMore b y c) : AMore a (x ++ y) c :=
  ⟨by rw [h2.1, h1.1, List.append_assoc], h2.2.1.trans h1.2.1, h2.2.2.trans h1.2.2⟩

theorem write_more {b b' : WBuf} {bs : List Byte} (h : b.write bs = (b', none)) : AMore b bs b' := by
  unfold WBuf.write at h
  split at h <;> cases h
  exact ⟨rfl, rfl, rfl⟩

theorem astmt_num {call : RHCall} {r f : Nat} {t : PTy} {e : Endian} {st st' : RHSt} (h : astmt w o call r (.num f t e) st = (st', none)) :
    ∃ n m : Num, (o st.k st.h).field r f = some (.num n) ∧ n.convert t = some m ∧ AMore st.buf (m.bytes e) st'.buf ∧ st'.h = o st.k st.h ∧ st'.k = st.k + 1 ∧ st'.loc = st.loc := by
  simp only [astmt, RHSt.alook] at h
  rcases hf : (o st.k st.h).field r f with _ | (_ | n | _ | a) <;> rw [hf] at h <;> try cases h
  simp only [RHSt.wrote, writeVal] at h
  rcases hc : n.convert t with _ | m <;> rw [hc] at h
  · cases h
  · dsimp only at h
    rcases hw : st.buf.write (m.bytes e) with ⟨b, _ | err⟩ <;> rw [hw] at h <;> cases h
    exact ⟨n, m, rfl, hc, write_more hw, rfl, rfl, rfl⟩

theorem setField_same (h : Heap) (r f : Nat) (y : HVal) : (h.setField r f y).field r f = (h.field r f).map fun _ => y := by
  rw [setField_field, if_pos ⟨rfl, rfl⟩]

/-- The length field, the body, and the length put in. -/
theorem astmts_body {call : RHCall} (hc : ACallExt call) {r f l : Nat} {e : Endian} (hl : ∀ k h, (o k h).field r l = h.field r l) {st st' : RHSt}
    (h : astmts w o call r [.save 0, .zero .i32 e, .save 1, .objOpt f, .save 2, .setLen l 2 1, .patch 0 l .i32 e] st = (st', none)) :
    ∃ body, AMore st.buf (toBytes e 4 body.length ++ body) st'.buf := by
  obtain ⟨s1, h1, h⟩ := astmts_cons h
  obtain ⟨s2, h2, h⟩ := astmts_cons h
  obtain ⟨s3, h3, h⟩ := astmts_cons h
  obtain ⟨s4, h4, h⟩ := astmts_cons h
  obtain ⟨s5, h5, h⟩ := astmts_cons h
  obtain ⟨s6, h6, h⟩ := astmts_cons h
  obtain ⟨s7, h7, h⟩ := astmts_cons h
  cases h
  cases h1
  have w2 : AMore st.buf (toBytes e 4 0) s2.buf ∧ s2.loc = setLoc st.loc 0 st.buf.data.length := by
    simp only [astmt, RHSt.wrote] at h2
    rw [writeInt_eq _ _ _ _ rfl] at h2
    rcases hw : st.buf.write (toBytes e PTy.i32.size 0) with ⟨b, _ | err⟩ <;> rw [hw] at h2 <;> cases h2
    exact ⟨write_more hw, rfl⟩
  cases h3
  have w4 : (∃ body, AMore s2.buf body s4.buf) ∧ s4.loc = setLoc s2.loc 1 s2.buf.data.length := by
    have hx := abeyond_stmt (w := w) (o := o) (b0 := s2.buf) hc r (.objOpt f) (st := ⟨s2.h, s2.k, s2.buf, fun _ => none⟩) ⟨Ext.refl _, fun _ _ h => nomatch h⟩
    simp only [astmt, RHSt.alook] at h4 hx
    rcases hf : (o s2.k s2.h).field r f with _ | x
    · rw [hf] at h4; cases h4
    · rw [hf] at h4 hx
      have key : ∀ (q : RHSt × Option JErr) (s : RHSt), q = (s4, none) → Ext s.buf q.1.buf → s.buf = s2.buf → q.1.loc = setLoc s2.loc 1 s2.buf.data.length →
          (∃ body, AMore s2.buf body s4.buf) ∧ s4.loc = setLoc s2.loc 1 s2.buf.data.length := by
        intro q s hq hE hb hlc
        rw [hq] at hE hlc
        rw [hb] at hE
        obtain ⟨body, hbody⟩ := hE.2.2
        exact ⟨⟨body, hbody.symm, hE.1, hE.2.1⟩, hlc⟩
      have rest : ∀ (st1 : RHSt), st1.buf = s2.buf → st1.loc = setLoc s2.loc 1 s2.buf.data.length →
          (match ({ st1 with h := o st1.k st1.h, k := st1.k + 1 } : RHSt), (o st1.k st1.h).field r f with
            | st, some x => st.call call x
            | st, none => (st, some .illTyped)) = (s4, none) → (∃ body, AMore s2.buf body s4.buf) ∧ s4.loc = setLoc s2.loc 1 s2.buf.data.length := by
        intro st1 hb hlc hq
        rcases hf2 : (o st1.k st1.h).field r f with _ | y
        · rw [hf2] at hq; cases hq
        · rw [hf2] at hq
          exact key _ _ hq (hc _ _ _ _) hb hlc
      rcases x with _ | n | s | a
      · cases h4
        exact ⟨⟨[], by simp [AMore]⟩, rfl⟩
      · exact rest ⟨o s2.k s2.h, s2.k + 1, s2.buf, setLoc s2.loc 1 s2.buf.data.length⟩ rfl rfl (by
          rw [← h4]; dsimp only; rcases (o (s2.k + 1) (o s2.k s2.h)).field r f <;> rfl)
      · exact rest ⟨o s2.k s2.h, s2.k + 1, s2.buf, setLoc s2.loc 1 s2.buf.data.length⟩ rfl rfl (by
          rw [← h4]; dsimp only; rcases (o (s2.k + 1) (o s2.k s2.h)).field r f <;> rfl)
      · exact rest ⟨o s2.k s2.h, s2.k + 1, s2.buf, setLoc s2.loc 1 s2.buf.data.length⟩ rfl rfl (by
          rw [← h4]; dsimp only; rcases (o (s2.k + 1) (o s2.k s2.h)).field r f <;> rfl)
  obtain ⟨⟨body, hbody⟩, hlc⟩ := w4
  cases h5
  have hl2 : s2.buf.data.length = st.buf.data.length + 4 := by rw [w2.1.1]; simp
  have hl4 : s4.buf.data.length = st.buf.data.length + 4 + body.length := by rw [hbody.1]; simp [hl2]
  have e0 : setLoc s4.loc 2 s4.buf.wr 0 = some st.buf.data.length := by rw [hlc, w2.2]; rfl
  have e1 : setLoc s4.loc 2 s4.buf.wr 1 = some (st.buf.data.length + 4) := by rw [hlc, ← hl2]; rfl
  have e2 : setLoc s4.loc 2 s4.buf.wr 2 = some (st.buf.data.length + 4 + body.length) := by rw [← hl4]; rfl
  have hd0 : BitVec.ofNat 32 (st.buf.data.length + 4 + body.length) - BitVec.ofNat 32 (st.buf.data.length + 4) = BitVec.ofNat 32 body.length := by
    rw [BitVec.ofNat_add (st.buf.data.length + 4), BitVec.add_comm, BitVec.add_sub_cancel]
  simp only [astmt, e1, e2, hd0, RHSt.aput] at h6
  cases h6
  simp only [astmt, RHSt.alook] at h7
  rw [hl, setField_same] at h7
  rcases hf : (o s4.k s4.h).field r l with _ | z <;> rw [hf] at h7
  · cases h7
  · simp only [Option.map_some] at h7
    have hcv : (Num.int (BitVec.ofNat 32 body.length)).convert .i32 = some (.int (BitVec.ofNat 32 body.length)) := Num.convert_self _
    rw [hcv, e0] at h7
    dsimp only [RHSt.wrote] at h7
    rw [bytes_int, WBuf.set, toBytes_length, if_pos (by rw [hl4]; omega)] at h7
    cases h7
    refine ⟨body, ?_, hbody.2.1.trans w2.1.2.1, hbody.2.2.trans w2.1.2.2⟩
    show overwrite s4.buf.data st.buf.data.length (toBytes e 4 body.length) = _
    have t1 : List.take st.buf.data.length (st.buf.data ++ toBytes e 4 0 ++ body) = st.buf.data := by rw [List.append_assoc, List.take_left]
    have t2 : List.drop (st.buf.data.length + 4) (st.buf.data ++ toBytes e 4 0 ++ body) = body := by
      rw [show st.buf.data.length + 4 = (st.buf.data ++ toBytes e 4 0).length by simp, List.drop_left]
    rw [overwrite, toBytes_length, hbody.1, w2.1.1, t1, t2, List.append_assoc]

/-- The checksum. -/
theorem astmts_checksum {call : RHCall} {r f : Nat} {e : Endian} {alg : String} (hl : ∀ k h, (o k h).field r f = h.field r f) {st st' : RHSt}
    (h : astmts w o call r [.checksum f alg, .num f .i32 e] st = (st', none)) :
    ∃ ck : Num, ck.ty = .i32 ∧ AMore st.buf (ck.bytes e) st'.buf ∧ ∀ s, w.svc.getService alg = some s → ck = .int (s.calcOn st.buf.readable) := by
  obtain ⟨s1, h1, h⟩ := astmts_cons h
  obtain ⟨s2, h2, h⟩ := astmts_cons h
  cases h
  obtain ⟨n, m, g1, g2, g3, -⟩ := astmt_num h2
  rw [hl] at g1
  simp only [astmt] at h1
  rcases hg : Registry.getService w.svc alg with _ | s
  · rw [hg] at h1
    cases h1
    exact ⟨m, convert_ty g2, g3, fun s hs => nomatch hs⟩
  · rw [hg] at h1
    cases h1
    refine ⟨m, convert_ty g2, g3, fun s' hs' => ?_⟩
    cases hs'
    simp only [RHSt.aput] at g1
    rw [setField_same] at g1
    rcases hz : (o st.k st.h).field r f with _ | z <;> rw [hz] at g1 <;> cases g1
    rw [Num.convert_self] at g2
    exact (Option.some.inj g2).symm

end

/-! ### Setters -/

theorem foldl_hsetAll (ps : List (Nat × Nat × HVal)) : ∀ h : Heap, ps.foldl (fun h p => h.setField p.1 p.2.1 p.2.2) h = hsetAll h ps := by
  induction ps with
  | nil => intro h; rfl
  | cons p ps ih => intro h; exact ih _

theorem acts_eq (o : HOthers) : o.acts = fun k h => hsetAll h (o k) := by
  funext k h
  exact foldl_hsetAll _ h

section
variable {w : World} {o : HOthers}

theorem alook_acts (r f : Nat) (st : RHSt) : st.alook (fun k h => hsetAll h (o k)) r f = st.look o r f := rfl

theorem aelems_acts (r f : Nat) (st : RHSt) : st.aelems (fun k h => hsetAll h (o k)) r f = st.elems o r f := by
  unfold RHSt.aelems RHSt.elems
  rw [alook_acts]
  rcases st.look o r f with ⟨st1, _ | (_ | _ | _ | a)⟩ <;> rfl

theorem aget_acts (r f i : Nat) (st : RHSt) : st.aget (fun k h => hsetAll h (o k)) r f i = st.get o r f i := by
  unfold RHSt.aget RHSt.get
  rw [aelems_acts]
  rcases st.elems o r f with ⟨st1, _ | xs⟩ <;> rfl

theorem afield_acts (r f : Nat) (st : RHSt) : st.afield (fun k h => hsetAll h (o k)) r f = st.field o r f := by
  unfold RHSt.afield RHSt.field
  rw [alook_acts]
  rcases st.look o r f with ⟨st1, _ | x⟩ <;> rfl

theorem aelem_acts (call : RHCall) (el : EncElem) (r f i : Nat) (st : RHSt) : aelem (fun k h => hsetAll h (o k)) call el r f i st = rhelem o call el r f i st := by
  cases el <;> simp only [aelem, rhelem, aget_acts]
  all_goals rcases st.get o r f i with ⟨st1, _ | x⟩ <;> rfl

theorem aloop_acts (call : RHCall) (el : EncElem) (r f : Nat) : ∀ (j i : Nat) (st : RHSt),
    aloop (fun k h => hsetAll h (o k)) call el r f j i st = rhloop o call el r f j i st := by
  intro j
  induction j with
  | zero => intro i st; rfl
  | succ j ih =>
    intro i st
    simp only [aloop, rhloop, aelems_acts, aelem_acts]
    rcases st.elems o r f with ⟨st1, _ | xs⟩
    · rfl
    · dsimp only
      by_cases hi : i < xs.length
      · rw [if_pos hi, if_pos hi]
        rcases rhelem o call el r f i st1 with ⟨st2, _ | err⟩
        · exact ih (i + 1) st2
        · rfl
      · rw [if_neg hi, if_neg hi]

theorem astmt_acts (call : RHCall) (r : Nat) (s : EncStmt) (st : RHSt) : astmt w (fun k h => hsetAll h (o k)) call r s st = rhstmt w o call r s st := by
  cases s with
  | dyn f zt t e => simp only [astmt, rhstmt, afield_acts]
  | list f zt t e el =>
    simp only [astmt, rhstmt, alook_acts, aelems_acts, aloop_acts]
    rcases st.look o r f with ⟨st1, _ | (_ | _ | _ | a)⟩ <;> try rfl
    all_goals
      dsimp only
      rcases st1.elems o r f with ⟨st2, _ | (_ | ⟨y, ys⟩)⟩ <;> try rfl
      dsimp only
      rcases st2.elems o r f with ⟨st3, _ | xs⟩ <;> try rfl
      dsimp only
      rcases st3.wrote (writeInt st3.buf t e xs.length) with ⟨st4, _ | err⟩ <;> rfl
  | num f t e => simp only [astmt, rhstmt, alook_acts]; rcases st.look o r f with ⟨st1, _ | (_ | _ | _ | a)⟩ <;> rfl
  | fixed f n pad left => simp only [astmt, rhstmt, alook_acts]; rcases st.look o r f with ⟨st1, _ | x⟩ <;> rfl
  | obj f => simp only [astmt, rhstmt, alook_acts]; rcases st.look o r f with ⟨st1, _ | x⟩ <;> rfl
  | objOpt f =>
    simp only [astmt, rhstmt, alook_acts]
    rcases st.look o r f with ⟨st1, _ | (_ | _ | _ | a)⟩ <;> try rfl
    all_goals
      dsimp only
      rcases st1.look o r f with ⟨st2, _ | x⟩ <;> rfl
  | patch x f t e =>
    simp only [astmt, rhstmt, alook_acts]
    rcases st.look o r f with ⟨st1, _ | (_ | n | _ | a)⟩ <;> try rfl
    all_goals
      dsimp only
      rcases st1.loc x with _ | p <;> rcases n.convert t with _ | q <;> rfl
  | save x => rfl
  | zero t e => rfl
  | setLen f x y =>
    simp only [astmt, rhstmt]
    rcases st.loc x with _ | a <;> rcases st.loc y with _ | b <;> rfl
  | checksum f alg =>
    simp only [astmt, rhstmt]
    rcases Registry.getService w.svc alg with _ | s <;> rfl

theorem aencode_acts : ∀ n, aencode w (fun k h => hsetAll h (o k)) n = rhencode w o n := by
  intro n
  induction n with
  | zero => funext x h k b; cases x <;> rfl
  | succ n ih =>
    funext x h k b
    have hss : ∀ (r : Nat) (ss : List EncStmt) (st : RHSt), astmts w (fun k h => hsetAll h (o k)) (rhencode w o n) r ss st = rhstmts w o (rhencode w o n) r ss st := by
      intro r ss
      induction ss with
      | nil => intro st; rfl
      | cons s ss ihs =>
        intro st
        simp only [astmts, rhstmts, astmt_acts]
        rcases rhstmt w o (rhencode w o n) r s st with ⟨st1, _ | err⟩
        · exact ihs st1
        · rfl
    cases x with
    | ref r =>
      simp only [aencode, rhencode, ih, hss]
      rcases h[r]? with _ | (⟨c, ys⟩ | xs) <;> rfl
    | _ => rfl

end

end FinProto
