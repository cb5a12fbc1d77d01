import Verif.Spec.AnyDecode
import Verif.Proofs.DecodeLaw
import Verif.Proofs.Decode
import Verif.Proofs.Compile
import Verif.Proofs.TypedHeap
/-
Helper lemmas for C114.
-/
namespace FinProto

/-! ### The buffer -/

/-- `b'` is `b` with the reader index further on. -/
def DFwd (b b' : RBuf) : Prop :=
  b'.data = b.data ∧ b'.spare = b.spare ∧ b.rd ≤ b'.rd ∧ b'.rd ≤ max b.rd (b.data ++ b.spare).length

theorem DFwd.refl (b : RBuf) : DFwd b b := ⟨rfl, rfl, Nat.le_refl _, by omega⟩

theorem DFwd.trans {b1 b2 b3 : RBuf} (h : DFwd b1 b2) (h' : DFwd b2 b3) : DFwd b1 b3 := by
  obtain ⟨h1, h2, h3, h4⟩ := h
  obtain ⟨g1, g2, g3, g4⟩ := h'
  rw [h1, h2] at g4
  exact ⟨g1.trans h1, g2.trans h2, Nat.le_trans h3 g3, by omega⟩

theorem dfwd_law {α : Type} {g : RBuf → RBuf × Except JErr α} (hl : Law (toReader g)) (b : RBuf) : DFwd b (g b).1 := by
  have h1 := hl.data b
  have h2 := hl.spare b
  have h3 := hl.forward b
  have h4 := hl.inside b
  unfold toReader at h1 h2 h3 h4
  rcases e : g b with ⟨b', x | x⟩ <;> rw [e] at h1 h2 h3 h4 <;> exact ⟨h1, h2, h3, h4⟩

theorem dfwd_num {b b' : RBuf} {e : Endian} {t : PTy} {x : Except JErr Num} (h : b.readNum e t = (b', x)) : DFwd b b' := by
  have := dfwd_law (law_readNum e t) b; rw [h] at this; exact this
theorem dfwd_fixed {b b' : RBuf} {n : Nat} {pad : JChar} {left : Bool} {x : Except JErr JStr} (h : readFixedString b n pad left = (b', x)) : DFwd b b' := by
  have := dfwd_law (law_readFixedString n pad left) b; rw [h] at this; exact this
theorem dfwd_text {b b' : RBuf} {n : Nat} {x : Except JErr JStr} (h : b.readText n = (b', x)) : DFwd b b' := by
  have := dfwd_law (law_readText n) b; rw [h] at this; exact this
theorem dfwd_dyn {b b' : RBuf} {e : Endian} {t : PTy} {x : Except JErr (Option JStr)} (h : readDyn b t e = (b', x)) : DFwd b b' := by
  have := dfwd_law (law_readDyn t e) b; rw [h] at this; exact this

/-- A call that only moves the reader index forward. -/
def DFwdCall (call : ADCall) : Prop := ∀ a h k b, DFwd b (call a h k b).2.2.1

theorem add_buf (o : Acts) (l : Option HVal) (y : HVal) (st : ADSt) : (st.add o l y).1.buf = st.buf := by
  unfold ADSt.add; repeat' split
  all_goals rfl

section
variable {o : Acts} {call : ADCall} (hc : DFwdCall call)
include hc

theorem adelem_fwd (r f : Nat) (el : DecElem) (st : ADSt) : DFwd st.buf (adelem o call r f el st).1.buf := by
  cases el with
  | obj c =>
    have := hc st.h.length (st.h ++ [newMsg c]) st.k st.buf
    simp only [adelem, ADSt.call]
    split
    · next heq => rw [Prod.mk.injEq] at heq; rw [← heq.1]; exact this
    · next heq => rw [Prod.mk.injEq] at heq; rw [add_buf, ← heq.1]; exact this
  | num t e =>
    simp only [adelem]; split
    · next heq => exact dfwd_num heq
    · next heq => rw [add_buf]; exact dfwd_num heq
  | fixed n pad left =>
    simp only [adelem]; split
    · next heq => exact dfwd_fixed heq
    · next heq => rw [add_buf]; exact dfwd_fixed heq
  | dyn t e =>
    simp only [adelem]; split
    · next heq => exact dfwd_num heq
    · next heq =>
      split
      · split
        · next heq' => exact (dfwd_num heq).trans (dfwd_text heq')
        · next heq' => rw [add_buf]; exact (dfwd_num heq).trans (dfwd_text heq')
      · exact dfwd_num heq

theorem adloop_fwd (r f : Nat) (el : DecElem) : ∀ (m : Nat) (st : ADSt), DFwd st.buf (adloop o call r f el m st).1.buf
  | 0, st => DFwd.refl _
  | m + 1, st => by
    have := adelem_fwd (o := o) hc r f el st
    simp only [adloop]; split
    · next heq => rw [heq] at this; exact this
    · next heq => rw [heq] at this; exact this.trans (adloop_fwd r f el m _)

theorem adcall_fwd (r f : Nat) (st : ADSt) : DFwd st.buf (adcall o call r f st).1.buf := by
  simp only [adcall, ADSt.look]
  split
  · next heq => rw [Prod.mk.injEq] at heq; rw [← heq.1]; exact DFwd.refl _
  · next heq =>
    rw [Prod.mk.injEq] at heq
    split
    · rw [← heq.1]; exact hc _ _ _ _
    · rw [← heq.1]; exact DFwd.refl _
  · next heq => rw [Prod.mk.injEq] at heq; rw [← heq.1]; exact DFwd.refl _

theorem adstmt_fwd (sup : Suppliers) (r : Nat) (tys : List FTy) (s : DecStmt) (st : ADSt) : DFwd st.buf (adstmt sup o call r tys s st).1.buf := by
  cases s with
  | num f t e =>
    simp only [adstmt]; split
    · next heq => exact dfwd_num heq
    · next heq => split <;> exact dfwd_num heq
  | fixed f n pad left => simp only [adstmt]; split <;> next heq => exact dfwd_fixed heq
  | dyn f t e => simp only [adstmt]; split <;> next heq => exact dfwd_dyn heq
  | list f t e el =>
    simp only [adstmt]; split
    · next heq => exact dfwd_num heq
    · next heq =>
      split
      · exact (dfwd_num heq).trans (adloop_fwd hc r f el _ _)
      · exact dfwd_num heq
  | obj f c =>
    simp only [adstmt, ADSt.look]; split
    · next heq => rw [Prod.mk.injEq] at heq; rw [← heq.1]; exact adcall_fwd hc r f _
    · next heq => rw [Prod.mk.injEq] at heq; rw [← heq.1]; exact adcall_fwd hc r f _
  | create f fac key =>
    simp only [adstmt, ADSt.look]; split
    · next heq =>
      rw [Prod.mk.injEq] at heq; rw [← heq.1]
      split
      · unfold adcreate; split <;> exact DFwd.refl _
      · exact DFwd.refl _
    · next heq => rw [Prod.mk.injEq] at heq; rw [← heq.1]; exact DFwd.refl _
  | call f => exact adcall_fwd hc r f st

theorem adstmts_fwd (sup : Suppliers) (r : Nat) (tys : List FTy) : ∀ (ss : List DecStmt) (st : ADSt),
    DFwd st.buf (adstmts sup o call r tys ss st).1.buf
  | [], st => DFwd.refl _
  | s :: ss, st => by
    have := adstmt_fwd (o := o) hc sup r tys s st
    simp only [adstmts]; split
    · next heq => rw [heq] at this; exact this.trans (adstmts_fwd sup r tys ss _)
    · next heq => rw [heq] at this; exact this
end

theorem adecode_fwd (sup : Suppliers) (o : Acts) : ∀ n, DFwdCall (adecode sup o n)
  | 0, _, _, _, _ => DFwd.refl _
  | n + 1, r, h, k, b => by
    simp only [adecode]; split
    · exact adstmts_fwd (adecode_fwd sup o n) sup r _ _ _
    · exact DFwd.refl _

/-! ### With nobody else -/

/-- Nothing happens meanwhile. -/
def AStill : Acts := fun _ h => h

/-- A call among others who do nothing against the call alone. -/
def ADQuiet (call : ADCall) (hcall : HDecCall) : Prop := ∀ a h k b, ∃ k', call a h k b = ((hcall a h b).1, k', (hcall a h b).2)

section
variable {call : ADCall} {hcall : HDecCall} (hc : ADQuiet call hcall)
include hc

/-- What a step leaves: heap, buffer, exception; the number of accesses does not matter. -/
def ADSt.out (x : ADSt × Option JErr) : Heap × RBuf × Option JErr := (x.1.h, x.1.buf, x.2)

omit hc in
theorem add_quiet (r f : Nat) (y : HVal) (st : ADSt) : ADSt.out (st.add AStill (st.h.field r f) y) = ((hadd st.h r f y).1, st.buf, (hadd st.h r f y).2) := by
  unfold ADSt.add hadd AStill ADSt.out
  rcases st.h.field r f with _ | (_ | _ | _ | a)
  · rfl
  · rfl
  · rfl
  · rfl
  · dsimp only
    rcases st.h[a]? with _ | (_ | xs) <;> rfl

theorem call_quiet (a : Nat) (st : ADSt) : ADSt.out (st.call call a) = hcall a st.h st.buf := by
  obtain ⟨k', e⟩ := hc a st.h st.k st.buf
  simp only [ADSt.call, ADSt.out, e]

theorem adelem_quiet (r f : Nat) (el : DecElem) (st : ADSt) : ADSt.out (adelem AStill call r f el st) = hdecElem hcall r f el st.h st.buf := by
  cases el with
  | obj c =>
    have h1 := call_quiet hc st.h.length { st with h := st.h ++ [newMsg c] }
    simp only [adelem, hdecElem]
    rw [← h1]
    rcases ADSt.call call st.h.length { st with h := st.h ++ [newMsg c] } with ⟨st', _ | e⟩
    · simp only [ADSt.out]
      exact add_quiet r f _ { st' with k := st'.k + 1 }
    · rfl
  | num t e =>
    simp only [adelem, hdecElem]
    rcases st.buf.readNum e t with ⟨b', e | n⟩
    · rfl
    · exact add_quiet r f _ ⟨st.h, st.k + 1, b'⟩
  | fixed n pad left =>
    simp only [adelem, hdecElem]
    rcases readFixedString st.buf n pad left with ⟨b', e | s⟩
    · rfl
    · exact add_quiet r f _ ⟨st.h, st.k + 1, b'⟩
  | dyn t e =>
    simp only [adelem, hdecElem, readDyn]
    rcases st.buf.readNum e t with ⟨b', e | n⟩
    · rfl
    · dsimp only
      split
      · rcases b'.readText n.bits.toNat with ⟨b'', e | s⟩
        · rfl
        · exact add_quiet r f _ ⟨st.h, st.k + 1, b''⟩
      · rfl

theorem adloop_quiet (r f : Nat) (el : DecElem) : ∀ (m : Nat) (st : ADSt),
    ADSt.out (adloop AStill call r f el m st) = hdecElems hcall r f el m st.h st.buf
  | 0, st => rfl
  | m + 1, st => by
    have := adelem_quiet hc r f el st
    simp only [adloop, hdecElems]
    rw [← this]
    rcases adelem AStill call r f el st with ⟨st', _ | e⟩
    · exact adloop_quiet r f el m st'
    · rfl

theorem adcall_quiet (r f : Nat) (st : ADSt) :
    ADSt.out (adcall AStill call r f st) = ((hcallField hcall r f ⟨st.h, st.buf⟩).1.h, (hcallField hcall r f ⟨st.h, st.buf⟩).1.buf, (hcallField hcall r f ⟨st.h, st.buf⟩).2) := by
  simp only [adcall, hcallField, ADSt.look, AStill]
  rcases st.h.field r f with _ | (_ | _ | _ | a)
  · rfl
  · rfl
  · rfl
  · rfl
  · dsimp only
    rcases st.h[a]? with _ | (_ | xs)
    · rfl
    · exact call_quiet hc a ⟨st.h, st.k + 1, st.buf⟩
    · rfl

theorem adstmt_quiet (sup : Suppliers) (r : Nat) (tys : List FTy) (s : DecStmt) (st : ADSt) :
    ADSt.out (adstmt sup AStill call r tys s st) =
      ((hdecStmt sup hcall r tys s ⟨st.h, st.buf⟩).1.h, (hdecStmt sup hcall r tys s ⟨st.h, st.buf⟩).1.buf, (hdecStmt sup hcall r tys s ⟨st.h, st.buf⟩).2) := by
  cases s with
  | num f t e =>
    simp only [adstmt, hdecStmt]
    rcases st.buf.readNum e t with ⟨b', e | n⟩
    · rfl
    · dsimp only
      rcases tys[f]?.bind (assignNum · n) with _ | (_ | _ | _ | _ | _) <;> rfl
  | fixed f n pad left =>
    simp only [adstmt, hdecStmt]
    rcases readFixedString st.buf n pad left with ⟨b', e | s⟩ <;> rfl
  | dyn f t e =>
    simp only [adstmt, hdecStmt]
    rcases readDyn st.buf t e with ⟨b', e | (_ | s)⟩ <;> rfl
  | list f t e el =>
    simp only [adstmt, hdecStmt]
    rcases st.buf.readNum e t with ⟨b', e | n⟩
    · rfl
    · dsimp only
      split
      · exact adloop_quiet hc r f el _ _
      · rfl
  | obj f c =>
    simp only [adstmt, hdecStmt, ADSt.look, AStill]
    rcases st.h.field r f with _ | (_ | _ | _ | a)
    · exact adcall_quiet hc r f _
    · exact adcall_quiet hc r f _
    · exact adcall_quiet hc r f _
    · exact adcall_quiet hc r f _
    · exact adcall_quiet hc r f _
  | create f fac key =>
    simp only [adstmt, hdecStmt, ADSt.look, AStill]
    rcases st.h.field r key with _ | y
    · rfl
    · dsimp only
      rcases sup fac (keyOf y.leaf) with _ | (_ | _) <;> rfl
  | call f => exact adcall_quiet hc r f st

theorem adstmts_quiet (sup : Suppliers) (r : Nat) (tys : List FTy) : ∀ (ss : List DecStmt) (st : ADSt),
    ADSt.out (adstmts sup AStill call r tys ss st) =
      ((hdecStmts sup hcall r tys ss ⟨st.h, st.buf⟩).1.h, (hdecStmts sup hcall r tys ss ⟨st.h, st.buf⟩).1.buf, (hdecStmts sup hcall r tys ss ⟨st.h, st.buf⟩).2)
  | [], st => rfl
  | s :: ss, st => by
    have := adstmt_quiet hc sup r tys s st
    simp only [adstmts, hdecStmts]
    revert this
    rcases hdecStmt sup hcall r tys s ⟨st.h, st.buf⟩ with ⟨st', e'⟩
    rcases adstmt sup AStill call r tys s st with ⟨st'', e⟩
    intro this
    simp only [ADSt.out, Prod.mk.injEq] at this
    obtain ⟨h1, h2, rfl⟩ := this
    rcases e with _ | e
    · have := adstmts_quiet sup r tys ss st''
      rw [h1, h2] at this
      exact this
    · simp only [ADSt.out, h1, h2]
end

theorem adecode_quiet (sup : Suppliers) : ∀ n, ADQuiet (adecode sup AStill n) (hdecode sup n)
  | 0, _, _, k, _ => ⟨k, rfl⟩
  | n + 1, r, h, k, b => by
    simp only [adecode, hdecode]
    rcases h[r]? with _ | (⟨c, ys⟩ | xs)
    · exact ⟨k, rfl⟩
    · have := adstmts_quiet (adecode_quiet sup n) sup r ((decl c).fields.map (·.2)) (decl c).dec ⟨h, k, b⟩
      simp only [ADSt.out, Prod.mk.injEq] at this
      refine ⟨(adstmts sup AStill (adecode sup AStill n) r ((decl c).fields.map (·.2)) (decl c).dec ⟨h, k, b⟩).1.k, ?_⟩
      dsimp only
      rw [this.1, this.2.1, this.2.2]
    · exact ⟨k, rfl⟩

/-! ### Where it ends -/

/-- From `h` to `h'` messages keep their classes, and no message type and no body changes, except possibly field `i` of the message at `r`. -/
def Mild (r i : Nat) (h h' : Heap) : Prop :=
  PartsOK h' ∧ ∀ (q : Nat) e ys, h[q]? = some (.msg e ys) → (∃ zs, h'[q]? = some (.msg e zs)) ∧ ∀ f, Steers e f → (q ≠ r ∨ f ≠ i) → h'.field q f = h.field q f

/-- The same, except possibly for the message at `a`. -/
def Gentle (a : Nat) (h h' : Heap) : Prop :=
  PartsOK h' ∧ ∀ (q : Nat) e ys, h[q]? = some (.msg e ys) → (∃ zs, h'[q]? = some (.msg e zs)) ∧ ∀ f, Steers e f → q ≠ a → h'.field q f = h.field q f

theorem Mild.refl {r i : Nat} {h : Heap} (hp : PartsOK h) : Mild r i h h := ⟨hp, fun _ _ ys hq => ⟨⟨ys, hq⟩, fun _ _ _ => rfl⟩⟩

theorem Mild.trans {r i : Nat} {h1 h2 h3 : Heap} (h12 : Mild r i h1 h2) (h23 : Mild r i h2 h3) : Mild r i h1 h3 := by
  refine ⟨h23.1, fun q e ys hq => ?_⟩
  obtain ⟨⟨zs, hz⟩, hf⟩ := h12.2 q e ys hq
  obtain ⟨hz', hf'⟩ := h23.2 q e zs hz
  exact ⟨hz', fun f hs hne => (hf' f hs hne).trans (hf f hs hne)⟩

theorem Gentle.refl {a : Nat} {h : Heap} (hp : PartsOK h) : Gentle a h h := ⟨hp, fun _ _ ys hq => ⟨⟨ys, hq⟩, fun _ _ _ => rfl⟩⟩

theorem Gentle.trans {a : Nat} {h1 h2 h3 : Heap} (h12 : Gentle a h1 h2) (h23 : Gentle a h2 h3) : Gentle a h1 h3 := by
  refine ⟨h23.1, fun q e ys hq => ?_⟩
  obtain ⟨⟨zs, hz⟩, hf⟩ := h12.2 q e ys hq
  obtain ⟨hz', hf'⟩ := h23.2 q e zs hz
  exact ⟨hz', fun f hs hne => (hf' f hs hne).trans (hf f hs hne)⟩

theorem Mild.gentle {r i : Nat} {h h' : Heap} (m : Mild r i h h') : Gentle r h h' :=
  ⟨m.1, fun q e ys hq => ⟨(m.2 q e ys hq).1, fun f hs hne => (m.2 q e ys hq).2 f hs (.inl hne)⟩⟩

/-- A call on a message without bodies. -/
theorem Gentle.mild {a r i : Nat} {h h' : Heap} (g : Gentle a h h') {d : Cls} {zs : List HVal} (ha : h[a]? = some (.msg d zs)) (hd : ∀ f, ¬ Steers d f) :
    Mild r i h h' := by
  refine ⟨g.1, fun q e ys hq => ⟨(g.2 q e ys hq).1, fun f hs _ => (g.2 q e ys hq).2 f hs ?_⟩⟩
  rintro rfl
  rw [ha] at hq
  cases hq
  exact hd f hs

theorem Mild.step {o : Acts} (ho : Steady o) {r i k : Nat} {h : Heap} (hp : PartsOK h) : Mild r i h (o k h) :=
  ⟨(ho k h hp).1, fun q e ys hq => ⟨((ho k h hp).2 q e ys hq).1, fun f hs _ => ((ho k h hp).2 q e ys hq).2 f hs⟩⟩

/-- What may be assigned. -/
def Fits (h : Heap) (c : Cls) (f : Nat) (y : HVal) : Prop :=
  ∀ d, (javaTypes c)[f]? = some (.obj d) → y = .null ∨ ∃ (a : Nat) (zs : List HVal), y = .ref a ∧ h[a]? = some (.msg d zs)

theorem Mild.set {r i : Nat} {h : Heap} (hp : PartsOK h) {c : Cls} {ys : List HVal} (hr : h[r]? = some (.msg c ys)) {y : HVal} (hy : Fits h c i y) :
    Mild r i h (h.setField r i y) := by
  have hk := keeps_setField h r i y
  refine ⟨fun q e zs hq => ?_, fun q e zs hq => ⟨hk q e zs hq, fun f _ hne => ?_⟩⟩
  · rcases setField_back hr i y hq with ⟨rfl, rfl, rfl⟩ | ⟨-, hq'⟩
    · refine ⟨by rw [List.length_set]; exact (hp q e ys hr).1, fun f d x hd hx => ?_⟩
      rw [List.getElem?_set] at hx
      split at hx
      · next hif =>
        subst hif
        split at hx
        · cases hx
          rcases hy d hd with h1 | ⟨a, zs, h1, h2⟩
          · exact .inl h1
          · obtain ⟨zs', h3⟩ := hk a d zs h2
            exact .inr ⟨a, zs', h1, h3⟩
        · cases hx
      · rcases (hp q e ys hr).2 f d x hd hx with h1 | ⟨a, zs, h1, h2⟩
        · exact .inl h1
        · obtain ⟨zs', h3⟩ := hk a d zs h2
          exact .inr ⟨a, zs', h1, h3⟩
    · refine ⟨(hp q e zs hq').1, fun f d x hd hx => ?_⟩
      rcases (hp q e zs hq').2 f d x hd hx with h1 | ⟨a, zs', h1, h2⟩
      · exact .inl h1
      · obtain ⟨zs'', h3⟩ := hk a d zs' h2
        exact .inr ⟨a, zs'', h1, h3⟩
  · by_cases e' : q = r
    · subst e'
      have hne' : i ≠ f := by
        rcases hne with h1 | h1
        · exact absurd rfl h1
        · exact fun h => h1 h.symm
      rw [Heap.field_msg _ q f c _ (Heap.setField_self h q i c ys y hr), Heap.field_msg h q f c ys hr, List.getElem?_set_ne hne']
    · simp only [Heap.field, Heap.setField_ne h r i q y e']

theorem PartsOK.more {h : Heap} (hp : PartsOK h) {x : HObj} (hx : ∀ c ys, x = .msg c ys → ys.length = (javaTypes c).length ∧
    ∀ (f : Nat) d y, (javaTypes c)[f]? = some (.obj d) → ys[f]? = some y → y = .null) : PartsOK (h ++ [x]) := by
  have hk : ∀ (a : Nat) (d : Cls) (zs : List HVal), h[a]? = some (.msg d zs) → (h ++ [x])[a]? = some (.msg d zs) := fun a d zs ha => by
    rw [List.getElem?_append_left (List.getElem?_eq_some_iff.mp ha).1]; exact ha
  intro r c ys hr
  rw [List.getElem?_append] at hr
  split at hr
  · refine ⟨(hp r c ys hr).1, fun f d y hd hy => ?_⟩
    rcases (hp r c ys hr).2 f d y hd hy with h1 | ⟨a, zs, h1, h2⟩
    · exact .inl h1
    · exact .inr ⟨a, zs, h1, hk a d zs h2⟩
  · have hx' : x = .msg c ys := by
      rcases hn : r - h.length with _ | j <;> rw [hn] at hr <;> simp at hr; exact hr
    exact ⟨(hx c ys hx').1, fun f d y hd hy => .inl ((hx c ys hx').2 f d y hd hy)⟩

theorem Mild.more {r i : Nat} {h : Heap} {x : HObj} (hp : PartsOK (h ++ [x])) : Mild r i h (h ++ [x]) := by
  refine ⟨hp, fun q e ys hq => ?_⟩
  have : (h ++ [x])[q]? = h[q]? := List.getElem?_append_left (List.getElem?_eq_some_iff.mp hq).1
  exact ⟨⟨ys, this.trans hq⟩, fun f _ _ => by simp only [Heap.field, this]⟩

theorem newMsg_parts (c : Cls) : ∀ c' ys, newMsg c = .msg c' ys → ys.length = (javaTypes c').length ∧
    ∀ (f : Nat) d y, (javaTypes c')[f]? = some (.obj d) → ys[f]? = some y → y = .null := by
  intro c' ys h
  simp only [newMsg, HObj.msg.injEq] at h
  obtain ⟨rfl, rfl⟩ := h
  refine ⟨by simp [javaTypes], fun f d y hd hy => ?_⟩
  simp only [javaTypes, List.getElem?_map, Option.map_eq_some_iff] at hd hy
  obtain ⟨x, h1, h2⟩ := hd
  obtain ⟨x', h3, h4⟩ := hy
  rw [h1] at h3
  cases h3
  rw [← h4, h2]
  rfl

theorem Mild.new {r i : Nat} {h : Heap} (hp : PartsOK h) (c : Cls) : Mild r i h (h ++ [newMsg c]) := .more (hp.more (newMsg_parts c))

theorem Mild.arr {r i a : Nat} {h : Heap} (hp : PartsOK h) {xs ys : List HVal} (ha : h[a]? = some (.arr xs)) : Mild r i h (h.set a (.arr ys)) := by
  have hk : ∀ (q : Nat) (d : Cls) (zs : List HVal), (h.set a (.arr ys))[q]? = some (.msg d zs) ↔ h[q]? = some (.msg d zs) := fun q d zs => by
    rw [List.getElem?_set]
    split
    · next e =>
      subst e
      rw [ha]
      constructor
      · intro h; split at h <;> cases h
      · intro h; cases h
    · exact Iff.rfl
  refine ⟨fun q e zs hq => ?_, fun q e zs hq => ⟨⟨zs, (hk q e zs).2 hq⟩, fun f _ _ => ?_⟩⟩
  · rw [hk] at hq
    refine ⟨(hp q e zs hq).1, fun f d y hd hy => ?_⟩
    rcases (hp q e zs hq).2 f d y hd hy with h1 | ⟨b, zs', h1, h2⟩
    · exact .inl h1
    · exact .inr ⟨b, zs', h1, (hk b d zs').2 h2⟩
  · rw [Heap.field_msg _ q f e zs ((hk q e zs).2 hq), Heap.field_msg h q f e zs hq]

/-- A call among others against the call alone on a new message. -/
def ADOk (call : ADCall) (tcall : DecCall) : Prop :=
  ∀ (a : Nat) d zs h k b, PartsOK h → h[a]? = some (.msg d zs) →
    Gentle a h (call a h k b).1 ∧ ((call a h k b).2.2.2 = none → (tcall d (freshFields d) b).2 = ((call a h k b).2.2.1, none))

section
variable {o : Acts} (ho : Steady o) {call : ADCall} {tcall : DecCall} (hc : ADOk call tcall)
include ho

theorem add_mild {r i : Nat} (l : Option HVal) (y : HVal) (st : ADSt) (hp : PartsOK st.h) : Mild r i st.h (st.add o l y).1.h := by
  unfold ADSt.add
  split
  · next a =>
    have h1 : Mild r i st.h (o st.k st.h) := .step ho hp
    split
    · next xs ha => exact h1.trans (.arr h1.1 ha)
    · exact h1
  · exact .refl hp
  · exact .refl hp
  · exact .refl hp

theorem look_mild {r i : Nat} (q f : Nat) (st : ADSt) (hp : PartsOK st.h) : Mild r i st.h (st.look o q f).1.h := .step ho hp

include hc

theorem adelem_ok {r i : Nat} {el : DecElem} (hel : ∀ d, el = .obj d → ∀ f, ¬ Steers d f) (st : ADSt) (hp : PartsOK st.h) :
    Mild r i st.h (adelem o call r i el st).1.h ∧
      ((adelem o call r i el st).2 = none → ∃ v, decElem tcall el st.buf = ((adelem o call r i el st).1.buf, .ok v)) := by
  cases el with
  | obj c =>
    have h1 : Mild r i st.h (st.h ++ [newMsg c]) := .new hp c
    have ha : (st.h ++ [newMsg c])[st.h.length]? = some (newMsg c) := by simp
    obtain ⟨h2, h3⟩ := hc st.h.length c _ (st.h ++ [newMsg c]) st.k st.buf h1.1 ha
    have h2 := h1.trans (h2.mild ha (hel c rfl))
    simp only [adelem, decElem, ADSt.call]
    clear ha
    revert h3 h2
    rcases call st.h.length (st.h ++ [newMsg c]) st.k st.buf with ⟨h', k', b', _ | e⟩
    · intro h3 h2
      have h4 := h3 rfl
      dsimp only at h2 h4 ⊢
      rcases e : tcall c (freshFields c) st.buf with ⟨fs, b1, e1⟩
      rw [e] at h4
      simp only [Prod.mk.injEq] at h4
      obtain ⟨rfl, rfl⟩ := h4
      refine ⟨(h2.trans (look_mild ho r i ⟨h', k', b1⟩ h2.1)).trans (add_mild ho _ _ _ (look_mild (r := r) (i := i) ho r i ⟨h', k', b1⟩ h2.1).1), fun _ => ⟨some (.obj c fs), ?_⟩⟩
      rw [add_buf]
      rfl
    · intro h3 h2
      exact ⟨h2, fun h => by cases h⟩
  | num t e =>
    have h1 := look_mild (r := r) (i := i) ho r i st hp
    simp only [adelem, decElem]
    rcases st.buf.readNum e t with ⟨b', e | n⟩
    · exact ⟨h1, fun h => by cases h⟩
    · refine ⟨h1.trans (add_mild ho _ _ _ h1.1), fun _ => ⟨some (.num n), ?_⟩⟩
      rw [add_buf]
  | fixed n pad left =>
    have h1 := look_mild (r := r) (i := i) ho r i st hp
    simp only [adelem, decElem]
    rcases readFixedString st.buf n pad left with ⟨b', e | s⟩
    · exact ⟨h1, fun h => by cases h⟩
    · refine ⟨h1.trans (add_mild ho _ _ _ h1.1), fun _ => ⟨some (.str s), ?_⟩⟩
      rw [add_buf]
  | dyn t e =>
    have h1 := look_mild (r := r) (i := i) ho r i st hp
    simp only [adelem, decElem, readDyn]
    rcases st.buf.readNum e t with ⟨b', e | n⟩
    · exact ⟨.refl hp, fun h => by cases h⟩
    · dsimp only
      split
      · rcases b'.readText n.bits.toNat with ⟨b'', e | s⟩
        · exact ⟨h1, fun h => by cases h⟩
        · refine ⟨h1.trans (add_mild ho _ _ _ h1.1), fun _ => ⟨some (.str s), ?_⟩⟩
          rw [add_buf]
          rfl
      · exact ⟨.refl hp, fun _ => ⟨_, rfl⟩⟩

theorem adloop_ok {r i : Nat} {el : DecElem} (hel : ∀ d, el = .obj d → ∀ f, ¬ Steers d f) : ∀ (m : Nat) (st : ADSt), PartsOK st.h →
    Mild r i st.h (adloop o call r i el m st).1.h ∧
      ((adloop o call r i el m st).2 = none → ∀ acc, (decElems tcall el m acc st.buf).2 = ((adloop o call r i el m st).1.buf, none))
  | 0, st, hp => ⟨.refl hp, fun _ _ => rfl⟩
  | m + 1, st, hp => by
    obtain ⟨h1, h2⟩ := adelem_ok (r := r) (i := i) ho hc hel st hp
    simp only [adloop]
    revert h1 h2
    rcases adelem o call r i el st with ⟨st', _ | e⟩
    · intro h1 h2
      obtain ⟨v, hv⟩ := h2 rfl
      obtain ⟨h3, h4⟩ := adloop_ok hel m st' h1.1
      refine ⟨h1.trans h3, fun hn acc => ?_⟩
      simp only [decElems, hv]
      cases v with
      | none => exact h4 hn acc
      | some v => exact h4 hn _
    · intro h1 _
      exact ⟨h1, fun h => by cases h⟩

/-- `this.F.decode(byteBuf)` if the field, after what others do, contains a message of class `d`. -/
theorem adcall_ok {r f : Nat} {st : ADSt} (hp : PartsOK st.h) {a : Nat} {d : Cls} {zs : List HVal} (hf : (o st.k st.h).field r f = some (.ref a))
    (ha : (o st.k st.h)[a]? = some (.msg d zs)) :
    Gentle a (o st.k st.h) (adcall o call r f st).1.h ∧
      ((adcall o call r f st).2 = none → (tcall d (freshFields d) st.buf).2 = ((adcall o call r f st).1.buf, none)) := by
  simp only [adcall, ADSt.look, hf, ha]
  exact hc a d zs _ _ _ (ho st.k st.h hp).1 ha

end

/-! ### Tables -/

theorem keysOk_get (all : List WTy) : ∀ (ts : List WTy) (i j : Nat) (fac : Fac) (key : Nat), keysOk i all ts = true → ts[j]? = some (.ext fac key) →
    key < i + j ∧ ((∃ p, all[key]? = some (.num p)) ∨ ∃ n pad left, all[key]? = some (.text n pad left))
  | [], _, _, _, _, _, h => by simp at h
  | t :: ts, i, 0, fac, key, hk, h => by
    simp only [List.getElem?_cons_zero, Option.some.injEq] at h
    subst h
    simp only [keysOk, Bool.and_eq_true, decide_eq_true_eq] at hk
    obtain ⟨⟨h1, h2⟩, -⟩ := hk
    refine ⟨by omega, ?_⟩
    split at h2
    · next p e => exact .inl ⟨p, e⟩
    · next n pad left e => exact .inr ⟨n, pad, left, e⟩
    · cases h2
  | t :: ts, i, j + 1, fac, key, hk, h => by
    have hk' : keysOk (i + 1) all ts = true := by
      cases t <;> simp only [keysOk, Bool.and_eq_true] at hk
      case ext => exact hk.2
      all_goals exact hk
    simp only [List.getElem?_cons_succ] at h
    have := keysOk_get all ts (i + 1) j fac key hk' h
    exact ⟨by omega, this.2⟩

/-- A body is selected by an earlier field, a number or a text of fixed width. -/
theorem ext_key {c : Cls} {i : Nat} {fac : Fac} {key : Nat} (h : (wire c)[i]? = some (.ext fac key)) :
    key < i ∧ ((∃ p, (wire c)[key]? = some (.num p)) ∨ ∃ n pad left, (wire c)[key]? = some (.text n pad left)) := by
  have := keysOk_get (wire c) (wire c) 0 i fac key (keysOk_table c) h
  simpa using this

theorem steers_kind {c : Cls} {f : Nat} (h : Steers c f) :
    (∃ fac key, (wire c)[f]? = some (.ext fac key)) ∨ (∃ p, (wire c)[f]? = some (.num p)) ∨ ∃ n pad left, (wire c)[f]? = some (.text n pad left) := by
  obtain ⟨i, fac, key, h1, rfl | rfl⟩ := h
  · exact .inl ⟨_, _, h1⟩
  · exact .inr (ext_key h1).2

/-- No body in messages of class `d`. -/
def bodiless (d : Cls) : Bool := (wire d).all fun t => match t with | .ext _ _ => false | _ => true

theorem bodiless_steers {d : Cls} (h : bodiless d = true) (f : Nat) : ¬ Steers d f := by
  rintro ⟨i, fac, key, h1, -⟩
  have := List.all_eq_true.mp h _ (List.mem_of_getElem? h1)
  cases this

theorem parts_table (c : Cls) : ((wire c).all fun t => match t with | .sub d => bodiless d | .list (.sub d) => bodiless d | _ => true) = true := by
  cases c <;> rfl

theorem sub_bodiless {c d : Cls} {i : Nat} (h : (wire c)[i]? = some (.sub d)) (f : Nat) : ¬ Steers d f := by
  have := List.all_eq_true.mp (parts_table c) _ (List.mem_of_getElem? h)
  exact bodiless_steers this f

theorem el_bodiless {c : Cls} {i : Nat} {e : EWTy} {k : Conv} (h : (wire c)[i]? = some (.list e)) : ∀ d, decElOf k e = .obj d → ∀ f, ¬ Steers d f := by
  intro d hd f
  have := List.all_eq_true.mp (parts_table c) _ (List.mem_of_getElem? h)
  cases e <;> simp only [decElOf, reduceCtorEq] at hd
  cases hd
  exact bodiless_steers this f

theorem java_at {c : Cls} {i : Nat} {t : WTy} (h : (wire c)[i]? = some t) : (javaTypes c)[i]? = some t.java := by
  rw [type_table, List.getElem?_map, h]; rfl

theorem fits_other {c : Cls} {i : Nat} {t : WTy} (h : (wire c)[i]? = some t) (ht : ∀ d, t ≠ .sub d) (hp : Heap) (y : HVal) : Fits hp c i y := by
  intro d hd
  rw [java_at h] at hd
  cases t <;> simp only [WTy.java, Option.some.injEq, reduceCtorEq] at hd
  exact absurd rfl (ht _)

theorem fresh_sub {c d : Cls} {i : Nat} (h : (wire c)[i]? = some (.sub d)) : (freshFields c)[i]? = some .null := by
  have := java_at h
  simp only [javaTypes, List.getElem?_map, Option.map_eq_some_iff] at this
  obtain ⟨x, h1, h2⟩ := this
  simp only [freshFields, List.getElem?_map, h1, Option.map_some, h2, WTy.java]
  rfl

theorem allocAll_defaults (h : Heap) : ∀ tys : List (String × FTy), allocAll (tys.map fun f => f.2.default) h = (h, tys.map fun f => f.2.hdefault)
  | [] => rfl
  | x :: xs => by
    have : alloc x.2.default h = (h, x.2.hdefault) := by rcases x with ⟨_, _ | _ | _ | _ | _⟩ <;> rfl
    simp only [List.map_cons, allocAll, this, allocAll_defaults h xs]

theorem alloc_fresh (d : Cls) (h : Heap) : alloc (fresh d) h = (h ++ [newMsg d], .ref h.length) := by
  simp only [fresh, alloc, freshFields, allocAll_defaults h, newMsg]

/-! ### Field by field -/

theorem alike_keep {h h' : Heap} (hk : ∀ (q : Nat) e ys, h[q]? = some (.msg e ys) → ∃ zs, h'[q]? = some (.msg e zs)) {y : HVal} {v : Val} (ha : LooksLike h y v) :
    LooksLike h' y v := by
  cases v with
  | obj d gs => obtain ⟨a, zs, h1, h2⟩ := ha; obtain ⟨zs', h3⟩ := hk a d zs h2; exact ⟨a, zs', h1, h3⟩
  | _ => exact ha

/-- Message types and bodies read so far are as in `fs`. -/
def SteerAgree (c : Cls) (r m : Nat) (h : Heap) (fs : List Val) : Prop :=
  ∀ f, f < m → Steers c f → ∃ y v, h.field r f = some y ∧ fs[f]? = some v ∧ LooksLike h y v

theorem keyOf_alike {h : Heap} {y : HVal} {v : Val} (ha : LooksLike h y v) : keyOf y.leaf = keyOf v := by
  cases v with
  | obj d gs => obtain ⟨a, zs, rfl, -⟩ := ha; rfl
  | list xs => exact ha.elim
  | null => cases ha; rfl
  | num n => cases ha; rfl
  | str s => cases ha; rfl

section
variable {w : World} (hw : FreshSuppliers w) {o : Acts} (ho : Steady o) {call : ADCall} {tcall : DecCall} (hc : ADOk call tcall) {c : Cls} {r : Nat}

include ho in
theorem put_ok {i : Nat} {t : WTy} (ht : (wire c)[i]? = some t) {st : ADSt} (hp : PartsOK st.h) {ys : List HVal} (hr : st.h[r]? = some (.msg c ys)) {y : HVal}
    (hy : Fits (o st.k st.h) c i y) : Mild r i st.h (st.put o r i y).h ∧ (st.put o r i y).h.field r i = some y := by
  have h1 : Mild r i st.h (o st.k st.h) := .step ho hp
  obtain ⟨⟨zs, hz⟩, -⟩ := h1.2 r c ys hr
  refine ⟨h1.trans (.set h1.1 hz hy), ?_⟩
  have hlt : i < zs.length := by
    rw [(h1.1 r c zs hz).1]
    exact (List.getElem?_eq_some_iff.mp (java_at ht)).1
  show ((o st.k st.h).setField r i y).field r i = some y
  rw [Heap.field_msg _ r i c _ (Heap.setField_self _ r i c zs y hz), List.getElem?_set]
  simp [hlt]

/-- What is shown of the statements of field `i`. -/
def UnitOK (w : World) (tcall : DecCall) (c : Cls) (r i : Nat) (ss : List DecStmt) (st : ADSt) (x : ADSt × Option JErr) : Prop :=
  Mild r i st.h x.1.h ∧ (x.2 = none → ∀ t0 : DecSt, t0.buf = st.buf → t0.fs.length = (wire c).length → t0.fs[i]? = (freshFields c)[i]? →
    SteerAgree c r i st.h t0.fs → ∃ t1, decStmts w tcall (javaTypes c) ss t0 = (t1, none) ∧ t1.buf = x.1.buf ∧ t1.fs.length = t0.fs.length ∧
      (∀ j, j ≠ i → t1.fs[j]? = t0.fs[j]?) ∧ (Steers c i → ∃ y v, x.1.h.field r i = some y ∧ t1.fs[i]? = some v ∧ LooksLike x.1.h y v))

theorem one_dec (w : World) (tcall : DecCall) (tys : List FTy) (s : DecStmt) (t0 : DecSt) : decStmts w tcall tys [s] t0 = decStmt w tcall tys s t0 := by
  simp only [decStmts]
  rcases decStmt w tcall tys s t0 with ⟨t1, _ | e⟩ <;> rfl

theorem one_ad (sup : Suppliers) (o : Acts) (call : ADCall) (r : Nat) (tys : List FTy) (s : DecStmt) (st : ADSt) :
    adstmts sup o call r tys [s] st = adstmt sup o call r tys s st := by
  simp only [adstmts]
  rcases adstmt sup o call r tys s st with ⟨t1, _ | e⟩ <;> rfl

theorem unit_fail {i : Nat} {ss : List DecStmt} {st : ADSt} {x : ADSt} {e : JErr} (h : Mild r i st.h x.h) : UnitOK w tcall c r i ss st (x, some e) :=
  ⟨h, fun h => by cases h⟩

theorem set_gets {fs : List Val} {i : Nat} {v : Val} (h : i < fs.length) : (fs.set i v)[i]? = some v := by
  simp [h]

include ho in
theorem unit_num {i : Nat} {t : WTy} (ht : (wire c)[i]? = some t) (hn : ∀ d, t ≠ .sub d) (p : PTy) (e : Endian) (st : ADSt) (hp : PartsOK st.h)
    {ys : List HVal} (hr : st.h[r]? = some (.msg c ys)) :
    UnitOK w tcall c r i [.num i p e] st (adstmts w.suppliers o call r (javaTypes c) [.num i p e] st) := by
  rw [one_ad]
  simp only [adstmt]
  rcases hb : st.buf.readNum e p with ⟨b', e' | n⟩
  · exact unit_fail (.refl hp)
  · dsimp only
    split
    · next m hm =>
      obtain ⟨h1, h2⟩ := put_ok (r := r) ho ht (st := ⟨st.h, st.k, b'⟩) hp hr (y := .num m) (fits_other ht hn _ _)
      refine ⟨h1, fun _ t0 hb0 hl hf ha => ⟨⟨t0.fs.set i (.num m), b'⟩, ?_, rfl, List.length_set .., fun j hj => ?_, fun _ => ⟨_, _, h2, set_gets ?_, rfl⟩⟩⟩
      · rw [one_dec]; simp only [decStmt, hb0, hb, hm]
      · exact List.getElem?_set_ne (fun h => hj h.symm)
      · rw [hl]; exact (List.getElem?_eq_some_iff.mp ht).1
    · exact unit_fail (.refl hp)

include ho in
theorem unit_fixed {i : Nat} {t : WTy} (ht : (wire c)[i]? = some t) (hn : ∀ d, t ≠ .sub d) (n : Nat) (pad : JChar) (left : Bool) (st : ADSt) (hp : PartsOK st.h)
    {ys : List HVal} (hr : st.h[r]? = some (.msg c ys)) :
    UnitOK w tcall c r i [.fixed i n pad left] st (adstmts w.suppliers o call r (javaTypes c) [.fixed i n pad left] st) := by
  rw [one_ad]
  simp only [adstmt]
  rcases hb : readFixedString st.buf n pad left with ⟨b', e' | s⟩
  · exact unit_fail (.refl hp)
  · obtain ⟨h1, h2⟩ := put_ok (r := r) ho ht (st := ⟨st.h, st.k, b'⟩) hp hr (y := .str s) (fits_other ht hn _ _)
    refine ⟨h1, fun _ t0 hb0 hl hf ha => ⟨⟨t0.fs.set i (.str s), b'⟩, ?_, rfl, List.length_set .., fun j hj => ?_, fun _ => ⟨_, _, h2, set_gets ?_, rfl⟩⟩⟩
    · rw [one_dec]; simp only [decStmt, hb0, hb]
    · exact List.getElem?_set_ne (fun h => hj h.symm)
    · rw [hl]; exact (List.getElem?_eq_some_iff.mp ht).1

include ho in
theorem unit_dyn {i : Nat} (ht : (wire c)[i]? = some .vstr) (p : PTy) (e : Endian) (st : ADSt) (hp : PartsOK st.h)
    {ys : List HVal} (hr : st.h[r]? = some (.msg c ys)) :
    UnitOK w tcall c r i [.dyn i p e] st (adstmts w.suppliers o call r (javaTypes c) [.dyn i p e] st) := by
  have hs : ¬ Steers c i := fun h => by
    rcases steers_kind h with ⟨_, _, h1⟩ | ⟨_, h1⟩ | ⟨_, _, _, h1⟩ <;> rw [ht] at h1 <;> cases h1
  rw [one_ad]
  simp only [adstmt]
  rcases hb : readDyn st.buf p e with ⟨b', e' | (_ | s)⟩
  · exact unit_fail (.refl hp)
  · refine ⟨.refl hp, fun _ t0 hb0 hl hf ha => ⟨⟨t0.fs, b'⟩, ?_, rfl, rfl, fun j hj => rfl, fun h => absurd h hs⟩⟩
    rw [one_dec]; simp only [decStmt, hb0, hb]
  · obtain ⟨h1, h2⟩ := put_ok (r := r) ho ht (st := ⟨st.h, st.k, b'⟩) hp hr (y := .str s) (fits_other ht (fun _ h => by cases h) _ _)
    refine ⟨h1, fun _ t0 hb0 hl hf ha => ⟨⟨t0.fs.set i (.str s), b'⟩, ?_, rfl, List.length_set .., fun j hj => ?_, fun h => absurd h hs⟩⟩
    · rw [one_dec]; simp only [decStmt, hb0, hb]
    · exact List.getElem?_set_ne (fun h => hj h.symm)

include ho hc in
theorem unit_list {i : Nat} {el : EWTy} {k : Conv} (ht : (wire c)[i]? = some (.list el)) (p : PTy) (e : Endian) (st : ADSt) (hp : PartsOK st.h)
    {ys : List HVal} (hr : st.h[r]? = some (.msg c ys)) :
    UnitOK w tcall c r i [.list i p e (decElOf k el)] st (adstmts w.suppliers o call r (javaTypes c) [.list i p e (decElOf k el)] st) := by
  have hs : ¬ Steers c i := fun h => by
    rcases steers_kind h with ⟨_, _, h1⟩ | ⟨_, h1⟩ | ⟨_, _, _, h1⟩ <;> rw [ht] at h1 <;> cases h1
  rw [one_ad]
  simp only [adstmt]
  rcases hb : st.buf.readNum e p with ⟨b', e' | n⟩
  · exact unit_fail (.refl hp)
  · dsimp only
    split
    · next hn =>
      have h0 : Mild r i st.h (st.h ++ [.arr []]) := .more (hp.more fun _ _ h => by cases h)
      obtain ⟨⟨zs, hz⟩, -⟩ := h0.2 r c ys hr
      obtain ⟨h1, -⟩ := put_ok (r := r) ho ht (st := ⟨st.h ++ [.arr []], st.k, b'⟩) h0.1 hz (y := .ref st.h.length) (fits_other ht (fun _ h => by cases h) _ _)
      obtain ⟨h2, h3⟩ := adloop_ok (r := r) (i := i) ho hc (el_bodiless (k := k) ht) n.bits.toNat _ h1.1
      refine ⟨(h0.trans h1).trans h2, fun hx t0 hb0 hl hf ha => ?_⟩
      have h4 := h3 hx []
      refine ⟨⟨t0.fs.set i (.list (decElems tcall (decElOf k el) n.bits.toNat [] b').1), _⟩, ?_, rfl, List.length_set .., fun j hj => ?_, fun h => absurd h hs⟩
      · rw [one_dec]
        simp only [decStmt, hb0, hb, hn, if_true]
        have h4' : (decElems tcall (decElOf k el) n.bits.toNat [] b').2 = _ := h4
        rw [h4']
      · exact List.getElem?_set_ne (fun h => hj h.symm)
    · next hn =>
      refine ⟨.refl hp, fun _ t0 hb0 hl hf ha => ⟨⟨t0.fs, b'⟩, ?_, rfl, rfl, fun j hj => rfl, fun h => absurd h hs⟩⟩
      rw [one_dec]; simp only [decStmt, hb0, hb, hn, if_false]

include ho hc in
theorem unit_sub {i : Nat} {d : Cls} (ht : (wire c)[i]? = some (.sub d)) (st : ADSt) (hp : PartsOK st.h)
    {ys : List HVal} (hr : st.h[r]? = some (.msg c ys)) :
    UnitOK w tcall c r i [.obj i d] st (adstmts w.suppliers o call r (javaTypes c) [.obj i d] st) := by
  have hs : ¬ Steers c i := fun h => by
    rcases steers_kind h with ⟨_, _, h1⟩ | ⟨_, h1⟩ | ⟨_, _, _, h1⟩ <;> rw [ht] at h1 <;> cases h1
  have hd := sub_bodiless ht
  /- a call on what is in the field -/
  have key : ∀ st1 : ADSt, Mild r i st.h st1.h → st1.buf = st.buf → UnitOK w tcall c r i [.obj i d] st (adcall o call r i st1) := by
    intro st1 h1 hb
    obtain ⟨⟨zs, hz⟩, -⟩ := h1.2 r c ys hr
    have h2 : Mild r i st1.h (o st1.k st1.h) := .step ho h1.1
    obtain ⟨⟨zs', hz'⟩, -⟩ := h2.2 r c zs hz
    have hlt : i < zs'.length := by
      rw [(h2.1 r c zs' hz').1]; exact (List.getElem?_eq_some_iff.mp (java_at ht)).1
    have hy : zs'[i]? = some zs'[i] := List.getElem?_eq_getElem hlt
    have hfield : (o st1.k st1.h).field r i = some zs'[i] := by rw [Heap.field_msg _ r i c zs' hz', hy]
    rcases (h2.1 r c zs' hz').2 i d _ (java_at ht) hy with h3 | ⟨a, us, h3, h4⟩
    · simp only [adcall, ADSt.look, hfield, h3]
      exact unit_fail (h1.trans h2)
    · obtain ⟨h5, h6⟩ := adcall_ok (r := r) (f := i) ho hc h1.1 (by rw [hfield, h3]) h4
      refine ⟨(h1.trans h2).trans (h5.mild h4 hd), fun hx t0 hb0 hl hf ha => ?_⟩
      have h7 := h6 hx
      refine ⟨⟨t0.fs.set i (.obj d (tcall d (freshFields d) t0.buf).1), _⟩, ?_, rfl, List.length_set .., fun j hj => ?_, fun h => absurd h hs⟩
      · rw [one_dec]
        simp only [decStmt, hf, fresh_sub ht, hb0, ← hb, h7]
      · exact List.getElem?_set_ne (fun h => hj h.symm)
  rw [one_ad]
  simp only [adstmt]
  have h1 := look_mild (r := r) (i := i) ho r i st hp
  have h2 : (st.look o r i).1.buf = st.buf := rfl
  revert h1 h2
  rcases st.look o r i with ⟨st1, y⟩
  intro h1 h2
  dsimp only at h1 h2
  have hnew : UnitOK w tcall c r i [.obj i d] st (adcall o call r i (ADSt.put o r i (.ref st1.h.length) ⟨st1.h ++ [newMsg d], st1.k, st1.buf⟩)) := by
    have h3 : Mild r i st1.h (st1.h ++ [newMsg d]) := .new h1.1 d
    obtain ⟨⟨zs, hz⟩, -⟩ := (h1.trans h3).2 r c ys hr
    have ha : (st1.h ++ [newMsg d])[st1.h.length]? = some (newMsg d) := by simp
    obtain ⟨⟨us, hu⟩, -⟩ := (Mild.step (r := r) (i := i) (k := st1.k) ho h3.1).2 _ _ _ ha
    obtain ⟨h4, -⟩ := put_ok (r := r) ho ht (st := ⟨st1.h ++ [newMsg d], st1.k, st1.buf⟩) h3.1 hz (y := .ref st1.h.length) (by
      intro d' hd'
      rw [java_at ht] at hd'
      cases hd'
      exact .inr ⟨_, us, rfl, hu⟩)
    exact key _ ((h1.trans h3).trans h4) h2
  rcases y with _ | (_ | _ | _ | a)
  · exact key _ h1 h2
  · exact hnew
  · exact key _ h1 h2
  · exact key _ h1 h2
  · exact key _ h1 h2

include hw ho hc in
theorem unit_ext {i : Nat} {fac : Fac} {kf : Nat} (ht : (wire c)[i]? = some (.ext fac kf)) (st : ADSt) (hp : PartsOK st.h)
    {ys : List HVal} (hr : st.h[r]? = some (.msg c ys)) :
    UnitOK w tcall c r i [.create i fac kf, .call i] st (adstmts w.suppliers o call r (javaTypes c) [.create i fac kf, .call i] st) := by
  have hsi : Steers c i := ⟨i, fac, kf, ht, .inl rfl⟩
  have hsk : Steers c kf := ⟨i, fac, kf, ht, .inr rfl⟩
  have hlt := (ext_key ht).1
  have h1 : Mild r i st.h (o st.k st.h) := .step ho hp
  have hk0 : (o st.k st.h).field r kf = st.h.field r kf := (h1.2 r c ys hr).2 kf hsk (.inr (by omega))
  simp only [adstmts, adstmt, ADSt.look, hk0]
  rcases hy : st.h.field r kf with _ | y
  · exact unit_fail h1
  · dsimp only
    simp only [World.suppliers]
    rcases hv : w.fac fac (keyOf y.leaf) with _ | v
    · exact unit_fail h1
    · obtain ⟨d, rfl⟩ := hw _ _ _ hv
      simp only [Option.map_some, adcreate, alloc_fresh]
      generalize hst1 : o st.k st.h = h1' at h1
      have h3 : Mild r i h1' (h1' ++ [newMsg d]) := .new h1.1 d
      obtain ⟨⟨zs, hz⟩, -⟩ := (h1.trans h3).2 r c ys hr
      have ha : (h1' ++ [newMsg d])[h1'.length]? = some (newMsg d) := by simp
      obtain ⟨h4, h5⟩ := put_ok (r := r) ho ht (st := ⟨h1' ++ [newMsg d], st.k + 1, st.buf⟩) h3.1 hz (y := .ref h1'.length) (fits_other ht (fun _ h => by cases h) _ _)
      obtain ⟨⟨us, hu⟩, -⟩ := h4.2 _ _ _ ha
      generalize hst2 : ADSt.put o r i (.ref h1'.length) ⟨h1' ++ [newMsg d], st.k + 1, st.buf⟩ = st2 at h4 h5 hu
      have hb2 : st2.buf = st.buf := by rw [← hst2]; rfl
      obtain ⟨⟨zs2, hz2⟩, -⟩ := h4.2 r c zs hz
      have h6 : Mild r i st2.h (o st2.k st2.h) := .step ho h4.1
      obtain ⟨⟨us2, hu2⟩, -⟩ := h6.2 _ _ _ hu
      have h7 : (o st2.k st2.h).field r i = some (.ref h1'.length) := by
        rw [((ho st2.k st2.h h4.1).2 r c zs2 hz2).2 i hsi, h5]
      obtain ⟨h8, h9⟩ := adcall_ok (r := r) (f := i) ho hc h4.1 h7 hu2
      have hpre : Mild r i st.h (o st2.k st2.h) := ((h1.trans h3).trans h4).trans h6
      have hm : Mild r i st.h (adcall o call r i st2).1.h := by
        refine ⟨h8.1, fun q e xs hq => ?_⟩
        obtain ⟨⟨xs1, hq1⟩, hf1⟩ := h1.2 q e xs hq
        obtain ⟨⟨xs2, hq2⟩, hf2⟩ := hpre.2 q e xs hq
        obtain ⟨hq3, hf3⟩ := h8.2 q e xs2 hq2
        have hne : q ≠ h1'.length := Nat.ne_of_lt (List.getElem?_eq_some_iff.mp hq1).1
        exact ⟨hq3, fun f hs hn => (hf3 f hs hne).trans (hf2 f hs hn)⟩
      have hfin : (adcall o call r i st2).1.h.field r i = some (.ref h1'.length) := by
        obtain ⟨⟨zs3, hz3⟩, -⟩ := h6.2 r c zs2 hz2
        obtain ⟨⟨xs1, hq1⟩, -⟩ := h1.2 r c ys hr
        rw [(h8.2 r c zs3 hz3).2 i hsi (Nat.ne_of_lt (List.getElem?_eq_some_iff.mp hq1).1), h7]
      have hcls : ∃ us3, (adcall o call r i st2).1.h[h1'.length]? = some (.msg d us3) := (h8.2 _ _ _ hu2).1
      have hgoal : UnitOK w tcall c r i [.create i fac kf, .call i] st (adcall o call r i st2) := by
        refine ⟨hm, fun hx t0 hb0 hl hf hag => ?_⟩
        obtain ⟨y', v, hy', hv', hal⟩ := hag kf hlt hsk
        rw [hy] at hy'
        cases hy'
        have hli : i < t0.fs.length := by rw [hl]; exact (List.getElem?_eq_some_iff.mp ht).1
        refine ⟨⟨(t0.fs.set i (fresh d)).set i (.obj d (tcall d (freshFields d) t0.buf).1), _⟩, ?_, rfl, by simp, fun j hj => ?_, fun _ => ⟨_, _, hfin, set_gets (by simpa using hli), ?_⟩⟩
        · have h10 := h9 hx
          rw [hb2, ← hb0] at h10
          simp only [decStmts, decStmt, hv', ← keyOf_alike hal, hv, set_gets hli]
          simp only [fresh, h10]
        · rw [List.getElem?_set_ne (fun h => hj h.symm), List.getElem?_set_ne (fun h => hj h.symm)]
        · obtain ⟨us3, hu3⟩ := hcls
          exact ⟨_, us3, rfl, hu3⟩
      rcases hcc : adcall o call r i st2 with ⟨st3, _ | e⟩ <;> rw [hcc] at hgoal <;> exact hgoal

include hw ho hc in
theorem unit_ok {i : Nat} {t : WTy} {k : Conv} (ht : (wire c)[i]? = some t) (st : ADSt) (hp : PartsOK st.h) {ys : List HVal} (hr : st.h[r]? = some (.msg c ys)) :
    UnitOK w tcall c r i (decOf k i t) st (adstmts w.suppliers o call r (javaTypes c) (decOf k i t) st) := by
  cases t with
  | num p => exact unit_num ho ht (fun _ h => by cases h) _ _ st hp hr
  | len p => exact unit_num ho ht (fun _ h => by cases h) _ _ st hp hr
  | cksum p alg => exact unit_num ho ht (fun _ h => by cases h) _ _ st hp hr
  | text n pad left => exact unit_fixed ho ht (fun _ h => by cases h) _ _ _ st hp hr
  | vstr => exact unit_dyn ho ht _ _ st hp hr
  | list e => exact unit_list ho hc ht _ _ st hp hr
  | sub d => exact unit_sub ho hc ht st hp hr
  | ext fac kf => exact unit_ext hw ho hc ht st hp hr

theorem adstmts_append (sup : Suppliers) (o : Acts) (call : ADCall) (r : Nat) (tys : List FTy) : ∀ (ss ss' : List DecStmt) (st : ADSt),
    adstmts sup o call r tys (ss ++ ss') st =
      match adstmts sup o call r tys ss st with
      | (st', none) => adstmts sup o call r tys ss' st'
      | (st', some e) => (st', some e)
  | [], _, _ => rfl
  | s :: ss, ss', st => by
    simp only [List.cons_append, adstmts]
    rcases adstmt sup o call r tys s st with ⟨st', _ | e⟩
    · exact adstmts_append sup o call r tys ss ss' st'
    · rfl

include hw ho hc in
theorem units_ok (k : Conv) : ∀ (ts : List WTy) (i : Nat), wire c = (wire c).take i ++ ts → i + ts.length = (wire c).length → ∀ (st : ADSt), PartsOK st.h →
    ∀ ys, st.h[r]? = some (.msg c ys) →
    Gentle r st.h (adstmts w.suppliers o call r (javaTypes c) (compileDec k i ts) st).1.h ∧
    ((adstmts w.suppliers o call r (javaTypes c) (compileDec k i ts) st).2 = none → ∀ t0 : DecSt, t0.buf = st.buf → t0.fs.length = (wire c).length →
      (∀ j, i ≤ j → t0.fs[j]? = (freshFields c)[j]?) → SteerAgree c r i st.h t0.fs →
      ∃ t1, decStmts w tcall (javaTypes c) (compileDec k i ts) t0 = (t1, none) ∧
        t1.buf = (adstmts w.suppliers o call r (javaTypes c) (compileDec k i ts) st).1.buf ∧
        SteerAgree c r (wire c).length (adstmts w.suppliers o call r (javaTypes c) (compileDec k i ts) st).1.h t1.fs)
  | [], i, _, hlen, st, hp, ys, hr => ⟨.refl hp, fun _ t0 hb _ _ ha => ⟨t0, rfl, hb, by simp only [List.length_nil, Nat.add_zero] at hlen; rw [← hlen]; exact ha⟩⟩
  | t :: ts, i, hw', hlen, st, hp, ys, hr => by
    simp only [List.length_cons] at hlen
    have ht : (wire c)[i]? = some t := by
      rw [hw', List.getElem?_append_right (by simp; omega)]
      simp [List.length_take, Nat.min_eq_left (by omega : i ≤ (wire c).length)]
    have hw2 : wire c = (wire c).take (i + 1) ++ ts := by
      conv => lhs; rw [hw']
      rw [List.take_add_one, ht]
      simp
    obtain ⟨h1, h2⟩ := unit_ok (k := k) hw ho hc ht st hp hr
    simp only [compileDec, adstmts_append]
    revert h1 h2
    rcases adstmts w.suppliers o call r (javaTypes c) (decOf k i t) st with ⟨st1, _ | e⟩
    · intro h1 h2
      dsimp only at h1 h2 ⊢
      obtain ⟨⟨zs, hz⟩, hf⟩ := h1.2 r c ys hr
      obtain ⟨h3, h4⟩ := units_ok k ts (i + 1) hw2 (by omega) st1 h1.1 zs hz
      refine ⟨h1.gentle.trans h3, fun hx t0 hb0 hl hfr hag => ?_⟩
      obtain ⟨t1, g1, g2, g3, g4, g5⟩ := h2 rfl t0 hb0 hl (hfr i (Nat.le_refl _)) hag
      obtain ⟨t2, k1, k2, k3⟩ := h4 hx t1 g2 (g3.trans hl) (fun j hj => by rw [g4 j (by omega)]; exact hfr j (by omega)) (by
        intro f hlt hs
        by_cases e : f = i
        · subst e; exact g5 hs
        · obtain ⟨y, v, a1, a2, a3⟩ := hag f (by omega) hs
          exact ⟨y, v, by rw [hf f hs (.inr e), a1], by rw [g4 f e, a2], alike_keep (fun q e ys hq => (h1.2 q e ys hq).1) a3⟩)
      exact ⟨t2, by rw [decStmts_append, g1]; exact k1, k2, k3⟩
    · intro h1 h2
      exact ⟨h1.gentle, fun h => by cases h⟩

end

theorem adecode_ok {w : World} (hw : FreshSuppliers w) {o : Acts} (ho : Steady o) : ∀ (n : Nat) (a : Nat) (d : Cls) (zs : List HVal) (h : Heap) (k : Nat) (b : RBuf),
    PartsOK h → h[a]? = some (.msg d zs) →
    Gentle a h (adecode w.suppliers o n a h k b).1 ∧
      ((adecode w.suppliers o n a h k b).2.2.2 = none →
        (decode w n d (freshFields d) b).2 = ((adecode w.suppliers o n a h k b).2.2.1, none) ∧
          SteerAgree d a (wire d).length (adecode w.suppliers o n a h k b).1 (decode w n d (freshFields d) b).1)
  | 0, a, d, zs, h, k, b, hp, ha => ⟨.refl hp, fun h => by cases h⟩
  | n + 1, a, d, zs, h, k, b, hp, ha => by
    have hc : ADOk (adecode w.suppliers o n) (decode w n) := fun a d zs h k b hp ha =>
      ⟨(adecode_ok hw ho n a d zs h k b hp ha).1, fun hx => ((adecode_ok hw ho n a d zs h k b hp ha).2 hx).1⟩
    simp only [adecode, decode, ha]
    have hd : (decl d).fields.map (·.2) = javaTypes d := rfl
    rw [hd, dec_table]
    obtain ⟨h1, h2⟩ := units_ok (r := a) hw ho hc (conv d.mod) (wire d) 0 (by simp) (by simp) ⟨h, k, b⟩ hp zs ha
    refine ⟨h1, fun hx => ?_⟩
    obtain ⟨t1, g1, g2, g3⟩ := h2 hx ⟨freshFields d, b⟩ rfl (freshFields_length d) (fun _ _ => rfl) (fun f hf => by omega)
    rw [g1]
    exact ⟨by rw [← g2], g3⟩

/-! ### Setters -/

theorem setCall_mild (s : SetCall) (hs : ¬ Steers s.c s.f) {h : Heap} (hp : PartsOK h) (hy : Fits h s.c s.f s.y) (r i : Nat) : Mild r i h (s.run h) := by
  unfold SetCall.run
  split
  · next c ys hr =>
    split
    · next e =>
      subst e
      have m := Mild.set (i := s.f) hp hr hy
      refine ⟨m.1, fun q e zs hq => ⟨(m.2 q e zs hq).1, fun f hf _ => (m.2 q e zs hq).2 f hf ?_⟩⟩
      by_cases hqr : q = s.r
      · subst hqr
        rw [hr] at hq
        cases hq
        exact .inr fun h => hs (h ▸ hf)
      · exact .inl hqr
    · exact .refl hp
  · exact .refl hp

theorem setActs_mild (l : List SetCall) (hl : ∀ s ∈ l, ¬ Steers s.c s.f ∧ ∀ d, (javaTypes s.c)[s.f]? ≠ some (.obj d)) : ∀ (h : Heap), PartsOK h → ∀ r i,
    Mild r i h (l.foldl (fun h s => s.run h) h) := by
  induction l with
  | nil => intro h hp r i; exact .refl hp
  | cons s l ih =>
    intro h hp r i
    have h1 := setCall_mild s (hl s (by simp)).1 hp (fun d hd => absurd hd ((hl s (by simp)).2 d)) r i
    exact h1.trans (ih (fun s hs => hl s (by simp [hs])) _ h1.1 r i)

theorem steady_of {o : Acts} (h : ∀ k h, PartsOK h → ∀ r i, Mild r i h (o k h)) : Steady o := by
  intro k hp hh
  refine ⟨(h k hp hh 0 0).1, fun q e ys hq => ⟨((h k hp hh 0 0).2 q e ys hq).1, fun f hf => ((h k hp hh (q + 1) 0).2 q e ys hq).2 f hf (.inl (by omega))⟩⟩

end FinProto
