import Verif.Proofs.AnyDecode
/-
Decoding while others set numbers and texts and change lists: how it ends.
-/
namespace FinProto

/-- From `h` to `h'` messages keep their classes, lists are lists, and no list field and no part is set except those of `P`. -/
def Rest (P : Nat → Nat → Prop) (h h' : Heap) : Prop :=
  PartsOK h' ∧ (∀ (q : Nat) xs, h[q]? = some (.arr xs) → ∃ ys, h'[q]? = some (.arr ys)) ∧
    ∀ (q : Nat) e ys, h[q]? = some (.msg e ys) → (∃ zs, h'[q]? = some (.msg e zs)) ∧ ∀ f, Held e f → ¬ P q f → h'.field q f = h.field q f

theorem Rest.refl {P : Nat → Nat → Prop} {h : Heap} (hp : PartsOK h) : Rest P h h :=
  ⟨hp, fun _ xs hq => ⟨xs, hq⟩, fun _ _ ys hq => ⟨⟨ys, hq⟩, fun _ _ _ => rfl⟩⟩

theorem Rest.trans {P : Nat → Nat → Prop} {h1 h2 h3 : Heap} (h12 : Rest P h1 h2) (h23 : Rest P h2 h3) : Rest P h1 h3 := by
  refine ⟨h23.1, fun q xs hq => ?_, fun q e ys hq => ?_⟩
  · obtain ⟨ys, hy⟩ := h12.2.1 q xs hq
    exact h23.2.1 q ys hy
  · obtain ⟨⟨zs, hz⟩, hf⟩ := h12.2.2 q e ys hq
    obtain ⟨hz', hf'⟩ := h23.2.2 q e zs hz
    exact ⟨hz', fun f hs hne => (hf' f hs hne).trans (hf f hs hne)⟩

theorem Rest.mono {P Q : Nat → Nat → Prop} {h h' : Heap} (hr : Rest P h h') (hpq : ∀ q f, q < h.length → P q f → Q q f) : Rest Q h h' :=
  ⟨hr.1, hr.2.1, fun q e ys hq => ⟨(hr.2.2 q e ys hq).1, fun f hs hn => (hr.2.2 q e ys hq).2 f hs fun hpf => hn (hpq q f (List.getElem?_eq_some_iff.mp hq).1 hpf)⟩⟩

theorem Rest.length {P : Nat → Nat → Prop} {h h' : Heap} (hr : Rest P h h') : h.length ≤ h'.length := by
  rcases hl : h.length with _ | n
  · omega
  · have hq : h[n]? = some h[n] := List.getElem?_eq_getElem (by omega)
    rcases hx : h[n] with ⟨e, ys⟩ | xs
    · rw [hx] at hq
      obtain ⟨zs, hz⟩ := (hr.2.2 n e ys hq).1
      exact (List.getElem?_eq_some_iff.mp hz).1
    · rw [hx] at hq
      obtain ⟨zs, hz⟩ := hr.2.1 n xs hq
      exact (List.getElem?_eq_some_iff.mp hz).1

theorem Rest.step {o : Acts} (ho : Calm o) {P : Nat → Nat → Prop} {k : Nat} {h : Heap} (hp : PartsOK h) : Rest P h (o k h) :=
  ⟨(ho.1 k h hp).1, (ho.2 k h hp).1, fun q e ys hq => ⟨((ho.1 k h hp).2 q e ys hq).1, fun f hs _ => (ho.2 k h hp).2 q e ys hq f hs⟩⟩

theorem Rest.set {r i : Nat} {h : Heap} (hp : PartsOK h) {c : Cls} {ys : List HVal} (hr : h[r]? = some (.msg c ys)) {y : HVal} (hy : Fits h c i y) :
    Rest (fun q f => q = r ∧ f = i) h (h.setField r i y) := by
  have m := Mild.set hp hr hy
  refine ⟨m.1, fun q xs hq => ⟨xs, ?_⟩, fun q e zs hq => ⟨(m.2 q e zs hq).1, fun f _ hne => ?_⟩⟩
  · rw [Heap.setField_ne h r i q y (by rintro rfl; rw [hr] at hq; cases hq)]
    exact hq
  · by_cases e' : q = r
    · subst e'
      rw [Heap.field_msg _ q f c _ (Heap.setField_self h q i c ys y hr), Heap.field_msg h q f c ys hr, List.getElem?_set_ne (fun h => hne ⟨rfl, h.symm⟩)]
    · simp only [Heap.field, Heap.setField_ne h r i q y e']

theorem Rest.more {P : Nat → Nat → Prop} {h : Heap} {x : HObj} (hp : PartsOK (h ++ [x])) : Rest P h (h ++ [x]) := by
  have hk : ∀ q : Nat, q < h.length → (h ++ [x])[q]? = h[q]? := fun q hq => List.getElem?_append_left hq
  refine ⟨hp, fun q xs hq => ⟨xs, ?_⟩, fun q e ys hq => ?_⟩
  · rw [hk q (List.getElem?_eq_some_iff.mp hq).1]; exact hq
  · have := hk q (List.getElem?_eq_some_iff.mp hq).1
    exact ⟨⟨ys, this.trans hq⟩, fun f _ _ => by simp only [Heap.field, this]⟩

theorem Rest.new {P : Nat → Nat → Prop} {h : Heap} (hp : PartsOK h) (c : Cls) : Rest P h (h ++ [newMsg c]) := .more (hp.more (newMsg_parts c))

theorem Rest.arr {P : Nat → Nat → Prop} {a : Nat} {h : Heap} (hp : PartsOK h) {xs ys : List HVal} (ha : h[a]? = some (.arr xs)) : Rest P h (h.set a (.arr ys)) := by
  have m := Mild.arr (r := 0) (i := 0) (ys := ys) hp ha
  have hlt := (List.getElem?_eq_some_iff.mp ha).1
  refine ⟨m.1, fun q zs hq => ?_, fun q e zs hq => ⟨(m.2 q e zs hq).1, fun f _ _ => ?_⟩⟩
  · by_cases e : a = q
    · subst e; exact ⟨ys, by simp [hlt]⟩
    · exact ⟨zs, by rw [List.getElem?_set_ne e]; exact hq⟩
  · have e : a ≠ q := by rintro rfl; rw [ha] at hq; cases hq
    simp only [Heap.field, List.getElem?_set_ne e]

/-- The message at `a` has no parts yet. -/
def NoParts (d : Cls) (a : Nat) (h : Heap) : Prop := ∀ f d', (javaTypes d)[f]? = some (.obj d') → h.field a f = some .null

theorem noParts_new (d : Cls) (h : Heap) : NoParts d h.length (h ++ [newMsg d]) := by
  intro f d' hd
  have ha : (h ++ [newMsg d])[h.length]? = some (newMsg d) := by simp
  obtain ⟨h1, h2⟩ := newMsg_parts d d _ rfl
  have hlt := (List.getElem?_eq_some_iff.mp hd).1
  rw [← h1] at hlt
  rw [Heap.field_msg _ _ f d _ ha, List.getElem?_eq_getElem hlt, h2 f d' _ hd (List.getElem?_eq_getElem hlt)]

theorem NoParts.keep {P : Nat → Nat → Prop} {d : Cls} {a : Nat} {h h' : Heap} (hn : NoParts d a h) (hr : Rest P h h') {zs : List HVal} (ha : h[a]? = some (.msg d zs))
    (hP : ∀ f d', (javaTypes d)[f]? = some (.obj d') → ¬ P a f) : NoParts d a h' := by
  intro f d' hd
  rw [(hr.2.2 a d zs ha).2 f (.inr ⟨d', hd⟩) (hP f d' hd), hn f d' hd]

/-- A call among others against the call alone on a new message. -/
def ADCalm (call : ADCall) (tcall : DecCall) : Prop :=
  ∀ (a : Nat) d zs h k b, PartsOK h → h[a]? = some (.msg d zs) →
    (tcall d (freshFields d) b).2 = (call a h k b).2.2 ∧ Rest (fun _ _ => True) h (call a h k b).1 ∧ (NoParts d a h → Rest (fun q _ => q = a) h (call a h k b).1)

/-- What the loop sees of an element. -/
def ended {α : Type} : Except JErr α → Option JErr
  | .ok _ => none
  | .error e => some e

section
variable {o : Acts} (ho : Calm o) {call : ADCall} {tcall : DecCall} (hc : ADCalm call tcall)
include ho

theorem add_calm {P : Nat → Nat → Prop} {l : Nat} {xs : List HVal} (y : HVal) (st : ADSt) (hp : PartsOK st.h) (hl : st.h[l]? = some (.arr xs)) :
    (st.add o (some (.ref l)) y).2 = none ∧ Rest P st.h (st.add o (some (.ref l)) y).1.h := by
  have h1 : Rest P st.h (o st.k st.h) := .step ho hp
  obtain ⟨zs, hz⟩ := h1.2.1 l xs hl
  simp only [ADSt.add, hz]
  exact ⟨trivial, h1.trans (.arr h1.1 hz)⟩

theorem look_calm {r f : Nat} {c : Cls} {ys : List HVal} (st : ADSt) (hp : PartsOK st.h) (hr : st.h[r]? = some (.msg c ys)) (hi : Held c f) :
    (st.look o r f).2 = st.h.field r f := (ho.2 st.k st.h hp).2 r c ys hr f hi

include hc

theorem adelem_calm {r i : Nat} {c : Cls} {ys : List HVal} {l : Nat} {xs : List HVal} (el : DecElem) (st : ADSt) (hp : PartsOK st.h) (hr : st.h[r]? = some (.msg c ys))
    (hi : Held c i) (hf : st.h.field r i = some (.ref l)) (hl : st.h[l]? = some (.arr xs)) :
    Rest (fun _ _ => False) st.h (adelem o call r i el st).1.h ∧ (decElem tcall el st.buf).1 = (adelem o call r i el st).1.buf ∧
      ended (decElem tcall el st.buf).2 = (adelem o call r i el st).2 := by
  have hlook : Rest (fun _ _ => False) st.h (o st.k st.h) := .step ho hp
  obtain ⟨xs1, hl1⟩ := hlook.2.1 l xs hl
  have hs : (o st.k st.h).field r i = some (.ref l) := by rw [(ho.2 st.k st.h hp).2 r c ys hr i hi, hf]
  cases el with
  | obj d =>
    have h1 : Rest (fun _ _ => False) st.h (st.h ++ [newMsg d]) := .new hp d
    have ha : (st.h ++ [newMsg d])[st.h.length]? = some (newMsg d) := by simp
    obtain ⟨h3, -, h2⟩ := hc st.h.length d _ (st.h ++ [newMsg d]) st.k st.buf h1.1 ha
    have h2 := h2 (noParts_new d st.h)
    have h4 : Rest (fun _ _ => False) st.h (call st.h.length (st.h ++ [newMsg d]) st.k st.buf).1 := by
      refine ⟨h2.1, fun q xs hq => ?_, fun q e zs hq => ?_⟩
      · obtain ⟨ys', hy'⟩ := h1.2.1 q xs hq
        exact h2.2.1 q ys' hy'
      · obtain ⟨⟨zs', hz'⟩, hf'⟩ := h1.2.2 q e zs hq
        obtain ⟨hz2, hf2⟩ := h2.2.2 q e zs' hz'
        have hne : q ≠ st.h.length := Nat.ne_of_lt (List.getElem?_eq_some_iff.mp hq).1
        exact ⟨hz2, fun f hs' hn => (hf2 f hs' hne).trans (hf' f hs' hn)⟩
    simp only [adelem, decElem, ADSt.call]
    clear ha h2 h1
    revert h3 h4
    rcases call st.h.length (st.h ++ [newMsg d]) st.k st.buf with ⟨h', k', b', e⟩
    rcases et : tcall d (freshFields d) st.buf with ⟨fs, b1, e1⟩
    intro h3 h4
    simp only [Prod.mk.injEq] at h3
    obtain ⟨rfl, rfl⟩ := h3
    cases e1 with
    | some e => exact ⟨h4, rfl, rfl⟩
    | none =>
      dsimp only at h4 ⊢
      obtain ⟨⟨ys4, hr4⟩, hf4⟩ := h4.2.2 r c ys hr
      obtain ⟨xs4, hl4⟩ := h4.2.1 l xs hl
      have h5 : Rest (fun _ _ => False) h' (o k' h') := .step ho h4.1
      have h6 : (o k' h').field r i = some (.ref l) := by rw [(ho.2 k' h' h4.1).2 r c ys4 hr4 i hi, hf4 i hi id, hf]
      obtain ⟨xs5, hl5⟩ := h5.2.1 l xs4 hl4
      simp only [ADSt.look, h6]
      obtain ⟨h7, h8⟩ := add_calm (P := fun _ _ => False) ho (.ref st.h.length) ⟨o k' h', k' + 1, b1⟩ h5.1 hl5
      refine ⟨(h4.trans h5).trans h8, ?_, h7.symm⟩
      rw [add_buf]
  | num t e =>
    simp only [adelem, decElem, ADSt.look, hs]
    rcases st.buf.readNum e t with ⟨b', e | n⟩
    · exact ⟨hlook, rfl, rfl⟩
    · obtain ⟨h7, h8⟩ := add_calm (P := fun _ _ => False) ho (.num n) ⟨o st.k st.h, st.k + 1, b'⟩ hlook.1 hl1
      refine ⟨hlook.trans h8, ?_, h7.symm⟩
      rw [add_buf]
  | fixed n pad left =>
    simp only [adelem, decElem, ADSt.look, hs]
    rcases readFixedString st.buf n pad left with ⟨b', e | s⟩
    · exact ⟨hlook, rfl, rfl⟩
    · obtain ⟨h7, h8⟩ := add_calm (P := fun _ _ => False) ho (.str s) ⟨o st.k st.h, st.k + 1, b'⟩ hlook.1 hl1
      refine ⟨hlook.trans h8, ?_, h7.symm⟩
      rw [add_buf]
  | dyn t e =>
    simp only [adelem, decElem, readDyn, ADSt.look, hs]
    rcases st.buf.readNum e t with ⟨b', e | n⟩
    · exact ⟨.refl hp, rfl, rfl⟩
    · dsimp only
      split
      · rcases b'.readText n.bits.toNat with ⟨b'', e | s⟩
        · exact ⟨hlook, rfl, rfl⟩
        · obtain ⟨h7, h8⟩ := add_calm (P := fun _ _ => False) ho (.str s) ⟨o st.k st.h, st.k + 1, b''⟩ hlook.1 hl1
          refine ⟨hlook.trans h8, ?_, h7.symm⟩
          rw [add_buf]
      · exact ⟨.refl hp, rfl, rfl⟩

theorem adloop_calm {r i : Nat} {c : Cls} (hi : Held c i) {l : Nat} (el : DecElem) : ∀ (m : Nat) (st : ADSt) (ys xs : List HVal), PartsOK st.h → st.h[r]? = some (.msg c ys) →
    st.h.field r i = some (.ref l) → st.h[l]? = some (.arr xs) →
    Rest (fun _ _ => False) st.h (adloop o call r i el m st).1.h ∧
      ∀ acc, (decElems tcall el m acc st.buf).2 = ((adloop o call r i el m st).1.buf, (adloop o call r i el m st).2)
  | 0, st, _, _, hp, _, _, _ => ⟨.refl hp, fun _ => rfl⟩
  | m + 1, st, ys, xs, hp, hr, hf, hl => by
    obtain ⟨h1, h2, h3⟩ := adelem_calm ho hc el st hp hr hi hf hl
    simp only [adloop, decElems]
    revert h1 h2 h3
    rcases adelem o call r i el st with ⟨st', e⟩
    rcases decElem tcall el st.buf with ⟨b', v⟩
    intro h1 h2 h3
    dsimp only at h1 h2 h3
    subst h2
    subst h3
    rcases v with e | v
    · exact ⟨h1, fun _ => rfl⟩
    · obtain ⟨⟨ys1, hr1⟩, hf1⟩ := h1.2.2 r c ys hr
      obtain ⟨xs1, hl1⟩ := h1.2.1 l xs hl
      obtain ⟨h4, h5⟩ := adloop_calm hi el m st' ys1 xs1 h1.1 hr1 ((hf1 i hi id).trans hf) hl1
      refine ⟨h1.trans h4, fun acc => ?_⟩
      rcases v with _ | v
      · exact h5 acc
      · exact h5 _

end

/-! ### Field by field -/

section
variable {w : World} (hw : FreshSuppliers w) {o : Acts} (ho : Calm o) {call : ADCall} {tcall : DecCall} (hk : ADOk call tcall) (hc : ADCalm call tcall) {c : Cls} {r : Nat}

/-- What is shown of the statements of field `i`. -/
def UnitCalm (w : World) (tcall : DecCall) (c : Cls) (r i : Nat) (ss : List DecStmt) (st : ADSt) (x : ADSt × Option JErr) : Prop :=
  Rest (fun _ _ => True) st.h x.1.h ∧
  ((∀ d, (javaTypes c)[i]? = some (.obj d) → st.h.field r i = some .null) → Rest (fun q f => q = r ∧ f = i) st.h x.1.h) ∧
  ∀ t0 : DecSt, t0.buf = st.buf → t0.fs.length = (wire c).length → t0.fs[i]? = (freshFields c)[i]? → SteerAgree c r i st.h t0.fs →
    ∃ t1, decStmts w tcall (javaTypes c) ss t0 = (t1, x.2) ∧ t1.buf = x.1.buf

theorem UnitCalm.of {i : Nat} {ss : List DecStmt} {st : ADSt} {x : ADSt × Option JErr} (hr : Rest (fun q f => q = r ∧ f = i) st.h x.1.h)
    (h : ∀ t0 : DecSt, t0.buf = st.buf → t0.fs.length = (wire c).length → t0.fs[i]? = (freshFields c)[i]? → SteerAgree c r i st.h t0.fs →
      ∃ t1, decStmts w tcall (javaTypes c) ss t0 = (t1, x.2) ∧ t1.buf = x.1.buf) : UnitCalm w tcall c r i ss st x :=
  ⟨hr.mono fun _ _ _ _ => trivial, fun _ => hr, h⟩

include ho in
theorem put_calm {i : Nat} {st : ADSt} (hp : PartsOK st.h) {ys : List HVal} (hr : st.h[r]? = some (.msg c ys)) {y : HVal}
    (hy : Fits (o st.k st.h) c i y) : Rest (fun q f => q = r ∧ f = i) st.h (st.put o r i y).h := by
  have h1 : Rest (fun q f => q = r ∧ f = i) st.h (o st.k st.h) := .step ho hp
  obtain ⟨⟨zs, hz⟩, -⟩ := h1.2.2 r c ys hr
  exact h1.trans (.set h1.1 hz hy)

theorem assignNum_isNum {t : Option FTy} {n : Num} {v : Val} (h : t.bind (assignNum · n) = some v) : ∃ m, v = .num m := by
  rcases t with _ | t
  · cases h
  · simp only [Option.bind_some, assignNum] at h
    split at h
    · split at h
      · simp only [Option.map_eq_some_iff] at h
        obtain ⟨m, -, rfl⟩ := h
        exact ⟨m, rfl⟩
      · cases h
    · cases h

include ho in
theorem calm_num {i : Nat} {t : WTy} (ht : (wire c)[i]? = some t) (hn : ∀ d, t ≠ .sub d) (p : PTy) (e : Endian) (st : ADSt) (hp : PartsOK st.h)
    {ys : List HVal} (hr : st.h[r]? = some (.msg c ys)) :
    UnitCalm w tcall c r i [.num i p e] st (adstmts w.suppliers o call r (javaTypes c) [.num i p e] st) := by
  rw [one_ad]
  simp only [adstmt]
  rcases hb : st.buf.readNum e p with ⟨b', e' | n⟩
  · refine .of (.refl hp) fun t0 hb0 _ _ _ => ⟨⟨t0.fs, b'⟩, ?_, rfl⟩
    rw [one_dec]; simp only [decStmt, hb0, hb]
  · dsimp only
    rcases hm : (javaTypes c)[i]?.bind (assignNum · n) with _ | v
    · refine .of (.refl hp) fun t0 hb0 _ _ _ => ⟨⟨t0.fs, b'⟩, ?_, rfl⟩
      rw [one_dec]; simp only [decStmt, hb0, hb, hm]
    · obtain ⟨m, rfl⟩ := assignNum_isNum hm
      refine .of (put_calm (r := r) ho (st := ⟨st.h, st.k, b'⟩) hp hr (y := .num m) (fits_other ht hn _ _)) fun t0 hb0 _ _ _ => ⟨⟨t0.fs.set i (.num m), b'⟩, ?_, rfl⟩
      rw [one_dec]; simp only [decStmt, hb0, hb, hm]

include ho in
theorem calm_fixed {i : Nat} {t : WTy} (ht : (wire c)[i]? = some t) (hn : ∀ d, t ≠ .sub d) (n : Nat) (pad : JChar) (left : Bool) (st : ADSt) (hp : PartsOK st.h)
    {ys : List HVal} (hr : st.h[r]? = some (.msg c ys)) :
    UnitCalm w tcall c r i [.fixed i n pad left] st (adstmts w.suppliers o call r (javaTypes c) [.fixed i n pad left] st) := by
  rw [one_ad]
  simp only [adstmt]
  rcases hb : readFixedString st.buf n pad left with ⟨b', e' | s⟩
  · refine .of (.refl hp) fun t0 hb0 _ _ _ => ⟨⟨t0.fs, b'⟩, ?_, rfl⟩
    rw [one_dec]; simp only [decStmt, hb0, hb]
  · refine .of (put_calm (r := r) ho (st := ⟨st.h, st.k, b'⟩) hp hr (y := .str s) (fits_other ht hn _ _)) fun t0 hb0 _ _ _ => ⟨⟨t0.fs.set i (.str s), b'⟩, ?_, rfl⟩
    rw [one_dec]; simp only [decStmt, hb0, hb]

include ho in
theorem calm_dyn {i : Nat} (ht : (wire c)[i]? = some .vstr) (p : PTy) (e : Endian) (st : ADSt) (hp : PartsOK st.h)
    {ys : List HVal} (hr : st.h[r]? = some (.msg c ys)) :
    UnitCalm w tcall c r i [.dyn i p e] st (adstmts w.suppliers o call r (javaTypes c) [.dyn i p e] st) := by
  rw [one_ad]
  simp only [adstmt]
  rcases hb : readDyn st.buf p e with ⟨b', e' | (_ | s)⟩
  · refine .of (.refl hp) fun t0 hb0 _ _ _ => ⟨⟨t0.fs, b'⟩, ?_, rfl⟩
    rw [one_dec]; simp only [decStmt, hb0, hb]
  · refine .of (.refl hp) fun t0 hb0 _ _ _ => ⟨⟨t0.fs, b'⟩, ?_, rfl⟩
    rw [one_dec]; simp only [decStmt, hb0, hb]
  · refine .of (put_calm (r := r) ho (st := ⟨st.h, st.k, b'⟩) hp hr (y := .str s) (fits_other ht (fun _ h => by cases h) _ _)) fun t0 hb0 _ _ _ =>
      ⟨⟨t0.fs.set i (.str s), b'⟩, ?_, rfl⟩
    rw [one_dec]; simp only [decStmt, hb0, hb]

include ho hc in
theorem calm_list {i : Nat} {el : EWTy} {k : Conv} (ht : (wire c)[i]? = some (.list el)) (p : PTy) (e : Endian) (st : ADSt) (hp : PartsOK st.h)
    {ys : List HVal} (hr : st.h[r]? = some (.msg c ys)) :
    UnitCalm w tcall c r i [.list i p e (decElOf k el)] st (adstmts w.suppliers o call r (javaTypes c) [.list i p e (decElOf k el)] st) := by
  rw [one_ad]
  simp only [adstmt]
  rcases hb : st.buf.readNum e p with ⟨b', e' | n⟩
  · refine .of (.refl hp) fun t0 hb0 _ _ _ => ⟨⟨t0.fs, b'⟩, ?_, rfl⟩
    rw [one_dec]; simp only [decStmt, hb0, hb]
  · dsimp only
    split
    · next hn =>
      have h0 : Rest (fun q f => q = r ∧ f = i) st.h (st.h ++ [.arr []]) := .more (hp.more fun _ _ h => by cases h)
      have ha : (st.h ++ [HObj.arr []])[st.h.length]? = some (.arr []) := by simp
      obtain ⟨⟨zs, hz⟩, -⟩ := h0.2.2 r c ys hr
      have hfit : Fits (o st.k (st.h ++ [.arr []])) c i (.ref st.h.length) := fits_other ht (fun _ h => by cases h) _ _
      obtain ⟨-, hfi⟩ := put_ok (r := r) ho.1 ht (st := ⟨st.h ++ [.arr []], st.k, b'⟩) h0.1 hz hfit
      have h1 := put_calm (r := r) ho (st := ⟨st.h ++ [.arr []], st.k, b'⟩) h0.1 hz hfit
      obtain ⟨⟨zs1, hz1⟩, -⟩ := h1.2.2 r c zs hz
      obtain ⟨xs1, hx1⟩ := h1.2.1 _ _ ha
      obtain ⟨h2, h3⟩ := adloop_calm (r := r) (i := i) (c := c) ho hc (.inl ⟨el.java, java_at ht⟩) (decElOf k el) n.bits.toNat _ zs1 xs1 h1.1 hz1 hfi hx1
      refine .of ((h0.trans h1).trans (h2.mono fun _ _ _ h => h.elim)) fun t0 hb0 _ _ _ =>
        ⟨⟨t0.fs.set i (.list (decElems tcall (decElOf k el) n.bits.toNat [] b').1), _⟩, ?_, rfl⟩
      rw [one_dec]
      have h4 : (decElems tcall (decElOf k el) n.bits.toNat [] b').2 = _ := h3 []
      simp only [decStmt, hb0, hb, hn, if_true, h4]
    · next hn =>
      refine .of (.refl hp) fun t0 hb0 _ _ _ => ⟨⟨t0.fs, b'⟩, ?_, rfl⟩
      rw [one_dec]; simp only [decStmt, hb0, hb, hn, if_false]

include ho hc in
theorem calm_sub {i : Nat} {d : Cls} (ht : (wire c)[i]? = some (.sub d)) (st : ADSt) (hp : PartsOK st.h)
    {ys : List HVal} (hr : st.h[r]? = some (.msg c ys)) :
    UnitCalm w tcall c r i [.obj i d] st (adstmts w.suppliers o call r (javaTypes c) [.obj i d] st) := by
  have hi : Held c i := .inr ⟨d, java_at ht⟩
  /- a call on the message in the field -/
  have key : ∀ (st1 : ADSt) (a : Nat), Rest (fun q f => q = r ∧ f = i) st.h st1.h → st1.buf = st.buf → st1.h.field r i = some (.ref a) →
      (∃ us, st1.h[a]? = some (.msg d us)) → (NoParts d a st1.h ∧ st.h.length ≤ a ∨ st.h.field r i ≠ some .null) →
      UnitCalm w tcall c r i [.obj i d] st (adcall o call r i st1) := by
    rintro st1 a h1 hb hfa ⟨us, hu⟩ hor
    obtain ⟨⟨zs, hz⟩, -⟩ := h1.2.2 r c ys hr
    have h2 : Rest (fun q f => q = r ∧ f = i) st1.h (o st1.k st1.h) := .step ho h1.1
    have h2' : Rest (fun _ _ => False) st1.h (o st1.k st1.h) := .step ho h1.1
    obtain ⟨⟨us2, hu2⟩, -⟩ := h2.2.2 a d us hu
    have hfield : (o st1.k st1.h).field r i = some (.ref a) := by rw [(ho.2 st1.k st1.h h1.1).2 r c zs hz i hi, hfa]
    obtain ⟨h3, h4, h5⟩ := hc a d us2 (o st1.k st1.h) (st1.k + 1) st1.buf h2.1 hu2
    simp only [adcall, ADSt.look, hfield, hu2, ADSt.call]
    refine ⟨((h1.trans h2).mono fun _ _ _ _ => trivial).trans h4, fun hnull => ?_, fun t0 hb0 _ hf _ => ?_⟩
    · rcases hor with ⟨hnp, hlen⟩ | hne
      · have h6 := h5 (hnp.keep h2' hu fun _ _ _ h => h)
        have h12 := h1.trans h2
        refine ⟨h6.1, fun q xs hq => ?_, fun q e zs hq => ?_⟩
        · obtain ⟨ys', hy'⟩ := h12.2.1 q xs hq
          exact h6.2.1 q ys' hy'
        · obtain ⟨⟨zs', hz'⟩, hf'⟩ := h12.2.2 q e zs hq
          obtain ⟨hz2, hf2⟩ := h6.2.2 q e zs' hz'
          have hlt := (List.getElem?_eq_some_iff.mp hq).1
          exact ⟨hz2, fun f hs' hn => (hf2 f hs' (show ¬ q = a by omega)).trans (hf' f hs' hn)⟩
      · exact absurd (hnull d (java_at ht)) hne
    · rw [hb, ← hb0] at h3
      refine ⟨⟨t0.fs.set i (.obj d (tcall d (freshFields d) t0.buf).1), _⟩, ?_, rfl⟩
      rw [one_dec]
      simp only [decStmt, hf, fresh_sub ht, h3]
      rw [hb0, hb]
  have h1 : Rest (fun q f => q = r ∧ f = i) st.h (o st.k st.h) := .step ho hp
  obtain ⟨⟨zs, hz⟩, -⟩ := h1.2.2 r c ys hr
  have hlt : i < ys.length := by
    rw [(hp r c ys hr).1]; exact (List.getElem?_eq_some_iff.mp (java_at ht)).1
  have hy : ys[i]? = some ys[i] := List.getElem?_eq_getElem hlt
  have hfy : st.h.field r i = some ys[i] := by rw [Heap.field_msg _ r i c ys hr, hy]
  have hfo : (o st.k st.h).field r i = some ys[i] := by rw [(ho.2 st.k st.h hp).2 r c ys hr i hi, hfy]
  rw [one_ad]
  simp only [adstmt, ADSt.look, hfo]
  rcases (hp r c ys hr).2 i d _ (java_at ht) hy with h3 | ⟨a, us, h3, h4⟩
  · rw [h3]
    dsimp only
    generalize hst1 : o st.k st.h = h1' at h1 hz
    have h5 : Rest (fun q f => q = r ∧ f = i) h1' (h1' ++ [newMsg d]) := .new h1.1 d
    obtain ⟨⟨zs', hz'⟩, -⟩ := h5.2.2 r c zs hz
    have ha : (h1' ++ [newMsg d])[h1'.length]? = some (newMsg d) := by simp
    have h6 : Rest (fun _ _ => False) (h1' ++ [newMsg d]) (o (st.k + 1) (h1' ++ [newMsg d])) := .step ho h5.1
    obtain ⟨⟨us, hu⟩, -⟩ := h6.2.2 _ _ _ ha
    have hfit : Fits (o (st.k + 1) (h1' ++ [newMsg d])) c i (.ref h1'.length) := by
      intro d' hd'
      rw [java_at ht] at hd'
      cases hd'
      exact .inr ⟨_, us, rfl, hu⟩
    have h7 := put_calm (r := r) ho (st := ⟨h1' ++ [newMsg d], st.k + 1, st.buf⟩) h5.1 hz' hfit
    obtain ⟨-, h8⟩ := put_ok (r := r) ho.1 ht (st := ⟨h1' ++ [newMsg d], st.k + 1, st.buf⟩) h5.1 hz' hfit
    have hlen : st.h.length ≤ h1'.length := h1.length
    have hrlt : r < h1'.length := (List.getElem?_eq_some_iff.mp hz).1
    refine key _ h1'.length ((h1.trans h5).trans h7) rfl h8 (h7.2.2 _ _ _ ha).1 (.inl ⟨(noParts_new d h1').keep h7 ha fun f d' _ h => ?_, hlen⟩)
    have := h.1
    omega
  · rw [h3]
    dsimp only
    obtain ⟨hu, -⟩ := h1.2.2 a d us h4
    refine key ⟨o st.k st.h, st.k + 1, st.buf⟩ a h1 rfl (by rw [hfo, h3]) hu (.inr ?_)
    rw [hfy, h3]
    intro h; cases h

include hw ho hc in
theorem calm_ext {i : Nat} {fac : Fac} {kf : Nat} (ht : (wire c)[i]? = some (.ext fac kf)) (st : ADSt) (hp : PartsOK st.h)
    {ys : List HVal} (hr : st.h[r]? = some (.msg c ys)) :
    UnitCalm w tcall c r i [.create i fac kf, .call i] st (adstmts w.suppliers o call r (javaTypes c) [.create i fac kf, .call i] st) := by
  have hsi : Steers c i := ⟨i, fac, kf, ht, .inl rfl⟩
  have hsk : Steers c kf := ⟨i, fac, kf, ht, .inr rfl⟩
  have hlt := (ext_key ht).1
  have h1 : Rest (fun q f => q = r ∧ f = i) st.h (o st.k st.h) := .step ho hp
  have hk0 : (o st.k st.h).field r kf = st.h.field r kf := ((ho.1 st.k st.h hp).2 r c ys hr).2 kf hsk
  obtain ⟨⟨zs, hz⟩, -⟩ := h1.2.2 r c ys hr
  simp only [adstmts, adstmt, ADSt.look, hk0]
  rcases hy : st.h.field r kf with _ | y
  · refine .of h1 fun t0 _ _ _ hag => ?_
    obtain ⟨y', v, hy', -⟩ := hag kf hlt hsk
    rw [hy] at hy'
    cases hy'
  · dsimp only
    simp only [World.suppliers]
    rcases hv : w.fac fac (keyOf y.leaf) with _ | v
    · refine .of h1 fun t0 hb0 _ _ hag => ?_
      obtain ⟨y', v, hy', hv', hal⟩ := hag kf hlt hsk
      rw [hy] at hy'
      cases hy'
      refine ⟨t0, ?_, hb0⟩
      simp only [decStmts, decStmt, hv', ← keyOf_alike hal, hv]
      rfl
    · obtain ⟨d, rfl⟩ := hw _ _ _ hv
      simp only [Option.map_some, adcreate, alloc_fresh]
      generalize hst1 : o st.k st.h = h1' at h1 hz
      have h3 : Rest (fun q f => q = r ∧ f = i) h1' (h1' ++ [newMsg d]) := .new h1.1 d
      obtain ⟨⟨zs1, hz1⟩, -⟩ := h3.2.2 r c zs hz
      have ha : (h1' ++ [newMsg d])[h1'.length]? = some (newMsg d) := by simp
      have hfit : Fits (o (st.k + 1) (h1' ++ [newMsg d])) c i (.ref h1'.length) := fits_other ht (fun _ h => by cases h) _ _
      have h4 := put_calm (r := r) ho (st := ⟨h1' ++ [newMsg d], st.k + 1, st.buf⟩) h3.1 hz1 hfit
      obtain ⟨-, h5⟩ := put_ok (r := r) ho.1 ht (st := ⟨h1' ++ [newMsg d], st.k + 1, st.buf⟩) h3.1 hz1 hfit
      have hrlt : r < h1'.length := (List.getElem?_eq_some_iff.mp hz).1
      have hnp : NoParts d h1'.length (ADSt.put o r i (.ref h1'.length) ⟨h1' ++ [newMsg d], st.k + 1, st.buf⟩).h :=
        (noParts_new d h1').keep h4 ha fun f d' _ h => by have := h.1; omega
      obtain ⟨⟨us, hu⟩, -⟩ := h4.2.2 _ _ _ ha
      generalize hst2 : ADSt.put o r i (.ref h1'.length) ⟨h1' ++ [newMsg d], st.k + 1, st.buf⟩ = st2 at h4 h5 hu hnp
      have hb2 : st2.buf = st.buf := by rw [← hst2]; rfl
      obtain ⟨⟨zs2, hz2⟩, -⟩ := h4.2.2 r c zs1 hz1
      have h6 : Rest (fun q f => q = r ∧ f = i) st2.h (o st2.k st2.h) := .step ho h4.1
      have h6' : Rest (fun _ _ => False) st2.h (o st2.k st2.h) := .step ho h4.1
      obtain ⟨⟨us2, hu2⟩, -⟩ := h6.2.2 _ _ _ hu
      have h7 : (o st2.k st2.h).field r i = some (.ref h1'.length) := by
        rw [((ho.1 st2.k st2.h h4.1).2 r c zs2 hz2).2 i hsi, h5]
      obtain ⟨h8, -, h9⟩ := hc _ d us2 (o st2.k st2.h) (st2.k + 1) st2.buf h6.1 hu2
      have h9 := h9 (hnp.keep h6' hu fun _ _ _ h => h)
      have hgoal : UnitCalm w tcall c r i [.create i fac kf, .call i] st (adcall o call r i st2) := by
        simp only [adcall, ADSt.look, h7, hu2, ADSt.call]
        have hpre := ((h1.trans h3).trans h4).trans h6
        have hlen := h1.length
        refine .of ⟨h9.1, fun q xs hq => ?_, fun q e xs hq => ?_⟩ fun t0 hb0 hl hf hag => ?_
        · obtain ⟨ys', hy'⟩ := hpre.2.1 q xs hq
          exact h9.2.1 q ys' hy'
        · obtain ⟨⟨xs', hx'⟩, hf'⟩ := hpre.2.2 q e xs hq
          obtain ⟨hx2, hf2⟩ := h9.2.2 q e xs' hx'
          have hqlt := (List.getElem?_eq_some_iff.mp hq).1
          exact ⟨hx2, fun f hs' hn => (hf2 f hs' (show ¬ q = h1'.length by omega)).trans (hf' f hs' hn)⟩
        · obtain ⟨y', v, hy', hv', hal⟩ := hag kf hlt hsk
          rw [hy] at hy'
          cases hy'
          have hli : i < t0.fs.length := by rw [hl]; exact (List.getElem?_eq_some_iff.mp ht).1
          rw [hb2, ← hb0] at h8
          refine ⟨⟨(t0.fs.set i (fresh d)).set i (.obj d (tcall d (freshFields d) t0.buf).1), _⟩, ?_, rfl⟩
          simp only [decStmts, decStmt, hv', ← keyOf_alike hal, hv, set_gets hli]
          simp only [fresh, h8, hb2, ← hb0]
          rcases (call h1'.length (o st2.k st2.h) (st2.k + 1) t0.buf) with ⟨_, _, _, _ | _⟩ <;> rfl
      rcases hcc : adcall o call r i st2 with ⟨st3, _ | e⟩ <;> rw [hcc] at hgoal <;> exact hgoal

include hw ho hc in
theorem calm_unit {i : Nat} {t : WTy} {k : Conv} (ht : (wire c)[i]? = some t) (st : ADSt) (hp : PartsOK st.h) {ys : List HVal} (hr : st.h[r]? = some (.msg c ys)) :
    UnitCalm w tcall c r i (decOf k i t) st (adstmts w.suppliers o call r (javaTypes c) (decOf k i t) st) := by
  cases t with
  | num p => exact calm_num ho ht (fun _ h => by cases h) _ _ st hp hr
  | len p => exact calm_num ho ht (fun _ h => by cases h) _ _ st hp hr
  | cksum p alg => exact calm_num ho ht (fun _ h => by cases h) _ _ st hp hr
  | text n pad left => exact calm_fixed ho ht (fun _ h => by cases h) _ _ _ st hp hr
  | vstr => exact calm_dyn ho ht _ _ st hp hr
  | list e => exact calm_list ho hc ht _ _ st hp hr
  | sub d => exact calm_sub ho hc ht st hp hr
  | ext fac kf => exact calm_ext hw ho hc ht st hp hr

include hw ho hk hc in
theorem calm_units (k : Conv) : ∀ (ts : List WTy) (i : Nat), wire c = (wire c).take i ++ ts → i + ts.length = (wire c).length → ∀ (st : ADSt), PartsOK st.h →
    ∀ ys, st.h[r]? = some (.msg c ys) →
    Rest (fun _ _ => True) st.h (adstmts w.suppliers o call r (javaTypes c) (compileDec k i ts) st).1.h ∧
    ((∀ f d, i ≤ f → (javaTypes c)[f]? = some (.obj d) → st.h.field r f = some .null) →
      Rest (fun q _ => q = r) st.h (adstmts w.suppliers o call r (javaTypes c) (compileDec k i ts) st).1.h) ∧
    ∀ t0 : DecSt, t0.buf = st.buf → t0.fs.length = (wire c).length → (∀ j, i ≤ j → t0.fs[j]? = (freshFields c)[j]?) → SteerAgree c r i st.h t0.fs →
      ∃ t1, decStmts w tcall (javaTypes c) (compileDec k i ts) t0 = (t1, (adstmts w.suppliers o call r (javaTypes c) (compileDec k i ts) st).2) ∧
        t1.buf = (adstmts w.suppliers o call r (javaTypes c) (compileDec k i ts) st).1.buf
  | [], i, _, _, st, hp, ys, hr => ⟨.refl hp, fun _ => .refl hp, fun t0 hb _ _ _ => ⟨t0, rfl, hb⟩⟩
  | t :: ts, i, hw', hlen, st, hp, ys, hr => by
    simp only [List.length_cons] at hlen
    have ht : (wire c)[i]? = some t := by
      rw [hw', List.getElem?_append_right (by simp; omega)]
      simp [List.length_take, Nat.min_eq_left (by omega : i ≤ (wire c).length)]
    have hw2 : wire c = (wire c).take (i + 1) ++ ts := by
      conv => lhs; rw [hw']
      rw [List.take_add_one, ht]
      simp
    obtain ⟨h1, h2⟩ := unit_ok (k := k) hw ho.1 hk ht st hp hr
    obtain ⟨r1, r2, r3⟩ := calm_unit (k := k) hw ho hc ht st hp hr
    simp only [compileDec, adstmts_append]
    revert h1 h2 r1 r2 r3
    rcases adstmts w.suppliers o call r (javaTypes c) (decOf k i t) st with ⟨st1, _ | e⟩
    · intro h1 h2 r1 r2 r3
      dsimp only at h1 h2 r1 r2 r3 ⊢
      obtain ⟨⟨zs, hz⟩, hf⟩ := h1.2 r c ys hr
      obtain ⟨s1, s2, s3⟩ := calm_units k ts (i + 1) hw2 (by omega) st1 h1.1 zs hz
      refine ⟨r1.trans s1, fun hnull => ?_, fun t0 hb0 hl hfr hag => ?_⟩
      · have r2' := r2 fun d hd => hnull i d (Nat.le_refl _) hd
        have s2' := s2 fun f d hfi hd => by
          rw [(r2'.2.2 r c ys hr).2 f (.inr ⟨d, hd⟩) (fun h => by have := h.2; omega)]
          exact hnull f d (by omega) hd
        exact (r2'.mono fun _ _ _ h => h.1).trans s2'
      · obtain ⟨t1, g1, g2, g3, g4, g5⟩ := h2 rfl t0 hb0 hl (hfr i (Nat.le_refl _)) hag
        obtain ⟨t2, k1, k2⟩ := s3 t1 g2 (g3.trans hl) (fun j hj => by rw [g4 j (by omega)]; exact hfr j (by omega)) (by
          intro f hlt hs
          by_cases e : f = i
          · subst e; exact g5 hs
          · obtain ⟨y, v, a1, a2, a3⟩ := hag f (by omega) hs
            exact ⟨y, v, by rw [hf f hs (.inr e), a1], by rw [g4 f e, a2], alike_keep (fun q e ys hq => (h1.2 q e ys hq).1) a3⟩)
        exact ⟨t2, by rw [decStmts_append, g1]; exact k1, k2⟩
    · intro h1 h2 r1 r2 r3
      dsimp only at h1 h2 r1 r2 r3 ⊢
      refine ⟨r1, fun hnull => (r2 fun d hd => hnull i d (Nat.le_refl _) hd).mono fun _ _ _ h => h.1, fun t0 hb0 hl hfr hag => ?_⟩
      obtain ⟨t1, g1, g2⟩ := r3 t0 hb0 hl (hfr i (Nat.le_refl _)) hag
      exact ⟨t1, by rw [decStmts_append, g1], g2⟩

end

theorem adecode_calm {w : World} (hw : FreshSuppliers w) {o : Acts} (ho : Calm o) : ∀ n : Nat, ADCalm (adecode w.suppliers o n) (decode w n)
  | 0, _, _, _, _, _, _, hp, _ => ⟨rfl, .refl hp, fun _ => .refl hp⟩
  | n + 1, a, d, zs, h, k, b, hp, ha => by
    have hk : ADOk (adecode w.suppliers o n) (decode w n) := fun a d zs h k b hp ha =>
      ⟨(adecode_ok hw ho.1 n a d zs h k b hp ha).1, fun hx => ((adecode_ok hw ho.1 n a d zs h k b hp ha).2 hx).1⟩
    simp only [adecode, decode, ha]
    have hd : (decl d).fields.map (·.2) = javaTypes d := rfl
    rw [hd, dec_table]
    obtain ⟨h1, h2, h3⟩ := calm_units (r := a) hw ho hk (adecode_calm hw ho n) (conv d.mod) (wire d) 0 (by simp) (by simp) ⟨h, k, b⟩ hp zs ha
    refine ⟨?_, h1, fun hn => h2 fun f d' _ hd' => hn f d' hd'⟩
    obtain ⟨t1, g1, g2⟩ := h3 ⟨freshFields d, b⟩ rfl (freshFields_length d) (fun _ _ => rfl) (fun f hf => by omega)
    rw [g1, g2]

/-! ### Setters -/

theorem setCall_rest (s : SetCall) (hs : ¬ Held s.c s.f) {h : Heap} (hp : PartsOK h) : Rest (fun _ _ => False) h (s.run h) := by
  unfold SetCall.run
  split
  · next c ys hr =>
    split
    · next e =>
      subst e
      have m := Rest.set (i := s.f) (y := s.y) hp hr fun d hd => absurd (Or.inr ⟨d, hd⟩) hs
      refine ⟨m.1, m.2.1, fun q e zs hq => ⟨(m.2.2 q e zs hq).1, fun f hf _ => (m.2.2 q e zs hq).2 f hf ?_⟩⟩
      rintro ⟨rfl, rfl⟩
      rw [hr] at hq
      cases hq
      exact hs hf
    · exact .refl hp
  · exact .refl hp

theorem setActs_rest (l : List SetCall) (hl : ∀ s ∈ l, ¬ Held s.c s.f) : ∀ (h : Heap), PartsOK h → Rest (fun _ _ => False) h (l.foldl (fun h s => s.run h) h) := by
  induction l with
  | nil => intro h hp; exact .refl hp
  | cons s l ih =>
    intro h hp
    have h1 := setCall_rest s (hl s (by simp)) hp
    exact h1.trans (ih (fun s hs => hl s (by simp [hs])) _ h1.1)

theorem calm_of {o : Acts} (hs : Steady o) (h : ∀ k h, PartsOK h → Rest (fun _ _ => False) h (o k h)) : Calm o :=
  ⟨hs, fun k g hp => ⟨(h k g hp).2.1, fun q e ys hq f hf => ((h k g hp).2.2 q e ys hq).2 f hf id⟩⟩

end FinProto
