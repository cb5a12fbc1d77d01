import Verif.Spec.Racing
import Verif.Proofs.Encode
/-
Helper lemmas for C103.
-/
namespace FinProto

theorem setAll_length (ps : List (Nat × Val)) : ∀ l : List Val, (setAll l ps).length = l.length := by
  induction ps with
  | nil => intro l; rfl
  | cons p ps ih => intro l; simp [setAll, ih]

theorem lastOr_append (v : Val) (xs ys : List Val) : lastOr v (xs ++ ys) = lastOr (lastOr v xs) ys := by
  unfold lastOr
  rw [List.getLast?_append]
  cases ys.getLast? <;> rfl

theorem setAll_last (ps : List (Nat × Val)) (f : Nat) : ∀ l : List Val,
    (setAll l ps)[f]? = l[f]?.map fun v => lastOr v ((ps.filter fun p => p.1 == f).map (·.2)) := by
  induction ps with
  | nil => intro l; simp [setAll, lastOr]
  | cons p ps ih =>
    intro l
    rw [setAll, ih, List.getElem?_set]
    by_cases h : p.1 = f
    · subst h
      by_cases hl : p.1 < l.length
      · simp only [if_true, hl, List.getElem?_eq_getElem hl, Option.map_some, List.filter_cons, beq_self_eq_true, List.map_cons]
        rw [show (p.2 :: (ps.filter fun q => q.1 == p.1).map (·.2)) = [p.2] ++ (ps.filter fun q => q.1 == p.1).map (·.2) from rfl, lastOr_append]
        rfl
      · simp [hl]
    · have : (p.1 == f) = false := by simpa using h
      simp [h, this]

theorem assigned_self (o : Others) (f i : Nat) : assigned o f i i = [] := by simp [assigned]

theorem assigned_succ (o : Others) (f i j : Nat) (h : i ≤ j) :
    assigned o f i (j + 1) = assigned o f i j ++ (((o j).filter fun p => p.1 == f).map (·.2)) := by
  unfold assigned
  rw [show j + 1 - i = (j - i) + 1 by omega, List.range'_concat]
  simp [show i + (j - i) = j by omega]

theorem assigned_none (o : Others) (f i j : Nat) (h : ∀ k, ∀ p ∈ o k, p.1 ≠ f) : assigned o f i j = [] := by
  unfold assigned
  rw [List.map_eq_nil_iff, List.filter_eq_nil_iff]
  intro p hp
  obtain ⟨k, _, hk⟩ := List.mem_flatMap.mp hp
  simpa using h k p hk

theorem fieldsAt_get (o : Others) (fs : List Val) (k f : Nat) : (fieldsAt o fs k)[f]? = fs[f]?.map fun v => lastOr v (assigned o f 0 k) := by
  unfold fieldsAt
  by_cases hf : f < fs.length
  · simp [hf]
  · rw [List.getElem?_eq_none (by simpa using Nat.le_of_not_lt hf), List.getElem?_eq_none (Nat.le_of_not_lt hf)]
    rfl

theorem fieldsAt_length (o : Others) (fs : List Val) (k : Nat) : (fieldsAt o fs k).length = fs.length := by simp [fieldsAt]

theorem fieldsAt_zero (o : Others) (fs : List Val) : fieldsAt o fs 0 = fs := by
  apply List.ext_getElem?
  intro f
  rw [fieldsAt_get, assigned_self]
  simp [lastOr]

theorem fieldsAt_succ (o : Others) (fs : List Val) (k : Nat) : fieldsAt o fs (k + 1) = setAll (fieldsAt o fs k) (o k) := by
  apply List.ext_getElem?
  intro f
  rw [fieldsAt_get, setAll_last, fieldsAt_get, assigned_succ o f 0 k (Nat.zero_le _), Option.map_map]
  congr 1
  funext v
  simp [lastOr_append]

theorem setAll_other (ps : List (Nat × Val)) (f : Nat) (h : ∀ p ∈ ps, p.1 ≠ f) : ∀ l : List Val, (setAll l ps)[f]? = l[f]? := by
  induction ps with
  | nil => intro l; rfl
  | cons p ps ih =>
    intro l
    rw [setAll, ih (fun q hq => h q (List.mem_cons_of_mem _ hq)), List.getElem?_set_ne (h p List.mem_cons_self)]

theorem setAll_agree (ps : List (Nat × Val)) (f : Nat) : ∀ l l' : List Val, l.length = l'.length → l[f]? = l'[f]? →
    (setAll l ps)[f]? = (setAll l' ps)[f]? := by
  induction ps with
  | nil => intro l l' _ h; exact h
  | cons p ps ih =>
    intro l l' hl h
    refine ih _ _ (by simp [hl]) ?_
    rw [List.getElem?_set, List.getElem?_set, hl, h]

theorem setAll_new (ps : List (Nat × Val)) (f : Nat) (v : Val) : ∀ l : List Val, (setAll l ps)[f]? = some v → l[f]? = some v ∨ (f, v) ∈ ps := by
  induction ps with
  | nil => intro l h; exact .inl h
  | cons p ps ih =>
    intro l h
    rcases ih _ h with h | h
    · rw [List.getElem?_set] at h
      split at h
      · rename_i hp
        split at h
        · refine .inr ?_
          have : p.2 = v := by simpa using h
          have : p = (f, v) := by rw [← hp, ← this]
          rw [this]; exact List.mem_cons_self
        · cases h
      · exact .inl h
    · exact .inr (List.mem_cons_of_mem _ h)

/-- Fields a statement reads. -/
def usesOf : EncStmt → List Nat
  | .num f _ _ | .fixed f _ _ _ | .dyn f _ _ _ | .list f _ _ _ _ | .obj f | .objOpt f | .patch _ f _ _ => [f]
  | _ => []

/-- What the proof needs of a statement. -/
def fineStmt (F : Nat → Prop) : EncStmt → Prop
  | .dyn _ zt t _ => zt = t
  | .list f _ _ _ _ => F f
  | .setLen f _ _ => F f
  | .patch _ f _ _ => F f
  | .checksum f _ => F f
  | _ => True

theorem writeInt_nought (b : WBuf) (t : PTy) (e : Endian) : writeInt b t e 0 = writeInt b t .be 0 := by
  cases t <;> cases e <;> rfl

theorem writeInt_room (b : WBuf) (t : PTy) (e : Endian) (k : Nat) (b' : WBuf) (h : writeInt b t e k = (b', none)) :
    b'.write [] = (b', none) := by
  unfold writeInt writeVal at h
  dsimp only at h
  split at h
  · unfold WBuf.write at h
    split at h
    · rename_i hle
      simp only [Prod.mk.injEq, and_true] at h
      subst h
      unfold WBuf.write
      simpa using hle
    · simp at h
  · simp at h

/-- Writing the text that is there at the second evaluation. -/
theorem writeDyn_second (b : WBuf) (t : PTy) (e : Endian) (s : JStr) :
    (match writeInt b t e (utf8Enc s).length with
      | (b', some err) => (b', some err)
      | (b', none) => b'.write (utf8Enc s)) = writeDyn b t t e (some s) := by
  cases s with
  | cons c cs => rfl
  | nil =>
    show (match writeInt b t e 0 with
      | (b', some err) => (b', some err)
      | (b', none) => b'.write []) = writeInt b t .be 0
    rw [← writeInt_nought b t e]
    rcases h : writeInt b t e 0 with ⟨b', _ | err⟩
    · exact writeInt_room _ _ _ _ _ h
    · rfl

section
variable {F : Nat → Prop} {o : Others} {fs0 : List Val}

/-- The fields that others may set are as the others left them. -/
structure RSt.Rel (F : Nat → Prop) (o : Others) (fs0 : List Val) (st : RSt) : Prop where
  len : st.fs.length = fs0.length
  same : ∀ f, ¬ F f → st.fs[f]? = (fieldsAt o fs0 st.k)[f]?
  fit : ∀ f xs, F f → st.fs[f]? = some (.list xs) → xs.length ≤ 2147483647

/-- `encode` alone on the mixture. -/
structure Mates (F : Nat → Prop) (o : Others) (fs0 : List Val) (us : List Nat) (st : RSt) (at_ : Nat → Nat) (st' : EncSt) : Prop where
  buf : st'.buf = st.buf
  loc : st'.loc = st.loc
  len : st'.fs.length = st.fs.length
  own : ∀ f ∈ us, F f → st'.fs[f]? = st.fs[f]?
  free : ∀ f ∈ us, ¬ F f → st'.fs[f]? = (fieldsAt o fs0 (at_ f))[f]?

/-- Nothing assigned by `encode` itself. -/
structure Moved (F : Nat → Prop) (o : Others) (fs0 : List Val) (st st1 : RSt) : Prop where
  rel : st1.Rel F o fs0
  le : st.k ≤ st1.k
  loc : st1.loc = st.loc
  keep : ∀ f, F f → st1.fs[f]? = st.fs[f]?

theorem Moved.trans {st st1 st2 : RSt} (h : Moved F o fs0 st st1) (h' : Moved F o fs0 st1 st2) : Moved F o fs0 st st2 :=
  ⟨h'.rel, Nat.le_trans h.le h'.le, h'.loc.trans h.loc, fun f hf => (h'.keep f hf).trans (h.keep f hf)⟩

theorem Moved.refl {st : RSt} (h : st.Rel F o fs0) : Moved F o fs0 st st := ⟨h, Nat.le_refl _, rfl, fun _ _ => rfl⟩

theorem Moved.withBuf {st st1 : RSt} (h : Moved F o fs0 st st1) (b : WBuf) : Moved F o fs0 st { st1 with buf := b } :=
  ⟨⟨h.rel.len, h.rel.same, h.rel.fit⟩, h.le, h.loc, h.keep⟩

theorem look_moved (ho : ∀ k, ∀ p ∈ o k, ¬ F p.1) (f : Nat) {st : RSt} (h : st.Rel F o fs0) : Moved F o fs0 st (st.look o f).1 := by
  have hk : ∀ g, F g → (setAll st.fs (o st.k))[g]? = st.fs[g]? := fun g hg => setAll_other _ _ (fun p hp e => ho _ p hp (e ▸ hg)) _
  refine ⟨⟨?_, ?_, ?_⟩, Nat.le_succ _, rfl, hk⟩
  · show (setAll st.fs (o st.k)).length = _
    rw [setAll_length, h.len]
  · intro g hg
    show (setAll st.fs (o st.k))[g]? = (fieldsAt o fs0 (st.k + 1))[g]?
    rw [fieldsAt_succ]
    exact setAll_agree _ _ _ _ (by rw [h.len, fieldsAt_length]) (h.same g hg)
  · intro g xs hg hx
    exact h.fit g xs hg ((hk g hg).symm.trans hx)

theorem look_k (f : Nat) (st : RSt) : (st.look o f).1.k = st.k + 1 := rfl
theorem look_buf (f : Nat) (st : RSt) : (st.look o f).1.buf = st.buf := rfl

theorem look_own (ho : ∀ k, ∀ p ∈ o k, ¬ F p.1) (f : Nat) (st : RSt) (hf : F f) : (st.look o f).2 = st.fs[f]? :=
  setAll_other _ _ (fun p hp e => ho _ p hp (e ▸ hf)) _

theorem look_seen (ho : ∀ k, ∀ p ∈ o k, ¬ F p.1) {us : List Nat} {at_ : Nat → Nat} {st st0 : RSt} {st' : EncSt} (h0 : Moved F o fs0 st0 st)
    (hm : Mates F o fs0 us st0 at_ st') {f : Nat} (hf : f ∈ us) (ha : at_ f = st.k + 1) : (st.look o f).2 = st'.fs[f]? := by
  by_cases hF : F f
  · rw [look_own ho f st hF, hm.own f hf hF, h0.keep f hF]
  · rw [hm.free f hf hF, ha]
    exact (look_moved ho f h0.rel).rel.same f hF

/-- After a statement that assigns nothing. -/
theorem Mates.after {us rest : List Nat} {st st1 : RSt} {at_ : Nat → Nat} {st' : EncSt} (hm : Mates F o fs0 (us ++ rest) st at_ st') (h : Moved F o fs0 st st1)
    (h0 : st.Rel F o fs0) (hd : ∀ f ∈ us, f ∉ rest) {q : EncSt} (hb : q.buf = st1.buf) (hloc : q.loc = st'.loc)
    (hq : q.fs = st'.fs ∨ ∃ f ∈ us, ∃ v, q.fs = st'.fs.set f v) : Mates F o fs0 rest st1 at_ q := by
  have hg : ∀ g ∈ rest, q.fs[g]? = st'.fs[g]? := by
    intro g hg
    rcases hq with hq | ⟨f, hf, v, hq⟩
    · rw [hq]
    · rw [hq, List.getElem?_set_ne (by intro e; exact hd f hf (e ▸ hg))]
  refine ⟨hb, hloc.trans (hm.loc.trans h.loc.symm), ?_, ?_, ?_⟩
  · have : q.fs.length = st'.fs.length := by
      rcases hq with hq | ⟨f, hf, v, hq⟩ <;> simp [hq]
    rw [this, hm.len, h.rel.len, h0.len]
  · intro g hgr hF
    rw [hg g hgr, hm.own g (by simp [hgr]) hF, h.keep g hF]
  · intro g hgr hF
    rw [hg g hgr, hm.free g (by simp [hgr]) hF]

theorem size_own (ho : ∀ k, ∀ p ∈ o k, ¬ F p.1) {f : Nat} {st : RSt} (hf : F f) {xs : List Val} (hx : st.fs[f]? = some (.list xs)) :
    st.size o f = ((st.look o f).1, .ok xs.length) := by
  have h := look_own ho f st hf
  rw [hx] at h
  unfold RSt.size
  rcases hl : st.look o f with ⟨s1, x⟩
  rw [hl] at h
  dsimp only at h
  subst h
  rfl

theorem get_own (ho : ∀ k, ∀ p ∈ o k, ¬ F p.1) {f : Nat} {st : RSt} (hf : F f) {xs : List Val} (hx : st.fs[f]? = some (.list xs)) {i : Nat} {v : Val}
    (hv : xs[i]? = some v) : st.get o f i = ((st.look o f).1, .ok v) := by
  have h := look_own ho f st hf
  rw [hx] at h
  unfold RSt.get
  rcases hl : st.look o f with ⟨s1, x⟩
  rw [hl] at h
  dsimp only at h
  subst h
  dsimp only
  rw [hv]

theorem relem_own (ho : ∀ k, ∀ p ∈ o k, ¬ F p.1) (call : EncCall) (el : EncElem) {f : Nat} {st : RSt} (h0 : st.Rel F o fs0) (hf : F f) {xs : List Val}
    (hx : st.fs[f]? = some (.list xs)) {i : Nat} {v : Val} (hv : xs[i]? = some v) :
    ((relem o call el f i st).1.buf, (relem o call el f i st).2) = (encElem call el v st.buf).2 ∧ Moved F o fs0 st (relem o call el f i st).1 := by
  have hg := get_own ho (st := st) hf hx hv
  have hmv := look_moved ho f h0
  cases el with
  | num t e =>
    simp only [relem, hg, encElem, RSt.wrote]
    exact ⟨rfl, hmv.withBuf _⟩
  | fixed n pad left =>
    simp only [relem, hg, encElem, RSt.wrote]
    exact ⟨rfl, hmv.withBuf _⟩
  | obj =>
    simp only [relem, hg, encElem, RSt.wrote]
    exact ⟨rfl, hmv.withBuf _⟩
  | dyn zt t e =>
    have hg2 := get_own ho (st := (st.look o f).1) hf ((hmv.keep f hf).trans hx) hv
    have hmv2 := hmv.trans (look_moved ho f hmv.rel)
    simp only [relem, rdyn, hg, encElem, writeDynVal]
    cases v with
    | null => exact ⟨rfl, hmv.withBuf _⟩
    | num n => exact ⟨rfl, hmv⟩
    | list xs => exact ⟨rfl, hmv⟩
    | obj c fs => exact ⟨rfl, hmv⟩
    | str s =>
      cases s with
      | nil => exact ⟨rfl, hmv.withBuf _⟩
      | cons ch cs =>
        simp only [Val.asStr, hg2, writeDyn]
        have hb : ((st.look o f).1.look o f).1.buf = st.buf := rfl
        rw [hb]
        rcases writeInt st.buf t e (utf8Enc (ch :: cs)).length with ⟨b, _ | err⟩
        · exact ⟨rfl, hmv2.withBuf _⟩
        · exact ⟨rfl, hmv2.withBuf _⟩

theorem rloop_own (ho : ∀ k, ∀ p ∈ o k, ¬ F p.1) (call : EncCall) (el : EncElem) {f : Nat} (hf : F f) {xs : List Val} :
    ∀ (m i : Nat) (st : RSt), st.Rel F o fs0 → st.fs[f]? = some (.list xs) → xs.length ≤ m + i →
      ((rloop o call el f m i st).1.buf, (rloop o call el f m i st).2) = (encElems call el (xs.drop i) st.buf).2
        ∧ Moved F o fs0 st (rloop o call el f m i st).1 := by
  intro m
  induction m with
  | zero =>
    intro i st h0 hx hl
    rw [List.drop_eq_nil_of_le (by omega)]
    exact ⟨rfl, Moved.refl h0⟩
  | succ m ih =>
    intro i st h0 hx hl
    have hmv := look_moved ho f h0
    simp only [rloop, size_own ho hf hx]
    by_cases hi : i < xs.length
    · rw [if_pos hi, List.drop_eq_getElem_cons hi]
      have hr := relem_own ho call el hmv.rel hf ((hmv.keep f hf).trans hx) (List.getElem?_eq_getElem hi)
      have hb : (st.look o f).1.buf = st.buf := rfl
      rw [hb] at hr
      simp only [encElems]
      rcases hrel : relem o call el f i (st.look o f).1 with ⟨st1, oe⟩
      rw [hrel] at hr
      obtain ⟨hr1, hr2⟩ := hr
      rcases hen : encElem call el xs[i] st.buf with ⟨v', b', oe'⟩
      rw [hen] at hr1
      simp only [Prod.mk.injEq] at hr1
      obtain ⟨hb1, rfl⟩ := hr1
      cases oe with
      | some err => exact ⟨by simp [hb1], hmv.trans hr2⟩
      | none =>
        have hmv' := hmv.trans hr2
        obtain ⟨h1, h2⟩ := ih (i + 1) st1 hr2.rel ((hmv'.keep f hf).trans hx) (by omega)
        dsimp only at hb1 ⊢
        rw [hb1] at h1
        rcases hes : encElems call el (xs.drop (i + 1)) b' with ⟨vs', b'', r⟩
        rw [hes] at h1
        exact ⟨h1, hmv'.trans h2⟩
    · rw [if_neg hi, List.drop_eq_nil_of_le (by omega)]
      exact ⟨rfl, hmv⟩

/-- A text read twice: it was set to null between, or the statement did what it does on a value the field had. -/
theorem rdyn_field (ho : ∀ k, ∀ p ∈ o k, ¬ F p.1) (f : Nat) (t : PTy) (e : Endian) {st : RSt} (h0 : st.Rel F o fs0) :
    let r := rdyn (fun st => st.field o f) t t e st
    Moved F o fs0 st r.1 ∧ ((r.2 = some .nullPointer ∧ ∃ k, k < r.1.k ∧ (f, Val.null) ∈ o k) ∨
      ((r.1.buf, r.2) = (match (st.look o f).2 with | some v => writeDynVal st.buf v t t e | none => (st.buf, some .illTyped)) ∧ st.k + 1 ≤ r.1.k) ∨
      ((r.1.buf, r.2) = (match ((st.look o f).1.look o f).2 with | some v => writeDynVal st.buf v t t e | none => (st.buf, some .illTyped)) ∧ st.k + 2 ≤ r.1.k)) := by
  intro r
  have hmv := look_moved ho f h0
  have hmv2 := hmv.trans (look_moved ho f hmv.rel)
  have hr : r = rdyn (fun st => st.field o f) t t e st := rfl
  clear_value r
  have hk1 : (st.look o f).1.k = st.k + 1 := rfl
  have hk2 : ((st.look o f).1.look o f).1.k = st.k + 2 := rfl
  have hb1 : (st.look o f).1.buf = st.buf := rfl
  have hb2 : ((st.look o f).1.look o f).1.buf = st.buf := rfl
  have hnew : ∀ v, (st.look o f).2 = some v → v ≠ .null → ((st.look o f).1.look o f).2 = some .null → (f, Val.null) ∈ o (st.k + 1) := by
    intro v h1 hv h2
    rcases setAll_new _ _ _ _ h2 with h | h
    · have h1' : (st.look o f).1.fs[f]? = some v := h1
      rw [h1'] at h
      exact absurd (Option.some.inj h) hv
    · exact h
  unfold rdyn RSt.field at hr
  rcases hl1 : st.look o f with ⟨s1, x1⟩
  simp only [hl1] at hr hmv hmv2 hk1 hk2 hb1 hb2 hnew
  rcases hl2 : s1.look o f with ⟨s2, x2⟩
  simp only [hl2] at hr hmv2 hk2 hb2 hnew ⊢
  cases x1 with
  | none =>
    simp only at hr
    subst hr
    exact ⟨hmv, .inr (.inl ⟨by simp [hb1], by simp [hk1]⟩)⟩
  | some v =>
    simp only at hr
    cases v with
    | null =>
      simp only [Val.asStr, RSt.wrote] at hr
      subst hr
      exact ⟨hmv.withBuf _, .inr (.inl ⟨by simp [writeDynVal, Val.asStr, writeDyn, hb1], by simp [hk1]⟩)⟩
    | num n =>
      simp only [Val.asStr] at hr
      subst hr
      exact ⟨hmv, .inr (.inl ⟨by simp [writeDynVal, Val.asStr, hb1], by simp [hk1]⟩)⟩
    | list n =>
      simp only [Val.asStr] at hr
      subst hr
      exact ⟨hmv, .inr (.inl ⟨by simp [writeDynVal, Val.asStr, hb1], by simp [hk1]⟩)⟩
    | obj c n =>
      simp only [Val.asStr] at hr
      subst hr
      exact ⟨hmv, .inr (.inl ⟨by simp [writeDynVal, Val.asStr, hb1], by simp [hk1]⟩)⟩
    | str s =>
      cases s with
      | nil =>
        simp only [Val.asStr, RSt.wrote] at hr
        subst hr
        exact ⟨hmv.withBuf _, .inr (.inl ⟨by simp [writeDynVal, Val.asStr, writeDyn, hb1], by simp [hk1]⟩)⟩
      | cons ch cs =>
        simp only [Val.asStr, hl2] at hr
        cases x2 with
        | none =>
          simp only at hr
          subst hr
          exact ⟨hmv2, .inr (.inr ⟨by simp [hb2], by simp [hk2]⟩)⟩
        | some v2 =>
          simp only at hr
          cases v2 with
          | null =>
            simp only at hr
            subst hr
            exact ⟨hmv2, .inl ⟨rfl, st.k + 1, by simp [hk2], hnew _ rfl (by simp) rfl⟩⟩
          | num n =>
            simp only at hr
            subst hr
            exact ⟨hmv2, .inr (.inr ⟨by simp [writeDynVal, Val.asStr, hb2], by simp [hk2]⟩)⟩
          | list n =>
            simp only at hr
            subst hr
            exact ⟨hmv2, .inr (.inr ⟨by simp [writeDynVal, Val.asStr, hb2], by simp [hk2]⟩)⟩
          | obj c n =>
            simp only at hr
            subst hr
            exact ⟨hmv2, .inr (.inr ⟨by simp [writeDynVal, Val.asStr, hb2], by simp [hk2]⟩)⟩
          | str s2 =>
            have hw := writeDyn_second st.buf t e s2
            simp only [hb2, RSt.wrote] at hr
            rcases hwi : writeInt st.buf t e (utf8Enc s2).length with ⟨b, _ | err⟩
            · rw [hwi] at hw hr
              simp only at hr hw
              subst hr
              exact ⟨hmv2.withBuf _, .inr (.inr ⟨by simp [writeDynVal, Val.asStr, ← hw], by simp [hk2]⟩)⟩
            · rw [hwi] at hw hr
              simp only at hr hw
              subst hr
              exact ⟨hmv2.withBuf _, .inr (.inr ⟨by simp [writeDynVal, Val.asStr, ← hw], by simp [hk2]⟩)⟩

/-- One statement does what it does alone on a mixture, or a field was set to null between two accesses. -/
theorem rstmt_step (ho : ∀ k, ∀ p ∈ o k, ¬ F p.1) (w : World) (call : EncCall) (hcall : ∀ b, (call .null b).2 = (b, some .nullPointer))
    (s : EncStmt) (hs : fineStmt F s) {st : RSt} (h0 : st.Rel F o fs0) :
    let r := rstmt w o call s st
    r.1.Rel F o fs0 ∧ st.k ≤ r.1.k ∧ ((r.2 = some .nullPointer ∧ ∃ k f, k < r.1.k ∧ (f, Val.null) ∈ o k) ∨
      ∃ m, (st.k < m ∨ usesOf s = [] ∧ st.k ≤ m) ∧ m ≤ r.1.k ∧ ∀ (at_ : Nat → Nat) (st' : EncSt) (rest : List Nat), (∀ f ∈ usesOf s, at_ f = m) →
        Mates F o fs0 (usesOf s ++ rest) st at_ st' → (∀ f ∈ usesOf s, f ∉ rest) →
        (encStmt w call s st').2 = r.2 ∧ Mates F o fs0 rest r.1 at_ (encStmt w call s st').1) := by
  intro r
  have hr : r = rstmt w o call s st := rfl
  clear_value r
  have plain : ∀ (r : RSt × Option JErr) (m : Nat), Moved F o fs0 st r.1 → (st.k < m ∨ usesOf s = [] ∧ st.k ≤ m) → m ≤ r.1.k →
      (∀ (at_ : Nat → Nat) (st' : EncSt) (rest : List Nat), (∀ f ∈ usesOf s, at_ f = m) → Mates F o fs0 (usesOf s ++ rest) st at_ st' →
        ((encStmt w call s st').1.buf, (encStmt w call s st').2) = (r.1.buf, r.2) ∧ (encStmt w call s st').1.loc = st'.loc ∧
        ((encStmt w call s st').1.fs = st'.fs ∨ ∃ f ∈ usesOf s, ∃ v, (encStmt w call s st').1.fs = st'.fs.set f v)) →
      r.1.Rel F o fs0 ∧ st.k ≤ r.1.k ∧ ((r.2 = some .nullPointer ∧ ∃ k f, k < r.1.k ∧ (f, Val.null) ∈ o k) ∨
      ∃ m, (st.k < m ∨ usesOf s = [] ∧ st.k ≤ m) ∧ m ≤ r.1.k ∧ ∀ (at_ : Nat → Nat) (st' : EncSt) (rest : List Nat), (∀ f ∈ usesOf s, at_ f = m) →
        Mates F o fs0 (usesOf s ++ rest) st at_ st' → (∀ f ∈ usesOf s, f ∉ rest) →
        (encStmt w call s st').2 = r.2 ∧ Mates F o fs0 rest r.1 at_ (encStmt w call s st').1) := by
    intro r m hmv h1 h2 h
    refine ⟨hmv.rel, hmv.le, .inr ⟨m, h1, h2, fun at_ st' rest ha hm hd => ?_⟩⟩
    obtain ⟨hb, hl, hq⟩ := h at_ st' rest ha hm
    simp only [Prod.mk.injEq] at hb
    exact ⟨hb.2, hm.after hmv h0 hd hb.1 hl hq⟩
  have seen1 : ∀ {f : Nat} {at_ : Nat → Nat} {st' : EncSt} {rest : List Nat}, usesOf s = [f] → (∀ f ∈ usesOf s, at_ f = st.k + 1) →
      Mates F o fs0 (usesOf s ++ rest) st at_ st' → (st.look o f).2 = st'.fs[f]? := by
    intro f at_ st' rest hu ha hm
    have hf : f ∈ usesOf s := by rw [hu]; exact List.mem_singleton_self f
    exact look_seen ho (Moved.refl h0) hm (List.mem_append_left _ hf) (ha f hf)
  have seen2 : ∀ {f : Nat} {at_ : Nat → Nat} {st' : EncSt} {rest : List Nat}, usesOf s = [f] → (∀ f ∈ usesOf s, at_ f = st.k + 2) →
      Mates F o fs0 (usesOf s ++ rest) st at_ st' → ((st.look o f).1.look o f).2 = st'.fs[f]? := by
    intro f at_ st' rest hu ha hm
    have hf : f ∈ usesOf s := by rw [hu]; exact List.mem_singleton_self f
    exact look_seen ho (look_moved ho f h0) hm (List.mem_append_left _ hf) (ha f hf)
  cases s with
  | num f t e =>
    have hmv := look_moved ho f h0
    rw [hr]
    refine plain _ (st.k + 1) ?_ (.inl (Nat.lt_succ_self _)) ?_ ?_
    · simp only [rstmt]
      split
      all_goals (rename_i heq; rw [heq] at hmv; first | exact hmv.withBuf _ | exact hmv)
    · simp only [rstmt]
      have hk := look_k (o := o) f st
      split
      all_goals (rename_i heq; rw [heq] at hk; simp only at hk; simp [RSt.wrote, hk])
    · intro at_ st' rest ha hm
      have hsn := seen1 rfl ha hm
      have hb := look_buf (o := o) f st
      simp only [rstmt, encStmt]
      rcases hl : st.look o f with ⟨s1, x⟩
      rw [hl] at hsn hb
      simp only at hsn hb ⊢
      rw [← hsn]
      rcases x with _ | (_ | n | _ | _ | _) <;> simp [RSt.wrote, hm.buf, hb]
  | fixed f n pad left =>
    have hmv := look_moved ho f h0
    rw [hr]
    refine plain _ (st.k + 1) ?_ (.inl (Nat.lt_succ_self _)) ?_ ?_
    · simp only [rstmt]
      split
      all_goals (rename_i heq; rw [heq] at hmv; first | exact hmv.withBuf _ | exact hmv)
    · simp only [rstmt]
      have hk := look_k (o := o) f st
      split
      all_goals (rename_i heq; rw [heq] at hk; simp only at hk; simp [RSt.wrote, hk])
    · intro at_ st' rest ha hm
      have hsn := seen1 rfl ha hm
      have hb := look_buf (o := o) f st
      simp only [rstmt, encStmt]
      rcases hl : st.look o f with ⟨s1, x⟩
      rw [hl] at hsn hb
      simp only at hsn hb ⊢
      rw [← hsn]
      rcases x with _ | v <;> simp [RSt.wrote, hm.buf, hb]
  | dyn f zt t e =>
    have hzt : zt = t := hs
    subst hzt
    obtain ⟨hmv, h⟩ := rdyn_field ho f zt e h0
    have hr' : r = rdyn (fun st => st.field o f) zt zt e st := hr
    rw [← hr'] at hmv h
    rcases h with ⟨h1, k, h2, h3⟩ | ⟨h1, h2⟩ | ⟨h1, h2⟩
    · exact ⟨hmv.rel, hmv.le, .inl ⟨h1, k, f, h2, h3⟩⟩
    · refine plain _ (st.k + 1) hmv (.inl (Nat.lt_succ_self _)) h2 ?_
      intro at_ st' rest ha hm
      have hsn := seen1 rfl ha hm
      rw [hsn] at h1
      simp only [encStmt]
      rcases hx : st'.fs[f]? with _ | v
      · rw [hx] at h1; simp only at h1 ⊢; simp only [hm.buf, h1]; simp
      · rw [hx] at h1; simp only at h1 ⊢; simp only [hm.buf, h1]; simp
    · refine plain _ (st.k + 2) hmv (.inl (by omega)) h2 ?_
      intro at_ st' rest ha hm
      have hsn := seen2 rfl ha hm
      rw [hsn] at h1
      simp only [encStmt]
      rcases hx : st'.fs[f]? with _ | v
      · rw [hx] at h1; simp only at h1 ⊢; simp only [hm.buf, h1]; simp
      · rw [hx] at h1; simp only at h1 ⊢; simp only [hm.buf, h1]; simp
  | list f zt t e el =>
    have hF : F f := hs
    have hmv := look_moved ho f h0
    have hlk := look_own ho f st hF
    have hown : ∀ {at_ : Nat → Nat} {st' : EncSt} {rest : List Nat}, Mates F o fs0 (usesOf (.list f zt t e el) ++ rest) st at_ st' → st'.fs[f]? = st.fs[f]? :=
      fun hm => hm.own f (by simp [usesOf]) hF
    have hb := look_buf (o := o) f st
    have hk := look_k (o := o) f st
    rcases hx : st.fs[f]? with _ | v
    · rw [hx] at hlk
      have hr' : r = ((st.look o f).1, some .illTyped) := by
        rw [hr]; simp only [rstmt]
        rcases hl : st.look o f with ⟨s1, x⟩
        rw [hl] at hlk; simp only at hlk; subst hlk; rfl
      rw [hr']
      refine plain _ (st.k + 1) hmv (.inl (Nat.lt_succ_self _)) (by simp [hk]) ?_
      intro at_ st' rest ha hm
      simp only [encStmt]
      simp [hown hm, hx, hb, hm.buf]
    · cases v with
      | null =>
        rw [hx] at hlk
        have hr' : r = (st.look o f).1.wrote (writeInt st.buf zt .be 0) := by
          rw [hr]; simp only [rstmt]
          rcases hl : st.look o f with ⟨s1, x⟩
          rw [hl] at hlk hb; simp only at hlk hb; subst hlk; simp [hb]
        rw [hr']
        refine plain _ (st.k + 1) (hmv.withBuf _) (.inl (Nat.lt_succ_self _)) (by simp [RSt.wrote, hk]) ?_
        intro at_ st' rest ha hm
        simp only [encStmt]
        simp [hown hm, hx, hm.buf, RSt.wrote]
      | list xs =>
        rw [hx] at hlk
        have hx1 := (hmv.keep f hF).trans hx
        have hmv2 := hmv.trans (look_moved ho f hmv.rel)
        have hx2 := (hmv2.keep f hF).trans hx
        have hmv3 := hmv2.trans (look_moved ho f hmv2.rel)
        have hs1 := size_own ho hF hx1
        have hs2 := size_own ho hF hx2
        have hb2 : ((st.look o f).1.look o f).1.buf = st.buf := rfl
        have hb3 : (((st.look o f).1.look o f).1.look o f).1.buf = st.buf := rfl
        have hk3 : (((st.look o f).1.look o f).1.look o f).1.k = st.k + 3 := rfl
        cases xs with
        | nil =>
          have hr' : r = ((st.look o f).1.look o f).1.wrote (writeInt st.buf zt .be 0) := by
            rw [hr]; simp only [rstmt]
            rcases hl : st.look o f with ⟨s1, x⟩
            rw [hl] at hlk hs1 hb2; simp only at hlk hs1 hb2; subst hlk; simp [hs1, hb2]
          rw [hr']
          refine plain _ (st.k + 1) (hmv2.withBuf _) (.inl (Nat.lt_succ_self _)) (by simp [RSt.wrote, RSt.look]) ?_
          intro at_ st' rest ha hm
          simp only [encStmt]
          simp [hown hm, hx, hm.buf, RSt.wrote]
        | cons y ys =>
          have hr' : r = match ((((st.look o f).1.look o f).1.look o f).1).wrote (writeInt st.buf t e (y :: ys).length) with
              | (st, some err) => (st, some err)
              | (st, none) => rloop o call el f 2147483647 0 st := by
            rw [hr]; simp only [rstmt]
            rcases hl : st.look o f with ⟨s1, x⟩
            rw [hl] at hlk hs1 hs2 hb2 hb3; simp only at hlk hs1 hs2 hb2 hb3; subst hlk; simp [hs1, hs2, hb3]; rfl
          rcases hwi : writeInt st.buf t e (y :: ys).length with ⟨b, _ | err⟩
          · rw [hwi] at hr'
            simp only [RSt.wrote] at hr'
            have hmb := hmv3.withBuf b
            obtain ⟨hl1, hl2⟩ := rloop_own ho call el hF 2147483647 0 _ hmb.rel ((hmb.keep f hF).trans hx) (by
              have := h0.fit f _ hF hx; omega)
            rw [← hr'] at hl1 hl2
            refine plain _ (st.k + 1) (hmb.trans hl2) (.inl (Nat.lt_succ_self _)) ?_ ?_
            · have := hl2.le
              simp only [hk3] at this
              omega
            · intro at_ st' rest ha hm
              simp only [encStmt]
              simp only [hown hm, hx, hm.buf, hwi]
              exact ⟨hl1.symm, trivial, .inr ⟨f, by simp [usesOf], _, rfl⟩⟩
          · rw [hwi] at hr'
            simp only [RSt.wrote] at hr'
            rw [hr']
            refine plain _ (st.k + 1) (hmv3.withBuf _) (.inl (Nat.lt_succ_self _)) (by simp [hk3]) ?_
            intro at_ st' rest ha hm
            simp only [encStmt]
            simp [hown hm, hx, hm.buf, hwi, -List.length_cons]
      | num n =>
        rw [hx] at hlk
        have hr' : r = (((st.look o f).1.look o f).1, some .illTyped) := by
          have hlk2 := look_own ho f (st.look o f).1 hF
          rw [hmv.keep f hF, hx] at hlk2
          rw [hr]; simp only [rstmt, RSt.size]
          rcases hl : st.look o f with ⟨s1, x⟩
          rw [hl] at hlk hlk2; simp only at hlk hlk2; subst hlk
          rcases hl2 : s1.look o f with ⟨s2, x2⟩
          rw [hl2] at hlk2; simp only at hlk2; subst hlk2; simp [hl2]
        rw [hr']
        refine plain _ (st.k + 1) (hmv.trans (look_moved ho f hmv.rel)) (.inl (Nat.lt_succ_self _)) (by simp [RSt.look]) ?_
        intro at_ st' rest ha hm
        simp only [encStmt]
        simp [hown hm, hx, hm.buf, RSt.look]
      | str n =>
        rw [hx] at hlk
        have hr' : r = (((st.look o f).1.look o f).1, some .illTyped) := by
          have hlk2 := look_own ho f (st.look o f).1 hF
          rw [hmv.keep f hF, hx] at hlk2
          rw [hr]; simp only [rstmt, RSt.size]
          rcases hl : st.look o f with ⟨s1, x⟩
          rw [hl] at hlk hlk2; simp only at hlk hlk2; subst hlk
          rcases hl2 : s1.look o f with ⟨s2, x2⟩
          rw [hl2] at hlk2; simp only at hlk2; subst hlk2; simp [hl2]
        rw [hr']
        refine plain _ (st.k + 1) (hmv.trans (look_moved ho f hmv.rel)) (.inl (Nat.lt_succ_self _)) (by simp [RSt.look]) ?_
        intro at_ st' rest ha hm
        simp only [encStmt]
        simp [hown hm, hx, hm.buf, RSt.look]
      | obj c n =>
        rw [hx] at hlk
        have hr' : r = (((st.look o f).1.look o f).1, some .illTyped) := by
          have hlk2 := look_own ho f (st.look o f).1 hF
          rw [hmv.keep f hF, hx] at hlk2
          rw [hr]; simp only [rstmt, RSt.size]
          rcases hl : st.look o f with ⟨s1, x⟩
          rw [hl] at hlk hlk2; simp only at hlk hlk2; subst hlk
          rcases hl2 : s1.look o f with ⟨s2, x2⟩
          rw [hl2] at hlk2; simp only at hlk2; subst hlk2; simp [hl2]
        rw [hr']
        refine plain _ (st.k + 1) (hmv.trans (look_moved ho f hmv.rel)) (.inl (Nat.lt_succ_self _)) (by simp [RSt.look]) ?_
        intro at_ st' rest ha hm
        simp only [encStmt]
        simp [hown hm, hx, hm.buf, RSt.look]
  | obj f =>
    have hmv := look_moved ho f h0
    rw [hr]
    refine plain _ (st.k + 1) ?_ (.inl (Nat.lt_succ_self _)) ?_ ?_
    · simp only [rstmt]
      split
      all_goals (rename_i heq; rw [heq] at hmv; first | exact hmv.withBuf _ | exact hmv)
    · simp only [rstmt]
      have hk := look_k (o := o) f st
      split
      all_goals (rename_i heq; rw [heq] at hk; simp only at hk; simp [RSt.wrote, hk])
    · intro at_ st' rest ha hm
      have hsn := seen1 rfl ha hm
      have hb := look_buf (o := o) f st
      simp only [rstmt, encStmt]
      rcases hl : st.look o f with ⟨s1, x⟩
      rw [hl] at hsn hb
      simp only at hsn hb ⊢
      rw [← hsn]
      rcases x with _ | v
      · simp [hm.buf, hb]
      · refine ⟨by simp [RSt.wrote, hm.buf, hb], rfl, .inr ⟨f, by simp [usesOf], _, rfl⟩⟩
  | objOpt f =>
    have hmv := look_moved ho f h0
    have hmv2 := hmv.trans (look_moved ho f hmv.rel)
    have hb := look_buf (o := o) f st
    have hk := look_k (o := o) f st
    have hb2 : ((st.look o f).1.look o f).1.buf = st.buf := rfl
    have hk2 : ((st.look o f).1.look o f).1.k = st.k + 2 := rfl
    have hnew : ∀ v, (st.look o f).2 = some v → v ≠ .null → ((st.look o f).1.look o f).2 = some .null → (f, Val.null) ∈ o (st.k + 1) := by
      intro v h1 hv h2
      rcases setAll_new _ _ _ _ h2 with h | h
      · have h1' : (st.look o f).1.fs[f]? = some v := h1
        rw [h1'] at h
        exact absurd (Option.some.inj h) hv
      · exact h
    have hsome : ∀ v, (st.look o f).2 = some v → v ≠ .null → r = match ((st.look o f).1.look o f).2 with
        | some v => ((st.look o f).1.look o f).1.wrote (call v st.buf).2
        | none => (((st.look o f).1.look o f).1, some .illTyped) := by
      intro v h1 hv
      rw [hr]; simp only [rstmt]
      rcases hl : st.look o f with ⟨s1, x⟩
      rw [hl] at h1 hb2; simp only at h1 hb2; subst h1
      rcases hl2 : s1.look o f with ⟨s2, x2⟩
      rw [hl2] at hb2; simp only at hb2
      cases v with
      | null => exact absurd rfl hv
      | num n => simp only [hl2]; cases x2 <;> simp [hb2]
      | str n => simp only [hl2]; cases x2 <;> simp [hb2]
      | list n => simp only [hl2]; cases x2 <;> simp [hb2]
      | obj c n => simp only [hl2]; cases x2 <;> simp [hb2]
    rcases h1 : (st.look o f).2 with _ | v
    · have hr' : r = ((st.look o f).1, some .illTyped) := by
        rw [hr]; simp only [rstmt]
        rcases hl : st.look o f with ⟨s1, x⟩
        rw [hl] at h1; simp only at h1; subst h1; rfl
      rw [hr']
      refine plain _ (st.k + 1) hmv (.inl (Nat.lt_succ_self _)) (by simp [hk]) ?_
      intro at_ st' rest ha hm
      have hsn := seen1 rfl ha hm
      simp only [encStmt]
      simp only [← hsn, h1]
      simp [hm.buf, hb]
    · by_cases hv : v = .null
      · subst hv
        have hr' : r = ((st.look o f).1, none) := by
          rw [hr]; simp only [rstmt]
          rcases hl : st.look o f with ⟨s1, x⟩
          rw [hl] at h1; simp only at h1; subst h1; rfl
        rw [hr']
        refine plain _ (st.k + 1) hmv (.inl (Nat.lt_succ_self _)) (by simp [hk]) ?_
        intro at_ st' rest ha hm
        have hsn := seen1 rfl ha hm
        simp only [encStmt]
        simp only [← hsn, h1]
        simp [hm.buf, hb]
      · have hr' := hsome v h1 hv
        rcases h2 : ((st.look o f).1.look o f).2 with _ | v2
        · rw [h2] at hr'; simp only at hr'
          rw [hr']
          refine plain _ (st.k + 2) hmv2 (.inl (by omega)) (by simp [hk2]) ?_
          intro at_ st' rest ha hm
          have hsn := seen2 rfl ha hm
          simp only [encStmt]
          simp only [← hsn, h2]
          simp [hm.buf, hb2]
        · rw [h2] at hr'; simp only at hr'
          by_cases hv2 : v2 = .null
          · subst hv2
            rw [hr']
            have hw : (((st.look o f).1.look o f).1.wrote (call .null st.buf).2) = ({ ((st.look o f).1.look o f).1 with buf := st.buf }, some .nullPointer) := by
              simp [RSt.wrote, hcall]
            rw [hw]
            exact ⟨(hmv2.withBuf _).rel, hmv2.le, .inl ⟨rfl, st.k + 1, f, by simp [hk2], hnew v h1 hv h2⟩⟩
          · rw [hr']
            refine plain _ (st.k + 2) (hmv2.withBuf _) (.inl (by omega)) (by simp [RSt.wrote, hk2]) ?_
            intro at_ st' rest ha hm
            have hsn := seen2 rfl ha hm
            have he : encStmt w call (.objOpt f) st' = ({ st' with fs := st'.fs.set f (call v2 st'.buf).1, buf := (call v2 st'.buf).2.1 }, (call v2 st'.buf).2.2) := by
              simp only [encStmt]
              simp only [← hsn, h2]
            rw [he]
            exact ⟨by simp [RSt.wrote, hm.buf], rfl, .inr ⟨f, by simp [usesOf], _, rfl⟩⟩
  | save x =>
    rw [hr]
    refine ⟨⟨h0.len, h0.same, h0.fit⟩, Nat.le_refl _, .inr ⟨st.k, .inr ⟨rfl, Nat.le_refl _⟩, Nat.le_refl _, ?_⟩⟩
    intro at_ st' rest ha hm hd
    refine ⟨rfl, hm.buf, ?_, hm.len, hm.own, hm.free⟩
    show setLoc st'.loc x st'.buf.wr = setLoc st.loc x st.buf.wr
    rw [hm.loc, hm.buf]
  | zero t e =>
    rw [hr]
    refine plain _ st.k ((Moved.refl h0).withBuf _) (.inr ⟨rfl, Nat.le_refl _⟩) (Nat.le_refl _) ?_
    intro at_ st' rest ha hm
    simp only [rstmt, encStmt]
    simp [RSt.wrote, hm.buf]
  | setLen f x y =>
    have hF : F f := hs
    have hmv := look_moved ho f h0
    have hput : ∀ n, ((st.put o f (.num n)).Rel F o fs0) := by
      intro n
      refine ⟨?_, ?_, ?_⟩
      · show ((setAll st.fs (o st.k)).set f _).length = _
        rw [List.length_set]; exact hmv.rel.len
      · intro g hg
        show ((setAll st.fs (o st.k)).set f _)[g]? = _
        rw [List.getElem?_set_ne (by intro e; exact hg (e ▸ hF))]
        exact hmv.rel.same g hg
      · intro g xs hg hx
        change ((setAll st.fs (o st.k)).set f _)[g]? = _ at hx
        rw [List.getElem?_set] at hx
        split at hx
        · split at hx <;> simp at hx
        · exact hmv.rel.fit g xs hg hx
    rw [hr]
    simp only [rstmt]
    rcases hx : st.loc x with _ | a
    · refine ⟨h0, Nat.le_refl _, .inr ⟨st.k, .inr ⟨rfl, Nat.le_refl _⟩, Nat.le_refl _, ?_⟩⟩
      intro at_ st' rest ha hm hd
      simp only [encStmt]
      simp only [hm.loc, hx]
      exact ⟨trivial, hm.buf, hm.loc, hm.len, hm.own, hm.free⟩
    rcases hy : st.loc y with _ | b
    · refine ⟨h0, Nat.le_refl _, .inr ⟨st.k, .inr ⟨rfl, Nat.le_refl _⟩, Nat.le_refl _, ?_⟩⟩
      intro at_ st' rest ha hm hd
      simp only [encStmt]
      simp only [hm.loc, hx, hy]
      exact ⟨trivial, hm.buf, hm.loc, hm.len, hm.own, hm.free⟩
    refine ⟨hput _, Nat.le_succ _, .inr ⟨st.k, .inr ⟨rfl, Nat.le_refl _⟩, Nat.le_succ _, ?_⟩⟩
    intro at_ st' rest ha hm hd
    simp only [encStmt]
    simp only [hm.loc, hx, hy]
    refine ⟨trivial, hm.buf, rfl, ?_, ?_, ?_⟩
    · show (st'.fs.set f _).length = ((setAll st.fs (o st.k)).set f _).length
      simp [setAll_length, hm.len]
    · intro g hg hFg
      show (st'.fs.set f _)[g]? = ((setAll st.fs (o st.k)).set f _)[g]?
      have h1 : st'.fs[g]? = (setAll st.fs (o st.k))[g]? := (hm.own g (by simpa [usesOf] using hg) hFg).trans (hmv.keep g hFg).symm
      rw [List.getElem?_set, List.getElem?_set, h1, setAll_length, hm.len]
    · intro g hg hFg
      show (st'.fs.set f _)[g]? = _
      rw [List.getElem?_set_ne (by intro e; exact hFg (e ▸ hF))]
      exact hm.free g (by simpa [usesOf] using hg) hFg
  | patch x f t e =>
    have hF : F f := hs
    have hmv := look_moved ho f h0
    rw [hr]
    refine plain _ (st.k + 1) ?_ (.inl (Nat.lt_succ_self _)) ?_ ?_
    · simp only [rstmt]
      split
      · rename_i heq
        rw [heq] at hmv
        split
        · exact hmv.withBuf _
        · exact hmv
      · rename_i heq
        rw [heq] at hmv
        exact hmv
    · simp only [rstmt]
      have hk := look_k (o := o) f st
      split
      · rename_i heq
        rw [heq] at hk
        simp only at hk
        split <;> simp [RSt.wrote, hk]
      · rename_i heq
        rw [heq] at hk
        simp only at hk
        simp [hk]
    · intro at_ st' rest ha hm
      have hsn := seen1 rfl ha hm
      have hb := look_buf (o := o) f st
      have hlo : (st.look o f).1.loc = st.loc := rfl
      simp only [rstmt, encStmt]
      rcases hl : st.look o f with ⟨s1, x1⟩
      rw [hl] at hsn hb hlo
      simp only at hsn hb hlo ⊢
      rw [← hsn, hm.loc]
      rcases x1 with _ | (_ | n | _ | _ | _)
      · cases st.loc x <;> simp [hm.buf, hb, hm.loc]
      · cases st.loc x <;> simp [hm.buf, hb, hm.loc]
      · rcases hlx : st.loc x with _ | p
        · simp [hlo, hlx, hm.buf, hb, hm.loc]
        · rcases hc : n.convert t with _ | m
          · simp [hlo, hlx, hc, hm.buf, hb, hm.loc]
          · simp [hlo, hlx, hc, hm.buf, hb, RSt.wrote]
      · cases st.loc x <;> simp [hm.buf, hb, hm.loc]
      · cases st.loc x <;> simp [hm.buf, hb, hm.loc]
      · cases st.loc x <;> simp [hm.buf, hb, hm.loc]
  | checksum f alg =>
    have hF : F f := hs
    have hmv := look_moved ho f h0
    have hput : ∀ n, ((st.put o f (.num n)).Rel F o fs0) := by
      intro n
      refine ⟨?_, ?_, ?_⟩
      · show ((setAll st.fs (o st.k)).set f _).length = _
        rw [List.length_set]; exact hmv.rel.len
      · intro g hg
        show ((setAll st.fs (o st.k)).set f _)[g]? = _
        rw [List.getElem?_set_ne (by intro e; exact hg (e ▸ hF))]
        exact hmv.rel.same g hg
      · intro g xs hg hx
        change ((setAll st.fs (o st.k)).set f _)[g]? = _ at hx
        rw [List.getElem?_set] at hx
        split at hx
        · split at hx <;> simp at hx
        · exact hmv.rel.fit g xs hg hx
    rw [hr]
    simp only [rstmt]
    rcases hsv : Registry.getService w.svc alg with _ | sv
    · refine ⟨h0, Nat.le_refl _, .inr ⟨st.k, .inr ⟨rfl, Nat.le_refl _⟩, Nat.le_refl _, ?_⟩⟩
      intro at_ st' rest ha hm hd
      simp only [encStmt]
      simp only [hsv]
      exact ⟨trivial, hm.buf, hm.loc, hm.len, hm.own, hm.free⟩
    refine ⟨hput _, Nat.le_succ _, .inr ⟨st.k, .inr ⟨rfl, Nat.le_refl _⟩, Nat.le_succ _, ?_⟩⟩
    intro at_ st' rest ha hm hd
    simp only [encStmt]
    simp only [hsv, hm.buf]
    refine ⟨trivial, rfl, hm.loc, ?_, ?_, ?_⟩
    · show (st'.fs.set f _).length = ((setAll st.fs (o st.k)).set f _).length
      simp [setAll_length, hm.len]
    · intro g hg hFg
      show (st'.fs.set f _)[g]? = ((setAll st.fs (o st.k)).set f _)[g]?
      have h1 : st'.fs[g]? = (setAll st.fs (o st.k))[g]? := (hm.own g (by simpa [usesOf] using hg) hFg).trans (hmv.keep g hFg).symm
      rw [List.getElem?_set, List.getElem?_set, h1, setAll_length, hm.len]
    · intro g hg hFg
      show (st'.fs.set f _)[g]? = _
      rw [List.getElem?_set_ne (by intro e; exact hFg (e ▸ hF))]
      exact hm.free g (by simpa [usesOf] using hg) hFg

theorem pairwise_all {α : Type} {R : α → α → Prop} {l : List α} (h : ∀ a ∈ l, ∀ b ∈ l, R a b) : l.Pairwise R := by
  induction l with
  | nil => exact .nil
  | cons a l ih =>
    exact .cons (fun b hb => h a List.mem_cons_self b (List.mem_cons_of_mem _ hb))
      (ih fun x hx y hy => h x (List.mem_cons_of_mem _ hx) y (List.mem_cons_of_mem _ hy))

/-- A sequence of statements. -/
theorem rstmts_mix (ho : ∀ k, ∀ p ∈ o k, ¬ F p.1) (w : World) (call : EncCall) (hcall : ∀ b, (call .null b).2 = (b, some .nullPointer)) :
    ∀ (ss : List EncStmt), (∀ s ∈ ss, fineStmt F s) → (ss.flatMap usesOf).Nodup → ∀ (st : RSt), st.Rel F o fs0 →
    let r := rstmts w o call ss st
    st.k ≤ r.1.k ∧ ((r.2 = some .nullPointer ∧ ∃ k f, k < r.1.k ∧ (f, Val.null) ∈ o k) ∨
      ∃ at_ : Nat → Nat, (∀ f, st.k ≤ at_ f ∧ at_ f ≤ r.1.k) ∧ (ss.flatMap usesOf).Pairwise (fun f g => at_ f ≤ at_ g) ∧
        (r.2 = none → (∀ f ∈ ss.flatMap usesOf, st.k < at_ f) ∧ (ss.flatMap usesOf).Pairwise (fun f g => at_ f < at_ g)) ∧
        ∀ st' : EncSt, Mates F o fs0 (ss.flatMap usesOf) st at_ st' →
          ((encStmts w call ss st').1.buf, (encStmts w call ss st').2) = (r.1.buf, r.2)) := by
  intro ss
  induction ss with
  | nil =>
    intro _ _ st h0
    exact ⟨Nat.le_refl _, .inr ⟨fun _ => st.k, fun _ => ⟨Nat.le_refl _, Nat.le_refl _⟩, List.Pairwise.nil, fun _ => ⟨fun f hf => (List.not_mem_nil hf).elim, List.Pairwise.nil⟩, fun st' hm => by simp [encStmts, rstmts, hm.buf]⟩⟩
  | cons s ss ih =>
    intro hfine hnd st h0
    rw [List.flatMap_cons] at hnd
    obtain ⟨-, hnd2, hdis⟩ := List.nodup_append.1 hnd
    obtain ⟨hrel, hle, hor⟩ := rstmt_step ho w call hcall s (hfine s List.mem_cons_self) h0
    have hd : ∀ f ∈ usesOf s, f ∉ ss.flatMap usesOf := fun f hf hf' => hdis f hf f hf' rfl
    simp only [rstmts]
    rcases hst : rstmt w o call s st with ⟨st1, _ | err⟩
    · rw [hst] at hrel hle hor
      simp only at hrel hle hor ⊢
      obtain ⟨hle', hor'⟩ := ih (fun t ht => hfine t (List.mem_cons_of_mem _ ht)) hnd2 st1 hrel
      refine ⟨Nat.le_trans hle hle', ?_⟩
      rcases hor' with h | ⟨at2, hb2, hp2, hs2, hm2⟩
      · exact .inl h
      rcases hor with ⟨h, -⟩ | ⟨m, hm1, hm1', hmm⟩
      · cases h
      have hm1w : st.k ≤ m := by omega
      refine .inr ⟨fun f => if f ∈ usesOf s then m else at2 f, ?_, ?_, ?_, ?_⟩
      · intro f
        dsimp only
        have := hb2 f
        split <;> omega
      · rw [List.flatMap_cons, List.pairwise_append]
        have hrest : ∀ g ∈ ss.flatMap usesOf, (if g ∈ usesOf s then m else at2 g) = at2 g := fun g hg => if_neg (fun h => hd g h hg)
        refine ⟨?_, ?_, ?_⟩
        · refine pairwise_all ?_
          intro f hf g hg
          dsimp only
          rw [if_pos hf, if_pos hg]
          exact Nat.le_refl _
        · refine hp2.imp_of_mem ?_
          intro f g hf hg h
          dsimp only
          rw [hrest f hf, hrest g hg]; exact h
        · intro f hf g hg
          dsimp only
          rw [if_pos hf, hrest g hg]
          have := (hb2 g).1
          omega
      · intro hnone
        obtain ⟨hs3, hs4⟩ := hs2 hnone
        have hrest : ∀ g ∈ ss.flatMap usesOf, (if g ∈ usesOf s then m else at2 g) = at2 g := fun g hg => if_neg (fun h => hd g h hg)
        have hlt : ∀ f ∈ usesOf s, st.k < m := by
          intro f hf
          rcases hm1 with h | ⟨h, -⟩
          · exact h
          · rw [h] at hf; cases hf
        refine ⟨fun f hf => ?_, ?_⟩
        · rw [List.flatMap_cons, List.mem_append] at hf
          dsimp only
          rcases hf with hf | hf
          · rw [if_pos hf]; exact hlt f hf
          · rw [hrest f hf]
            have := hs3 f hf
            omega
        · rw [List.flatMap_cons, List.pairwise_append]
          refine ⟨?_, ?_, ?_⟩
          · cases s <;> first | exact List.pairwise_singleton _ _ | exact .nil
          · refine hs4.imp_of_mem ?_
            intro f g hf hg h
            dsimp only
            rw [hrest f hf, hrest g hg]; exact h
          · intro f hf g hg
            dsimp only
            rw [if_pos hf, hrest g hg]
            have := hs3 g hg
            omega
      · intro st' hm
        rw [List.flatMap_cons] at hm
        obtain ⟨h1, h2⟩ := hmm _ st' _ (fun f hf => if_pos hf) hm hd
        simp only [encStmts]
        rcases he : encStmt w call s st' with ⟨q, oe⟩
        rw [he] at h1 h2
        simp only at h1 h2
        subst h1
        refine hm2 q ⟨h2.buf, h2.loc, h2.len, h2.own, ?_⟩
        intro f hf hF
        rw [h2.free f hf hF, if_neg (fun h => hd f h hf)]
    · rw [hst] at hrel hle hor
      simp only at hrel hle hor ⊢
      refine ⟨hle, ?_⟩
      rcases hor with h | ⟨m, hm1, hm1', hmm⟩
      · exact .inl h
      have hm1w : st.k ≤ m := by omega
      refine .inr ⟨fun f => if f ∈ usesOf s then m else st1.k, ?_, ?_, (fun h => by cases h), ?_⟩
      · intro f
        dsimp only
        split <;> omega
      · rw [List.flatMap_cons, List.pairwise_append]
        have hrest : ∀ g ∈ ss.flatMap usesOf, (if g ∈ usesOf s then m else st1.k) = st1.k := fun g hg => if_neg (fun h => hd g h hg)
        refine ⟨?_, ?_, ?_⟩
        · refine pairwise_all ?_
          intro f hf g hg
          dsimp only
          rw [if_pos hf, if_pos hg]
          exact Nat.le_refl _
        · refine pairwise_all ?_
          intro f hf g hg
          dsimp only
          rw [hrest f hf, hrest g hg]
          exact Nat.le_refl _
        · intro f hf g hg
          dsimp only
          rw [if_pos hf, hrest g hg]
          exact hm1'
      · intro st' hm
        rw [List.flatMap_cons] at hm
        obtain ⟨h1, h2⟩ := hmm _ st' _ (fun f hf => if_pos hf) hm hd
        simp only [encStmts]
        rcases he : encStmt w call s st' with ⟨q, oe⟩
        rw [he] at h1 h2
        simp only at h1 h2
        subst h1
        simp [h2.buf]

end

/-! ### The classes -/

/-- `Touchy`, as a test. -/
def touchyB (c : Cls) (f : Nat) : Bool :=
  match (wire c)[f]? with
  | some (.len _) | some (.cksum _ _) | some (.list _) => true
  | _ => false

theorem touchy_iff (c : Cls) (f : Nat) : Touchy c f ↔ touchyB c f = true := by
  unfold Touchy touchyB
  rcases (wire c)[f]? with _ | (_ | _ | _ | _ | _ | _ | _ | _) <;> simp

/-- `fineStmt`, as a test. -/
def fineB (F : Nat → Bool) : EncStmt → Bool
  | .dyn _ zt t _ => zt == t
  | .list f _ _ _ _ => F f
  | .setLen f _ _ => F f
  | .patch _ f _ _ => F f
  | .checksum f _ => F f
  | _ => true

theorem fine_of (c : Cls) (s : EncStmt) (h : fineB (touchyB c) s = true) : fineStmt (Touchy c) s := by
  cases s <;> simp only [fineB, fineStmt, touchy_iff] at h ⊢ <;> first | exact h | exact eq_of_beq h | trivial

set_option maxRecDepth 4000 in
theorem enc_fine (c : Cls) : ((decl c).enc.all fun s => fineB (touchyB c) s) = true := by
  cases c <;> rfl

/-- Is the list ascending? -/
def ascB : List Nat → Bool
  | [] => true
  | a :: l => l.all (fun b => decide (a < b)) && ascB l

theorem asc_pairwise : ∀ l : List Nat, ascB l = true → l.Pairwise (· < ·) := by
  intro l
  induction l with
  | nil => intro _; exact .nil
  | cons a l ih =>
    intro h
    simp only [ascB, Bool.and_eq_true, List.all_eq_true, decide_eq_true_eq] at h
    exact .cons h.1 (ih h.2)

/-- Are there no repetitions? -/
def nodupB : List Nat → Bool
  | [] => true
  | a :: l => l.all (fun b => a != b) && nodupB l

theorem nodup_of : ∀ l : List Nat, nodupB l = true → l.Nodup := by
  intro l
  induction l with
  | nil => intro _; exact .nil
  | cons a l ih =>
    intro h
    simp only [nodupB, Bool.and_eq_true, List.all_eq_true, bne_iff_ne] at h
    exact .cons h.1 (ih h.2)

theorem enc_uses (c : Cls) : nodupB ((decl c).enc.flatMap usesOf) = true := by
  cases c <;> rfl

theorem enc_order (c : Cls) : (((decl c).enc.flatMap usesOf).filter fun f => !touchyB c f) = (List.range (wire c).length).filter fun f => !touchyB c f := by
  cases c <;> rfl

/-! ### What is left in the fields -/

section
variable (o : Others) (f : Nat)

/-- Field `f` has gone from `st` to `st'` by assignments of other threads only. -/
def Acc (st st' : RSt) : Prop := st.k ≤ st'.k ∧ st'.fs[f]? = st.fs[f]?.map fun v => lastOr v (assigned o f st.k st'.k)

theorem assigned_append (i j k : Nat) (hij : i ≤ j) (hjk : j ≤ k) : assigned o f i k = assigned o f i j ++ assigned o f j k := by
  unfold assigned
  rw [show k - i = (j - i) + (k - j) by omega, ← List.range'_append_1]
  simp [show i + (j - i) = j by omega]

theorem Acc.refl (st : RSt) : Acc o f st st := by
  refine ⟨Nat.le_refl _, ?_⟩
  rw [assigned_self]
  cases st.fs[f]? <;> rfl

variable {o f}

theorem Acc.trans {st st1 st2 : RSt} (h : Acc o f st st1) (h' : Acc o f st1 st2) : Acc o f st st2 := by
  refine ⟨Nat.le_trans h.1 h'.1, ?_⟩
  rw [h'.2, h.2, assigned_append o f _ _ _ h.1 h'.1]
  cases st.fs[f]? with
  | none => rfl
  | some v => simp [lastOr_append]

theorem racc_look (g : Nat) (st : RSt) : Acc o f st (st.look o g).1 := by
  refine ⟨Nat.le_succ _, ?_⟩
  simp only [RSt.look]
  rw [setAll_last, assigned_succ _ _ _ _ (Nat.le_refl _), assigned_self, List.nil_append]

theorem racc_put (g : Nat) (v : Val) (st : RSt) (hg : g ≠ f) : Acc o f st (st.put o g v) := by
  refine ⟨Nat.le_succ _, ?_⟩
  simp only [RSt.put]
  rw [List.getElem?_set_ne hg, setAll_last, assigned_succ _ _ _ _ (Nat.le_refl _), assigned_self, List.nil_append]

theorem racc_buf {st st' : RSt} (b : WBuf) (h : Acc o f st st') : Acc o f st { st' with buf := b } := h

theorem racc_size (g : Nat) (st : RSt) : Acc o f st (st.size o g).1 := by
  have h := racc_look (o := o) (f := f) g st
  unfold RSt.size
  revert h
  rcases st.look o g with ⟨st', _ | v⟩
  · exact id
  · cases v <;> exact id

theorem racc_get (g i : Nat) (st : RSt) : Acc o f st (st.get o g i).1 := by
  have h := racc_look (o := o) (f := f) g st
  unfold RSt.get
  revert h
  rcases st.look o g with ⟨st', _ | v⟩
  · exact id
  · cases v <;> first | exact id | (intro h; dsimp only; split <;> exact h)

theorem racc_field (g : Nat) (st : RSt) : Acc o f st (st.field o g).1 := by
  have h := racc_look (o := o) (f := f) g st
  unfold RSt.field
  revert h
  rcases st.look o g with ⟨st', _ | v⟩ <;> exact id

theorem racc_rdyn (x : RSt → RSt × Except JErr Val) (hx : ∀ st, Acc o f st (x st).1) (zt t : PTy) (e : Endian) (st : RSt) :
    Acc o f st (rdyn x zt t e st).1 := by
  unfold rdyn
  have h1 := hx st
  revert h1
  rcases x st with ⟨st1, err | v⟩
  · exact id
  · intro h1
    dsimp only
    split
    · exact h1
    · have h2 := hx st1
      revert h2
      rcases x st1 with ⟨st2, err | v2⟩
      · exact fun h2 => h1.trans h2
      · intro h2
        cases v2 with
        | str s =>
          dsimp only
          split <;> exact racc_buf _ (h1.trans h2)
        | _ => exact h1.trans h2
    · exact racc_buf _ h1

theorem racc_relem (call : EncCall) (el : EncElem) (g i : Nat) (st : RSt) : Acc o f st (relem o call el g i st).1 := by
  have h := racc_get (o := o) (f := f) g i st
  cases el with
  | dyn zt t e => exact racc_rdyn _ (fun st => racc_get g i st) zt t e st
  | _ =>
    simp only [relem]
    revert h
    rcases st.get o g i with ⟨st1, err | v⟩ <;> exact id

theorem racc_rloop (call : EncCall) (el : EncElem) (g : Nat) (m : Nat) : ∀ (i : Nat) (st : RSt), Acc o f st (rloop o call el g m i st).1 := by
  induction m with
  | zero => intro i st; exact Acc.refl o f st
  | succ m ih =>
    intro i st
    have h := racc_size (o := o) (f := f) g st
    simp only [rloop]
    revert h
    rcases st.size o g with ⟨st1, err | len⟩
    · exact id
    · intro h
      dsimp only
      split
      · have h2 := racc_relem (o := o) (f := f) call el g i st1
        revert h2
        rcases relem o call el g i st1 with ⟨st2, _ | err⟩
        · exact fun h2 => (h.trans h2).trans (ih (i + 1) st2)
        · exact fun h2 => h.trans h2
      · exact h

/-- The field a statement assigns. -/
def EncStmt.assigns : EncStmt → Option Nat
  | .setLen f _ _ | .checksum f _ => some f
  | _ => none

theorem racc_rstmt (w : World) (call : EncCall) (s : EncStmt) (hs : s.assigns ≠ some f) (st : RSt) : Acc o f st (rstmt w o call s st).1 := by
  cases s with
  | num g t e =>
    have h := racc_look (o := o) (f := f) g st
    simp only [rstmt]
    revert h
    rcases st.look o g with ⟨st1, _ | v⟩
    · exact id
    · cases v <;> exact id
  | fixed g n pad left =>
    have h := racc_look (o := o) (f := f) g st
    simp only [rstmt]
    revert h
    rcases st.look o g with ⟨st1, _ | v⟩ <;> exact id
  | dyn g zt t e => exact racc_rdyn _ (fun st => racc_field g st) zt t e st
  | list g zt t e el =>
    have h := racc_look (o := o) (f := f) g st
    simp only [rstmt]
    revert h
    rcases st.look o g with ⟨st1, _ | v⟩
    · exact id
    · intro h
      have key : Acc o f st (match st1.size o g with
          | (st, .error err) => (st, some err)
          | (st, .ok 0) => st.wrote (writeInt st.buf zt .be 0)
          | (st, .ok (_ + 1)) =>
            match st.size o g with
            | (st, .error err) => (st, some err)
            | (st, .ok len) =>
              match st.wrote (writeInt st.buf t e len) with
              | (st, some err) => (st, some err)
              | (st, none) => rloop o call el g 2147483647 0 st).1 := by
        have h2 := racc_size (o := o) (f := f) g st1
        revert h2
        rcases st1.size o g with ⟨st2, err | _ | len⟩
        · exact fun h2 => h.trans h2
        · exact fun h2 => racc_buf _ (h.trans h2)
        · intro h2
          dsimp only
          have h3 := racc_size (o := o) (f := f) g st2
          revert h3
          rcases st2.size o g with ⟨st3, err | len⟩
          · exact fun h3 => (h.trans h2).trans h3
          · intro h3
            have h4 : Acc o f st (st3.wrote (writeInt st3.buf t e len)).1 := racc_buf _ ((h.trans h2).trans h3)
            dsimp only
            revert h4
            rcases st3.wrote (writeInt st3.buf t e len) with ⟨st4, _ | err⟩
            · exact fun h4 => h4.trans (racc_rloop call el g _ 0 st4)
            · exact id
      cases v with
      | null => exact racc_buf _ h
      | _ => exact key
  | obj g =>
    have h := racc_look (o := o) (f := f) g st
    simp only [rstmt]
    revert h
    rcases st.look o g with ⟨st1, _ | v⟩ <;> exact id
  | objOpt g =>
    have h := racc_look (o := o) (f := f) g st
    simp only [rstmt]
    revert h
    rcases st.look o g with ⟨st1, _ | v⟩
    · exact id
    · intro h
      have h2 := racc_look (o := o) (f := f) g st1
      revert h2
      cases v with
      | null => exact fun _ => h
      | _ =>
        dsimp only
        rcases st1.look o g with ⟨st2, _ | v2⟩
        · exact fun h2 => h.trans h2
        · exact fun h2 => racc_buf _ (h.trans h2)
  | save x => exact Acc.refl o f st
  | zero t e => exact Acc.refl o f st
  | setLen g x y =>
    simp only [rstmt]
    split
    · exact racc_put g _ st (fun e => hs (by rw [EncStmt.assigns, e]))
    · exact Acc.refl o f st
  | patch x g t e =>
    have h := racc_look (o := o) (f := f) g st
    simp only [rstmt]
    revert h
    rcases st.look o g with ⟨st1, _ | v⟩
    · exact id
    · cases v with
      | num n => intro h; dsimp only; split <;> exact h
      | _ => exact id
  | checksum g alg =>
    simp only [rstmt]
    split
    · exact racc_put g _ st (fun e => hs (by rw [EncStmt.assigns, e]))
    · exact Acc.refl o f st

theorem racc_rstmts (w : World) (call : EncCall) (ss : List EncStmt) : ∀ (st : RSt), (∀ s ∈ ss, s.assigns ≠ some f) → Acc o f st (rstmts w o call ss st).1 := by
  induction ss with
  | nil => intro st _; exact Acc.refl o f st
  | cons s ss ih =>
    intro st hs
    have h := racc_rstmt (o := o) w call s (hs s (by simp)) st
    simp only [rstmts]
    revert h
    rcases rstmt w o call s st with ⟨st1, _ | e⟩
    · exact fun h => h.trans (ih st1 (fun s hs' => hs s (by simp [hs'])))
    · exact id

end

/-- The fields `encode` assigns are computed ones. -/
theorem enc_assigns (c : Cls) : ((decl c).enc.all fun s => match s.assigns with
    | none => true
    | some f => match (wire c)[f]? with | some (.len _) | some (.cksum _ _) => true | _ => false) = true := by
  cases c <;> rfl

end FinProto
