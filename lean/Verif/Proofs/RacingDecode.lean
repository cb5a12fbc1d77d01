import Verif.Spec.RacingDecode
import Verif.Proofs.Racing
import Verif.Proofs.Decode
/-
Helper lemmas for C108.
-/
namespace FinProto

section
variable {F : Nat → Prop}

/-- The fields of `decode` among others against those of `decode` alone; `μ f` is the number of accesses when `f` was last assigned. -/
def FRel (o : Others) (μ : Nat → Nat) (k : Nat) (fs fs' : List Val) : Prop :=
  fs.length = fs'.length ∧ ∀ f, μ f ≤ k ∧ fs[f]? = fs'[f]?.map fun v => lastOr v (assigned o f (μ f) k)

/-- `μ` with another value at `f`. -/
def upd (μ : Nat → Nat) (f k : Nat) : Nat → Nat := fun g => if g = f then k else μ g

theorem upd_upd (μ : Nat → Nat) (f k j : Nat) : upd (upd μ f k) f j = upd μ f j := by
  funext g; unfold upd; split <;> rfl

theorem FRel.step {o : Others} {μ : Nat → Nat} {k : Nat} {fs fs' : List Val} (h : FRel o μ k fs fs') : FRel o μ (k + 1) (setAll fs (o k)) fs' := by
  refine ⟨by rw [setAll_length, h.1], fun f => ?_⟩
  obtain ⟨hi, e⟩ := h.2 f
  refine ⟨by omega, ?_⟩
  rw [setAll_last, e, assigned_succ o f _ k hi, Option.map_map]
  congr 1
  funext v
  simp [lastOr_append]

theorem FRel.store {o : Others} {μ : Nat → Nat} {k : Nat} {fs fs' : List Val} (h : FRel o μ k fs fs') (f : Nat) (v : Val) :
    FRel o (upd μ f k) k (fs.set f v) (fs'.set f v) := by
  refine ⟨by simp [h.1], fun g => ?_⟩
  by_cases e : g = f
  · subst e
    refine ⟨by simp [upd], ?_⟩
    rw [List.getElem?_set, List.getElem?_set, h.1]
    simp only [if_true, upd, assigned_self]
    split <;> rfl
  · obtain ⟨hi, h'⟩ := h.2 g
    have e' : f ≠ g := fun x => e x.symm
    simp only [upd, if_neg e]
    exact ⟨hi, by rw [List.getElem?_set_ne e', List.getElem?_set_ne e', h']⟩

theorem FRel.own {o : Others} {μ : Nat → Nat} (ho : ∀ k, ∀ p ∈ o k, ¬ F p.1) {k : Nat} {fs fs' : List Val} (h : FRel o μ k fs fs') {f : Nat}
    (hf : F f) : fs[f]? = fs'[f]? := by
  obtain ⟨-, e⟩ := h.2 f
  rw [e, assigned_none o f _ k (fun k p hp h => ho k p hp (h ▸ hf))]
  simp [lastOr]

/-- The same, with the number of accesses and the buffers. -/
def RDSt.Rel (o : Others) (μ : Nat → Nat) (k : Nat) (st : RDSt) (st' : DecSt) : Prop := st.k = k ∧ FRel o μ k st.fs st'.fs ∧ st.buf = st'.buf

/-- `run` among others does what leads from `st'` to `r'` alone, and of the fields assigns at most `f`; when, does not depend on the others. -/
def RSim (F : Nat → Prop) (f : Nat) (μ : Nat → Nat) (k : Nat) (st' : DecSt) (run : Others → RDSt → RDSt × Option JErr)
    (r' : DecSt × Option JErr) : Prop :=
  ∃ (μ' : Nat → Nat) (k' : Nat), k ≤ k' ∧ (μ' = μ ∧ r'.1.fs = st'.fs ∨ ∃ j v, k < j ∧ j ≤ k' ∧ μ' = upd μ f j ∧ r'.1.fs = st'.fs.set f v) ∧
    ∀ o : Others, (∀ k, ∀ p ∈ o k, ¬ F p.1) → ∀ st, st.Rel o μ k st' → (run o st).1.Rel o μ' k' r'.1 ∧ (run o st).2 = r'.2

/-- One step after another on the same field. -/
theorem RSim.trans {f : Nat} {μ : Nat → Nat} {k : Nat} {st' : DecSt} {run run2 : Others → RDSt → RDSt × Option JErr} {s1 : DecSt}
    {e1 : Option JErr} {r' : DecSt × Option JErr} (h : RSim F f μ k st' run (s1, e1)) (h2 : ∀ μ k, RSim F f μ k s1 run2 r') :
    RSim F f μ k st' (fun o st => run2 o (run o st).1) r' := by
  obtain ⟨μ1, k1, hk1, hc1, g1⟩ := h
  obtain ⟨μ2, k2, hk2, hc2, g2⟩ := h2 μ1 k1
  refine ⟨μ2, k2, by omega, ?_, fun o ho st hst => g2 o ho _ (g1 o ho st hst).1⟩
  rcases hc1 with ⟨rfl, e⟩ | ⟨j, v, hj, hj', rfl, e⟩
  · rcases hc2 with ⟨rfl, e'⟩ | ⟨j, v, hj, hj', rfl, e'⟩
    · exact .inl ⟨rfl, e'.trans e⟩
    · exact .inr ⟨j, v, by omega, hj', rfl, by rw [e', e]⟩
  · rcases hc2 with ⟨rfl, e'⟩ | ⟨j2, v2, hj2, hj2', rfl, e'⟩
    · exact .inr ⟨j, v, hj, by omega, rfl, e'.trans e⟩
    · exact .inr ⟨j2, v2, by omega, hj2', upd_upd _ _ _ _, by rw [e', e, List.set_set]⟩

theorem sim_none {f : Nat} {μ : Nat → Nat} {k : Nat} {st' : DecSt} {run : Others → RDSt → RDSt × Option JErr} {b' : RBuf} {e : Option JErr}
    (h : ∀ o st, st.buf = st'.buf → run o st = ({ st with buf := b' }, e)) : RSim F f μ k st' run (⟨st'.fs, b'⟩, e) := by
  refine ⟨μ, k, Nat.le_refl _, .inl ⟨rfl, rfl⟩, fun o _ st hst => ?_⟩
  rw [h o st hst.2.2]
  exact ⟨⟨hst.1, hst.2.1, rfl⟩, rfl⟩

theorem sim_look {f g : Nat} {μ : Nat → Nat} {k : Nat} {st' : DecSt} {run : Others → RDSt → RDSt × Option JErr} {b' : RBuf} {e : Option JErr}
    (hg : F g) (h : ∀ o st, st.buf = st'.buf → (setAll st.fs (o st.k))[g]? = st'.fs[g]? →
      run o st = (⟨setAll st.fs (o st.k), st.k + 1, b'⟩, e)) : RSim F f μ k st' run (⟨st'.fs, b'⟩, e) := by
  refine ⟨μ, k + 1, by omega, .inl ⟨rfl, rfl⟩, fun o ho st hst => ?_⟩
  obtain ⟨rfl, h1, h2⟩ := hst
  rw [h o st h2 (h1.step.own ho hg)]
  exact ⟨⟨rfl, h1.step, rfl⟩, rfl⟩

theorem sim_put {f : Nat} {μ : Nat → Nat} {k : Nat} {st' : DecSt} {run : Others → RDSt → RDSt × Option JErr} {b' : RBuf} {v : Val}
    {e : Option JErr} (h : ∀ o st, st.buf = st'.buf → run o st = ({ st with buf := b' }.put o f v, e)) :
    RSim F f μ k st' run (⟨st'.fs.set f v, b'⟩, e) := by
  refine ⟨upd μ f (k + 1), k + 1, by omega, .inr ⟨k + 1, v, by omega, Nat.le_refl _, rfl, rfl⟩, fun o _ st hst => ?_⟩
  obtain ⟨rfl, h1, h2⟩ := hst
  rw [h o st h2]
  exact ⟨⟨rfl, h1.step.store f v, rfl⟩, rfl⟩

/-- Read `this.F`, then change the object found there. -/
theorem sim_change {f : Nat} {μ : Nat → Nat} {k : Nat} {st' : DecSt} {run : Others → RDSt → RDSt × Option JErr} {b' : RBuf} {v : Val}
    {e : Option JErr} (hf : F f) (h : ∀ o st, st.buf = st'.buf → (setAll st.fs (o st.k))[f]? = st'.fs[f]? →
      run o st = (RDSt.store f v ⟨setAll st.fs (o st.k), st.k + 1, b'⟩, e)) : RSim F f μ k st' run (⟨st'.fs.set f v, b'⟩, e) := by
  refine ⟨upd μ f (k + 1), k + 1, by omega, .inr ⟨k + 1, v, by omega, Nat.le_refl _, rfl, rfl⟩, fun o ho st hst => ?_⟩
  obtain ⟨rfl, h1, h2⟩ := hst
  rw [h o st h2 (h1.step.own ho hf)]
  exact ⟨⟨rfl, h1.step.store f v, rfl⟩, rfl⟩

/-- One element of a list. -/
theorem rdelem_sim (call : DecCall) (el : DecElem) {f : Nat} (hf : F f) (xs : List Val) (st' : DecSt) (hx : st'.fs[f]? = some (.list xs))
    (μ : Nat → Nat) (k : Nat) :
    RSim F f μ k st' (fun o st => rdelem o call el f st) (match decElem call el st'.buf with
      | (b', .error err) => (⟨st'.fs, b'⟩, some err)
      | (b', .ok none) => (⟨st'.fs, b'⟩, none)
      | (b', .ok (some v)) => (⟨st'.fs.set f (.list (xs ++ [v])), b'⟩, none)) := by
  cases el with
  | num t e =>
    simp only [decElem]
    rcases hr : st'.buf.readNum e t with ⟨b1, err | n⟩
    · exact sim_look hf fun o st hb _ => by simp [rdelem, RDSt.look, hb, hr]
    · exact sim_change hf fun o st hb ho => by simp [rdelem, RDSt.look, RDSt.add, hb, hr, ho, hx]
  | fixed n pad left =>
    simp only [decElem]
    rcases hr : readFixedString st'.buf n pad left with ⟨b1, err | s⟩
    · exact sim_look hf fun o st hb _ => by simp [rdelem, RDSt.look, hb, hr]
    · exact sim_change hf fun o st hb ho => by simp [rdelem, RDSt.look, RDSt.add, hb, hr, ho, hx]
  | dyn t e =>
    simp only [decElem, readDyn]
    rcases hr : st'.buf.readNum e t with ⟨b1, err | n⟩
    · exact sim_none fun o st hb => by simp [rdelem, hb, hr]
    · dsimp only
      by_cases hp : 0 < n.bits.toInt
      · simp only [if_pos hp]
        rcases hr2 : b1.readText n.bits.toNat with ⟨b2, err | s⟩
        · exact sim_look hf fun o st hb _ => by simp [rdelem, RDSt.look, hb, hr, hr2, hp]
        · exact sim_change hf fun o st hb ho => by simp [rdelem, RDSt.look, RDSt.add, hb, hr, hr2, hp, ho, hx]
      · simp only [if_neg hp]
        exact sim_none fun o st hb => by simp [rdelem, hb, hr, hp]
  | obj c =>
    simp only [decElem]
    rcases hr : call c (freshFields c) st'.buf with ⟨gs, b1, _ | err⟩
    · exact sim_change hf fun o st hb ho => by simp [rdelem, RDSt.look, RDSt.add, hb, hr, ho, hx]
    · exact sim_none fun o st hb => by simp [rdelem, hb, hr]

theorem rdloop_sim (call : DecCall) (el : DecElem) {f : Nat} (hf : F f) :
    ∀ (m : Nat) (xs : List Val) (st' : DecSt), st'.fs[f]? = some (.list xs) → ∀ μ k,
      RSim F f μ k st' (fun o st => rdloop o call el f m st)
        (⟨st'.fs.set f (.list (decElems call el m xs st'.buf).1), (decElems call el m xs st'.buf).2.1⟩, (decElems call el m xs st'.buf).2.2)
  | 0, xs, st', hx, μ, k => by
    simp only [decElems, rdloop]
    have : st'.fs.set f (.list xs) = st'.fs := by
      obtain ⟨hlt, he⟩ := List.getElem?_eq_some_iff.mp hx
      rw [← he]; exact List.set_getElem_self hlt
    rw [this]
    exact sim_none fun o st hb => by rw [← hb]
  | m + 1, xs, st', hx, μ, k => by
    obtain ⟨hlt, he⟩ := List.getElem?_eq_some_iff.mp hx
    have hself : st'.fs.set f (.list xs) = st'.fs := by rw [← he]; exact List.set_getElem_self hlt
    have hs := rdelem_sim call el hf xs st' hx
    simp only [decElems]
    rcases hd : decElem call el st'.buf with ⟨b', err | _ | v⟩
    · have hs := hs μ k
      rw [hd] at hs
      dsimp only at hs
      obtain ⟨μ', k', hk, hc, g⟩ := hs
      dsimp only
      rw [hself]
      refine ⟨μ', k', hk, hc, fun o ho st hst => ?_⟩
      have := g o ho st hst
      dsimp only at this
      simp only [rdloop]
      generalize rdelem o call el f st = q at this
      obtain ⟨q1, q2⟩ := q
      obtain ⟨h1, rfl⟩ := this
      exact ⟨h1, rfl⟩
    · have hs := hs μ k
      rw [hd] at hs
      dsimp only at hs
      have ht := hs.trans (rdloop_sim call el hf m xs ⟨st'.fs, b'⟩ hx)
      obtain ⟨μ', k', hk, hc, g⟩ := ht
      refine ⟨μ', k', hk, hc, fun o ho st hst => ?_⟩
      have h2 := g o ho st hst
      dsimp only at h2
      obtain ⟨μ1, k1, -, -, g1⟩ := hs
      have h1 := (g1 o ho st hst).2
      dsimp only at h1
      simp only [rdloop]
      generalize rdelem o call el f st = q at h1 h2
      obtain ⟨q1, q2⟩ := q
      simp only at h1; subst h1
      exact h2
    · have hs := hs μ k
      rw [hd] at hs
      dsimp only at hs
      have ht := hs.trans (rdloop_sim call el hf m (xs ++ [v]) ⟨st'.fs.set f (.list (xs ++ [v])), b'⟩ (List.getElem?_set_self hlt))
      simp only [List.set_set] at ht
      obtain ⟨μ', k', hk, hc, g⟩ := ht
      refine ⟨μ', k', hk, hc, fun o ho st hst => ?_⟩
      have h2 := g o ho st hst
      dsimp only at h2
      obtain ⟨μ1, k1, -, -, g1⟩ := hs
      have h1 := (g1 o ho st hst).2
      dsimp only at h1
      simp only [rdloop]
      generalize rdelem o call el f st = q at h1 h2
      obtain ⟨q1, q2⟩ := q
      simp only at h1; subst h1
      exact h2

/-- The field a statement assigns. -/
def target : DecStmt → Nat
  | .num f _ _ | .fixed f _ _ _ | .dyn f _ _ | .list f _ _ _ | .obj f _ | .create f _ _ | .call f => f

/-- What the proof needs of a statement. -/
def fineDec (F : Nat → Prop) (len : Nat) : DecStmt → Prop
  | .list f _ _ _ => F f ∧ f < len
  | .obj f _ => F f ∧ f < len
  | .create _ _ key => F key
  | .call f => F f
  | _ => True

theorem rdcall_sim (call : DecCall) {f : Nat} (hf : F f) (st' : DecSt) (μ : Nat → Nat) (k : Nat) :
    RSim F f μ k st' (fun o st => rdcall o call f st) (match st'.fs[f]? with
      | some .null => (st', some .nullPointer)
      | some (.obj c' fs') =>
        let r := call c' fs' st'.buf
        (⟨st'.fs.set f (.obj c' r.1), r.2.1⟩, r.2.2)
      | _ => (st', some .illTyped) : DecSt × Option JErr) := by
  rcases hv : st'.fs[f]? with _ | v
  · exact sim_look hf fun o st hb ho => by simp [rdcall, RDSt.look, ho, hv, hb]
  · cases v with
    | obj c gs => exact sim_change hf fun o st hb ho => by simp [rdcall, RDSt.look, ho, hv, hb]
    | _ => exact sim_look hf fun o st hb ho => by simp [rdcall, RDSt.look, ho, hv, hb]

theorem rdstmt_sim (w : World) (call : DecCall) (tys : List FTy) (s : DecStmt) (st' : DecSt) (hs : fineDec F st'.fs.length s) (μ : Nat → Nat)
    (k : Nat) : RSim F (target s) μ k st' (fun o st => rdstmt w o call tys s st) (decStmt w call tys s st') := by
  cases s with
  | num f t e =>
    simp only [decStmt, target]
    rcases hr : st'.buf.readNum e t with ⟨b', err | n⟩
    · exact sim_none fun o st hb => by simp [rdstmt, hb, hr]
    · dsimp only
      cases ht : tys[f]?.bind (assignNum · n) with
      | none => exact sim_none fun o st hb => by simp [rdstmt, hb, hr, ht]
      | some v => exact sim_put fun o st hb => by simp [rdstmt, hb, hr, ht]
  | fixed f n pad left =>
    simp only [decStmt, target]
    rcases hr : readFixedString st'.buf n pad left with ⟨b', err | s⟩
    · exact sim_none fun o st hb => by simp [rdstmt, hb, hr]
    · exact sim_put fun o st hb => by simp [rdstmt, hb, hr]
  | dyn f t e =>
    simp only [decStmt, target]
    rcases hr : readDyn st'.buf t e with ⟨b', err | _ | s⟩
    · exact sim_none fun o st hb => by simp [rdstmt, hb, hr]
    · exact sim_none fun o st hb => by simp [rdstmt, hb, hr]
    · exact sim_put fun o st hb => by simp [rdstmt, hb, hr]
  | list f t e el =>
    simp only [decStmt, target]
    rcases hr : st'.buf.readNum e t with ⟨b', err | n⟩
    · exact sim_none fun o st hb => by simp [rdstmt, hb, hr]
    · dsimp only
      by_cases hp : 0 < n.bits.toInt
      · simp only [if_pos hp]
        have h1 : RSim F f μ k st' (fun o st => (({ st with buf := b' } : RDSt).put o f (.list []), none)) (⟨st'.fs.set f (.list []), b'⟩, none) :=
          sim_put fun o st _ => rfl
        have h2 := h1.trans (rdloop_sim call el hs.1 n.bits.toNat [] ⟨st'.fs.set f (.list []), b'⟩ (List.getElem?_set_self hs.2))
        simp only [List.set_set] at h2
        obtain ⟨μ', k', hk, hc, g⟩ := h2
        refine ⟨μ', k', hk, hc, fun o ho st hst => ?_⟩
        have := g o ho st hst
        simp only [rdstmt, hst.2.2, hr, if_pos hp]
        exact this
      · simp only [if_neg hp]
        exact sim_none fun o st hb => by simp [rdstmt, hb, hr, hp]
  | obj f c =>
    obtain ⟨v, hv⟩ : ∃ v, st'.fs[f]? = some v := ⟨_, List.getElem?_eq_getElem hs.2⟩
    have h1 : RSim F f μ k st' (fun o st => ((st.look o f).1, none)) (st', none) := sim_look hs.1 fun o st hb _ => by simp [RDSt.look, hb]
    by_cases hn : v = .null
    · subst hn
      have h2 : ∀ μ k, RSim F f μ k st' (fun o st => (st.put o f (fresh c), none)) (⟨st'.fs.set f (fresh c), st'.buf⟩, none) :=
        fun μ k => sim_put fun o st hb => by rw [← hb]
      have h3 := (h1.trans h2).trans (rdcall_sim call hs.1 ⟨st'.fs.set f (fresh c), st'.buf⟩)
      simp only [List.getElem?_set_self hs.2, fresh, List.set_set] at h3
      simp only [decStmt, target, hv]
      obtain ⟨μ', k', hk, hc, g⟩ := h3
      refine ⟨μ', k', hk, hc, fun o ho st hst => ?_⟩
      have hlook : (setAll st.fs (o st.k))[f]? = some .null := by
        have := hst.2.1.step.own ho hs.1
        rw [hv, ← hst.1] at this
        exact this
      have := g o ho st hst
      simp only [rdstmt, RDSt.look, hlook] at this ⊢
      exact this
    · have h3 := h1.trans (rdcall_sim call hs.1 st')
      rw [hv] at h3
      obtain ⟨μ', k', hk, hc, g⟩ := h3
      have hd : decStmt w call tys (.obj f c) st' = (match some v with
          | some .null => (st', some .nullPointer)
          | some (.obj c' fs') =>
            let r := call c' fs' st'.buf
            (⟨st'.fs.set f (.obj c' r.1), r.2.1⟩, r.2.2)
          | _ => (st', some .illTyped) : DecSt × Option JErr) := by
        simp only [decStmt, hv]
        cases v <;> first | rfl | exact absurd rfl hn
      rw [hd]
      refine ⟨μ', k', hk, hc, fun o ho st hst => ?_⟩
      have hlook : (setAll st.fs (o st.k))[f]? = some v := by
        have := hst.2.1.step.own ho hs.1
        rw [hv, ← hst.1] at this
        exact this
      have := g o ho st hst
      have e : rdstmt w o call tys (.obj f c) st = rdcall o call f (st.look o f).1 := by
        simp only [rdstmt, RDSt.look, hlook]
      dsimp only
      rw [e]
      exact this
  | create f fac key =>
    simp only [decStmt, target]
    rcases hv : st'.fs[key]? with _ | v
    · exact sim_look hs fun o st hb ho => by simp [rdstmt, RDSt.look, ho, hv, hb]
    · dsimp only
      cases hw : w.fac fac (keyOf v) with
      | none => exact sim_look hs fun o st hb ho => by simp [rdstmt, RDSt.look, ho, hv, hb, hw]
      | some u =>
        have h1 : RSim F f μ k st' (fun o st => ((st.look o key).1, none)) (st', none) := sim_look hs fun o st hb _ => by simp [RDSt.look, hb]
        have h2 : ∀ μ k, RSim F f μ k st' (fun o st => (st.put o f u, none)) (⟨st'.fs.set f u, st'.buf⟩, none) :=
          fun μ k => sim_put fun o st hb => by rw [← hb]
        obtain ⟨μ', k', hk, hc, g⟩ := h1.trans h2
        refine ⟨μ', k', hk, hc, fun o ho st hst => ?_⟩
        have hlook : (setAll st.fs (o st.k))[key]? = some v := by
          have := hst.2.1.step.own ho hs
          rw [hv, ← hst.1] at this
          exact this
        have := g o ho st hst
        simp only [rdstmt, RDSt.look, hlook, hw] at this ⊢
        exact this
  | call f =>
    have h := rdcall_sim call hs st' μ k
    have hd : decStmt w call tys (.call f) st' = (match st'.fs[f]? with
        | some .null => (st', some .nullPointer)
        | some (.obj c' fs') =>
          let r := call c' fs' st'.buf
          (⟨st'.fs.set f (.obj c' r.1), r.2.1⟩, r.2.2)
        | _ => (st', some .illTyped) : DecSt × Option JErr) := by
      simp only [decStmt]
      rcases st'.fs[f]? with _ | v
      · rfl
      · cases v <;> rfl
    rw [hd]
    exact h

/-- The targets do not go back. -/
def inOrder : Nat → List DecStmt → Bool
  | _, [] => true
  | m, s :: ss => decide (m ≤ target s) && inOrder (target s) ss

/-- Fields are assigned in order; a field that was not assigned is as before. -/
def Ord (fs0 fs : List Val) (μ : Nat → Nat) (k m : Nat) : Prop :=
  (∀ f, μ f ≤ k) ∧ (∀ f g, f < g → μ g ≠ 0 → μ f < μ g) ∧ (∀ g, m < g → μ g = 0) ∧ ∀ f, μ f = 0 → fs[f]? = fs0[f]?

theorem rdstmts_sim (w : World) (call : DecCall) (tys : List FTy) (fs0 : List Val) (len : Nat) :
    ∀ (ss : List DecStmt) (st' : DecSt) (μ : Nat → Nat) (k m : Nat), st'.fs.length = len → (∀ s ∈ ss, fineDec F len s) → inOrder m ss = true →
      Ord fs0 st'.fs μ k m → ∃ (μ' : Nat → Nat) (k' m' : Nat), Ord fs0 (decStmts w call tys ss st').1.fs μ' k' m' ∧
        ∀ o : Others, (∀ k, ∀ p ∈ o k, ¬ F p.1) → ∀ st, st.Rel o μ k st' →
          (rdstmts w o call tys ss st).1.Rel o μ' k' (decStmts w call tys ss st').1 ∧ (rdstmts w o call tys ss st).2 = (decStmts w call tys ss st').2
  | [], st', μ, k, m, _, _, _, hO => ⟨μ, k, m, hO, fun o _ st h => ⟨h, rfl⟩⟩
  | s :: ss, st', μ, k, m, hl, hs, hm, hO => by
    simp only [inOrder, Bool.and_eq_true, decide_eq_true_eq] at hm
    obtain ⟨μ1, k1, hk, hc, g⟩ := rdstmt_sim w call tys s st' (by rw [hl]; exact hs s (by simp)) μ k
    have hO1 : Ord fs0 (decStmt w call tys s st').1.fs μ1 k1 (target s) := by
      obtain ⟨a, b, c, d⟩ := hO
      rcases hc with ⟨rfl, e⟩ | ⟨j, v, hj, hj', rfl, e⟩
      · rw [e]
        exact ⟨fun f => Nat.le_trans (a f) hk, b, fun g hg => c g (by omega), d⟩
      · rw [e]
        refine ⟨fun f => ?_, fun f g hfg hg => ?_, fun g hg => ?_, fun f hf => ?_⟩
        · have := a f
          unfold upd; split <;> omega
        · have ha := a f
          unfold upd at hg ⊢
          by_cases h1 : g = target s
          · rw [if_pos h1, if_neg (by omega)]
            omega
          · rw [if_neg h1] at hg ⊢
            by_cases h2 : f = target s
            · exact absurd (c g (by omega)) hg
            · rw [if_neg h2]
              exact b f g hfg hg
        · have := c g (by omega)
          unfold upd; split
          · omega
          · exact this
        · unfold upd at hf
          split at hf
          · omega
          · rename_i hne
            rw [List.getElem?_set_ne (fun x => hne x.symm)]
            exact d f hf
    have hl1 : (decStmt w call tys s st').1.fs.length = len := by
      rcases hc with ⟨_, e⟩ | ⟨_, _, _, _, _, e⟩ <;> rw [e] <;> simp [hl]
    rcases hd : decStmt w call tys s st' with ⟨s1, _ | e⟩
    · rw [hd] at g hO1 hl1
      obtain ⟨μ2, k2, m2, hO2, g2⟩ := rdstmts_sim w call tys fs0 len ss s1 μ1 k1 (target s) hl1 (fun s hs' => hs s (by simp [hs'])) hm.2 hO1
      simp only [decStmts, hd]
      refine ⟨μ2, k2, m2, hO2, fun o ho st hst => ?_⟩
      have h1 := g o ho st hst
      dsimp only at h1
      simp only [rdstmts]
      generalize rdstmt w o call tys s st = q at h1
      obtain ⟨q1, q2⟩ := q
      obtain ⟨h1, rfl⟩ := h1
      exact g2 o ho q1 h1
    · rw [hd] at g hO1
      simp only [decStmts, hd]
      refine ⟨μ1, k1, target s, hO1, fun o ho st hst => ?_⟩
      have h1 := g o ho st hst
      dsimp only at h1
      simp only [rdstmts]
      generalize rdstmt w o call tys s st = q at h1
      obtain ⟨q1, q2⟩ := q
      obtain ⟨h1, rfl⟩ := h1
      exact ⟨h1, rfl⟩

end

/-- Decidable forms. -/
def rereadB (c : Cls) (f : Nat) : Bool :=
  (match (wire c)[f]? with
    | some (.list _) | some (.sub _) | some (.ext _ _) => true
    | _ => false)
  || (wire c).any fun t => match t with | .ext _ k => k == f | _ => false

theorem reread_iff (c : Cls) (f : Nat) : Reread c f ↔ rereadB c f = true := by
  unfold Reread rereadB
  rw [Bool.or_eq_true]
  refine or_congr ?_ ?_
  · split <;> simp_all
  · rw [List.any_eq_true]
    constructor
    · rintro ⟨i, fac, h⟩
      exact ⟨_, List.mem_of_getElem? h, by simp⟩
    · rintro ⟨t, ht, h⟩
      obtain ⟨i, hi⟩ := List.getElem?_of_mem ht
      cases t with
      | ext fac k => exact ⟨i, fac, by rw [hi]; simp at h; rw [h]⟩
      | _ => simp at h

def fineDecB (G : Nat → Bool) (len : Nat) : DecStmt → Bool
  | .list f _ _ _ => G f && decide (f < len)
  | .obj f _ => G f && decide (f < len)
  | .create _ _ key => G key
  | .call f => G f
  | _ => true

theorem dec_fine (c : Cls) : ((decl c).dec.all fun s => fineDecB (rereadB c) (wire c).length s) = true := by
  cases c <;> rfl

theorem dec_inOrder (c : Cls) : inOrder 0 (decl c).dec = true := by
  cases c <;> rfl

theorem fineDec_of (c : Cls) (len : Nat) (s : DecStmt) (h : fineDecB (rereadB c) len s = true) : fineDec (Reread c) len s := by
  cases s <;> simp_all [fineDecB, fineDec, reread_iff]

end FinProto
