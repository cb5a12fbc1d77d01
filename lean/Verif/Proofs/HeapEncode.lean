import Verif.Proofs.HeapBasic
/-
Helper lemmas: `encode` on the heap writes what `encode` of the value shown writes, whatever is shared.
-/
namespace FinProto

/-- Fields that `encode` itself assigns before it writes them. -/
def assigns (w : World) (f : Nat) : EncStmt → Bool
  | .setLen g _ _ => g == f
  | .checksum g alg => g == f && (Registry.getService w.svc alg).isSome
  | _ => false

def computed (w : World) (c : Cls) (f : Nat) : Bool := (decl c).enc.any (assigns w f)

mutual
/-- As `Shows`, but ignoring the fields that `encode` computes. -/
def HSim (w : World) (h : Heap) : Val → HVal → Prop
  | .null, x => x = .null
  | .num n, x => x = .num n
  | .str s, x => x = .str s
  | .list xs, x => ∃ a ys, x = .ref a ∧ h[a]? = some (.arr ys) ∧ SimAll w h xs (fun _ => false) ys
  | .obj c fs, x => ∃ r ys, x = .ref r ∧ h[r]? = some (.msg c ys) ∧ SimAll w h fs (computed w c) ys
def SimAll (w : World) (h : Heap) : List Val → (Nat → Bool) → List HVal → Prop
  | [], _, ys => ys = []
  | v :: vs, p, ys => ∃ z zs, ys = z :: zs ∧ (p 0 = false → HSim w h v z) ∧ SimAll w h vs (fun i => p (i + 1)) zs
end

mutual
/-- Size of a value, ignoring the fields that `encode` computes. -/
def csize (w : World) : Val → Nat
  | .list xs => 1 + csizeAll w xs (fun _ => false)
  | .obj c fs => 1 + csizeAll w fs (computed w c)
  | _ => 1
def csizeAll (w : World) : List Val → (Nat → Bool) → Nat
  | [], _ => 0
  | v :: vs, p => (if p 0 then 0 else csize w v) + csizeAll w vs (fun i => p (i + 1))
end

/-- `h'` differs from `h` in computed fields only. -/
def Chg (w : World) (h h' : Heap) : Prop :=
  h'.length = h.length ∧ (∀ (a : Nat) ys, h[a]? = some (.arr ys) → h'[a]? = some (.arr ys))
    ∧ ∀ (r : Nat) c ys, h[r]? = some (.msg c ys) → ∃ ys', h'[r]? = some (.msg c ys') ∧ ys'.length = ys.length
        ∧ ∀ f, computed w c f = false → ys'[f]? = ys[f]?

theorem Chg.refl (w : World) (h : Heap) : Chg w h h :=
  ⟨rfl, fun _ _ ha => ha, fun _ _ ys hr => ⟨ys, hr, rfl, fun _ _ => rfl⟩⟩

theorem Chg.trans {w : World} {h1 h2 h3 : Heap} (a : Chg w h1 h2) (b : Chg w h2 h3) : Chg w h1 h3 := by
  refine ⟨by rw [b.1, a.1], fun q ys hq => b.2.1 q ys (a.2.1 q ys hq), fun r c ys hr => ?_⟩
  obtain ⟨ys2, h2, hl2, hf2⟩ := a.2.2 r c ys hr
  obtain ⟨ys3, h3, hl3, hf3⟩ := b.2.2 r c ys2 h2
  exact ⟨ys3, h3, by rw [hl3, hl2], fun f hf => by rw [hf3 f hf, hf2 f hf]⟩

theorem SimAll_cons (w : World) (h : Heap) (v : Val) (vs : List Val) (p : Nat → Bool) (y : HVal) (ys : List HVal) :
    SimAll w h (v :: vs) p (y :: ys) ↔ (p 0 = false → HSim w h v y) ∧ SimAll w h vs (fun i => p (i + 1)) ys := by
  simp only [SimAll, List.cons.injEq]
  constructor
  · rintro ⟨z, zs, ⟨rfl, rfl⟩, h1, h2⟩; exact ⟨h1, h2⟩
  · rintro ⟨h1, h2⟩; exact ⟨_, _, ⟨rfl, rfl⟩, h1, h2⟩

theorem SimAll_length (w : World) (h : Heap) : ∀ (vs : List Val) (p : Nat → Bool) (ys : List HVal), SimAll w h vs p ys → vs.length = ys.length
  | [], p, ys, hs => by rw [SimAll] at hs; subst hs; rfl
  | v :: vs, p, ys, hs => by
    rw [SimAll] at hs
    obtain ⟨z, zs, rfl, _, ha⟩ := hs
    rw [List.length_cons, List.length_cons, SimAll_length w h vs _ zs ha]

theorem SimAll_iff (w : World) (h : Heap) : ∀ (vs : List Val) (p : Nat → Bool) (ys : List HVal), SimAll w h vs p ys ↔
    vs.length = ys.length ∧ ∀ (f : Nat) (v : Val) (y : HVal), vs[f]? = some v → ys[f]? = some y → p f = false → HSim w h v y
  | [], p, ys => by
    rw [SimAll]
    constructor
    · rintro rfl; exact ⟨rfl, by intro f v y hv; simp at hv⟩
    · rintro ⟨hl, _⟩; exact (List.length_eq_zero_iff.1 hl.symm)
  | v :: vs, p, ys => by
    cases ys with
    | nil => simp [SimAll]
    | cons y ys =>
      rw [SimAll_cons, SimAll_iff w h vs _ ys]
      constructor
      · rintro ⟨h1, hl, h2⟩
        refine ⟨by simp [hl], fun f v' y' hv hy hp => ?_⟩
        cases f with
        | zero =>
          simp only [List.getElem?_cons_zero, Option.some.injEq] at hv hy
          subst hv; subst hy; exact h1 hp
        | succ f =>
          simp only [List.getElem?_cons_succ] at hv hy
          exact h2 f v' y' hv hy hp
      · rintro ⟨hl, h2⟩
        refine ⟨h2 0 v y rfl rfl, by simpa using hl, fun f v' y' hv hy hp => h2 (f + 1) v' y' (by simpa using hv) (by simpa using hy) hp⟩

/-- Changing computed fields does not matter. -/
theorem sim_chg {w : World} {h h' : Heap} (hc : Chg w h h') (v : Val) : ∀ x, HSim w h v x → HSim w h' v x := by
  apply Val.rec
    (motive_1 := fun v => ∀ x, HSim w h v x → HSim w h' v x)
    (motive_2 := fun vs => ∀ (p : Nat → Bool) (ys ys' : List HVal), SimAll w h vs p ys → ys'.length = ys.length →
      (∀ f, p f = false → ys'[f]? = ys[f]?) → SimAll w h' vs p ys')
  · intro x hx; rw [HSim] at hx ⊢; exact hx
  · intro n x hx; rw [HSim] at hx ⊢; exact hx
  · intro s x hx; rw [HSim] at hx ⊢; exact hx
  · intro xs ih x hx
    rw [HSim] at hx ⊢
    obtain ⟨a, ys, rfl, ha, hall⟩ := hx
    exact ⟨a, ys, rfl, hc.2.1 a ys ha, ih _ ys ys hall rfl (fun _ _ => rfl)⟩
  · intro c fs ih x hx
    rw [HSim] at hx ⊢
    obtain ⟨a, ys, rfl, ha, hall⟩ := hx
    obtain ⟨ys', h1, h2, h3⟩ := hc.2.2 a c ys ha
    exact ⟨a, ys', rfl, h1, ih _ ys ys' hall h2 h3⟩
  · intro p ys ys' hs hl _
    rw [SimAll] at hs
    subst hs
    rw [SimAll]
    exact List.length_eq_zero_iff.1 hl
  · intro v vs ih1 ih2 p ys ys' hs hl hf
    rw [SimAll] at hs
    obtain ⟨z, zs, rfl, hz, hzs⟩ := hs
    cases ys' with
    | nil => simp at hl
    | cons z' zs' =>
      rw [SimAll_cons]
      refine ⟨fun hp => ?_, ih2 _ zs zs' hzs (by simpa using hl) (fun f hp => by simpa using hf (f + 1) hp)⟩
      have := hf 0 hp
      simp only [List.getElem?_cons_zero, Option.some.injEq] at this
      subst this
      exact ih1 _ (hz hp)

/-- The size is a matter of the heap. -/
theorem sim_size {w : World} {h : Heap} (v : Val) : ∀ x v', HSim w h v x → HSim w h v' x → csize w v = csize w v' := by
  apply Val.rec
    (motive_1 := fun v => ∀ x v', HSim w h v x → HSim w h v' x → csize w v = csize w v')
    (motive_2 := fun vs => ∀ (p : Nat → Bool) (ys : List HVal) (vs' : List Val), SimAll w h vs p ys → SimAll w h vs' p ys →
      csizeAll w vs p = csizeAll w vs' p)
  · intro x v' hx hx'
    rw [HSim] at hx; subst hx
    cases v' <;> simp [HSim] at hx' <;> rfl
  · intro n x v' hx hx'
    rw [HSim] at hx; subst hx
    cases v' <;> simp [HSim] at hx' <;> rfl
  · intro s x v' hx hx'
    rw [HSim] at hx; subst hx
    cases v' <;> simp [HSim] at hx' <;> rfl
  · intro xs ih x v' hx hx'
    rw [HSim] at hx
    obtain ⟨a, ys, rfl, ha, hall⟩ := hx
    cases v' with
    | list xs' =>
      rw [HSim] at hx'
      obtain ⟨a', ys', he, ha', hall'⟩ := hx'
      cases he
      rw [ha] at ha'
      injection ha' with he; injection he with he; subst he
      rw [csize, csize, ih _ ys xs' hall hall']
    | obj c' fs' =>
      rw [HSim] at hx'
      obtain ⟨a', ys', he, ha', hall'⟩ := hx'
      cases he
      rw [ha] at ha'
      injection ha' with he; cases he
    | _ => simp [HSim] at hx'
  · intro c fs ih x v' hx hx'
    rw [HSim] at hx
    obtain ⟨a, ys, rfl, ha, hall⟩ := hx
    cases v' with
    | obj c' fs' =>
      rw [HSim] at hx'
      obtain ⟨a', ys', he, ha', hall'⟩ := hx'
      cases he
      rw [ha] at ha'
      injection ha' with he; injection he with he1 he2; subst he1; subst he2
      rw [csize, csize, ih _ ys fs' hall hall']
    | list xs' =>
      rw [HSim] at hx'
      obtain ⟨a', ys', he, ha', hall'⟩ := hx'
      cases he
      rw [ha] at ha'
      injection ha' with he; cases he
    | _ => simp [HSim] at hx'
  · intro p ys vs' hs hs'
    rw [SimAll] at hs; subst hs
    cases vs' with
    | nil => rfl
    | cons v vs => simp [SimAll] at hs'
  · intro v vs ih1 ih2 p ys vs' hs hs'
    rw [SimAll] at hs
    obtain ⟨z, zs, rfl, hz, hzs⟩ := hs
    cases vs' with
    | nil => simp [SimAll] at hs'
    | cons v' vs' =>
      rw [SimAll_cons] at hs'
      rw [csizeAll, csizeAll, ih2 _ zs vs' hzs hs'.2]
      cases hp : p 0 with
      | true => rfl
      | false => rw [ih1 z v' (hz hp) (hs'.1 hp)]

theorem shows_sim (w : World) (h : Heap) (v : Val) : ∀ x, Shows h v x → HSim w h v x := by
  apply Val.rec
    (motive_1 := fun v => ∀ x, Shows h v x → HSim w h v x)
    (motive_2 := fun vs => ∀ (p : Nat → Bool) ys, ShowsAll h vs ys → SimAll w h vs p ys)
  · intro x hx; rw [Shows] at hx; rw [HSim]; exact hx
  · intro n x hx; rw [Shows] at hx; rw [HSim]; exact hx
  · intro s x hx; rw [Shows] at hx; rw [HSim]; exact hx
  · intro xs ih x hx
    rw [Shows] at hx
    obtain ⟨a, ys, rfl, ha, hall⟩ := hx
    rw [HSim]
    exact ⟨a, ys, rfl, ha, ih _ ys hall⟩
  · intro c fs ih x hx
    rw [Shows] at hx
    obtain ⟨a, ys, rfl, ha, hall⟩ := hx
    rw [HSim]
    exact ⟨a, ys, rfl, ha, ih _ ys hall⟩
  · intro p ys hs; rw [ShowsAll] at hs; rw [SimAll]; exact hs
  · intro v vs ih1 ih2 p ys hs
    rw [ShowsAll] at hs
    obtain ⟨z, zs, rfl, hz, hzs⟩ := hs
    rw [SimAll_cons]
    exact ⟨fun _ => ih1 z hz, ih2 _ zs hzs⟩

theorem csizeAll_mem (w : World) : ∀ (vs : List Val) (p : Nat → Bool) (f : Nat) (v : Val), vs[f]? = some v → p f = false →
    csize w v ≤ csizeAll w vs p
  | [], p, f, v, hv, _ => by simp at hv
  | u :: us, p, f, v, hv, hp => by
    rw [csizeAll]
    cases f with
    | zero =>
      simp only [List.getElem?_cons_zero, Option.some.injEq] at hv
      subst hv
      rw [hp]
      simp
    | succ f =>
      have := csizeAll_mem w us (fun i => p (i + 1)) f v (by simpa using hv) hp
      omega

/-! ### Nested calls -/

/-- What a call does when it encodes a value of size `k`. -/
def Effect (w : World) (k : Nat) (h h' : Heap) : Prop :=
  Chg w h h' ∧ ∀ (q : Nat) u, HSim w h u (.ref q) → k < csize w u → h'[q]? = h[q]?

theorem Effect.refl (w : World) (k : Nat) (h : Heap) : Effect w k h h := ⟨Chg.refl w h, fun _ _ _ _ => rfl⟩

theorem Effect.trans {w : World} {k : Nat} {h1 h2 h3 : Heap} (a : Effect w k h1 h2) (b : Effect w k h2 h3) : Effect w k h1 h3 := by
  refine ⟨a.1.trans b.1, fun q u hu hk => ?_⟩
  rw [b.2 q u (sim_chg a.1 u _ hu) hk, a.2 q u hu hk]

theorem Effect.mono {w : World} {k k' : Nat} {h h' : Heap} (a : Effect w k h h') (hk : k ≤ k') : Effect w k' h h' :=
  ⟨a.1, fun q u hu hlt => a.2 q u hu (by omega)⟩

def hCallSim (w : World) (ct : EncCall) (ch : HEncCall) : Prop := ∀ v x h b, HSim w h v x →
  (ch x h b).2 = (ct v b).2 ∧ Effect w (csize w v) h (ch x h b).1 ∧ HSim w (ch x h b).1 (ct v b).1 x

/-- Leaves are the same on both sides. -/
theorem sim_fixed (w : World) (h : Heap) (v : Val) (x : HVal) (hs : HSim w h v x) (b : WBuf) (n : Nat) (pad : JChar) (left : Bool) :
    writeFixedVal b x.leaf n pad left = writeFixedVal b v n pad left := by
  cases v <;> rw [HSim] at hs
  · subst hs; rfl
  · subst hs; rfl
  · subst hs; rfl
  · obtain ⟨a, ys, rfl, _, _⟩ := hs; rfl
  · obtain ⟨a, ys, rfl, _, _⟩ := hs; rfl

theorem sim_dyn (w : World) (h : Heap) (v : Val) (x : HVal) (hs : HSim w h v x) (b : WBuf) (zt t : PTy) (e : Endian) :
    writeDynVal b x.leaf zt t e = writeDynVal b v zt t e := by
  cases v <;> rw [HSim] at hs
  · subst hs; rfl
  · subst hs; rfl
  · subst hs; rfl
  · obtain ⟨a, ys, rfl, _, _⟩ := hs; rfl
  · obtain ⟨a, ys, rfl, _, _⟩ := hs; rfl

theorem sim_val (w : World) (h : Heap) (v : Val) (x : HVal) (hs : HSim w h v x) (b : WBuf) (t : PTy) (e : Endian) :
    writeVal b t e x.leaf = writeVal b t e v := by
  cases v <;> rw [HSim] at hs
  · subst hs; rfl
  · subst hs; rfl
  · subst hs; rfl
  · obtain ⟨a, ys, rfl, _, _⟩ := hs; rfl
  · obtain ⟨a, ys, rfl, _, _⟩ := hs; rfl

theorem hencElem_sim {w : World} {ct : EncCall} {ch : HEncCall} (hc : hCallSim w ct ch) (el : EncElem) (v : Val) (x : HVal) (h : Heap)
    (b : WBuf) (hs : HSim w h v x) :
    (hencElem ch el x h b).2 = (encElem ct el v b).2 ∧ Effect w (csize w v) h (hencElem ch el x h b).1
      ∧ HSim w (hencElem ch el x h b).1 (encElem ct el v b).1 x := by
  cases el with
  | num t e => exact ⟨sim_val w h v x hs b t e, Effect.refl _ _ _, hs⟩
  | fixed n pad left => exact ⟨sim_fixed w h v x hs b n pad left, Effect.refl _ _ _, hs⟩
  | dyn zt t e => exact ⟨sim_dyn w h v x hs b zt t e, Effect.refl _ _ _, hs⟩
  | obj => exact hc v x h b hs

theorem hencElems_sim {w : World} {ct : EncCall} {ch : HEncCall} (hc : hCallSim w ct ch) (el : EncElem) :
    ∀ (vs : List Val) (xs : List HVal) (h : Heap) (b : WBuf), SimAll w h vs (fun _ => false) xs →
    (hencElems ch el xs h b).2 = (encElems ct el vs b).2 ∧ Effect w (csizeAll w vs (fun _ => false)) h (hencElems ch el xs h b).1
      ∧ SimAll w (hencElems ch el xs h b).1 (encElems ct el vs b).1 (fun _ => false) xs
  | [], xs, h, b, hs => by
    rw [SimAll] at hs; subst hs
    exact ⟨rfl, Effect.refl _ _ _, by simp [encElems, SimAll]⟩
  | v :: vs, xs, h, b, hs => by
    rw [SimAll] at hs
    obtain ⟨z, zs, rfl, hz, hzs⟩ := hs
    obtain ⟨h1, h2, h3⟩ := hencElem_sim hc el v z h b (hz rfl)
    simp only [hencElems, encElems]
    revert h1 h2 h3
    rcases hencElem ch el z h b with ⟨h', b', e⟩
    rcases encElem ct el v b with ⟨v', b'', e'⟩
    dsimp only
    intro h1 h2 h3
    injection h1 with he1 he2
    subst he1; subst he2
    have hzs' : SimAll w h' vs (fun _ => false) zs := by
      rw [SimAll_iff] at hzs ⊢
      exact ⟨hzs.1, fun f u y hu hy hp => sim_chg h2.1 u y (hzs.2 f u y hu hy hp)⟩
    have hle : csize w v ≤ csizeAll w (v :: vs) (fun _ => false) := by rw [csizeAll]; simp
    have hle2 : csizeAll w vs (fun _ => false) ≤ csizeAll w (v :: vs) (fun _ => false) := by rw [csizeAll]; simp
    cases e with
    | some e =>
      refine ⟨rfl, h2.mono hle, ?_⟩
      dsimp only
      rw [SimAll_cons]
      exact ⟨fun _ => h3, hzs'⟩
    | none =>
      obtain ⟨g1, g2, g3⟩ := hencElems_sim hc el vs zs h' b' hzs'
      refine ⟨g1, (h2.mono hle).trans (g2.mono hle2), ?_⟩
      dsimp only
      rw [SimAll_cons]
      exact ⟨fun _ => sim_chg g2.1 _ _ h3, g3⟩

/-! ### Statements -/

/-- The field a statement assigns. -/
def EncStmt.target : EncStmt → Option Nat
  | .setLen f _ _ => some f
  | .checksum f _ => some f
  | _ => none

/-- The statement reads assigned fields (`T`) only after they have been assigned (`A`). -/
def EncStmt.fine (T A : List Nat) : EncStmt → Bool
  | .num f _ _ => !T.contains f || A.contains f
  | .patch _ f _ _ => !T.contains f || A.contains f
  | .fixed f _ _ _ => !T.contains f
  | .dyn f _ _ _ => !T.contains f
  | .list f _ _ _ _ => !T.contains f
  | .obj f => !T.contains f
  | .objOpt f => !T.contains f
  | _ => true

def fineAll (T : List Nat) : List Nat → List EncStmt → Bool
  | _, [] => true
  | A, s :: ss => s.fine T A && fineAll T (s.target.toList ++ A) ss

def targets (c : Cls) : List Nat := (decl c).enc.filterMap EncStmt.target

theorem fine_table (c : Cls) : fineAll (targets c) [] (decl c).enc = true := by
  cases c <;> rfl

theorem computed_target (w : World) (c : Cls) (f : Nat) (hf : computed w c f = true) : (targets c).contains f = true := by
  rw [computed, List.any_eq_true] at hf
  obtain ⟨s, hs, ha⟩ := hf
  rw [List.contains_iff_mem, targets, List.mem_filterMap]
  refine ⟨s, hs, ?_⟩
  cases s <;> simp [assigns] at ha <;> simp [EncStmt.target, ha]

/-- State of the message at `r` in the middle of its `encode`; `A`: fields assigned so far. -/
def Mid (w : World) (c : Cls) (r : Nat) (A : List Nat) (h : Heap) (fs : List Val) : Prop :=
  HSim w h (.obj c fs) (.ref r) ∧ ∀ f ∈ A, computed w c f = true →
    (∃ n, fs[f]? = some (.num n) ∧ h.field r f = some (.num n)) ∨ (fs[f]? = none ∧ h.field r f = none)

theorem sim_obj {w : World} {h : Heap} {c : Cls} {fs : List Val} {r : Nat} (hs : HSim w h (.obj c fs) (.ref r)) :
    ∃ ys, h[r]? = some (.msg c ys) ∧ SimAll w h fs (computed w c) ys := by
  rw [HSim] at hs
  obtain ⟨r', ys, he, hr, hall⟩ := hs
  cases he
  exact ⟨ys, hr, hall⟩

theorem field_sim {w : World} {h : Heap} {c : Cls} {fs : List Val} {r : Nat} (hs : HSim w h (.obj c fs) (.ref r)) (f : Nat)
    (hf : computed w c f = false) : (fs[f]? = none ∧ h.field r f = none) ∨
      ∃ v y, fs[f]? = some v ∧ h.field r f = some y ∧ HSim w h v y ∧ csize w v < csize w (.obj c fs) := by
  obtain ⟨ys, hr, hall⟩ := sim_obj hs
  rw [Heap.field_msg h r f c ys hr]
  have hl := SimAll_length w h _ _ _ hall
  cases hv : fs[f]? with
  | none =>
    rw [List.getElem?_eq_none_iff] at hv
    exact .inl ⟨rfl, List.getElem?_eq_none_iff.2 (by omega)⟩
  | some v =>
    have hlt : f < ys.length := by have := (List.getElem?_eq_some_iff.1 hv).1; omega
    refine .inr ⟨v, ys[f], rfl, List.getElem?_eq_getElem hlt, ((SimAll_iff w h _ _ _).1 hall).2 f v _ hv (List.getElem?_eq_getElem hlt) hf, ?_⟩
    have := csizeAll_mem w fs (computed w c) f v hv hf
    rw [csize]; omega

theorem not_target {w : World} {c : Cls} {f : Nat} (hf : (!(targets c).contains f) = true) : computed w c f = false := by
  cases hc : computed w c f with
  | false => rfl
  | true => rw [computed_target w c f hc] at hf; cases hf

/-- After a nested call on field `f`. -/
theorem mid_nested {w : World} {c : Cls} {r : Nat} {A : List Nat} {h h' : Heap} {fs : List Val} {f : Nat} {v' : Val} {y : HVal}
    (hm : Mid w c r A h fs) (hf : computed w c f = false) (hy : h.field r f = some y) (k : Nat)
    (hk : k < csize w (.obj c fs)) (he : Effect w k h h') (hs : HSim w h' v' y) :
    Mid w c r A h' (fs.set f v') := by
  obtain ⟨ys, hr, hall⟩ := sim_obj hm.1
  have hr' : h'[r]? = some (.msg c ys) := by rw [he.2 r _ hm.1 hk, hr]
  rw [Heap.field_msg h r f c ys hr] at hy
  refine ⟨?_, ?_⟩
  · rw [HSim]
    refine ⟨r, ys, rfl, hr', ?_⟩
    rw [SimAll_iff] at hall ⊢
    refine ⟨by rw [List.length_set, hall.1], fun g u z hu hz hp => ?_⟩
    by_cases hgf : f = g
    · subst hgf
      rw [hz] at hy
      obtain rfl := Option.some.inj hy
      have hlt : f < fs.length := by
        have := (List.getElem?_eq_some_iff.1 hu).1
        rwa [List.length_set] at this
      rw [List.getElem?_set_self hlt] at hu
      obtain rfl := Option.some.inj hu
      exact hs
    · rw [List.getElem?_set_ne hgf] at hu
      exact sim_chg he.1 u z (hall.2 g u z hu hz hp)
  · intro g hg hcg
    have hgf : f ≠ g := by rintro rfl; rw [hf] at hcg; cases hcg
    rw [List.getElem?_set_ne hgf, Heap.field_msg h' r g c ys hr', ← Heap.field_msg h r g c ys hr]
    exact hm.2 g hg hcg

/-- After the assignment of a computed field. -/
theorem mid_assign {w : World} {c : Cls} {r : Nat} {A : List Nat} {h : Heap} {fs : List Val} (f : Nat) (n : Num)
    (hm : Mid w c r A h fs) (hf : computed w c f = true) :
    Effect w (csize w (.obj c fs)) h (h.setField r f (.num n)) ∧ Mid w c r (f :: A) (h.setField r f (.num n)) (fs.set f (.num n)) := by
  obtain ⟨ys, hr, hall⟩ := sim_obj hm.1
  have hself := Heap.setField_self h r f c ys (.num n) hr
  have hchg : Chg w h (h.setField r f (.num n)) := by
    refine ⟨Heap.setField_length .., fun a xs ha => ?_, fun q c' zs hq => ?_⟩
    · rw [Heap.setField_ne, ha]
      rintro rfl; rw [hr] at ha; cases ha
    · by_cases hqr : q = r
      · subst hqr
        rw [hr] at hq
        injection hq with he; injection he with he1 he2; subst he1; subst he2
        refine ⟨_, hself, by rw [List.length_set], fun g hg => ?_⟩
        rw [List.getElem?_set_ne]
        rintro rfl; rw [hf] at hg; cases hg
      · exact ⟨zs, by rw [Heap.setField_ne _ _ _ _ _ hqr, hq], rfl, fun _ _ => rfl⟩
  refine ⟨⟨hchg, fun q u hu hlt => ?_⟩, ?_, ?_⟩
  · refine Heap.setField_ne _ _ _ _ _ ?_
    rintro rfl
    have := sim_size u _ _ hu hm.1
    omega
  · rw [HSim]
    refine ⟨r, _, rfl, hself, ?_⟩
    rw [SimAll_iff] at hall ⊢
    refine ⟨by rw [List.length_set, List.length_set, hall.1], fun g u z hu hz hp => ?_⟩
    have hgf : f ≠ g := by rintro rfl; rw [hf] at hp; cases hp
    rw [List.getElem?_set_ne hgf] at hu hz
    exact sim_chg hchg u z (hall.2 g u z hu hz hp)
  · intro g hg hcg
    rw [Heap.field_msg _ r g c _ hself]
    have hl := SimAll_length w h _ _ _ hall
    by_cases hgf : f = g
    · subst hgf
      by_cases hlt : f < fs.length
      · exact .inl ⟨n, List.getElem?_set_self hlt, List.getElem?_set_self (by omega)⟩
      · refine .inr ⟨?_, ?_⟩
        · rw [List.getElem?_eq_none_iff, List.length_set]; omega
        · rw [List.getElem?_eq_none_iff, List.length_set]; omega
    · rw [List.getElem?_set_ne hgf, List.getElem?_set_ne hgf, ← Heap.field_msg h r g c ys hr]
      rcases List.mem_cons.1 hg with he | hg
      · exact absurd he.symm hgf
      · exact hm.2 g hg hcg

theorem Mid.weaken {w : World} {c : Cls} {r : Nat} {A : List Nat} {h : Heap} {fs : List Val} (f : Nat) (hm : Mid w c r A h fs)
    (hf : computed w c f = false) : Mid w c r (f :: A) h fs := by
  refine ⟨hm.1, fun g hg hcg => ?_⟩
  rcases List.mem_cons.1 hg with he | hg
  · subst he; rw [hf] at hcg; cases hcg
  · exact hm.2 g hg hcg

/-- A number field that may be read now. -/
theorem read_num {w : World} {c : Cls} {r : Nat} {A : List Nat} {h : Heap} {fs : List Val} (f : Nat) (hm : Mid w c r A h fs)
    (hf : (!(targets c).contains f || A.contains f) = true) :
    (∃ n, fs[f]? = some (.num n) ∧ h.field r f = some (.num n)) ∨
      ((∀ n, fs[f]? ≠ some (.num n)) ∧ ∀ n, h.field r f ≠ some (.num n)) := by
  cases hc : computed w c f with
  | true =>
    rw [computed_target w c f hc] at hf
    have : f ∈ A := by simpa using hf
    rcases hm.2 f this hc with h1 | ⟨h1, h2⟩
    · exact .inl h1
    · exact .inr ⟨by rw [h1]; simp, by rw [h2]; simp⟩
  | false =>
    rcases field_sim hm.1 f hc with ⟨h1, h2⟩ | ⟨v, y, h1, h2, hs, _⟩
    · exact .inr ⟨by rw [h1]; simp, by rw [h2]; simp⟩
    · rw [h1, h2]
      cases v <;> rw [HSim] at hs
      · subst hs; exact .inr ⟨by simp, by simp⟩
      · subst hs; exact .inl ⟨_, rfl, rfl⟩
      · subst hs; exact .inr ⟨by simp, by simp⟩
      · obtain ⟨a, ys, rfl, _, _⟩ := hs; exact .inr ⟨by simp, by simp⟩
      · obtain ⟨a, ys, rfl, _, _⟩ := hs; exact .inr ⟨by simp, by simp⟩

/-- What one statement of the message at `r` has to satisfy. -/
def StmtOK (w : World) (c : Cls) (r : Nat) (A : List Nat) (h : Heap) (fs : List Val) (oh : HEncSt × Option JErr) (ot : EncSt × Option JErr) : Prop :=
  oh.2 = ot.2 ∧ oh.1.buf = ot.1.buf ∧ oh.1.loc = ot.1.loc ∧ Effect w (csize w (.obj c fs)) h oh.1.h
    ∧ HSim w oh.1.h (.obj c ot.1.fs) (.ref r) ∧ (ot.2 = none → Mid w c r A oh.1.h ot.1.fs)

def sameTarget (s s' : EncStmt) : Bool := s.target != s'.target || s == s'

theorem target_table (c : Cls) : (((decl c).enc.filter fun s => s.target.isSome).all fun s =>
    ((decl c).enc.filter fun s => s.target.isSome).all (sameTarget s)) = true := by
  cases c <;> rfl

theorem target_unique (c : Cls) (s s' : EncStmt) (f : Nat) (hs : s ∈ (decl c).enc) (hs' : s' ∈ (decl c).enc) (ht : s.target = some f)
    (ht' : s'.target = some f) : s = s' := by
  have h1 := List.all_eq_true.1 (target_table c) s (List.mem_filter.2 ⟨hs, by rw [ht]; rfl⟩)
  have h2 := List.all_eq_true.1 h1 s' (List.mem_filter.2 ⟨hs', by rw [ht']; rfl⟩)
  rw [sameTarget, ht, ht'] at h2
  simpa using h2

theorem assigns_target (w : World) (f : Nat) (s : EncStmt) (h : assigns w f s = true) : s.target = some f := by
  cases s <;> simp [assigns] at h <;> simp [EncStmt.target, h]

theorem hencStmt_sim (w : World) {ct : EncCall} {ch : HEncCall} (hc : hCallSim w ct ch) {c : Cls} {r : Nat} {A : List Nat} {h : Heap}
    {fs : List Val} (s : EncStmt) (hmem : s ∈ (decl c).enc) (hf : s.fine (targets c) A = true) (hm : Mid w c r A h fs) (b : WBuf)
    (loc : Nat → Option Nat) :
    StmtOK w c r (s.target.toList ++ A) h fs (hencStmt w ch r s ⟨h, b, loc⟩) (encStmt w ct s ⟨fs, b, loc⟩) := by
  have hrefl : ∀ (b' : WBuf) (loc' : Nat → Option Nat) (e : Option JErr), StmtOK w c r A h fs (⟨h, b', loc'⟩, e) (⟨fs, b', loc'⟩, e) :=
    fun b' loc' e => ⟨rfl, rfl, rfl, Effect.refl _ _ _, hm.1, fun _ => hm⟩
  cases s with
  | num f t e =>
    rcases read_num f hm hf with ⟨n, h1, h2⟩ | ⟨h1, h2⟩
    · simp only [hencStmt, encStmt, EncStmt.target, Option.toList_none, List.nil_append, h1, h2]
      exact hrefl _ _ _
    · have e1 : encStmt w ct (.num f t e) ⟨fs, b, loc⟩ = (⟨fs, b, loc⟩, some .illTyped) := by
        simp only [encStmt]
      have e2 : hencStmt w ch r (.num f t e) ⟨h, b, loc⟩ = (⟨h, b, loc⟩, some .illTyped) := by
        simp only [hencStmt]
      rw [e1, e2]
      exact hrefl _ _ _
  | fixed f n pad left =>
    simp only [hencStmt, encStmt, EncStmt.target, Option.toList_none, List.nil_append]
    rcases field_sim hm.1 f (not_target hf) with ⟨h1, h2⟩ | ⟨v, y, h1, h2, hs, _⟩
    · rw [h1, h2]; exact hrefl _ _ _
    · rw [h1, h2]
      simp only [sim_fixed w h v y hs]
      exact hrefl _ _ _
  | dyn f zt t e =>
    simp only [hencStmt, encStmt, EncStmt.target, Option.toList_none, List.nil_append]
    rcases field_sim hm.1 f (not_target hf) with ⟨h1, h2⟩ | ⟨v, y, h1, h2, hs, _⟩
    · rw [h1, h2]; exact hrefl _ _ _
    · rw [h1, h2]
      simp only [sim_dyn w h v y hs]
      exact hrefl _ _ _
  | list f zt t e el =>
    simp only [hencStmt, encStmt, EncStmt.target, Option.toList_none, List.nil_append]
    rcases field_sim hm.1 f (not_target hf) with ⟨h1, h2⟩ | ⟨v, y, h1, h2, hs, hlt⟩
    · rw [h1, h2]; exact hrefl _ _ _
    · rw [h1, h2]
      cases v with
      | null => rw [HSim] at hs; subst hs; exact hrefl _ _ _
      | num n => rw [HSim] at hs; subst hs; exact hrefl _ _ _
      | str n => rw [HSim] at hs; subst hs; exact hrefl _ _ _
      | obj c' fs' =>
        rw [HSim] at hs
        obtain ⟨a, ys, rfl, ha, _⟩ := hs
        simp only [ha]
        exact hrefl _ _ _
      | list xs =>
        rw [HSim] at hs
        obtain ⟨a, ys, rfl, ha, hall⟩ := hs
        simp only [ha]
        have hl := SimAll_length w h _ _ _ hall
        cases xs with
        | nil =>
          rw [SimAll] at hall; subst hall
          exact hrefl _ _ _
        | cons x xs =>
          cases ys with
          | nil => simp at hl
          | cons y ys =>
            dsimp only
            rw [hl]
            rcases writeInt b t e (y :: ys).length with ⟨b', _ | err⟩
            · dsimp only
              obtain ⟨g1, g2, g3⟩ := hencElems_sim hc el (x :: xs) (y :: ys) h b' hall
              have hle : csizeAll w (x :: xs) (fun _ => false) < csize w (.obj c fs) := by
                rw [csize] at hlt; omega
              have hmid : Mid w c r A (hencElems ch el (y :: ys) h b').1 (fs.set f (.list (encElems ct el (x :: xs) b').1)) := by
                refine mid_nested hm (not_target hf) h2 _ hle g2 ?_
                rw [HSim]
                exact ⟨a, _, rfl, g2.1.2.1 a _ ha, g3⟩
              exact ⟨by rw [g1], by rw [g1], rfl, g2.mono (Nat.le_of_lt hle), hmid.1, fun _ => hmid⟩
            · exact hrefl _ _ _
  | obj f =>
    simp only [hencStmt, encStmt, EncStmt.target, Option.toList_none, List.nil_append]
    rcases field_sim hm.1 f (not_target hf) with ⟨h1, h2⟩ | ⟨v, y, h1, h2, hs, hlt⟩
    · rw [h1, h2]; exact hrefl _ _ _
    · rw [h1, h2]
      obtain ⟨g1, g2, g3⟩ := hc v y h b hs
      have hmid := mid_nested hm (not_target hf) h2 _ hlt g2 g3
      exact ⟨by simp only [g1], by simp only [g1], rfl, g2.mono (Nat.le_of_lt hlt), hmid.1, fun _ => hmid⟩
  | objOpt f =>
    simp only [hencStmt, encStmt, EncStmt.target, Option.toList_none, List.nil_append]
    rcases field_sim hm.1 f (not_target hf) with ⟨h1, h2⟩ | ⟨v, y, h1, h2, hs, hlt⟩
    · rw [h1, h2]; exact hrefl _ _ _
    · rw [h1, h2]
      obtain ⟨g1, g2, g3⟩ := hc v y h b hs
      have hmid := mid_nested hm (not_target hf) h2 _ hlt g2 g3
      have hgo : StmtOK w c r A h fs ((⟨(ch y h b).1, (ch y h b).2.1, loc⟩, (ch y h b).2.2) : HEncSt × Option JErr)
          ((⟨fs.set f (ct v b).1, (ct v b).2.1, loc⟩, (ct v b).2.2) : EncSt × Option JErr) :=
        ⟨by simp only [g1], by simp only [g1], rfl, g2.mono (Nat.le_of_lt hlt), hmid.1, fun _ => hmid⟩
      cases v with
      | null => rw [HSim] at hs; subst hs; exact hrefl _ _ _
      | num n => rw [HSim] at hs; subst hs; exact hgo
      | str n => rw [HSim] at hs; subst hs; exact hgo
      | list xs =>
        rw [HSim] at hs
        obtain ⟨a, ys, rfl, ha, _⟩ := hs
        exact hgo
      | obj c' fs' =>
        rw [HSim] at hs
        obtain ⟨a, ys, rfl, ha, _⟩ := hs
        exact hgo
  | save x => exact hrefl _ _ _
  | zero t e => exact hrefl _ _ _
  | setLen f x y =>
    have hcf : computed w c f = true := by
      rw [computed, List.any_eq_true]
      exact ⟨_, hmem, by simp [assigns]⟩
    simp only [hencStmt, encStmt, EncStmt.target, Option.toList_some, List.cons_append, List.nil_append]
    have hbad : StmtOK w c r (f :: A) h fs ((⟨h, b, loc⟩, some .illTyped) : HEncSt × Option JErr)
        ((⟨fs, b, loc⟩, some .illTyped) : EncSt × Option JErr) :=
      ⟨rfl, rfl, rfl, Effect.refl _ _ _, hm.1, fun h => by cases h⟩
    cases hx : loc x with
    | none => exact hbad
    | some p =>
      cases hy : loc y with
      | none => exact hbad
      | some q =>
        dsimp only
        obtain ⟨g1, g2⟩ := mid_assign f (.int (BitVec.ofNat 32 p - BitVec.ofNat 32 q)) hm hcf
        exact ⟨rfl, rfl, rfl, g1, g2.1, fun _ => g2⟩
  | patch x f t e =>
    rcases read_num f hm hf with ⟨n, h1, h2⟩ | ⟨h1, h2⟩
    · simp only [hencStmt, encStmt, EncStmt.target, Option.toList_none, List.nil_append, h1, h2]
      cases hx : loc x with
      | none => exact hrefl _ _ _
      | some p =>
        dsimp only
        cases n.convert t with
        | none => exact hrefl _ _ _
        | some m => exact hrefl _ _ _
    · have e1 : encStmt w ct (.patch x f t e) ⟨fs, b, loc⟩ = (⟨fs, b, loc⟩, some .illTyped) := by
        simp only [encStmt]
        cases hx : loc x with
        | none => rfl
        | some p =>
          cases ho : fs[f]? with
          | none => rfl
          | some v => cases v <;> first | rfl | exact absurd ho (h1 _)
      have e2 : hencStmt w ch r (.patch x f t e) ⟨h, b, loc⟩ = (⟨h, b, loc⟩, some .illTyped) := by
        simp only [hencStmt]
        cases hx : loc x with
        | none => rfl
        | some p =>
          cases ho : h.field r f with
          | none => rfl
          | some v => cases v <;> first | rfl | exact absurd ho (h2 _)
      rw [e1, e2]
      exact hrefl _ _ _
  | checksum f alg =>
    simp only [hencStmt, encStmt, EncStmt.target, Option.toList_some, List.cons_append, List.nil_append]
    cases hg : Registry.getService w.svc alg with
    | none =>
      have hcf : computed w c f = false := by
        cases hcf : computed w c f with
        | false => rfl
        | true =>
          rw [computed, List.any_eq_true] at hcf
          obtain ⟨s', hs', ha⟩ := hcf
          have := target_unique c (.checksum f alg) s' f hmem hs' rfl (assigns_target w f s' ha)
          subst this
          simp [assigns, hg] at ha
      have hmid := hm.weaken f hcf
      exact ⟨rfl, rfl, rfl, Effect.refl _ _ _, hm.1, fun _ => hmid⟩
    | some s =>
      have hcf : computed w c f = true := by
        rw [computed, List.any_eq_true]
        exact ⟨_, hmem, by simp [assigns, hg]⟩
      obtain ⟨g1, g2⟩ := mid_assign f (.int (s.calcOn b.readable)) hm hcf
      exact ⟨rfl, rfl, rfl, g1, g2.1, fun _ => g2⟩

theorem hencStmts_sim (w : World) {ct : EncCall} {ch : HEncCall} (hc : hCallSim w ct ch) {c : Cls} {r : Nat} :
    ∀ (ss : List EncStmt) (A : List Nat) (h : Heap) (fs : List Val) (b : WBuf) (loc : Nat → Option Nat), (∀ s ∈ ss, s ∈ (decl c).enc) →
      fineAll (targets c) A ss = true → Mid w c r A h fs →
      (hencStmts w ch r ss ⟨h, b, loc⟩).2 = (encStmts w ct ss ⟨fs, b, loc⟩).2
        ∧ (hencStmts w ch r ss ⟨h, b, loc⟩).1.buf = (encStmts w ct ss ⟨fs, b, loc⟩).1.buf
        ∧ Effect w (csize w (.obj c fs)) h (hencStmts w ch r ss ⟨h, b, loc⟩).1.h
        ∧ HSim w (hencStmts w ch r ss ⟨h, b, loc⟩).1.h (.obj c (encStmts w ct ss ⟨fs, b, loc⟩).1.fs) (.ref r)
  | [], A, h, fs, b, loc, _, _, hm => ⟨rfl, rfl, Effect.refl _ _ _, hm.1⟩
  | s :: ss, A, h, fs, b, loc, hmem, hfine, hm => by
    simp only [fineAll, Bool.and_eq_true] at hfine
    obtain ⟨h1, h2, h3, h4, h5, h6⟩ := hencStmt_sim w hc s (hmem s (List.mem_cons_self ..)) hfine.1 hm b loc
    simp only [hencStmts, encStmts]
    revert h1 h2 h3 h4 h5 h6
    rcases hencStmt w ch r s ⟨h, b, loc⟩ with ⟨⟨h', b', loc'⟩, e⟩
    rcases encStmt w ct s ⟨fs, b, loc⟩ with ⟨⟨fs', b'', loc''⟩, e'⟩
    dsimp only
    rintro rfl rfl rfl h4 h5 h6
    cases e with
    | some e => exact ⟨rfl, rfl, h4, h5⟩
    | none =>
      obtain ⟨g1, g2, g3, g4⟩ := hencStmts_sim w hc ss _ h' fs' b' loc' (fun s hs => hmem s (List.mem_cons_of_mem _ hs)) hfine.2 (h6 rfl)
      refine ⟨g1, g2, ?_, g4⟩
      have hsz : csize w (.obj c fs) = csize w (.obj c fs') := sim_size _ _ _ (sim_chg h4.1 _ _ hm.1) h5
      rw [← hsz] at g3
      exact h4.trans g3

theorem hencode_sim (w : World) : ∀ n, hCallSim w (encode w n) (hencode w n)
  | 0 => fun v x h b hs => by
    cases v with
    | null => rw [HSim] at hs; subst hs; exact ⟨rfl, Effect.refl _ _ _, by simp [encode, HSim]⟩
    | num m => rw [HSim] at hs; subst hs; exact ⟨rfl, Effect.refl _ _ _, by simp [encode, HSim]⟩
    | str m => rw [HSim] at hs; subst hs; exact ⟨rfl, Effect.refl _ _ _, by simp [encode, HSim]⟩
    | list xs =>
      have hs' := hs
      rw [HSim] at hs
      obtain ⟨a, ys, rfl, ha, _⟩ := hs
      exact ⟨rfl, Effect.refl _ _ _, hs'⟩
    | obj c fs =>
      have hs' := hs
      rw [HSim] at hs
      obtain ⟨a, ys, rfl, ha, _⟩ := hs
      exact ⟨rfl, Effect.refl _ _ _, hs'⟩
  | n + 1 => fun v x h b hs => by
    cases v with
    | null => rw [HSim] at hs; subst hs; exact ⟨rfl, Effect.refl _ _ _, by simp [encode, HSim]⟩
    | num m => rw [HSim] at hs; subst hs; exact ⟨rfl, Effect.refl _ _ _, by simp [encode, HSim]⟩
    | str m => rw [HSim] at hs; subst hs; exact ⟨rfl, Effect.refl _ _ _, by simp [encode, HSim]⟩
    | list xs =>
      have hs' := hs
      rw [HSim] at hs
      obtain ⟨a, ys, rfl, ha, _⟩ := hs
      simp only [hencode, ha, encode]
      exact ⟨trivial, Effect.refl _ _ _, hs'⟩
    | obj c fs =>
      have hs' := hs
      rw [HSim] at hs
      obtain ⟨a, ys, rfl, ha, _⟩ := hs
      obtain ⟨g1, g2, g3, g4⟩ := hencStmts_sim w (hencode_sim w n) (decl c).enc [] h fs b (fun _ => none) (fun _ hs => hs) (fine_table c)
        ⟨hs', fun f hf => by simp at hf⟩
      simp only [hencode, ha, encode]
      exact ⟨by rw [g1, g2], g3, g4⟩

/-! ### Any heap, cyclic ones included -/

theorem chg_setField {w : World} {c : Cls} {r : Nat} {h : Heap} (f : Nat) (n : Num) (hr : ∃ ys, h[r]? = some (.msg c ys))
    (hf : computed w c f = true) : Chg w h (h.setField r f (.num n)) := by
  obtain ⟨ys, hr⟩ := hr
  refine ⟨Heap.setField_length .., fun a xs ha => ?_, fun q c' zs hq => ?_⟩
  · rw [Heap.setField_ne, ha]
    rintro rfl; rw [hr] at ha; cases ha
  · by_cases hqr : q = r
    · subst hqr
      rw [hr] at hq
      injection hq with he; injection he with he1 he2; subst he1; subst he2
      refine ⟨_, Heap.setField_self h q f c ys (.num n) hr, by rw [List.length_set], fun g hg => ?_⟩
      rw [List.getElem?_set_ne]
      rintro rfl; rw [hf] at hg; cases hg
    · exact ⟨zs, by rw [Heap.setField_ne _ _ _ _ _ hqr, hq], rfl, fun _ _ => rfl⟩

def CallChg (w : World) (ch : HEncCall) : Prop := ∀ x h b, Chg w h (ch x h b).1

theorem hencElems_chg {w : World} {ch : HEncCall} (hc : CallChg w ch) (el : EncElem) :
    ∀ (xs : List HVal) (h : Heap) (b : WBuf), Chg w h (hencElems ch el xs h b).1
  | [], h, b => Chg.refl w h
  | x :: xs, h, b => by
    have h1 : Chg w h (hencElem ch el x h b).1 := by
      cases el with
      | obj => exact hc x h b
      | _ => exact Chg.refl w h
    simp only [hencElems]
    revert h1
    rcases hencElem ch el x h b with ⟨h', b', _ | e⟩
    · intro h1; exact h1.trans (hencElems_chg hc el xs h' b')
    · intro h1; exact h1

theorem hencStmt_chg {w : World} {ch : HEncCall} (hc : CallChg w ch) {c : Cls} {r : Nat} (s : EncStmt) (hmem : s ∈ (decl c).enc)
    (st : HEncSt) (hr : ∃ ys, st.h[r]? = some (.msg c ys)) : Chg w st.h (hencStmt w ch r s st).1.h := by
  have hrefl := Chg.refl w st.h
  cases s with
  | list f zt t e el =>
    simp only [hencStmt]
    rcases st.h.field r f with _ | _ | _ | _ | a <;> try exact hrefl
    dsimp only
    rcases st.h[a]? with _ | _ | ⟨_ | ⟨y, ys⟩⟩ <;> try exact hrefl
    dsimp only
    rcases writeInt st.buf t e (y :: ys).length with ⟨b', _ | err⟩
    · exact hencElems_chg hc el _ _ _
    · exact hrefl
  | obj f =>
    simp only [hencStmt]
    rcases st.h.field r f with _ | x
    · exact hrefl
    · exact hc x st.h st.buf
  | objOpt f =>
    simp only [hencStmt]
    rcases st.h.field r f with _ | _ | n | s | a
    · exact hrefl
    · exact hrefl
    · exact hc _ st.h st.buf
    · exact hc _ st.h st.buf
    · exact hc _ st.h st.buf
  | setLen f x y =>
    have hcf : computed w c f = true := by
      rw [computed, List.any_eq_true]
      exact ⟨_, hmem, by simp [assigns]⟩
    simp only [hencStmt]
    rcases st.loc x with _ | p
    · exact hrefl
    · rcases st.loc y with _ | q
      · exact hrefl
      · exact chg_setField f _ hr hcf
  | checksum f alg =>
    simp only [hencStmt]
    cases hg : Registry.getService w.svc alg with
    | none => exact hrefl
    | some s =>
      have hcf : computed w c f = true := by
        rw [computed, List.any_eq_true]
        exact ⟨_, hmem, by simp [assigns, hg]⟩
      exact chg_setField f _ hr hcf
  | num f t e => simp only [hencStmt]; rcases st.h.field r f with _ | _ | n | s | a <;> exact hrefl
  | fixed f t e => simp only [hencStmt]; rcases st.h.field r f with _ | x <;> exact hrefl
  | dyn f t e => simp only [hencStmt]; rcases st.h.field r f with _ | x <;> exact hrefl
  | patch x f t e =>
    simp only [hencStmt]
    rcases st.loc x with _ | p
    · exact hrefl
    · rcases st.h.field r f with _ | _ | n | s | a <;> try exact hrefl
      dsimp only
      rcases n.convert t with _ | m <;> exact hrefl
  | save x => exact hrefl
  | zero t e => exact hrefl

theorem hencStmts_chg {w : World} {ch : HEncCall} (hc : CallChg w ch) {c : Cls} {r : Nat} : ∀ (ss : List EncStmt) (st : HEncSt),
    (∀ s ∈ ss, s ∈ (decl c).enc) → (∃ ys, st.h[r]? = some (.msg c ys)) → Chg w st.h (hencStmts w ch r ss st).1.h
  | [], st, _, _ => Chg.refl w st.h
  | s :: ss, st, hmem, hr => by
    have h1 := hencStmt_chg hc s (hmem s (List.mem_cons_self ..)) st hr
    simp only [hencStmts]
    revert h1
    rcases hencStmt w ch r s st with ⟨st', _ | e⟩
    · intro h1
      obtain ⟨ys, hr⟩ := hr
      obtain ⟨ys', h2, _⟩ := h1.2.2 r c ys hr
      exact h1.trans (hencStmts_chg hc ss st' (fun s hs => hmem s (List.mem_cons_of_mem _ hs)) ⟨ys', h2⟩)
    · intro h1; exact h1

theorem hencode_chg (w : World) : ∀ n, CallChg w (hencode w n)
  | 0 => fun x h b => by cases x <;> exact Chg.refl w h
  | n + 1 => fun x h b => by
    cases x with
    | ref r =>
      simp only [hencode]
      cases hr : h[r]? with
      | none => exact Chg.refl w h
      | some o =>
        cases o with
        | arr xs => exact Chg.refl w h
        | msg c ys => exact hencStmts_chg (hencode_chg w n) (decl c).enc ⟨h, b, fun _ => none⟩ (fun _ hs => hs) ⟨ys, hr⟩
    | _ => exact Chg.refl w h

def targetLayout (c : Cls) : EncStmt → Bool
  | .setLen f _ _ => match (layout c)[f]? with | some (_, .len _) => true | _ => false
  | .checksum f alg => match (layout c)[f]? with | some (_, .cksum _ a) => a == alg | _ => false
  | _ => true

theorem targetLayout_table (c : Cls) : ((decl c).enc.all (targetLayout c)) = true := by
  cases c <;> rfl

theorem computed_layout (w : World) (c : Cls) (f : Nat) (h : computed w c f = true) : fieldComputed w.svc c f = true := by
  rw [computed, List.any_eq_true] at h
  obtain ⟨s, hs, ha⟩ := h
  have ht := List.all_eq_true.1 (targetLayout_table c) s hs
  cases s with
  | setLen g x y =>
    simp only [assigns, beq_iff_eq] at ha
    subst ha
    simp only [targetLayout] at ht
    simp only [fieldComputed]
    revert ht
    rcases (layout c)[g]? with _ | ⟨nm, _ | _ | _ | _ | _ | _ | _ | _⟩ <;> intro ht <;> first | rfl | cases ht
  | checksum g alg =>
    simp only [assigns, Bool.and_eq_true, beq_iff_eq] at ha
    obtain ⟨rfl, ha⟩ := ha
    simp only [targetLayout] at ht
    simp only [fieldComputed]
    revert ht
    rcases (layout c)[g]? with _ | ⟨nm, _ | _ | _ | _ | _ | _ | _ | ⟨t, a⟩⟩ <;> intro ht <;> first | cases ht | skip
    · rw [beq_iff_eq] at ht
      subst ht
      exact ha
  | _ => simp [assigns] at ha

theorem chg_same {w : World} {h h' : Heap} (hc : Chg w h h') : SameButComputed w.svc h h' := by
  refine ⟨hc.1, hc.2.1, fun r c ys hr => ?_⟩
  obtain ⟨ys', h1, h2, h3⟩ := hc.2.2 r c ys hr
  refine ⟨ys', h1, h2, fun f hf => h3 f ?_⟩
  cases hcf : computed w c f with
  | false => rfl
  | true => rw [computed_layout w c f hcf] at hf; cases hf

end FinProto
