import Verif.Proofs.Renaming
import Verif.Proofs.TypedHeap
import Verif.Proofs.WorkHistory
import Verif.Spec.Races
/-
Helper lemmas for data races.
-/
namespace FinProto

/-! ### Objects keep their classes -/

/-- Objects of the same class with the same number of fields, or two lists. -/
inductive SameKind : HObj → HObj → Prop
  | msg (c : Cls) {ys zs : List HVal} : zs.length = ys.length → SameKind (.msg c ys) (.msg c zs)
  | arr (xs ys : List HVal) : SameKind (.arr xs) (.arr ys)

theorem SameKind.refl (o : HObj) : SameKind o o := by
  cases o with
  | msg c ys => exact .msg c rfl
  | arr xs => exact .arr xs xs

theorem SameKind.trans {o p q : HObj} (h1 : SameKind o p) (h2 : SameKind p q) : SameKind o q := by
  cases h1 with
  | msg c h1 => cases h2 with | msg _ h2 => exact .msg c (h2.trans h1)
  | arr xs ys => cases h2 with | arr _ zs => exact .arr xs zs

/-- The objects are still there, with their classes; there may be new ones. -/
def Grows (h h' : Heap) : Prop := ∀ (q : Nat) o, h[q]? = some o → ∃ o', h'[q]? = some o' ∧ SameKind o o'

theorem Grows.refl (h : Heap) : Grows h h := fun _ o ho => ⟨o, ho, .refl o⟩

theorem Grows.trans {h1 h2 h3 : Heap} (h12 : Grows h1 h2) (h23 : Grows h2 h3) : Grows h1 h3 := by
  intro q o ho
  obtain ⟨o', h4, h5⟩ := h12 q o ho
  obtain ⟨o'', h6, h7⟩ := h23 q o' h4
  exact ⟨o'', h6, h5.trans h7⟩

theorem Grows.keeps {h h' : Heap} (hg : Grows h h') : Keeps h h' := by
  intro r c ys hr
  obtain ⟨o, h1, h2⟩ := hg r _ hr
  cases h2 with
  | msg _ h3 => exact ⟨_, h1⟩

theorem Grows.length {h h' : Heap} (hg : Grows h h') : h.length ≤ h'.length := by
  rcases Nat.lt_or_ge h'.length h.length with hl | hl
  · exfalso
    obtain ⟨o, h1, -⟩ := hg h'.length _ (List.getElem?_eq_getElem hl)
    simp at h1
  · exact hl

theorem grows_set {h : Heap} {q : Nat} {o o' : HObj} (ho : h[q]? = some o) (ha : SameKind o o') : Grows h (h.set q o') := by
  intro p x hx
  by_cases hp : q = p
  · subst hp
    rw [ho] at hx
    cases hx
    exact ⟨o', List.getElem?_set_self (List.getElem?_eq_some_iff.mp ho).1, ha⟩
  · exact ⟨x, by rw [List.getElem?_set_ne hp, hx], .refl x⟩

theorem grows_setField (h : Heap) (r f : Nat) (y : HVal) : Grows h (h.setField r f y) := by
  unfold Heap.setField
  split
  · rename_i hr
    exact grows_set hr (.msg _ (by simp))
  · exact .refl h

theorem grows_append (h k : Heap) : Grows h (h ++ k) := by
  intro q o ho
  exact ⟨o, by rw [List.getElem?_append_left (List.getElem?_eq_some_iff.mp ho).1, ho], .refl o⟩

theorem alloc_append (v : Val) : ∀ h : Heap, ∃ k, (alloc v h).1 = h ++ k := by
  apply Val.rec
    (motive_1 := fun v => ∀ h : Heap, ∃ k, (alloc v h).1 = h ++ k)
    (motive_2 := fun vs => ∀ h : Heap, ∃ k, (allocAll vs h).1 = h ++ k)
  · intro h; exact ⟨[], by simp [alloc]⟩
  · intro n h; exact ⟨[], by simp [alloc]⟩
  · intro s h; exact ⟨[], by simp [alloc]⟩
  · intro vs ih h
    obtain ⟨k, hk⟩ := ih h
    exact ⟨k ++ [.arr (allocAll vs h).2], by simp [alloc, hk]⟩
  · intro c vs ih h
    obtain ⟨k, hk⟩ := ih h
    exact ⟨k ++ [.msg c (allocAll vs h).2], by simp [alloc, hk]⟩
  · intro h; exact ⟨[], by simp [allocAll]⟩
  · intro v vs ih1 ih2 h
    obtain ⟨k, hk⟩ := ih1 h
    obtain ⟨l, hl⟩ := ih2 (alloc v h).1
    exact ⟨k ++ l, by rw [allocAll]; dsimp only; rw [hl, hk, List.append_assoc]⟩

theorem hadd_grows (h : Heap) (r f : Nat) (y : HVal) : Grows h (hadd h r f y).1 := by
  unfold hadd
  split
  · split
    · rename_i ha
      exact grows_set ha (.arr _ _)
    · exact Grows.refl h
  · exact Grows.refl h
  · exact Grows.refl h
  · exact Grows.refl h

theorem hcreate_grows (h : Heap) (r f : Nat) (s : Supplier) : Grows h (hcreate h r f s) := by
  cases s with
  | make v =>
    obtain ⟨k, hk⟩ := alloc_append v h
    simp only [hcreate]
    exact Grows.trans (hk ▸ grows_append h k) (grows_setField _ _ _ _)
  | give x => exact grows_setField _ _ _ _

theorem hencStmt_grows (w : World) (r : Nat) (s : EncStmt) (st : HEncSt) (hs : ∀ f zt p e el, s ≠ .list f zt p e el) :
    Grows st.h (hencStmt w (fun _ h b => (h, b, none)) r s st).1.h := by
  cases s with
  | list f zt p e el => exact absurd rfl (hs f zt p e el)
  | setLen f x y =>
    simp only [hencStmt]
    split
    · exact grows_setField _ _ _ _
    · exact Grows.refl _
  | checksum f alg =>
    simp only [hencStmt]
    split
    · exact grows_setField _ _ _ _
    · exact Grows.refl _
  | patch x f t e =>
    simp only [hencStmt]
    split
    · split <;> exact Grows.refl _
    · exact Grows.refl _
  | save x => exact Grows.refl _
  | zero t e => exact Grows.refl _
  | _ =>
    simp only [hencStmt]
    split <;> exact Grows.refl _

theorem hstep_grows (w : World) (n : Nat) (h : Heap) (t : HThread) : Grows h (t.step w n h).1 := by
  unfold HThread.step
  split
  · split
    · exact Grows.refl h
    · rename_i s ss _ _
      unfold HThread.exec
      split
      · split
        · exact Grows.refl h
        · split <;> exact Grows.refl h
      · split <;> exact Grows.refl h
      · split <;> exact Grows.refl h
      · rename_i h1 h2 h3
        exact hencStmt_grows w _ s ⟨h, _, _⟩ (fun f zt p e el hh => h1 f zt p e el hh)
    · exact Grows.refl h
  · exact Grows.refl h

theorem hdecElem_grows (h : Heap) (b : RBuf) (r f : Nat) (el : DecElem) (hel : ∀ c, el ≠ .obj c) :
    Grows h (hdecElem (fun _ h b => (h, b, none)) r f el h b).1 := by
  cases el with
  | obj c => exact absurd rfl (hel c)
  | _ =>
    simp only [hdecElem]
    split <;> first | exact hadd_grows _ _ _ _ | exact Grows.refl h

theorem dstep_grows (sup : Suppliers) (n : Nat) (h : Heap) (t : DThread) : Grows h (t.step sup n h).1 := by
  unfold DThread.step
  split
  · split
    · unfold DThread.iterate
      split
      · exact hadd_grows _ _ _ _
      · exact Grows.refl h
      · split
        · exact grows_append _ _
        · rename_i h1
          exact hdecElem_grows _ _ _ _ _ (fun c hc => h1 c hc)
    · rename_i s ss _ _
      unfold DThread.exec
      split
      · split
        · exact Grows.refl h
        · split
          · exact Grows.trans (grows_append _ _) (grows_setField _ _ _ _)
          · exact Grows.refl h
      · split
        · exact Grows.trans (grows_append _ _) (grows_setField _ _ _ _)
        · exact Grows.refl h
      · exact Grows.refl h
      · rename_i h1 h2 h3
        cases s with
        | list f t e el => exact absurd rfl (h1 f t e el)
        | obj f c => exact absurd rfl (h2 f c)
        | call f => exact absurd rfl (h3 f)
        | num f t e =>
          simp only [hdecStmt]
          split
          · exact Grows.refl h
          · split
            · exact grows_setField _ _ _ _
            · exact Grows.refl h
        | create f fac key =>
          simp only [hdecStmt]
          split
          · split
            · exact hcreate_grows _ _ _ _
            · exact Grows.refl h
          · exact Grows.refl h
        | _ =>
          simp only [hdecStmt]
          split <;> first | exact grows_setField _ _ _ _ | exact Grows.refl h
    · exact Grows.refl h
  · exact Grows.refl h

theorem wstep_grows (w : World) (sup : Suppliers) (n : Nat) (h : Heap) (t : Worker) : Grows h (t.step w sup n h).1 := by
  cases t with
  | enc t => exact hstep_grows w n h t
  | dec t => exact dstep_grows sup n h t

theorem wstep_keeps (w : World) (sup : Suppliers) (n : Nat) (h : Heap) (t : Worker) : Keeps h (t.step w sup n h).1 := (wstep_grows w sup n h t).keeps

theorem wstep_length (w : World) (sup : Suppliers) (n : Nat) (h : Heap) (t : Worker) : h.length ≤ (t.step w sup n h).1.length :=
  (wstep_grows w sup n h t).length

theorem wrun_grows (w : World) (sup : Suppliers) (n : Nat) (sched : List Nat) : ∀ st : WSys, Grows st.h (st.run w sup n sched).h := by
  induction sched with
  | nil => intro st; exact Grows.refl _
  | cons i sched ih => intro st; exact Grows.trans (wstep_grows w sup n st.h (st.thr i)) (ih (st.step w sup n i))

theorem enc_back (w : World) (sup : Suppliers) (n : Nat) (sched : List Nat) : ∀ (st : WSys) (i : Nat), (∃ t, (st.run w sup n sched).thr i = .enc t) →
    ∃ t, st.thr i = .enc t := by
  induction sched with
  | nil => intro st i h; exact h
  | cons j sched ih =>
    intro st i h
    obtain ⟨t, ht⟩ := ih (st.step w sup n j) i h
    by_cases hj : i = j
    · subst hj
      simp only [WSys.step, if_true] at ht
      revert ht
      cases st.thr i with
      | enc t' => intro _; exact ⟨t', rfl⟩
      | dec t' => intro ht; simp [Worker.step] at ht
    · simp only [WSys.step, if_neg hj] at ht
      exact ⟨t, ht⟩

/-! ### Threads that share what they only read -/

theorem Own.keeps {P Q : Nat → Prop} {h h' : Heap} {t : HThread} (ho : Own P h t) (hk : Keeps h h') (hpq : ∀ q, P q → Q q) : Own Q h' t := by
  intro a ha
  obtain ⟨h1, c, ⟨ys, h2⟩, h3⟩ := ho a ha
  obtain ⟨ys', h4⟩ := hk _ c ys h2
  exact ⟨hpq _ h1, c, ⟨ys', h4⟩, h3⟩

/-- The invariant: each thread is where it would be alone after as many steps, up to the places of objects, and what different threads have in
common is only read. -/
structure MInv (w : World) (sup : Suppliers) (n : Nat) (h0 : Heap) (t0 : Nat → Worker) (P : Nat → Nat → Prop) (st : WSys) (ks : Nat → Nat)
    (ρ : Nat → Nat → Nat → Prop) : Prop where
  ren : ∀ i, Ren (ρ i) (Worker.go w sup n (ks i) (h0, t0 i)).1 st.h
  thr : ∀ i, RelW (ρ i) (Worker.go w sup n (ks i) (h0, t0 i)).2 (st.thr i)
  share : ∀ i j, i ≠ j → ∀ a a' b, ρ i a b → ρ j a' b → (∃ t, st.thr i = .enc t) ∧ (∃ t, st.thr j = .enc t)
    ∧ ∀ c ys, st.h[b]? = some (.msg c ys) → hasComputed c = false
  own : ∀ i t, st.thr i = .enc t → Own (fun q => ∃ a, ρ i a q) st.h t
  init : ∀ i q, P i q → ρ i q q
  old : ∀ i a b, ρ i a b → b < h0.length → P i b
  len : h0.length ≤ st.h.length
  rest : ∀ q < h0.length, (∀ i, ¬ P i q) → st.h[q]? = h0[q]?

theorem ren_closed {ρ : Nat → Nat → Prop} {h h' : Heap} (hr : Ren ρ h h') : ClosedUnder (fun q => ∃ a, ρ a q) h' := by
  rintro r o ⟨a, har⟩ ho q hq
  obtain ⟨p, p', h1, h2, h3⟩ := hr.obj a r har
  rw [ho] at h2
  cases h2
  have key : ∀ (xs ys : List HVal), Pw (RelV ρ) xs ys → HVal.ref q ∈ ys → ∃ a, ρ a q := by
    intro xs ys hp
    induction hp with
    | nil => intro h; cases h
    | cons h4 _ ih =>
      intro h
      rcases List.mem_cons.mp h with h | h
      · subst h
        cases h4 with
        | ref h5 => exact ⟨_, h5⟩
      · exact ih h
  cases h3 with
  | msg c h3 => exact key _ _ h3 hq
  | arr h3 => exact key _ _ h3 hq

section
variable {w : World} {sup : Suppliers} {n : Nat} {h0 : Heap} {t0 : Nat → Worker} {P : Nat → Nat → Prop} {st : WSys} {ks : Nat → Nat}
  {ρ : Nat → Nat → Nat → Prop} (hi : MInv w sup n h0 t0 P st ks ρ)
include hi

/-- A thread that encodes changes only computed fields of its own frames. -/
theorem MInv.enc_others (i : Nat) {t : HThread} (ht : st.thr i = .enc t) (b : Nat)
    (hb : ∀ a, ρ i a b → ∀ c ys, st.h[b]? = some (.msg c ys) → hasComputed c = false) :
    ((st.thr i).step w sup n st.h).1[b]? = st.h[b]? := by
  rw [ht]
  have := (step_form w n (ren_closed (hi.ren i)) (fun q _ => rfl) t (hi.own i t ht)).2.2
  exact this.others b (fun ⟨a, ha⟩ => hb a ha)

theorem MInv.step (hm : Makes sup) (i : Nat) :
    ∃ ρ', (∀ j a b, ρ j a b → ρ' j a b) ∧ (∀ j a b, ρ' j a b → ρ j a b ∨ (j = i ∧ st.h.length ≤ b))
      ∧ MInv w sup n h0 t0 P (st.step w sup n i) (fun j => if j = i then ks i + 1 else ks j) ρ' := by
  obtain ⟨σ, s1, s2, s3, s4, s5, s6⟩ := wstep_moves hm w n (hi.ren i) (hi.thr i)
  have hoth : ∀ j, j ≠ i → ∀ a b, ρ j a b → ((st.thr i).step w sup n st.h).1[b]? = st.h[b]? := by
    intro j hj a b hab
    by_cases hb : ∃ a', ρ i a' b
    · obtain ⟨a', ha'⟩ := hb
      obtain ⟨⟨t, ht⟩, -, hc⟩ := hi.share i j (Ne.symm hj) a' a b ha' hab
      exact hi.enc_others i ht b (fun _ _ => hc)
    · exact s5 b ((hi.ren j).lt hab).2 (fun a' ha' => hb ⟨a', ha'⟩)
  have hthr : ∀ j t, ((st.step w sup n i).thr j = .enc t) → ∃ t', st.thr j = .enc t' := by
    intro j t ht
    by_cases hj : j = i
    · subst hj
      simp only [WSys.step, if_true] at ht
      revert ht
      cases st.thr j with
      | enc t' => intro _; exact ⟨t', rfl⟩
      | dec t' => intro ht; simp [Worker.step] at ht
    · simp only [WSys.step, if_neg hj] at ht
      exact ⟨t, ht⟩
  have hthr' : ∀ j, (∃ t, st.thr j = .enc t) → ∃ t, (st.step w sup n i).thr j = .enc t := by
    rintro j ⟨t, ht⟩
    by_cases hj : j = i
    · subst hj
      simp only [WSys.step, if_true, ht, Worker.step]
      exact ⟨_, rfl⟩
    · simp only [WSys.step, if_neg hj]
      exact ⟨t, ht⟩
  have hmono : ∀ j a b, ρ j a b → (if j = i then σ else ρ j) a b := by
    intro j a b h
    by_cases hj : j = i
    · subst hj; simp only [if_true]; exact s2 a b h
    · simp only [if_neg hj]; exact h
  have hup : ∀ j a b, (if j = i then σ else ρ j) a b → ρ j a b ∨ (j = i ∧ st.h.length ≤ b) := by
    intro j a b
    by_cases hj : j = i
    · subst hj
      simp only [if_true]
      intro h
      rcases s3 a b h with h | h
      · exact .inl h
      · exact .inr ⟨trivial, h⟩
    · simp only [if_neg hj]
      exact .inl
  refine ⟨fun j => if j = i then σ else ρ j, hmono, hup, ?_, ?_, ?_, ?_, ?_, ?_, ?_, ?_⟩
  · intro j
    by_cases hj : j = i
    · subst hj
      simp only [if_true, Worker.go_succ]
      exact s1
    · simp only [if_neg hj]
      refine ⟨(hi.ren j).fn, (hi.ren j).inj, fun a b hab => ?_⟩
      obtain ⟨o, o', h1, h2, h3⟩ := (hi.ren j).obj a b hab
      refine ⟨o, o', h1, ?_, h3⟩
      show ((st.thr i).step w sup n st.h).1[b]? = _
      rw [hoth j hj a b hab, h2]
  · intro j
    by_cases hj : j = i
    · subst hj
      simp only [if_true, Worker.go_succ, WSys.step]
      exact s6
    · simp only [if_neg hj, WSys.step]
      exact hi.thr j
  · have key : ∀ j, j ≠ i → ∀ a a' b, σ a b → ρ j a' b → (∃ t, (st.step w sup n i).thr i = .enc t) ∧ (∃ t, (st.step w sup n i).thr j = .enc t)
        ∧ ∀ c ys, (st.step w sup n i).h[b]? = some (.msg c ys) → hasComputed c = false := by
      intro j hj a a' b h1 h2
      rcases s3 a b h1 with h | h
      · obtain ⟨g1, g2, g3⟩ := hi.share i j (Ne.symm hj) a a' b h h2
        refine ⟨hthr' i g1, hthr' j g2, fun c ys hc => g3 c ys ?_⟩
        rw [← hoth j hj a' b h2]
        exact hc
      · have := ((hi.ren j).lt h2).2; omega
    intro j l hjl a a' b
    by_cases hj : j = i
    · subst hj
      simp only [if_true, if_neg (Ne.symm hjl)]
      exact key l (Ne.symm hjl) a a' b
    · by_cases hl : l = i
      · subst hl
        simp only [if_true, if_neg hj]
        intro h1 h2
        obtain ⟨g1, g2, g3⟩ := key j hj a' a b h2 h1
        exact ⟨g2, g1, g3⟩
      · simp only [if_neg hj, if_neg hl]
        intro h1 h2
        obtain ⟨g1, g2, g3⟩ := hi.share j l hjl a a' b h1 h2
        refine ⟨hthr' j g1, hthr' l g2, fun c ys hc => g3 c ys ?_⟩
        rw [← hoth j hj a b h1]
        exact hc
  · intro j t ht
    have hk : Keeps st.h (st.step w sup n i).h := wstep_keeps w sup n st.h (st.thr i)
    by_cases hj : j = i
    · subst hj
      obtain ⟨t', ht'⟩ := hthr j t ht
      have := (step_form w n (ren_closed (hi.ren j)) (fun q _ => rfl) t' (hi.own j t' ht')).2.1
      have e : t = (t'.step w n st.h).2 := by
        simp only [WSys.step, if_true, ht', Worker.step] at ht
        injection ht with ht
        exact ht.symm
      rw [e]
      simp only [if_true]
      exact this.keeps hk (fun q ⟨a, ha⟩ => ⟨a, s2 a q ha⟩)
    · simp only [if_neg hj]
      simp only [WSys.step, if_neg hj] at ht
      exact (hi.own j t ht).keeps hk (fun q h => h)
  · intro j q hq
    exact hmono j q q (hi.init j q hq)
  · intro j a b
    by_cases hj : j = i
    · subst hj
      simp only [if_true]
      intro h1 hb
      rcases s3 a b h1 with h | h
      · exact hi.old j a b h hb
      · have := hi.len; omega
    · simp only [if_neg hj]
      exact hi.old j a b
  · show h0.length ≤ ((st.thr i).step w sup n st.h).1.length
    have := hi.len
    omega
  · intro q hq hn
    show ((st.thr i).step w sup n st.h).1[q]? = _
    rw [s5 q (by have := hi.len; omega) (fun a ha => hn i (hi.old i a q ha hq)), hi.rest q hq hn]
end

theorem MInv.run {w : World} {sup : Suppliers} (hm : Makes sup) {n : Nat} {h0 : Heap} {t0 : Nat → Worker} {P : Nat → Nat → Prop}
    (sched : List Nat) : ∀ (st : WSys) (ks : Nat → Nat) (ρ : Nat → Nat → Nat → Prop), MInv w sup n h0 t0 P st ks ρ →
    ∃ ρ', (∀ j a b, ρ j a b → ρ' j a b) ∧ (∀ j a b, ρ' j a b → ρ j a b ∨ st.h.length ≤ b)
      ∧ MInv w sup n h0 t0 P (st.run w sup n sched) (fun j => ks j + sched.count j) ρ' := by
  induction sched with
  | nil => intro st ks ρ hi; exact ⟨ρ, fun _ _ _ h => h, fun _ _ _ h => .inl h, hi⟩
  | cons i sched ih =>
    intro st ks ρ hi
    obtain ⟨σ, m1, u1, hs⟩ := hi.step hm i
    obtain ⟨τ, m2, u2, ht⟩ := ih _ _ σ hs
    have hl := wstep_length w sup n st.h (st.thr i)
    refine ⟨τ, fun j a b h => m2 j a b (m1 j a b h), fun j a b h => ?_, ?_⟩
    · rcases u2 j a b h with h | h
      · rcases u1 j a b h with h | h
        · exact .inl h
        · exact .inr h.2
      · exact .inr (Nat.le_trans hl h)
    refine (funext fun j => ?_ : (fun j => (if j = i then ks i + 1 else ks j) + sched.count j) = fun j => ks j + (i :: sched).count j) ▸ ht
    by_cases hj : j = i
    · subst hj; simp; omega
    · rw [List.count_cons_of_ne (fun e => hj e.symm)]; simp [hj]

theorem start_enc {n : Nat} {h : Heap} {j : Job} (hj : j.isEncode = true) : ∃ t, j.start n h = .enc t := by
  cases j with
  | enc x b => exact ⟨_, rfl⟩
  | dec r b => cases hj

theorem MInv.start (w : World) (sup : Suppliers) (n : Nat) (h : Heap) (jobs : Nat → Job) (hc : Compatible h jobs) :
    MInv w sup n h (fun i => (jobs i).start n h) (fun i => Reach h (jobs i).root) (WSys.start n h jobs) (fun _ => 0)
      (fun i a b => a = b ∧ Reach h (jobs i).root a) := by
  refine ⟨fun i => reach_rel h _ (hc.2 i), fun i => ?_, ?_, ?_, fun i q hq => ⟨rfl, hq⟩, ?_, Nat.le_refl _, fun _ _ _ => rfl⟩
  · show RelW _ ((jobs i).start n h) ((jobs i).start n h)
    have hr := reach_rel h _ (hc.2 i)
    revert hr
    cases jobs i with
    | enc x b =>
      intro hr
      refine .enc (henter_rel hr n ?_ ⟨.nil, rfl, rfl⟩)
      cases x with
      | null => exact .null
      | num n => exact .num n
      | str s => exact .str s
      | ref q => exact .ref ⟨rfl, .here q⟩
    | dec r b =>
      intro hr
      exact .dec (denter_rel hr n ⟨rfl, .here r⟩ ⟨.nil, rfl, rfl⟩)
  · rintro i j hij a a' b ⟨rfl, h1⟩ ⟨rfl, h2⟩
    obtain ⟨g1, g2, g3⟩ := hc.1 i j hij _ h1 h2
    exact ⟨start_enc g1, start_enc g2, g3⟩
  · intro i t ht
    show Own _ h t
    have ht : (jobs i).start n h = .enc t := ht
    revert ht
    cases jobs i with
    | enc x b =>
      intro ht
      cases ht
      refine enter_own n x (fun q hq => ⟨q, rfl, ?_⟩) _ (fun a ha => by cases ha)
      rw [hq]
      exact .here q
    | dec r b => intro ht; cases ht
  · rintro i a b ⟨rfl, h1⟩ _
    exact h1

theorem mroot_rel {w : World} {sup : Suppliers} {n : Nat} {h0 : Heap} {t0 : Nat → Worker} {st : WSys} {ks : Nat → Nat}
    {ρ : Nat → Nat → Nat → Prop} {jobs : Nat → Job} (hi : MInv w sup n h0 t0 (fun i => Reach h0 (jobs i).root) st ks ρ) (i : Nat) :
    RelV (ρ i) (jobs i).root (jobs i).root := by
  have := hi.init i
  revert this
  cases (jobs i).root with
  | null => intro _; exact .null
  | num n => intro _; exact .num n
  | str s => intro _; exact .str s
  | ref q => intro h; exact .ref (h q (.here q))

/-! ### Accesses -/

theorem readList_in {P : Nat → Prop} {h : Heap} (hcl : ClosedUnder P h) {r f : Nat} (hr : P r) {x : Access} (hx : x ∈ readList h r f) :
    P x.place.object ∧ x.write = false := by
  unfold readList at hx
  rcases List.mem_cons.mp hx with rfl | hx
  · exact ⟨hr, rfl⟩
  · revert hx
    rcases hf : h.field r f with _ | _ | _ | _ | a <;> intro hx <;> try cases hx
    · exact ⟨field_in hcl hr hf, rfl⟩
    · rename_i hx; cases hx

theorem addList_in {P : Nat → Prop} {h : Heap} (hcl : ClosedUnder P h) {r f : Nat} (hr : P r) {x : Access} (hx : x ∈ addList h r f) :
    P x.place.object := by
  unfold addList at hx
  rcases List.mem_cons.mp hx with rfl | hx
  · exact hr
  · revert hx
    rcases hf : h.field r f with _ | _ | _ | _ | a <;> intro hx <;> try cases hx
    · exact field_in hcl hr hf
    · rename_i hx
      rcases List.mem_cons.mp hx with rfl | hx
      · exact field_in hcl hr hf
      · cases hx

/-- A thread that encodes reads objects it can reach, and writes fields of frames among them. -/
theorem haccess {P : Nat → Prop} {h : Heap} (hcl : ClosedUnder P h) {w : World} {t : HThread} (ho : Own P h t) {x : Access}
    (hx : x ∈ t.accesses w h) :
    P x.place.object ∧ (x.write = true → ∃ c ys, h[x.place.object]? = some (.msg c ys) ∧ hasComputed c = true) := by
  unfold HThread.accesses at hx
  split at hx
  · rename_i a as he hs
    obtain ⟨hP, c, ⟨ys, hc⟩, hst⟩ := ho a (by rw [hs]; exact List.mem_cons_self ..)
    split at hx
    · obtain ⟨h1, h2⟩ := readList_in hcl hP hx
      exact ⟨h1, fun h3 => by rw [h2] at h3; cases h3⟩
    · rename_i s ss _ htodo
      have hmem := hst s (by rw [htodo]; exact List.mem_cons_self ..)
      cases s with
      | list f zt p e el =>
        obtain ⟨h1, h2⟩ := readList_in hcl hP hx
        exact ⟨h1, fun h3 => by rw [h2] at h3; cases h3⟩
      | setLen f y z =>
        simp only [EncStmt.accesses, List.mem_singleton] at hx
        subst hx
        exact ⟨hP, fun _ => ⟨c, ys, hc, (computed_has (w := w) (f := f) hmem (by simp [assigns])).2⟩⟩
      | checksum f alg =>
        simp only [EncStmt.accesses] at hx
        split at hx
        · rename_i hsv
          simp only [List.mem_singleton] at hx
          subst hx
          exact ⟨hP, fun _ => ⟨c, ys, hc, (computed_has (w := w) (f := f) hmem (by simp [assigns, hsv])).2⟩⟩
        · cases hx
      | save y => cases hx
      | zero p e => cases hx
      | _ =>
        simp only [EncStmt.accesses, List.mem_singleton] at hx
        subst hx
        exact ⟨hP, fun h3 => by cases h3⟩
    · cases hx
  · cases hx

/-- A thread that decodes accesses objects it can reach. -/
theorem daccess {P : Nat → Prop} {h : Heap} (hcl : ClosedUnder P h) {t : DThread} (ho : ∀ a ∈ t.stack, P a.this) {x : Access}
    (hx : x ∈ t.accesses h) : P x.place.object := by
  unfold DThread.accesses at hx
  split at hx
  · rename_i a as he hs
    have hP := ho a (by rw [hs]; exact List.mem_cons_self ..)
    split at hx
    · cases hx
    · cases hx
    · exact addList_in hcl hP hx
    · rename_i s ss _ _
      cases s <;> simp only [DecStmt.accesses, List.mem_singleton, List.mem_cons, List.not_mem_nil, or_false] at hx <;>
        first
        | (subst hx; exact hP)
        | (rcases hx with rfl | rfl <;> exact hP)
    · cases hx
  · cases hx

theorem created_in {h h' : Heap} {x : Access} (hx : x ∈ created h h') : h.length ≤ x.place.object ∧ x.place.object < h'.length := by
  unfold created at hx
  obtain ⟨p, hp, rfl⟩ := List.mem_map.mp hx
  obtain ⟨q, hq, hpq⟩ := List.mem_flatMap.mp hp
  rw [List.mem_range'_1] at hq
  have : p.object = q := by
    unfold Heap.places at hpq
    split at hpq
    · obtain ⟨f, -, rfl⟩ := List.mem_map.mp hpq; rfl
    · rw [List.mem_singleton] at hpq; subst hpq; rfl
    · cases hpq
  rw [this]
  omega

theorem reld_this {ρ : Nat → Nat → Prop} {t t' : DThread} (hr : RelD ρ t t') : ∀ a ∈ t'.stack, ∃ b, ρ b a.this := by
  have := hr.stack
  generalize t.stack = xs at this
  generalize t'.stack = ys at this
  induction this with
  | nil => intro a ha; cases ha
  | cons h1 _ ih =>
    intro a ha
    rcases List.mem_cons.mp ha with rfl | ha
    · cases h1 with
      | idle _ _ h1 => exact ⟨_, h1⟩
      | loop _ _ _ _ _ h1 => exact ⟨_, h1⟩
      | add _ _ _ _ _ h1 _ => exact ⟨_, h1⟩
    · exact ih a ha

/-- What a thread accesses: new objects, or objects it can reach; a thread that encodes writes frames only. -/
theorem MInv.access {w : World} {sup : Suppliers} {n : Nat} {h0 : Heap} {t0 : Nat → Worker} {P : Nat → Nat → Prop} {st : WSys} {ks : Nat → Nat}
    {ρ : Nat → Nat → Nat → Prop} (hi : MInv w sup n h0 t0 P st ks ρ) (i : Nat) {x : Access} (hx : x ∈ (st.thr i).accesses w sup n st.h) :
    (st.h.length ≤ x.place.object ∧ x.place.object < (st.step w sup n i).h.length)
    ∨ ((∃ a, ρ i a x.place.object) ∧ ((∃ t, st.thr i = .enc t) → x.write = true →
        ∃ c ys, st.h[x.place.object]? = some (.msg c ys) ∧ hasComputed c = true)) := by
  unfold Worker.accesses at hx
  rcases List.mem_append.mp hx with hx | hx
  · right
    have hthr := hi.thr i
    have hown := hi.own i
    revert hx hthr hown
    cases st.thr i with
    | enc t =>
      intro hx hthr hown
      obtain ⟨h1, h2⟩ := haccess (ren_closed (hi.ren i)) (hown t rfl) hx
      exact ⟨h1, fun _ => h2⟩
    | dec t =>
      intro hx hthr hown
      refine ⟨?_, fun ⟨t', ht'⟩ => by cases ht'⟩
      generalize (Worker.go w sup n (ks i) (h0, t0 i)).2 = u at hthr
      cases hthr with
      | dec hr => exact daccess (ren_closed (hi.ren i)) (reld_this hr) hx
  · exact .inl (created_in hx)

/-- No conflict between an access of one thread now and one of another thread later. -/
theorem MInv.no_race {w : World} {sup : Suppliers} (hm : Makes sup) {n : Nat} {h0 : Heap} {t0 : Nat → Worker} {P : Nat → Nat → Prop} {st : WSys}
    {ks : Nat → Nat} {ρ : Nat → Nat → Nat → Prop} (hi : MInv w sup n h0 t0 P st ks ρ) (i j : Nat) (hij : i ≠ j) (sched : List Nat) :
    let later := (st.step w sup n i).run w sup n sched
    ∀ x ∈ (st.thr i).accesses w sup n st.h, ∀ y ∈ (later.thr j).accesses w sup n later.h, ¬ Conflict x y := by
  intro later x hx y hy ⟨hp, hw⟩
  obtain ⟨σ, m1, u1, hs⟩ := hi.step hm i
  obtain ⟨τ, m2, u2, ht⟩ := hs.run hm sched
  have hl1 := wstep_length w sup n st.h (st.thr i)
  have hl1 : st.h.length ≤ (st.step w sup n i).h.length := hl1
  have hl2 := (wrun_grows w sup n sched (st.step w sup n i)).length
  have hl2 : (st.step w sup n i).h.length ≤ later.h.length := hl2
  rcases hi.access i hx with ⟨x1, x2⟩ | ⟨⟨a, ha⟩, hxw⟩
  · rcases ht.access j hy with ⟨y1, y2⟩ | ⟨⟨b, hb⟩, -⟩
    · have y1 : later.h.length ≤ y.place.object := y1
      rw [← hp] at y1
      omega
    · rw [← hp] at hb
      rcases u2 j b _ hb with h | h
      · rcases u1 j b _ h with h | ⟨rfl, -⟩
        · have := ((hi.ren j).lt h).2; omega
        · exact hij rfl
      · omega
  · have hlt := ((hi.ren i).lt ha).2
    rcases ht.access j hy with ⟨y1, y2⟩ | ⟨⟨b, hb⟩, hyw⟩
    · have y1 : later.h.length ≤ y.place.object := y1
      rw [← hp] at y1
      omega
    · rw [← hp] at hb hyw
      obtain ⟨⟨t, h1⟩, h2, h3⟩ := ht.share i j hij a b _ (m2 i a _ (m1 i a _ ha)) hb
      rcases hw with hw | hw
      · have henc : ∃ t, st.thr i = .enc t := by
          have := enc_back w sup n (i :: sched) st i ⟨t, h1⟩
          exact this
        obtain ⟨c, ys, hc, hcomp⟩ := hxw henc hw
        obtain ⟨ys', hc'⟩ := ((wstep_grows w sup n st.h (st.thr i)).trans (wrun_grows w sup n sched (st.step w sup n i))).keeps _ c ys hc
        rw [h3 c ys' hc'] at hcomp
        cases hcomp
      · obtain ⟨c, ys, hc, hcomp⟩ := hyw h2 hw
        rw [h3 c ys hc] at hcomp
        cases hcomp

end FinProto
