import Verif.Proofs.TypedSteps
import Verif.Proofs.ConcurrentDecode
import Verif.Proofs.ConcurrentHeap
import Verif.Proofs.ObjectTables
import Verif.Proofs.HeapObjects
import Verif.Spec.History
/-
Helper lemmas on histories.
-/
namespace FinProto

def WOk (h : Heap) : Worker → Prop
  | .enc t => HOk h t
  | .dec t => DOk h t

theorem WOk.keep {h h' : Heap} (hk : Keeps h h') {t : Worker} (ht : WOk h t) : WOk h' t := by
  cases t with
  | enc t => exact HOk.keep hk ht
  | dec t => exact DOk.keep hk ht

theorem WOk.throws {h : Heap} {t : Worker} (ht : WOk h t) : t.throwsOk := by
  cases t with
  | enc t => exact HOk.err ht
  | dec t => exact DOk.err ht

structure ProcOk (p : Proc) : Prop where
  heap : TypedHeap p.h
  sups : TypedSups p.h p.sup
  thr : ∀ i, WOk p.h (p.thr i)

theorem proc_after (n : Nat) {p : Proc} (hp : ProcOk p) (o : Op) (ho : o.Legal p) : ProcOk (p.after n o) ∧ Keeps p.h (p.after n o).h := by
  have same : ∀ {h' : Heap}, TypedHeap h' → Keeps p.h h' → ProcOk { p with h := h' } ∧ Keeps p.h h' :=
    fun ht hk => ⟨⟨ht, hp.sups.keep hk, fun i => (hp.thr i).keep hk⟩, hk⟩
  have kr := Keeps.refl p.h
  cases o with
  | new c => exact same (typed_new hp.heap c) (keeps_append _ _)
  | newList => exact same (typed_append_arr hp.heap _) (keeps_append _ _)
  | set r f x =>
    obtain ⟨c, ys, t, h1, h2, h3, h4⟩ := ho
    exact same (typed_setField hp.heap h1 h2 h3 h4) (keeps_setField _ _ _ _)
  | put a xs =>
    obtain ⟨⟨zs, h1⟩, h2⟩ := ho
    exact same (typed_arr hp.heap h1 h2) (keeps_arr h1 _)
  | call i j =>
    refine ⟨⟨hp.heap, hp.sups, fun k => ?_⟩, kr⟩
    simp only [Proc.after]
    split
    · cases j with
      | enc x b =>
        exact henter_ok n ho.2 ⟨by simp, .inl rfl⟩
      | dec r b =>
        obtain ⟨-, c, ys, hr⟩ := ho
        exact denter_ok n hr ⟨by simp, .inl rfl⟩
    · exact hp.thr k
  | step i =>
    have key : TypedHeap ((p.thr i).step ⟨p.svc, fun _ _ => none⟩ p.sup n p.h).1 ∧ Keeps p.h ((p.thr i).step ⟨p.svc, fun _ _ => none⟩ p.sup n p.h).1
        ∧ WOk ((p.thr i).step ⟨p.svc, fun _ _ => none⟩ p.sup n p.h).1 ((p.thr i).step ⟨p.svc, fun _ _ => none⟩ p.sup n p.h).2 := by
      have hi := hp.thr i
      revert hi
      cases p.thr i with
      | enc t => exact fun hi => hstep_ok hp.heap _ n hi
      | dec t => exact fun hi => dstep_ok hp.heap hp.sups n hi
    refine ⟨⟨key.1, hp.sups.keep key.2.1, fun k => ?_⟩, key.2.1⟩
    simp only [Proc.after]
    split
    · exact key.2.2
    · exact (hp.thr k).keep key.2.1
  | services svc => exact ⟨⟨hp.heap, hp.sups, hp.thr⟩, kr⟩
  | suppliers sup => exact ⟨⟨hp.heap, ho, hp.thr⟩, kr⟩

theorem proc_run (n : Nat) : ∀ (ops : List Op) (p : Proc), ProcOk p → Legal n p ops → ProcOk (p.run n ops) ∧ Keeps p.h (p.run n ops).h
  | [], p, hp, _ => ⟨hp, .refl p.h⟩
  | o :: os, p, hp, hl => by
    obtain ⟨h1, h2⟩ := proc_after n hp o hl.1
    obtain ⟨h3, h4⟩ := proc_run n os _ h1 hl.2
    exact ⟨h3, h2.trans h4⟩

theorem typed_empty : TypedHeap [] := by
  refine ⟨fun r c ys hr => by simp at hr, fun a e e' h1 _ => ?_⟩
  obtain ⟨r, c, ys, f, h1, -⟩ := h1
  simp at h1

theorem typed_suppliers {w : World} (hw : TypedSuppliers w) (h : Heap) : TypedSups h w.suppliers := by
  intro fac key s hs
  unfold World.suppliers at hs
  rcases hv : w.fac fac key with _ | v <;> rw [hv] at hs
  · simp at hs
  · simp only [Option.map_some, Option.some.injEq] at hs
    rw [← hs]
    exact .inr (hw fac key v hv)

/-! ### One call -/

theorem hgo_ok (w : World) (n : Nat) : ∀ (k : Nat) (h : Heap) (t : HThread), TypedHeap h → HOk h t →
    TypedHeap (HThread.go w n k (h, t)).1 ∧ HOk (HThread.go w n k (h, t)).1 (HThread.go w n k (h, t)).2 ∧ Keeps h (HThread.go w n k (h, t)).1
  | 0, h, t, hh, ht => ⟨hh, ht, .refl h⟩
  | k + 1, h, t, hh, ht => by
    obtain ⟨h1, h2, h3⟩ := hstep_ok hh w n ht
    obtain ⟨h4, h5, h6⟩ := hgo_ok w n k _ _ h1 h3
    exact ⟨h4, h5, h2.trans h6⟩

theorem dgo_ok {sup : Suppliers} (n : Nat) : ∀ (k : Nat) (h : Heap) (t : DThread), TypedHeap h → TypedSups h sup → DOk h t →
    TypedHeap (DThread.go sup n k (h, t)).1 ∧ DOk (DThread.go sup n k (h, t)).1 (DThread.go sup n k (h, t)).2 ∧ Keeps h (DThread.go sup n k (h, t)).1
  | 0, h, t, hh, _, ht => ⟨hh, ht, .refl h⟩
  | k + 1, h, t, hh, hs, ht => by
    obtain ⟨h1, h2, h3⟩ := dstep_ok hh hs n ht
    obtain ⟨h4, h5, h6⟩ := dgo_ok n k _ _ h1 (hs.keep h2) h3
    exact ⟨h4, h5, h2.trans h6⟩

/-! ### equals, hashCode -/

/-- A value that is in a field or in a list of one. -/
def Live (h : Heap) (x : HVal) : Prop := (∃ t, ValOf h t x) ∨ ∃ e, ElOf h e x

theorem live_ref {h : Heap} {r : Nat} (hx : Live h (.ref r)) : (∃ c ys, h[r]? = some (.msg c ys)) ∨ ∃ xs, h[r]? = some (.arr xs) ∧ ∀ x ∈ xs, Live h x := by
  rcases hx with ⟨t, hx⟩ | ⟨e, hx⟩
  · cases hx with
    | list ha hx => exact .inr ⟨_, ha, fun x hx' => .inr ⟨_, hx x hx'⟩⟩
    | obj hr => exact .inl ⟨_, _, hr⟩
    | codec hr => exact .inl ⟨_, _, hr⟩
  · cases hx with
    | obj hr => exact .inl ⟨_, _, hr⟩

theorem live_field {h : Heap} (hh : TypedHeap h) {r : Nat} {c : Cls} {ys : List HVal} (hr : h[r]? = some (.msg c ys)) {f : Nat} (hf : f < (layout c).length)
    (hl : (layout c).length = (javaTypes c).length) : ∃ y, ys[f]? = some y ∧ Live h y := by
  obtain ⟨y, -, h2, h3⟩ := hh.field hr (List.getElem?_eq_getElem (hl ▸ hf))
  exact ⟨y, h2, .inl ⟨_, h3⟩⟩

theorem layout_fields (c : Cls) : (layout c).length = (javaTypes c).length := by
  cases c <;> rfl

def onlyOverflow {α : Type} : Except JErr α → Prop
  | .ok _ => True
  | .error e => e = .stackOverflow

theorem hequals_ok {h : Heap} (hh : TypedHeap h) : ∀ (n : Nat) (x y : HVal), Live h x → Live h y → onlyOverflow (hequals h n x y)
  | 0, _, _, _, _ => rfl
  | n + 1, x, y, hx, hy => by
    have ih := hequals_ok hh n
    have all : ∀ xs ys : List HVal, (∀ x ∈ xs, Live h x) → (∀ y ∈ ys, Live h y) → onlyOverflow (hequalsAll (hequals h n) xs ys) := by
      intro xs
      induction xs with
      | nil => intro ys _ _; trivial
      | cons x xs ihx =>
        intro ys h1 h2
        cases ys with
        | nil => trivial
        | cons y ys =>
          have := ih x y (h1 x (by simp)) (h2 y (by simp))
          simp only [hequalsAll]
          revert this
          rcases hequals h n x y with e | _ | _ <;> intro this
          · exact this
          · trivial
          · exact ihx ys (fun x hx => h1 x (List.mem_cons_of_mem _ hx)) (fun y hy => h2 y (List.mem_cons_of_mem _ hy))
    cases x with
    | null => simp only [hequals]; trivial
    | num k => simp only [hequals]; trivial
    | str s => simp only [hequals]; trivial
    | ref r =>
      have hx' := live_ref hx
      cases y with
      | ref q =>
        have hy' := live_ref hy
        simp only [hequals]
        split
        · trivial
        · rcases hx' with ⟨c, fs, hr⟩ | ⟨xs, hr, hxs⟩ <;> rcases hy' with ⟨d, gs, hq⟩ | ⟨ys, hq, hys⟩ <;> simp only [hr, hq]
          · split
            · rename_i hcd
              subst hcd
              have hm : ∀ p ∈ (decl c).eqs, p.1 < (layout c).length ∧ p.2 < (layout c).length := by
                intro p hp
                rw [eqs_table, List.mem_map] at hp
                obtain ⟨i, hi, rfl⟩ := hp
                exact ⟨List.mem_range.mp hi, List.mem_range.mp hi⟩
              revert hm
              generalize (decl c).eqs = ps
              intro hm
              induction ps with
              | nil => trivial
              | cons p ps ihp =>
                obtain ⟨h1, h2⟩ := hm p (by simp)
                obtain ⟨a, ha, hal⟩ := live_field hh hr h1 (layout_fields c)
                obtain ⟨b, hb, hbl⟩ := live_field hh hq h2 (layout_fields c)
                have := ih a b hal hbl
                simp only [hequalsFields, ha, hb]
                revert this
                rcases hequals h n a b with e | _ | _ <;> intro this
                · exact this
                · trivial
                · exact ihp fun p hp => hm p (List.mem_cons_of_mem _ hp)
            · trivial
          · trivial
          · trivial
          · split
            · exact all xs ys hxs hys
            · trivial
      | _ =>
        simp only [hequals]
        rcases hx' with ⟨c, fs, hr⟩ | ⟨xs, hr, hxs⟩ <;> rw [hr] <;> trivial

theorem hhash_ok {h : Heap} (hh : TypedHeap h) : ∀ (n : Nat) (x : HVal), Live h x → onlyOverflow (hhash h n x)
  | 0, _, _ => rfl
  | n + 1, x, hx => by
    have ih := hhash_ok hh n
    have all : ∀ (xs : List HVal) (k : BitVec 32), (∀ x ∈ xs, Live h x) → onlyOverflow (hhashSeq (hhash h n) k xs) := by
      intro xs
      induction xs with
      | nil => intro k _; trivial
      | cons x xs ihx =>
        intro k h1
        have := ih x (h1 x (by simp))
        simp only [hhashSeq]
        revert this
        rcases hhash h n x with e | i <;> intro this
        · exact this
        · exact ihx _ fun x hx => h1 x (List.mem_cons_of_mem _ hx)
    cases x with
    | null => simp only [hhash]; trivial
    | num k => simp only [hhash]; trivial
    | str s => simp only [hhash]; trivial
    | ref r =>
      simp only [hhash]
      rcases live_ref hx with ⟨c, fs, hr⟩ | ⟨xs, hr, hxs⟩ <;> simp only [hr]
      · rw [hash_table]
        split
        · exact ih _ hx
        · rename_i is heq
          have his : ∀ i ∈ is, i < (layout c).length := by
            intro i hi
            split at heq
            · cases heq
            · simp only [HashBody.fields.injEq] at heq
              rw [← heq] at hi
              exact List.mem_range.mp hi
          have hp : ∃ vs, hpick fs is = some vs ∧ ∀ v ∈ vs, Live h v := by
            clear heq
            induction is with
            | nil => exact ⟨[], rfl, by simp⟩
            | cons i is ihi =>
              obtain ⟨vs, h1, h2⟩ := ihi fun i hi => his i (List.mem_cons_of_mem _ hi)
              obtain ⟨y, h3, h4⟩ := live_field hh hr (his i (by simp)) (layout_fields c)
              refine ⟨y :: vs, by simp only [hpick, h3, h1], fun v hv => ?_⟩
              rcases List.mem_cons.mp hv with rfl | hv
              · exact h4
              · exact h2 v hv
          obtain ⟨vs, h1, h2⟩ := hp
          rw [h1]
          exact all vs 1 h2
      · exact all xs 1 hxs

end FinProto
