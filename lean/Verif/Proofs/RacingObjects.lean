import Verif.Model.RacingObjects
import Verif.Spec.Racing
import Verif.Proofs.Racing
import Verif.Proofs.ObjectTables
import Verif.Proofs.ObjectMethods
/-
Helper lemmas for C110.
-/
namespace FinProto

theorem mixture_get (o : Others) (fs : List Val) (when : Nat → Nat) (f : Nat) : (mixture o fs when)[f]? = (fieldsAt o fs (when f))[f]? := by
  unfold mixture
  have hlen := fieldsAt_length o fs
  by_cases hf : f < fs.length
  · have hx : f < (fieldsAt o fs (when f)).length := by rw [hlen]; exact hf
    simp [hf, List.getElem?_eq_getElem hx]
  · have hx : (fieldsAt o fs (when f)).length ≤ f := by rw [hlen]; omega
    rw [List.getElem?_eq_none hx, List.getElem?_eq_none (by simpa using Nat.le_of_not_lt hf)]

theorem mixture_one (o : Others) (fs : List Val) (when : Nat → Nat) (f : Nat) (hone : ∀ k, ∀ p ∈ o k, p.1 = f) : mixture o fs when = fieldsAt o fs (when f) := by
  have hother : ∀ g, g ≠ f → ∀ k, (fieldsAt o fs k)[g]? = fs[g]? := by
    intro g hg k
    induction k with
    | zero => rw [fieldsAt_zero]
    | succ k ih => rw [fieldsAt_succ, setAll_other _ _ (fun p hp e => hg (e.symm.trans (hone k p hp))), ih]
  apply List.ext_getElem?
  intro g
  rw [mixture_get]
  by_cases hg : g = f
  · rw [hg]
  · rw [hother g hg, hother g hg]

theorem fieldsAt_quiet (fs : List Val) (k : Nat) : fieldsAt (fun _ => []) fs k = fs := by
  induction k with
  | zero => rw [fieldsAt_zero]
  | succ k ih => rw [fieldsAt_succ, ih]; rfl

theorem mixture_quiet (fs : List Val) (when : Nat → Nat) : mixture (fun _ => []) fs when = fs := by
  apply List.ext_getElem?
  intro g
  rw [mixture_get, fieldsAt_quiet]

theorem readAll_range (o : Others) (fs : List Val) (m : Nat) : ∀ i, readAll o (List.range' i m) i (fieldsAt o fs i) = pick (mixture o fs (· + 1)) (List.range' i m) := by
  induction m with
  | zero => intro i; rfl
  | succ m ih =>
    intro i
    rw [List.range'_succ]
    simp only [readAll, pick]
    rw [← fieldsAt_succ, ih (i + 1), mixture_get]
    rcases (fieldsAt o fs (i + 1))[i]? with _ | v <;> cases pick (mixture o fs (· + 1)) (List.range' (i + 1) m) <;> rfl

theorem self_overflow (c : Cls) (hc : (decl c).hash = .self) (n : Nat) (fs : List Val) : Val.hashCode n (.obj c fs) = .error .stackOverflow := by
  induction n with
  | zero => simp [Val.hashCode]
  | succ n ih => simp only [Val.hashCode, hc]; exact ih

theorem rself_overflow (o : Others) (c : Cls) (hc : (decl c).hash = .self) (n : Nat) (fs : List Val) : rhashCode o n c fs = .error .stackOverflow := by
  induction n with
  | zero => simp [rhashCode]
  | succ n ih => simp only [rhashCode, hc]; exact ih

/-- One piece of the printed form. -/
def pieceOf (conv : Val → Option JStr) (fs : List Val) : StrPart → Option JStr
  | .lit s => some (js s)
  | .field i => match fs[i]? with | some v => conv v | none => none

theorem rparts_lit (o : Others) (conv : Val → Option JStr) (s : String) (ps : List StrPart) (k : Nat) (fs gs : List Val)
    (h : rparts o conv ps k fs = allSome (pieceOf conv gs) ps) : rparts o conv (.lit s :: ps) k fs = allSome (pieceOf conv gs) (.lit s :: ps) := by
  simp only [rparts, allSome, pieceOf, h]
  cases allSome (pieceOf conv gs) ps <;> rfl

theorem rparts_fields (o : Others) (conv : Val → Option JStr) (fs : List Val) (tail : String) (nms : List String) : ∀ (i : Nat) (first : Bool),
    rparts o conv (strFields i first nms ++ [.lit tail]) i (fieldsAt o fs i) = allSome (pieceOf conv (mixture o fs (· + 1))) (strFields i first nms ++ [.lit tail]) := by
  induction nms with
  | nil => intro i first; exact rparts_lit o conv tail [] i _ _ rfl
  | cons nm nms ih =>
    intro i first
    simp only [strFields, List.cons_append]
    refine rparts_lit _ _ _ _ _ _ _ ?_
    have ih' := ih (i + 1) false
    simp only [rparts, allSome, pieceOf]
    rw [← fieldsAt_succ, ih', mixture_get]
    rcases (fieldsAt o fs (i + 1))[i]? with _ | v
    · rfl
    · dsimp only
      cases conv v <;> cases allSome (pieceOf conv (mixture o fs (· + 1))) (strFields (i + 1) false nms ++ [.lit tail]) <;> rfl

theorem allSome_pieceOf (flt : Num → JStr) (n : Nat) (c : Cls) (fs : List Val) :
    (Val.obj c fs).toStr flt (n + 1) = (allSome (pieceOf (Val.toStr flt n) fs) (decl c).str).map List.flatten := by
  simp only [Val.toStr]
  congr 2

/-! ### equals -/

/-- Field `f` at its moments in the two messages. -/
def sameAt (oa ob : Others) (fs gs : List Val) (f : Nat) : Bool :=
  match (fieldsAt oa fs (2 * f + 1))[f]?, (fieldsAt ob gs (2 * f + 2))[f]? with
  | some x, some y => Val.equals x y
  | _, _ => false

theorem reqs_range (oa ob : Others) (fs gs : List Val) (m : Nat) : ∀ i,
    let r := reqs oa ob ((List.range' i m).map fun i => (i, i)) (2 * i) (fieldsAt oa fs (2 * i)) (fieldsAt ob gs (2 * i))
    (r.1 = true ∧ r.2 = 2 * (i + m) ∧ ∀ f, i ≤ f → f < i + m → sameAt oa ob fs gs f = true)
      ∨ (r.1 = false ∧ ∃ s, i ≤ s ∧ s < i + m ∧ r.2 = 2 * s + 2 ∧ sameAt oa ob fs gs s = false) := by
  induction m with
  | zero =>
    intro i
    exact .inl ⟨rfl, rfl, fun f h1 h2 => by omega⟩
  | succ m ih =>
    intro i
    rw [List.range'_succ, List.map_cons]
    simp only [reqs]
    rw [← fieldsAt_succ, ← fieldsAt_succ, ← fieldsAt_succ, ← fieldsAt_succ]
    have ih' := ih (i + 1)
    rw [show 2 * (i + 1) = 2 * i + 1 + 1 by omega] at ih'
    have hs : sameAt oa ob fs gs i = match (fieldsAt oa fs (2 * i + 1))[i]?, (fieldsAt ob gs (2 * i + 1 + 1))[i]? with
      | some x, some y => Val.equals x y
      | _, _ => false := rfl
    rcases hx : (fieldsAt oa fs (2 * i + 1))[i]? with _ | x
    · rw [hx] at hs
      exact .inr ⟨rfl, i, Nat.le_refl _, by omega, rfl, hs⟩
    · rcases hy : (fieldsAt ob gs (2 * i + 1 + 1))[i]? with _ | y
      · rw [hx, hy] at hs
        exact .inr ⟨rfl, i, Nat.le_refl _, by omega, rfl, hs⟩
      · rw [hx, hy] at hs
        dsimp only at hs ⊢
        cases he : Val.equals x y with
        | false =>
          rw [he] at hs
          exact .inr ⟨rfl, i, Nat.le_refl _, by omega, rfl, hs⟩
        | true =>
          rw [he] at hs
          simp only [if_true]
          rcases ih' with ⟨h1, h2, h3⟩ | ⟨h1, s, h2, h3, h4, h5⟩
          · refine .inl ⟨h1, by rw [h2]; omega, fun f g1 g2 => ?_⟩
            rcases Nat.eq_or_lt_of_le g1 with rfl | g1
            · exact hs
            · exact h3 f (by omega) (by omega)
          · exact .inr ⟨h1, s, by omega, by omega, h4, h5⟩

theorem equals_obj_fields (c : Cls) (fs gs : List Val) : Val.equals (.obj c fs) (.obj c gs) = true ↔
    ∀ f, f < (layout c).length → ∃ x y, fs[f]? = some x ∧ gs[f]? = some y ∧ Val.equals x y = true := by
  simp only [Val.equals, eqs_table, equalsFns_eq, List.all_map, List.all_eq_true, List.mem_range, Bool.and_eq_true, decide_true, true_and,
    Function.comp, List.getElem?_map]
  constructor
  · intro h f hf
    have := h f hf
    rcases hx : fs[f]? with _ | x
    · rw [hx] at this; cases this
    · rcases hy : gs[f]? with _ | y
      · rw [hx, hy] at this; cases this
      · rw [hx, hy] at this
        exact ⟨x, y, rfl, rfl, this⟩
  · intro h f hf
    obtain ⟨x, y, h1, h2, h3⟩ := h f hf
    rw [h1, h2]
    exact h3

end FinProto
