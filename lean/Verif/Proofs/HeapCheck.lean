import Verif.Spec.Heap
/-
A decision procedure for `Shows`, for examples.
-/
namespace FinProto

mutual
def showsB (h : Heap) : Val → HVal → Bool
  | .null, x => decide (x = .null)
  | .num n, x => decide (x = .num n)
  | .str s, x => decide (x = .str s)
  | .list xs, x => match x with
    | .ref a => match h[a]? with
      | some (.arr ys) => showsAllB h xs ys
      | _ => false
    | _ => false
  | .obj c fs, x => match x with
    | .ref a => match h[a]? with
      | some (.msg d ys) => decide (c = d) && showsAllB h fs ys
      | _ => false
    | _ => false
def showsAllB (h : Heap) : List Val → List HVal → Bool
  | [], ys => decide (ys = [])
  | v :: vs, ys => match ys with
    | z :: zs => showsB h v z && showsAllB h vs zs
    | [] => false
end

theorem showsB_iff (h : Heap) (v : Val) : ∀ x, showsB h v x = true ↔ Shows h v x := by
  apply Val.rec
    (motive_1 := fun v => ∀ x, showsB h v x = true ↔ Shows h v x)
    (motive_2 := fun vs => ∀ ys, showsAllB h vs ys = true ↔ ShowsAll h vs ys)
  · intro x; simp [showsB, Shows]
  · intro n x; simp [showsB, Shows]
  · intro s x; simp [showsB, Shows]
  · intro xs ih x
    cases x <;> simp only [showsB, Shows]
    case ref a =>
      rcases ha : h[a]? with _ | (⟨d, ys⟩ | ys)
      · simp; intro b hb; rw [ha] at hb; cases hb
      · simp; intro b hb; rw [ha] at hb; cases hb
      · simp only []
        rw [ih]
        constructor
        · intro hs; exact ⟨a, ys, rfl, ha, hs⟩
        · rintro ⟨b, zs, hb, hz, hs⟩
          cases hb; rw [ha] at hz; cases hz; exact hs
    all_goals simp
  · intro c fs ih x
    cases x <;> simp only [showsB, Shows]
    case ref a =>
      rcases ha : h[a]? with _ | (⟨d, ys⟩ | ys)
      · simp; intro b hb; rw [ha] at hb; cases hb
      · simp only [Bool.and_eq_true, decide_eq_true_eq]
        rw [ih]
        constructor
        · rintro ⟨rfl, hs⟩; exact ⟨a, ys, rfl, ha, hs⟩
        · rintro ⟨b, zs, hb, hz, hs⟩
          cases hb; rw [ha] at hz; cases hz; exact ⟨rfl, hs⟩
      · simp; intro b hb; rw [ha] at hb; cases hb
    all_goals simp
  · intro ys; simp [showsAllB, ShowsAll]
  · intro v vs ih1 ih2 ys
    cases ys with
    | nil => simp [showsAllB, ShowsAll]
    | cons z zs =>
      simp only [showsAllB, ShowsAll, Bool.and_eq_true, ih1, ih2]
      constructor
      · rintro ⟨h1, h2⟩; exact ⟨z, zs, rfl, h1, h2⟩
      · rintro ⟨z', zs', he, h1, h2⟩
        cases he; exact ⟨h1, h2⟩

instance (h : Heap) (v : Val) (x : HVal) : Decidable (Shows h v x) := decidable_of_iff _ (showsB_iff h v x)

instance (h : Heap) (v : Val) (x : HVal) : Decidable (Unshared h v x) := inferInstanceAs (Decidable (_ ∧ _))

end FinProto
