import Verif.Spec.Registry
/- Lemmas for C15. -/
namespace FinProto

theorem registeredAfter_nil (name : String) : registeredAfter [] name = none := rfl

theorem registeredAfter_snoc (h : List RegCall) (c : RegCall) (name : String) :
    registeredAfter (h ++ [c]) name =
      if c.resets name then none
      else match registeredAfter h name with
        | some s => some s
        | none => c.offers name := by
  unfold registeredAfter
  simp only [List.reverse_append, List.reverse_cons, List.reverse_nil, List.nil_append, List.cons_append]
  cases hc : c.resets name
  · simp only [List.takeWhile_cons, hc, Bool.not_false, if_true, List.reverse_cons, List.findSome?_append,
      Bool.false_eq_true, if_false]
    cases hf : ((h.reverse.takeWhile fun c => !c.resets name).reverse).findSome? (·.offers name)
    · simp
    · simp
  · simp [hc]

theorem runCalls_eq (h : List RegCall) (name : String) :
    runCalls (fun _ => none) h name = registeredAfter h name := by
  generalize hr : h.reverse = r
  induction r generalizing h with
  | nil =>
    obtain rfl : h = [] := by simpa using hr
    rfl
  | cons c r ih =>
    obtain rfl : h = r.reverse ++ [c] := by
      rw [← List.reverse_reverse h, hr, List.reverse_cons]
    have ih := ih r.reverse (by simp)
    rw [runCalls, List.foldl_append, List.foldl_cons, List.foldl_nil, registeredAfter_snoc, ← ih]
    change (RegCall.run (runCalls (fun _ => none) r.reverse) c) name = _
    generalize runCalls (fun _ => none) r.reverse = g
    cases c with
    | registry s =>
      simp only [RegCall.run, Registry.registry, RegCall.resets, RegCall.offers]
      by_cases hs : (g s.algorithm).isSome = true
      · simp only [hs, if_true]
        by_cases hn : s.algorithm = name
        · subst hn
          obtain ⟨v, hv⟩ := Option.isSome_iff_exists.1 hs
          simp [hv]
        · cases g name <;> simp [hn]
      · simp only [hs]
        by_cases hn : s.algorithm = name
        · subst hn
          have : g s.algorithm = none := by simpa using hs
          simp [this]
        · have hn' : ¬ name = s.algorithm := fun h => hn h.symm
          cases hg : g name <;> simp [hn, hn', hg]
    | remove n =>
      simp only [RegCall.run, Registry.remove, RegCall.resets, RegCall.offers]
      by_cases hn : n = name
      · subst hn; simp
      · have hn' : ¬ name = n := fun h => hn h.symm
        cases g name <;> simp [hn, hn']
    | clear => simp [RegCall.run, Registry.clear, RegCall.resets]
    | get n => cases hg : g name <;> simp [RegCall.run, RegCall.resets, RegCall.offers, hg]

end FinProto
