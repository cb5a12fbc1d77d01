import Verif.Spec.MessageTypes
/-
The default registrations are exactly the specified message types.
-/
namespace FinProto

theorem regs_in_spec : (defaultRegs.all fun r => (messageTypes r.fac).any fun e =>
    decide (e.1 = r.key) && decide (e.2 = (decl r.cls).name) && decide (r.cls.mod = r.fac.protocol)) = true := by decide +kernel

theorem spec_in_regs : (allFac.all fun f => (messageTypes f).all fun e => defaultRegs.any fun r =>
    decide (r.fac = f) && decide (r.key = e.1) && decide ((decl r.cls).name = e.2) && decide (r.cls.mod = f.protocol)) = true := by
  decide +kernel

theorem names_nodup : (allCls.map fun c => (c.mod, (decl c).name)).Nodup := by decide +kernel

theorem cls_mem (c : Cls) : c ∈ allCls := by cases c <;> decide

theorem fac_mem (f : Fac) : f ∈ allFac := by cases f <;> decide

/-- Protocol and simple name identify a class. -/
theorem name_inj (a b : Cls) (hm : a.mod = b.mod) (hn : (decl a).name = (decl b).name) : a = b := by
  have h := names_nodup
  rw [List.Nodup, List.pairwise_map] at h
  by_cases hab : a = b
  · exact hab
  · exfalso
    obtain ⟨i, hi⟩ := List.getElem?_of_mem (cls_mem a)
    obtain ⟨j, hj⟩ := List.getElem?_of_mem (cls_mem b)
    have hi' := List.getElem?_eq_some_iff.mp hi
    have hj' := List.getElem?_eq_some_iff.mp hj
    obtain ⟨hil, hie⟩ := hi'
    obtain ⟨hjl, hje⟩ := hj'
    have hp := List.pairwise_iff_getElem.mp h
    rcases Nat.lt_trichotomy i j with hlt | heq | hgt
    · have := hp i j hil hjl hlt
      rw [hie, hje] at this
      exact this (by rw [hm, hn])
    · subst heq
      exact hab (hie.symm.trans hje)
    · have := hp j i hjl hil hgt
      rw [hie, hje] at this
      exact this (by rw [hm, hn])

theorem regs_iff (f : Fac) (k : Key) (c : Cls) :
    (∃ r ∈ defaultRegs, r.fac = f ∧ r.key = k ∧ r.cls = c) ↔ (k, (decl c).name) ∈ messageTypes f ∧ c.mod = f.protocol := by
  constructor
  · rintro ⟨r, hr, rfl, rfl, rfl⟩
    have h := regs_in_spec
    rw [List.all_eq_true] at h
    have h := h r hr
    rw [List.any_eq_true] at h
    obtain ⟨e, he, h⟩ := h
    simp only [Bool.and_eq_true, decide_eq_true_eq] at h
    obtain ⟨⟨h1, h2⟩, h3⟩ := h
    refine ⟨?_, h3⟩
    rw [← h1, ← h2]
    exact he
  · rintro ⟨he, hm⟩
    have h := spec_in_regs
    rw [List.all_eq_true] at h
    have h := h f (fac_mem f)
    rw [List.all_eq_true] at h
    have h := h _ he
    rw [List.any_eq_true] at h
    obtain ⟨r, hr, h⟩ := h
    simp only [Bool.and_eq_true, decide_eq_true_eq] at h
    obtain ⟨⟨⟨h1, h2⟩, h3⟩, h4⟩ := h
    exact ⟨r, hr, h1, h2, name_inj _ _ (h4.trans hm.symm) h3⟩

end FinProto
