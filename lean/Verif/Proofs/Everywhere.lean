import Verif.Spec.Everywhere
import Verif.Proofs.Canonical
import Verif.Model.Factory
/-
Helper lemmas: conditions that ignore length and checksum fields.
-/
namespace FinProto

/-- The condition does not depend on computed fields. -/
def Blind (P : Conv → WTy → Val → Prop) : Prop :=
  ∀ k t v, (P k t (blankField t v) ↔ P k t v)

def EveryP (P : Conv → WTy → Val → Prop) (v : Val) : Prop :=
  (∀ k t, everyField P k t (blankField t v) ↔ everyField P k t v) ∧ (∀ k e, everyElem P k e (blankElem v) ↔ everyElem P k e v)

theorem everyFieldsP (P : Conv → WTy → Val → Prop) (k : Conv) (ts : List WTy) (fs : List Val) (h : ∀ x ∈ fs, EveryP P x) :
    everyFields P k ts (blankFields ts fs) ↔ everyFields P k ts fs := by
  induction fs generalizing ts with
  | nil => exact Iff.rfl
  | cons v vs ih =>
    cases ts with
    | nil => exact Iff.rfl
    | cons t ts =>
      simp only [blankFields, everyFields, (h v (by simp)).1, ih ts (fun x hx => h x (by simp [hx]))]

theorem everyElemsP (P : Conv → WTy → Val → Prop) (k : Conv) (e : EWTy) (fs : List Val) (h : ∀ x ∈ fs, EveryP P x) :
    everyElems P k e (blankElems fs) ↔ everyElems P k e fs := by
  induction fs with
  | nil => exact Iff.rfl
  | cons v vs ih =>
    simp only [blankElems, everyElems, (h v (by simp)).2, ih (fun x hx => h x (by simp [hx]))]

theorem everyP (P : Conv → WTy → Val → Prop) (hP : Blind P) (v : Val) : EveryP P v := by
  refine Val.ind ?_ ?_ ?_ ?_ ?_ v
  · exact ⟨fun _ _ => Iff.rfl, fun _ _ => Iff.rfl⟩
  · intro n
    refine ⟨fun k t => ?_, fun _ _ => Iff.rfl⟩
    have := hP k t (.num n)
    cases t <;> exact this
  · exact fun s => ⟨fun _ _ => Iff.rfl, fun _ _ => Iff.rfl⟩
  · intro xs ih
    refine ⟨fun k t => ?_, fun _ _ => Iff.rfl⟩
    have := hP k t (.list xs)
    simp only [blankField] at this
    simp only [blankField, everyField, this]
    cases t with
    | list e => simp only [everyElemsP P k e xs ih]
    | _ => exact Iff.rfl
  · intro c fs ih
    have h := everyFieldsP P (conv c.mod) (wire c) fs ih
    refine ⟨fun k t => ?_, fun k e => ?_⟩
    · have := hP k t (.obj c fs)
      simp only [blankField] at this
      simp only [blankField, everyField, this, h]
    · have := hP k e.toWTy (.obj c fs)
      simp only [blankField] at this
      simp only [blankElem, everyElem, this, h]

theorem everywhere_settle (P : Conv → WTy → Val → Prop) (hP : Blind P) (svc : Registry) (pre : List Byte) (v : Val)
    (hv : wellTyped v = true) : everywhere P (settle svc pre v) ↔ everywhere P v := by
  have h : ∀ v, everywhere P (blank v) ↔ everywhere P v := by
    intro v
    cases v with
    | obj c fs => exact everyFieldsP P _ _ fs fun x _ => everyP P hP x
    | _ => exact Iff.rfl
  rw [← h, blank_settle svc pre v hv, h]

theorem blind_fitsPrefix : Blind fitsPrefix := by
  intro k t v
  cases v with
  | list xs => cases t <;> simp only [fitsPrefix, blankField, blankElems_length]
  | num n => cases t <;> exact Iff.rfl
  | _ => cases t <;> exact Iff.rfl

theorem blind_leftFilled : Blind leftFilled := by
  intro k t v
  cases t <;> cases v <;> exact Iff.rfl

/-! ### default factories -/

theorem registerSse_map (F : Factories) (c : Cls) (t : BitVec 32) (s : Option Val) :
    (F.registerSse c t s).map = (F.put .sse_SseBinary (.int t) s).map := rfl

def FreshMap (F : Factories) : Prop := ∀ f k v, F.map f k = some v → ∃ c, v = fresh c

theorem freshMap_put (F : Factories) (h : FreshMap F) (f : Fac) (k : Key) (c : Cls) : FreshMap (F.put f k (some (fresh c))) := by
  intro f' k' v hv
  simp only [Factories.put] at hv
  split at hv
  · exact ⟨c, (Option.some.inj hv).symm⟩
  · exact h f' k' v hv

theorem freshMap_initial : FreshMap Factories.initial := by
  have h1 : ∀ (l : List _) (F : Factories), FreshMap F →
      FreshMap (l.foldl (fun F (r : Cls × SseMessageType × Cls) => F.registerSse r.1 r.2.1.getValue (some (fresh r.2.2))) F) := by
    intro l
    induction l with
    | nil => exact fun F h => h
    | cons r l ih => exact fun F h => ih _ (freshMap_put F h _ _ _)
  have h2 : ∀ (l : List _) (F : Factories), FreshMap F →
      FreshMap (l.foldl (fun F (r : Reg) => if r.fac = .sse_SseBinary then F else F.put r.fac r.key (some (fresh r.cls))) F) := by
    intro l
    induction l with
    | nil => exact fun F h => h
    | cons r l ih =>
      intro F h
      refine ih _ ?_
      dsimp only
      split
      · exact h
      · exact freshMap_put F h _ _ _
  exact h1 _ _ (h2 _ _ (fun f k v hv => by simp [Factories.empty] at hv))

end FinProto
