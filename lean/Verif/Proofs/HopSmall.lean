import Verif.Proofs.Within
import Verif.Spec.Amount
import Verif.Spec.Hop
/-
Helper lemmas: texts inside a message are no longer than the message.
-/
namespace FinProto

theorem utf8Enc_le (s : JStr) : (utf8Enc s).length ≤ 3 * s.length := by
  have h3 : ∀ u, u < 0x10000 → (utf8Scalar u).length ≤ 3 := by
    intro u hu
    unfold utf8Scalar
    repeat' split
    all_goals simp
  have h4 : ∀ u, (utf8Scalar u).length ≤ 4 := by
    intro u
    unfold utf8Scalar
    repeat' split
    all_goals simp
  have hc : ∀ c : JChar, c.toNat < 0x10000 := fun c => c.isLt
  unfold utf8Enc
  fun_induction scalars s with
  | case1 => simp
  | case2 c =>
    have := h3 (if isHigh c || isLow c then 0x3F else c.toNat) (by split; decide; exact hc c)
    simpa using this
  | case3 c d t h1 h2 ih =>
    have := h4 (0x10000 + (c.toNat - 0xD800) * 0x400 + (d.toNat - 0xDC00))
    simp only [List.flatMap_cons, List.length_append, List.length_cons] at *
    omega
  | case4 c d t h1 h2 ih =>
    have := h3 0x3F (by decide)
    simp only [List.flatMap_cons, List.length_append, List.length_cons] at *
    omega
  | case5 c d t h1 ih =>
    have := h3 (if isLow c then 0x3F else c.toNat) (by split; decide; exact hc c)
    simp only [List.flatMap_cons, List.length_append, List.length_cons] at *
    omega

theorem mem_chars (fs : List Val) : ∀ x ∈ fs, x.chars ≤ charsAll fs := by
  induction fs with
  | nil => simp
  | cons v vs ih =>
    intro x hx
    simp only [charsAll]
    rcases List.mem_cons.mp hx with rfl | hx
    · omega
    · have := ih x hx
      omega

def fewChars (N : Nat) (_ : Conv) (_ : WTy) (v : Val) : Prop := v.chars ≤ N

theorem chars_all (N : Nat) (v : Val) : v.chars ≤ N →
    (∀ k t, everyField (fewChars N) k t v) ∧ (∀ k e, everyElem (fewChars N) k e v) := by
  have fields : ∀ (fs : List Val), (∀ x ∈ fs, (∀ k t, everyField (fewChars N) k t x) ∧ (∀ k e, everyElem (fewChars N) k e x)) →
      ∀ k ts, everyFields (fewChars N) k ts fs := by
    intro fs
    induction fs with
    | nil => intros; trivial
    | cons v vs ih =>
      intro h k ts
      cases ts with
      | nil => trivial
      | cons t ts => exact ⟨(h v (by simp)).1 k t, ih (fun x hx => h x (by simp [hx])) k ts⟩
  have elems : ∀ (fs : List Val), (∀ x ∈ fs, (∀ k t, everyField (fewChars N) k t x) ∧ (∀ k e, everyElem (fewChars N) k e x)) →
      ∀ k e, everyElems (fewChars N) k e fs := by
    intro fs
    induction fs with
    | nil => intros; trivial
    | cons v vs ih =>
      intro h k e
      exact ⟨(h v (by simp)).2 k e, ih (fun x hx => h x (by simp [hx])) k e⟩
  refine Val.ind (P := fun v => v.chars ≤ N → (∀ k t, everyField (fewChars N) k t v) ∧ (∀ k e, everyElem (fewChars N) k e v)) ?_ ?_ ?_ ?_ ?_ v
  · exact fun h => ⟨fun k t => h, fun k e => h⟩
  · exact fun n h => ⟨fun k t => h, fun k e => h⟩
  · exact fun s h => ⟨fun k t => h, fun k e => h⟩
  · intro xs ih h
    have ih' := fun x hx => ih x hx (Nat.le_trans (mem_chars xs x hx) h)
    refine ⟨fun k t => ⟨h, ?_⟩, fun k e => h⟩
    cases t with
    | list e => exact elems xs ih' k e
    | _ => trivial
  · intro c fs ih h
    have ih' := fun x hx => ih x hx (Nat.le_trans (mem_chars fs x hx) h)
    exact ⟨fun k t => ⟨h, fields fs ih' _ _⟩, fun k e => ⟨h, fields fs ih' _ _⟩⟩

theorem everywhere_chars (c : Cls) (fs : List Val) : everywhere (fewChars (Val.obj c fs).chars) (.obj c fs) :=
  ((chars_all _ (.obj c fs) (Nat.le_refl _)).1 (conv c.mod) (.sub c)).2

/-- The conventions are those of one protocol. -/
def convIs (m : Mod) (k : Conv) (_ : WTy) (_ : Val) : Prop := k = conv m

theorem conv_all (m : Mod) (v : Val) :
    (∀ t, everyField (classesIn fun d => d.mod = m) (conv m) t v → everyField (convIs m) (conv m) t v)
      ∧ (∀ e, everyElem (classesIn fun d => d.mod = m) (conv m) e v → everyElem (convIs m) (conv m) e v) := by
  have fields : ∀ (fs : List Val), (∀ x ∈ fs, (∀ t, everyField (classesIn fun d => d.mod = m) (conv m) t x → everyField (convIs m) (conv m) t x)
      ∧ (∀ e, everyElem (classesIn fun d => d.mod = m) (conv m) e x → everyElem (convIs m) (conv m) e x)) →
      ∀ ts, everyFields (classesIn fun d => d.mod = m) (conv m) ts fs → everyFields (convIs m) (conv m) ts fs := by
    intro fs
    induction fs with
    | nil => intros; trivial
    | cons v vs ih =>
      intro h ts h1
      cases ts with
      | nil => trivial
      | cons t ts => exact ⟨(h v (by simp)).1 t h1.1, ih (fun x hx => h x (by simp [hx])) ts h1.2⟩
  have elems : ∀ (fs : List Val), (∀ x ∈ fs, (∀ t, everyField (classesIn fun d => d.mod = m) (conv m) t x → everyField (convIs m) (conv m) t x)
      ∧ (∀ e, everyElem (classesIn fun d => d.mod = m) (conv m) e x → everyElem (convIs m) (conv m) e x)) →
      ∀ e, everyElems (classesIn fun d => d.mod = m) (conv m) e fs → everyElems (convIs m) (conv m) e fs := by
    intro fs
    induction fs with
    | nil => intros; trivial
    | cons v vs ih =>
      intro h e h1
      exact ⟨(h v (by simp)).2 e h1.1, ih (fun x hx => h x (by simp [hx])) e h1.2⟩
  refine Val.ind (P := fun v =>
    (∀ t, everyField (classesIn fun d => d.mod = m) (conv m) t v → everyField (convIs m) (conv m) t v)
      ∧ (∀ e, everyElem (classesIn fun d => d.mod = m) (conv m) e v → everyElem (convIs m) (conv m) e v)) ?_ ?_ ?_ ?_ ?_ v
  · exact ⟨fun _ _ => rfl, fun _ _ => rfl⟩
  · exact fun n => ⟨fun _ _ => rfl, fun _ _ => rfl⟩
  · exact fun s => ⟨fun _ _ => rfl, fun _ _ => rfl⟩
  · intro xs ih
    refine ⟨fun t h => ⟨rfl, ?_⟩, fun _ _ => rfl⟩
    cases t with
    | list e => exact elems xs ih e h.2
    | _ => trivial
  · intro c fs ih
    constructor
    · intro t h
      refine ⟨rfl, ?_⟩
      have hm : c.mod = m := h.1
      have := h.2
      rw [hm] at this ⊢
      exact fields fs ih _ this
    · intro t h
      refine ⟨rfl, ?_⟩
      have hm : c.mod = m := h.1
      have := h.2
      rw [hm] at this ⊢
      exact fields fs ih _ this

theorem everywhere_conv (c : Cls) (fs : List Val) (h : everywhere (classesIn fun d => d.mod = c.mod) (.obj c fs)) :
    everywhere (convIs c.mod) (.obj c fs) :=
  ((conv_all c.mod (.obj c fs)).1 (.sub c) ⟨rfl, h⟩).2

/-- A message of a protocol with string prefixes of 32 bits, with less than a third of 2^31 characters. -/
theorem fits_of_chars (c : Cls) (fs : List Val) (hc : (conv c.mod).strLen = .i32) (h : everywhere (classesIn fun d => d.mod = c.mod) (.obj c fs))
    (hn : 3 * (Val.obj c fs).chars < 2 ^ 31) : everywhere fitsAgain (.obj c fs) := by
  refine everywhere_combine (Q := fun d => d.mod = c.mod) (S := fun _ => True) (P := fewChars (Val.obj c fs).chars) (R := convIs c.mod)
    ⟨fun _ _ _ _ => trivial, fun _ _ => trivial, ?_⟩ c fs rfl h (everywhere_chars c fs) (everywhere_conv c fs h)
  intro k t v _ h1 h2
  cases t with
  | vstr =>
    have h2' : k = conv c.mod := h2
    simp only [fitsAgain, countFits, h2', hc, PTy.size]
    have h3 := utf8Enc_le v.text
    have h4 : v.text.length ≤ (Val.obj c fs).chars := by
      refine Nat.le_trans ?_ h1
      cases v <;> simp [Val.text, Val.chars]
    omega
  | _ => trivial

end FinProto
