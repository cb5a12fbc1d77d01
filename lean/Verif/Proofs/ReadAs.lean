import Verif.Proofs.Unicode
/- What the JDK's decoder makes of arbitrary bytes. -/
namespace FinProto

def cont (b : Byte) : Prop := 0x80 ≤ b.toNat ∧ b.toNat < 0xC0

theorem isCont_iff (b : Byte) : isCont b = true ↔ cont b := by simp [isCont, cont]

/-- Shape of the recognised sequences in terms of byte values. -/
theorem Form.facts {u : Nat} {f : List Byte} (h : Form u f) :
    (∃ a, f = [a] ∧ a.toNat < 0x80)
    ∨ (∃ a b, f = [a, b] ∧ 0xC2 ≤ a.toNat ∧ a.toNat < 0xE0 ∧ cont b)
    ∨ (∃ a b c, f = [a, b, c] ∧ 0xE0 ≤ a.toNat ∧ a.toNat < 0xF0 ∧ cont b ∧ cont c ∧ ¬ (a.toNat = 0xE0 ∧ b.toNat < 0xA0))
    ∨ (∃ a b c d, f = [a, b, c, d] ∧ 0xF0 ≤ a.toNat ∧ a.toNat ≤ 0xF4 ∧ cont b ∧ cont c ∧ cont d
        ∧ ¬ (a.toNat = 0xF0 ∧ b.toNat < 0x90) ∧ ¬ (a.toNat = 0xF4 ∧ 0x90 ≤ b.toNat)) := by
  cases h with
  | one a h ha => exact .inl ⟨a, rfl, by omega⟩
  | two a b h x y hy hu ha hb => exact .inr (.inl ⟨a, b, rfl, by omega, by omega, by unfold cont; omega⟩)
  | three a b c h x y z hy hz hu ha hb hc =>
    exact .inr (.inr (.inl ⟨a, b, c, rfl, by omega, by omega, by unfold cont; omega, by unfold cont; omega, by omega⟩))
  | four a b c d h x y z v hy hz hv hu ha hb hc hd =>
    exact .inr (.inr (.inr ⟨a, b, c, d, rfl, by omega, by omega, by unfold cont; omega, by unfold cont; omega, by unfold cont; omega,
      by omega, by omega⟩))

theorem form_utf8Scalar (u : Nat) (h : u < 0x110000) : Form u (utf8Scalar u) := by
  unfold utf8Scalar
  split
  · exact .one u _ (by omega) (by simp; omega)
  · split
    · exact .two u _ _ (by omega) (u / 64) (u % 64) (by omega) (by omega) (by simp; omega) (by simp; omega)
    · split
      · exact .three u _ _ _ (by omega) (u / 4096) (u / 64 % 64) (u % 64) (by omega) (by omega) (by omega) (by simp; omega) (by simp; omega)
          (by simp; omega)
      · exact .four u _ _ _ _ (by omega) (u / 262144) (u / 4096 % 64) (u / 64 % 64) (u % 64) (by omega) (by omega) (by omega) (by omega)
          (by simp; omega) (by simp; omega) (by simp; omega) (by simp; omega)

/-- A form is no longer than its first byte says. -/
theorem Form.not_short {u : Nat} {f : List Byte} (h : Form u f) (a : Byte) (l : List Byte) (hp : f <+: a :: l) :
    (f.length = 1 ∧ a.toNat < 0x80) ∨ (f.length = 2 ∧ a.toNat < 0xE0) ∨ (f.length = 3 ∧ a.toNat < 0xF0) ∨ f.length = 4 := by
  rcases h.facts with ⟨x, rfl, h1⟩ | ⟨x, y, rfl, h1⟩ | ⟨x, y, z, rfl, h1⟩ | ⟨x, y, z, v, rfl, h1⟩
  all_goals
    have hx := (List.cons_prefix_cons.1 hp).1
    subst hx
    simp
    try omega

theorem malformed_of (bad rest : List Byte)
    (h2 : ∀ u f, Form u f → ¬ f <+: bad)
    (h3 : ∀ x r, rest = x :: r → ∀ u f, Form u f → ¬ bad ++ [x] <+: f) :
    (∀ u f, Form u f → ¬ f <+: bad ++ rest)
    ∧ (∀ u f p, Form u f → p <+: f → p <+: bad ++ rest → p.length ≤ bad.length) := by
  have key : ∀ p : List Byte, p <+: bad ++ rest → ¬ p.length ≤ bad.length → ∃ x r, rest = x :: r ∧ bad ++ [x] <+: p := by
    intro p hp hl
    cases rest with
    | nil => simp at hp; have := hp.length_le; omega
    | cons x r =>
      refine ⟨x, r, rfl, ?_⟩
      have : bad ++ [x] <+: bad ++ x :: r := by
        rw [List.prefix_append_right_inj]
        exact List.cons_prefix_cons.2 ⟨rfl, List.nil_prefix⟩
      exact List.prefix_of_prefix_length_le this hp (by simp; omega)
  constructor
  · intro u f hf hp
    by_cases hl : f.length ≤ bad.length
    · exact h2 u f hf (List.prefix_of_prefix_length_le hp (List.prefix_append _ _) hl)
    · obtain ⟨x, r, hx, hpx⟩ := key f hp hl
      exact h3 x r hx u f hf hpx
  · intro u f p hf hpf hpb
    refine Classical.byContradiction fun hl => ?_
    obtain ⟨x, r, hx, hpx⟩ := key p hpb hl
    exact h3 x r hx u f hf (hpx.trans hpf)

/-- What one decoder step does with the input `bad ++ rest`, where it consumes `bad` and emits `out`. -/
inductive StepOk (bad rest : List Byte) (out : JStr) : Prop
  | char (u : Nat) (hu : isScalar u) (hf : Form u bad) (ho : out = utf16Scalar u)
  | surrogate (u : Nat) (hu : 0xD800 ≤ u ∧ u < 0xE000) (hf : Form u bad) (ho : out = [repl])
  | malformed (h0 : bad ≠ []) (hpre : bad.length = 1 ∨ ∃ u f, Form u f ∧ bad <+: f) (h2 : ∀ u f, Form u f → ¬ f <+: bad)
      (h3 : ∀ x r, rest = x :: r → ∀ u f, Form u f → ¬ bad ++ [x] <+: f) (ho : out = [repl])

theorem stepOk_one (b : Byte) (rest : List Byte) (hb : 0x80 ≤ b.toNat)
    (h : ∀ x r, rest = x :: r → ¬ ((0xC2 ≤ b.toNat ∧ b.toNat < 0xE0 ∧ cont x)
      ∨ (0xE0 ≤ b.toNat ∧ b.toNat < 0xF0 ∧ cont x ∧ ¬ (b.toNat = 0xE0 ∧ x.toNat < 0xA0))
      ∨ (0xF0 ≤ b.toNat ∧ b.toNat ≤ 0xF4 ∧ cont x ∧ ¬ (b.toNat = 0xF0 ∧ x.toNat < 0x90) ∧ ¬ (b.toNat = 0xF4 ∧ 0x90 ≤ x.toNat)))) :
    StepOk [b] rest [repl] := by
  refine .malformed (by simp) (.inl rfl) ?_ ?_ rfl
  · intro u f hf hp
    have hl := hp.length_le
    have := hf.not_short b [] hp
    simp at hl
    omega
  · intro x r hr u f hf hp
    refine h x r hr ?_
    rcases hf.facts with ⟨a, rfl, h1⟩ | ⟨a, c, rfl, h1⟩ | ⟨a, c, d, rfl, h1⟩ | ⟨a, c, d, e, rfl, h1⟩
    · simpa using hp.length_le
    all_goals
      obtain ⟨e1, hp⟩ := List.cons_prefix_cons.1 hp
      obtain ⟨e2, hp⟩ := List.cons_prefix_cons.1 hp
      subst e1 e2
      simp only [h1, true_and, and_self, not_false_eq_true, true_or, or_true]

theorem stepOk_two (b c : Byte) (rest : List Byte) (hb : 0xE0 ≤ b.toNat) (hpre : ∃ u f, Form u f ∧ [b, c] <+: f)
    (h : ∀ x r, rest = x :: r → ¬ cont x) : StepOk [b, c] rest [repl] := by
  refine .malformed (by simp) (.inr hpre) ?_ ?_ rfl
  · intro u f hf hp
    have hl := hp.length_le
    have := hf.not_short b [c] hp
    simp at hl
    omega
  · intro x r hr u f hf hp
    refine h x r hr ?_
    rcases hf.facts with ⟨a, rfl, h1⟩ | ⟨a, c, rfl, h1⟩ | ⟨a, c, d, rfl, h1⟩ | ⟨a, c, d, e, rfl, h1⟩
    · simpa using hp.length_le
    · simpa using hp.length_le
    all_goals
      obtain ⟨e1, hp⟩ := List.cons_prefix_cons.1 hp
      obtain ⟨e2, hp⟩ := List.cons_prefix_cons.1 hp
      obtain ⟨e3, hp⟩ := List.cons_prefix_cons.1 hp
      subst e1 e2 e3
      simp only [h1]

theorem stepOk_three (b c d : Byte) (rest : List Byte) (hb : 0xF0 ≤ b.toNat) (hpre : ∃ u f, Form u f ∧ [b, c, d] <+: f)
    (h : ∀ x r, rest = x :: r → ¬ cont x) : StepOk [b, c, d] rest [repl] := by
  refine .malformed (by simp) (.inr hpre) ?_ ?_ rfl
  · intro u f hf hp
    have hl := hp.length_le
    have := hf.not_short b [c, d] hp
    simp at hl
    omega
  · intro x r hr u f hf hp
    refine h x r hr ?_
    rcases hf.facts with ⟨a, rfl, h1⟩ | ⟨a, c, rfl, h1⟩ | ⟨a, c, d, rfl, h1⟩ | ⟨a, c, d, e, rfl, h1⟩
    · simpa using hp.length_le
    · simpa using hp.length_le
    · simpa using hp.length_le
    · obtain ⟨e1, hp⟩ := List.cons_prefix_cons.1 hp
      obtain ⟨e2, hp⟩ := List.cons_prefix_cons.1 hp
      obtain ⟨e3, hp⟩ := List.cons_prefix_cons.1 hp
      obtain ⟨e4, hp⟩ := List.cons_prefix_cons.1 hp
      subst e1 e2 e3 e4
      simp only [h1]

theorem form_three (b c d : Byte) (hb : 0xE0 ≤ b.toNat ∧ b.toNat < 0xF0) (hc : cont c) (hd : cont d)
    (h : ¬ (b.toNat = 0xE0 ∧ c.toNat < 0xA0)) :
    Form ((b.toNat - 0xE0) * 0x1000 + (c.toNat - 0x80) * 0x40 + (d.toNat - 0x80)) [b, c, d] := by
  unfold cont at hc hd
  exact .three _ b c d (by omega) (b.toNat - 0xE0) (c.toNat - 0x80) (d.toNat - 0x80) (by omega) (by omega) (by omega) (by omega)
    (by omega) (by omega)

theorem form_four (b c d e : Byte) (hb : 0xF0 ≤ b.toNat ∧ b.toNat ≤ 0xF4) (hc : cont c) (hd : cont d) (he : cont e)
    (h : ¬ (b.toNat = 0xF0 ∧ c.toNat < 0x90)) (h' : ¬ (b.toNat = 0xF4 ∧ 0x90 ≤ c.toNat)) :
    Form ((b.toNat - 0xF0) * 0x40000 + (c.toNat - 0x80) * 0x1000 + (d.toNat - 0x80) * 0x40 + (e.toNat - 0x80)) [b, c, d, e] := by
  unfold cont at hc hd he
  exact .four _ b c d e (by omega) (b.toNat - 0xF0) (c.toNat - 0x80) (d.toNat - 0x80) (e.toNat - 0x80) (by omega) (by omega) (by omega)
    (by omega) (by omega) (by omega) (by omega) (by omega)

theorem cont_80 : cont 0x80#8 := by unfold cont; decide

theorem step_ok (b : Byte) (t : List Byte) :
    StepOk (b :: t.take (utf8Step b t).2) (t.drop (utf8Step b t).2) (utf8Step b t).1 := by
  have hb := b.isLt
  unfold utf8Step
  dsimp only
  split
  · next h =>
    refine .char b.toNat (.inl (by omega)) (.one _ _ h rfl) ?_
    rw [utf16Scalar, if_pos (by omega)]
  · next h =>
    split
    · next h2 =>
      simp only [Bool.and_eq_true, decide_eq_true_eq] at h2
      cases t with
      | nil => exact stepOk_one b _ (by omega) (by simp)
      | cons c t =>
        dsimp only
        split
        · next hc =>
          rw [isCont_iff] at hc
          unfold cont at hc
          refine .char ((b.toNat - 0xC0) * 0x40 + (c.toNat - 0x80)) (.inl (by omega)) ?_ ?_
          · exact .two _ b c (by omega) (b.toNat - 0xC0) (c.toNat - 0x80) (by omega) (by omega) (by omega) (by omega)
          · rw [utf16Scalar, if_pos (by omega)]
        · next hc =>
          rw [isCont_iff] at hc
          refine stepOk_one b _ (by omega) ?_
          intro x r hr
          simp at hr
          rw [← hr.1]
          simp only [hc]
          simp
    · next h2 =>
      simp only [Bool.and_eq_true, decide_eq_true_eq] at h2
      split
      · next h3 =>
        simp only [Bool.and_eq_true, decide_eq_true_eq] at h3
        match t with
        | [] => exact stepOk_one b _ (by omega) (by simp)
        | [c] =>
          dsimp only
          split
          · next h4 =>
            simp only [Bool.or_eq_true, Bool.and_eq_true, decide_eq_true_eq, beq_iff_eq, Bool.not_eq_true', ← Bool.not_eq_true, isCont_iff] at h4
            refine stepOk_one b _ (by omega) ?_
            intro x r hr
            simp at hr
            rw [← hr.1]
            unfold cont at h4 ⊢
            omega
          · next h4 =>
            simp only [Bool.or_eq_true, Bool.and_eq_true, decide_eq_true_eq, beq_iff_eq, Bool.not_eq_true', ← Bool.not_eq_true, isCont_iff,
              not_or, Classical.not_not] at h4
            exact stepOk_two b c [] (by omega)
              ⟨_, _, form_three b c 0x80#8 h3 h4.2 cont_80 h4.1, by simp [List.cons_prefix_cons]⟩ (by simp)
        | c :: d :: t =>
          dsimp only
          split
          · next h4 =>
            simp only [Bool.or_eq_true, Bool.and_eq_true, decide_eq_true_eq, beq_iff_eq, Bool.not_eq_true', ← Bool.not_eq_true, isCont_iff] at h4
            refine stepOk_one b _ (by omega) ?_
            intro x r hr
            simp at hr
            rw [← hr.1]
            unfold cont at h4 ⊢
            omega
          · next h4 =>
            simp only [Bool.or_eq_true, Bool.and_eq_true, decide_eq_true_eq, beq_iff_eq, Bool.not_eq_true', ← Bool.not_eq_true, isCont_iff,
              not_or, Classical.not_not] at h4
            split
            · next h5 =>
              simp only [Bool.not_eq_true', ← Bool.not_eq_true, isCont_iff] at h5
              refine stepOk_two b c _ (by omega)
                ⟨_, _, form_three b c 0x80#8 h3 h4.2 cont_80 h4.1, by simp [List.cons_prefix_cons]⟩ ?_
              intro x r hr
              simp at hr
              rw [← hr.1]
              exact h5
            · next h5 =>
              simp only [Bool.not_eq_true', ← Bool.not_eq_true, isCont_iff, Classical.not_not] at h5
              have hf := form_three b c d h3 h4.2 h5 h4.1
              split
              · next h6 =>
                simp only [Bool.and_eq_true, decide_eq_true_eq] at h6
                exact .surrogate _ h6 hf rfl
              · next h6 =>
                simp only [Bool.and_eq_true, decide_eq_true_eq] at h6
                have h41 := h4.1
                have h42 := h4.2
                unfold cont at h42 h5
                refine .char _ ?_ hf ?_
                · unfold isScalar; omega
                · rw [utf16Scalar, if_pos (by omega)]
      · next h3 =>
        simp only [Bool.and_eq_true, decide_eq_true_eq] at h3
        split
        · next h4 =>
          simp only [Bool.and_eq_true, decide_eq_true_eq] at h4
          have bad1 : ∀ c : Byte, ∀ r, (((0xF4 < b.toNat ∨ b.toNat = 0xF0 ∧ c.toNat < 0x90) ∨ b.toNat = 0xF4 ∧ 0x90 ≤ c.toNat) ∨ ¬ cont c) →
              StepOk [b] (c :: r) [repl] := by
            intro c r h5
            refine stepOk_one b _ (by omega) ?_
            intro x r hr
            simp at hr
            rw [← hr.1]
            unfold cont at h5 ⊢
            omega
          match t with
          | [] => exact stepOk_one b _ (by omega) (by simp)
          | [c] =>
            dsimp only
            split
            · next h5 =>
              simp only [Bool.or_eq_true, Bool.and_eq_true, decide_eq_true_eq, beq_iff_eq, Bool.not_eq_true', ← Bool.not_eq_true, isCont_iff] at h5
              exact bad1 c [] h5
            · next h5 =>
              simp only [Bool.or_eq_true, Bool.and_eq_true, decide_eq_true_eq, beq_iff_eq, Bool.not_eq_true', ← Bool.not_eq_true, isCont_iff,
                not_or, Classical.not_not] at h5
              exact stepOk_two b c [] (by omega)
                ⟨_, _, form_four b c 0x80#8 0x80#8 (by omega) h5.2 cont_80 cont_80 h5.1.1.2 h5.1.2, by simp [List.cons_prefix_cons]⟩ (by simp)
          | [c, d] =>
            dsimp only
            split
            · next h5 =>
              simp only [Bool.or_eq_true, Bool.and_eq_true, decide_eq_true_eq, beq_iff_eq, Bool.not_eq_true', ← Bool.not_eq_true, isCont_iff] at h5
              exact bad1 c _ h5
            · next h5 =>
              simp only [Bool.or_eq_true, Bool.and_eq_true, decide_eq_true_eq, beq_iff_eq, Bool.not_eq_true', ← Bool.not_eq_true, isCont_iff,
                not_or, Classical.not_not] at h5
              split
              · next h6 =>
                simp only [Bool.not_eq_true', ← Bool.not_eq_true, isCont_iff] at h6
                refine stepOk_two b c _ (by omega)
                  ⟨_, _, form_four b c 0x80#8 0x80#8 (by omega) h5.2 cont_80 cont_80 h5.1.1.2 h5.1.2, by simp [List.cons_prefix_cons]⟩ ?_
                intro x r hr
                simp at hr
                rw [← hr.1]
                exact h6
              · next h6 =>
                simp only [Bool.not_eq_true', ← Bool.not_eq_true, isCont_iff, Classical.not_not] at h6
                exact stepOk_three b c d [] (by omega)
                  ⟨_, _, form_four b c d 0x80#8 (by omega) h5.2 h6 cont_80 h5.1.1.2 h5.1.2, by simp [List.cons_prefix_cons]⟩ (by simp)
          | c :: d :: f :: t =>
            dsimp only
            split
            · next h5 =>
              simp only [Bool.or_eq_true, Bool.and_eq_true, decide_eq_true_eq, beq_iff_eq, Bool.not_eq_true', ← Bool.not_eq_true, isCont_iff] at h5
              exact bad1 c _ h5
            · next h5 =>
              simp only [Bool.or_eq_true, Bool.and_eq_true, decide_eq_true_eq, beq_iff_eq, Bool.not_eq_true', ← Bool.not_eq_true, isCont_iff,
                not_or, Classical.not_not] at h5
              split
              · next h6 =>
                simp only [Bool.not_eq_true', ← Bool.not_eq_true, isCont_iff] at h6
                refine stepOk_two b c _ (by omega)
                  ⟨_, _, form_four b c 0x80#8 0x80#8 (by omega) h5.2 cont_80 cont_80 h5.1.1.2 h5.1.2, by simp [List.cons_prefix_cons]⟩ ?_
                intro x r hr
                simp at hr
                rw [← hr.1]
                exact h6
              · next h6 =>
                simp only [Bool.not_eq_true', ← Bool.not_eq_true, isCont_iff, Classical.not_not] at h6
                split
                · next h7 =>
                  simp only [Bool.not_eq_true', ← Bool.not_eq_true, isCont_iff] at h7
                  refine stepOk_three b c d _ (by omega)
                    ⟨_, _, form_four b c d 0x80#8 (by omega) h5.2 h6 cont_80 h5.1.1.2 h5.1.2, by simp [List.cons_prefix_cons]⟩ ?_
                  intro x r hr
                  simp at hr
                  rw [← hr.1]
                  exact h7
                · next h7 =>
                  simp only [Bool.not_eq_true', ← Bool.not_eq_true, isCont_iff, Classical.not_not] at h7
                  have hf := form_four b c d f (by omega) h5.2 h6 h7 h5.1.1.2 h5.1.2
                  refine .char _ ?_ hf (by dsimp only)
                  have h51 := h5.1
                  have h52 := h5.2
                  unfold cont at h52 h6 h7
                  unfold isScalar
                  omega
        · next h4 =>
          simp only [Bool.and_eq_true, decide_eq_true_eq] at h4
          refine stepOk_one b _ (by omega) ?_
          intro x r hr
          omega

theorem utf8Dec_readAs (bs : List Byte) : ∃ cs, ReadAs bs cs ∧ Spells (utf8Dec bs) cs := by
  have hr : utf16Scalar '�'.toNat = [repl] := by decide
  have key : ∀ n, ∀ bs : List Byte, bs.length ≤ n → ∃ cs, ReadAs bs cs ∧ Spells (utf8Dec bs) cs := by
    intro n
    induction n with
    | zero =>
      intro bs hl
      have : bs = [] := List.length_eq_zero_iff.1 (by omega)
      subst this
      exact ⟨[], .nil, .nil⟩
    | succ n ih =>
      intro bs hl
      cases bs with
      | nil => exact ⟨[], .nil, .nil⟩
      | cons b t =>
        obtain ⟨cs, h1, h2⟩ := ih (t.drop (utf8Step b t).2) (by simp at hl ⊢; omega)
        rw [utf8Dec_cons]
        have hbt : b :: t = (b :: t.take (utf8Step b t).2) ++ t.drop (utf8Step b t).2 := by simp
        have hs := step_ok b t
        revert hs h1 h2
        rw [hbt]
        generalize b :: t.take (utf8Step b t).2 = bad
        generalize t.drop (utf8Step b t).2 = rest
        generalize (utf8Step b t).1 = out
        intro h1 h2 hs
        cases hs with
        | char u hu hf ho =>
          subst ho
          have hc := ofScalar_toNat u hu
          have hf' : Form (Char.ofNat u).toNat bad := by rw [hc]; exact hf
          refine ⟨Char.ofNat u :: cs, .char _ _ _ _ hf' h1, ?_⟩
          have := spells_append_char (Char.ofNat u) _ _ h2
          rwa [hc] at this
        | surrogate u hu hf ho =>
          subst ho
          refine ⟨_, .surrogate u _ _ _ hu hf h1, ?_⟩
          rw [← hr]
          exact spells_append_char _ _ _ h2
        | malformed h0 hpre h2' h3 ho =>
          subst ho
          have hm := malformed_of bad rest h2' h3
          refine ⟨_, .malformed _ _ _ h0 hm.1 hpre hm.2 h1, ?_⟩
          rw [← hr]
          exact spells_append_char _ _ _ h2
  exact key _ bs (Nat.le_refl _)

/-- Two forms that begin the same input are the same form of the same code point. -/
theorem Form.same {u v : Nat} {f g l : List Byte} (h : Form u f) (h' : Form v g) (hf : f <+: l) (hg : g <+: l) : u = v ∧ f = g := by
  have hlen : f.length = g.length := by
    cases l with
    | nil =>
      have h1 := hf.length_le
      have h2 := hg.length_le
      simp at h1 h2
      rw [h1, h2]
    | cons a l =>
      rcases h.facts with ⟨x, rfl, h1⟩ | ⟨x, y, rfl, h1⟩ | ⟨x, y, z, rfl, h1⟩ | ⟨x, y, z, w, rfl, h1⟩ <;>
      rcases h'.facts with ⟨x', rfl, h2⟩ | ⟨x', y', rfl, h2⟩ | ⟨x', y', z', rfl, h2⟩ | ⟨x', y', z', w', rfl, h2⟩ <;>
      first
        | rfl
        | (exfalso
           have e1 := (List.cons_prefix_cons.1 hf).1
           have e2 := (List.cons_prefix_cons.1 hg).1
           subst e1 e2
           omega)
  have hfg : f = g := (List.prefix_of_prefix_length_le hf hg (by omega)).eq_of_length hlen
  refine ⟨?_, hfg⟩
  subst hfg
  cases h <;> cases h' <;> omega

theorem ReadAs.unique {bs : List Byte} {cs ds : List Char} (h : ReadAs bs cs) (h' : ReadAs bs ds) : cs = ds := by
  have formNe : ∀ {u : Nat} {f : List Byte}, Form u f → f ≠ [] := by
    intro u f hf e
    subst e
    cases hf
  have charSur : ∀ (c : Char) (u : Nat), 0xD800 ≤ u ∧ u < 0xE000 → c.toNat = u → False := by
    intro c u hu e
    have := char_isScalar c
    unfold isScalar at this
    omega
  induction h generalizing ds with
  | nil =>
    generalize hb : ([] : List Byte) = bs at h'
    cases h' with
    | nil => rfl
    | char c f rest cs hf _ => exact absurd (List.append_eq_nil_iff.1 hb.symm).1 (formNe hf)
    | surrogate u f rest cs _ hf _ => exact absurd (List.append_eq_nil_iff.1 hb.symm).1 (formNe hf)
    | malformed bad rest cs h0 _ _ _ _ => exact absurd (List.append_eq_nil_iff.1 hb.symm).1 h0
  | char c f rest cs hf hr ih =>
    generalize hb : f ++ rest = bs at h'
    have hp : f <+: bs := hb ▸ List.prefix_append f rest
    cases h' with
    | nil => exact absurd (List.append_eq_nil_iff.1 hb).1 (formNe hf)
    | char c' f' rest' cs' hf' hr' =>
      obtain ⟨e, e'⟩ := hf.same hf' hp (List.prefix_append _ _)
      subst e'
      rw [List.append_cancel_left_eq] at hb
      subst hb
      rw [char_eq c c' e, ih hr']
    | surrogate u f' rest' cs' hu hf' _ => exact (charSur c u hu (hf.same hf' hp (List.prefix_append _ _)).1).elim
    | malformed bad rest' cs' h0 hno _ _ _ => exact absurd hp (hno _ _ hf)
  | surrogate u f rest cs hu hf hr ih =>
    generalize hb : f ++ rest = bs at h'
    have hp : f <+: bs := hb ▸ List.prefix_append f rest
    cases h' with
    | nil => exact absurd (List.append_eq_nil_iff.1 hb).1 (formNe hf)
    | char c' f' rest' cs' hf' hr' => exact (charSur c' u hu (hf.same hf' hp (List.prefix_append _ _)).1.symm).elim
    | surrogate u' f' rest' cs' hu' hf' hr' =>
      obtain ⟨_, e'⟩ := hf.same hf' hp (List.prefix_append _ _)
      subst e'
      rw [List.append_cancel_left_eq] at hb
      subst hb
      rw [ih hr']
    | malformed bad rest' cs' h0 hno _ _ _ => exact absurd hp (hno _ _ hf)
  | malformed bad rest cs h0 hno hpre hmax hr ih =>
    generalize hb : bad ++ rest = bs at h'
    cases h' with
    | nil => exact absurd (List.append_eq_nil_iff.1 hb).1 h0
    | char c' f' rest' cs' hf' hr' =>
      have := hno _ _ hf'
      rw [hb] at this
      exact absurd (List.prefix_append _ _) this
    | surrogate u' f' rest' cs' hu' hf' hr' =>
      have := hno _ _ hf'
      rw [hb] at this
      exact absurd (List.prefix_append _ _) this
    | malformed bad' rest' cs' h0' hno' hpre' hmax' hr' =>
      have p1 : bad <+: bad' ++ rest' := hb ▸ List.prefix_append _ _
      have p2 : bad' <+: bad ++ rest := hb ▸ List.prefix_append _ _
      have pos : ∀ l : List Byte, l ≠ [] → 1 ≤ l.length := by
        intro l hl
        cases l with
        | nil => exact absurd rfl hl
        | cons _ _ => simp
      have l1 : bad.length ≤ bad'.length := by
        rcases hpre with h | ⟨u, f, hf, hpf⟩
        · rw [h]; exact pos _ h0'
        · exact hmax' u f bad hf hpf p1
      have l2 : bad'.length ≤ bad.length := by
        rcases hpre' with h | ⟨u, f, hf, hpf⟩
        · rw [h]; exact pos _ h0
        · exact hmax u f bad' hf hpf p2
      have e : bad = bad' := (List.prefix_of_prefix_length_le p1 (List.prefix_append _ _) l1).eq_of_length (by omega)
      subst e
      rw [List.append_cancel_left_eq] at hb
      subst hb
      rw [ih hr']

end FinProto
