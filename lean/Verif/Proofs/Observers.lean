import Verif.Spec.Observers
import Verif.Proofs.HalfDecoded
import Verif.Proofs.Doom
import Verif.Proofs.Shape
/-
Helper lemmas for C109.
-/
namespace FinProto

/-- Statements that are one step and do not call `decode`. -/
def simpleStmt : DecStmt → Bool
  | .num .. | .fixed .. | .dyn .. | .create .. => true
  | _ => false

/-- The fields when the first `q` of the statements are complete and the next one is running. -/
def AtStmt (w : World) (call : DecCall) (mom : Mom) (tys : List FTy) : Nat → List DecStmt → DecSt → List Val → Prop
  | 0, [], st, p => p = st.fs
  | 0, s :: _, st, p => p = st.fs ∨ simpleStmt s = false ∧ (stmtMoment call mom s st p ∨ ∃ st', decStmt w call tys s st = (st', none) ∧ p = st'.fs)
  | _ + 1, [], _, _ => False
  | q + 1, s :: ss, st, p => ∃ st', decStmt w call tys s st = (st', none) ∧ AtStmt w call mom tys q ss st' p

theorem AtStmt.moment {w : World} {call : DecCall} {mom : Mom} {tys : List FTy} (ss : List DecStmt) : ∀ (q : Nat) (st : DecSt) (p : List Val),
    AtStmt w call mom tys q ss st p → stmtsMoment w call mom tys ss st p := by
  induction ss with
  | nil =>
    intro q st p h
    cases q with
    | zero => exact h
    | succ q => exact h.elim
  | cons s ss ih =>
    intro q st p h
    cases q with
    | zero =>
      rcases h with h | ⟨-, h | ⟨st', h1, h2⟩⟩
      · exact .inl h
      · exact .inr (.inl h)
      · exact .inr (.inr ⟨st', h1, by rw [h2]; exact stmtsMoment_refl w call mom tys ss st'⟩)
    | succ q =>
      obtain ⟨st', h1, h2⟩ := h
      exact .inr (.inr ⟨st', h1, ih q st' p h2⟩)

/-! ### Steps -/

/-- As `Along`; the number in front of the heap does not go back. -/
def Tracked (sup : Suppliers) (n : Nat) (P : Nat → Heap → Prop) (p : Heap × DThread) (h' : Heap) (b' : RBuf) (e' : Option JErr) (as : List DActivation) : Prop :=
  ∃ (k : Nat) (idx : Nat → Nat), (∀ l l', l ≤ l' → idx l ≤ idx l') ∧ (∀ l ≤ k, P (idx l) (DThread.go sup n l p).1) ∧ (DThread.go sup n k p).1 = h' ∧
    (DThread.go sup n k p).2.buf = b' ∧ (DThread.go sup n k p).2.err = e' ∧ (e' = none → (DThread.go sup n k p).2.stack = as)

section
variable {sup : Suppliers} {n : Nat}

theorem Along.tracked {P : Heap → Prop} {R : Nat → Heap → Prop} (hPR : ∀ h, P h → R 0 h) {p : Heap × DThread} {h' : Heap} {b' : RBuf} {e' : Option JErr}
    {as : List DActivation} (h : Along sup n P p h' b' e' as) : Tracked sup n R p h' b' e' as := by
  obtain ⟨k, k0, hk⟩ := h
  exact ⟨k, fun _ => 0, fun _ _ _ => Nat.le_refl _, fun l hl => hPR _ (k0 l hl), hk⟩

theorem Tracked.cons {P : Heap → Prop} {Q R : Nat → Heap → Prop} {p : Heap × DThread} {h1 h2 : Heap} {b1 b2 : RBuf} {e2 : Option JErr}
    {as1 as2 : List DActivation} {k : Nat} (hgo : DThread.go sup n k p = (h1, ⟨as1, b1, none⟩)) (hP : ∀ l < k, P (DThread.go sup n l p).1)
    (two : Tracked sup n Q (h1, ⟨as1, b1, none⟩) h2 b2 e2 as2) (hPR : ∀ h, P h → R 0 h) (hQR : ∀ q h, Q q h → R (q + 1) h) :
    Tracked sup n R p h2 b2 e2 as2 := by
  obtain ⟨K, idx, hm, hq, hend⟩ := two
  refine ⟨k + K, fun l => if l < k then 0 else idx (l - k) + 1, ?_, ?_, ?_⟩
  · intro l l' hl
    dsimp only
    by_cases h1 : l < k
    · rw [if_pos h1]; exact Nat.zero_le _
    · rw [if_neg h1, if_neg (by omega)]
      have := hm (l - k) (l' - k) (by omega)
      omega
  · intro l hl
    dsimp only
    by_cases h1 : l < k
    · rw [if_pos h1]; exact hPR _ (hP l h1)
    · rw [if_neg h1]
      have h2 := hq (l - k) (by omega)
      rw [← hgo, ← DThread.go_add, show k + (l - k) = l by omega] at h2
      exact hQR _ _ h2
  · rw [DThread.go_add, hgo]
    exact hend

theorem Along.reached {P : Heap → Prop} {p : Heap × DThread} {h' : Heap} {b' : RBuf} {as : List DActivation} (h : Along sup n P p h' b' none as) :
    ∃ k, DThread.go sup n k p = (h', ⟨as, b', none⟩) ∧ ∀ l < k, P (DThread.go sup n l p).1 := by
  obtain ⟨k, k0, k1, k2, k3, k4⟩ := h
  refine ⟨k, ?_, fun l hl => k0 l (by omega)⟩
  rw [← k1, ← k2, ← k3, ← k4 rfl]

end

theorem simple_step (w : World) (n : Nat) (ch : HDecCall) (r : Nat) (c : Cls) (s : DecStmt) (hs : simpleStmt s = true) (ss : List DecStmt)
    (as : List DActivation) (h : Heap) (b : RBuf) :
    DThread.go w.suppliers n 1 (h, ⟨⟨r, c, s :: ss, none⟩ :: as, b, none⟩)
      = ((hdecStmt w.suppliers ch r ((decl c).fields.map (·.2)) s ⟨h, b⟩).1.h,
          ⟨⟨r, c, ss, none⟩ :: as, (hdecStmt w.suppliers ch r ((decl c).fields.map (·.2)) s ⟨h, b⟩).1.buf,
            (hdecStmt w.suppliers ch r ((decl c).fields.map (·.2)) s ⟨h, b⟩).2⟩) := by
  cases s <;> first | rfl | simp [simpleStmt] at hs

theorem simple_fail (w : World) (call : DecCall) (tys : List FTy) (s : DecStmt) (hs : simpleStmt s = true) (st st' : DecSt) (e : JErr)
    (h : decStmt w call tys s st = (st', some e)) : st'.fs = st.fs := by
  cases s with
  | num f t en =>
    simp only [decStmt] at h
    revert h
    rcases st.buf.readNum en t with ⟨b', e' | k⟩
    · intro h; simp only [Prod.mk.injEq] at h; rw [← h.1]
    · dsimp only
      cases tys[f]?.bind (assignNum · k) with
      | none => intro h; simp only [Prod.mk.injEq] at h; rw [← h.1]
      | some v => intro h; simp at h
  | fixed f k pad left =>
    simp only [decStmt] at h
    revert h
    rcases readFixedString st.buf k pad left with ⟨b', e' | x⟩
    · intro h; simp only [Prod.mk.injEq] at h; rw [← h.1]
    · intro h; simp at h
  | dyn f t en =>
    simp only [decStmt] at h
    revert h
    rcases readDyn st.buf t en with ⟨b', e' | _ | x⟩
    · intro h; simp only [Prod.mk.injEq] at h; rw [← h.1]
    · intro h; simp at h
    · intro h; simp at h
  | create f fac key =>
    simp only [decStmt] at h
    revert h
    rcases st.fs[key]? with _ | kv
    · intro h; simp only [Prod.mk.injEq] at h; rw [← h.1]
    · dsimp only
      rcases w.fac fac (keyOf kv) with _ | u
      · intro h; simp only [Prod.mk.injEq] at h; rw [← h.1]
      · intro h; simp at h
  | _ => simp [simpleStmt] at hs

theorem track_stmts (w : World) {n m : Nat} {mom : Mom} {ct : DecCall} {ch : HDecCall} (hc : DCallMom w.suppliers n m mom ch) (hok : CallOK ct ch)
    (hr0 : ∀ c fs b, mom c fs b fs) (r : Nat) (c : Cls) (as : List DActivation) (hn : as.length + 1 + m = n) (ss : List DecStmt) :
    ∀ (h : Heap) (b : RBuf) (fs : List Val), Unshared h (.obj c fs) (.ref r) →
    Tracked w.suppliers n (fun q h' => ∃ p, AtStmt w ct mom ((decl c).fields.map (·.2)) q ss ⟨fs, b⟩ p ∧ Step c r h fs h' p)
      (h, ⟨⟨r, c, ss, none⟩ :: as, b, none⟩) (hdecStmts w.suppliers ch r ((decl c).fields.map (·.2)) ss ⟨h, b⟩).1.h
      (hdecStmts w.suppliers ch r ((decl c).fields.map (·.2)) ss ⟨h, b⟩).1.buf (hdecStmts w.suppliers ch r ((decl c).fields.map (·.2)) ss ⟨h, b⟩).2 as := by
  induction ss with
  | nil =>
    intro h b fs ho
    refine Along.tracked (P := fun h' => Step c r h fs h' fs) (fun h' hs => ⟨fs, rfl, hs⟩) ?_
    exact Along.step (Step.refl ho) (Along.now _ _ (Step.refl ho) rfl rfl (fun _ => rfl))
  | cons s ss ih =>
    intro h b fs ho
    obtain ⟨g1, g2, g3⟩ := hdecStmt_ok w hok ho ((decl c).fields.map (·.2)) s b
    by_cases hs : simpleStmt s = true
    · have hgo := simple_step w n ch r c s hs ss as h b
      have hfail := simple_fail w ct ((decl c).fields.map (·.2)) s hs ⟨fs, b⟩
      simp only [hdecStmts]
      generalize hdecStmt w.suppliers ch r _ s ⟨h, b⟩ = o at hgo g1 g2 g3 ⊢
      obtain ⟨⟨h', b'⟩, e⟩ := o
      rcases hd : decStmt w ct ((decl c).fields.map (·.2)) s ⟨fs, b⟩ with ⟨⟨fs', b''⟩, e'⟩
      rw [hd] at g1 g2 g3
      dsimp only at g1 g2 g3 hgo ⊢
      subst g1; subst g2
      cases e with
      | none =>
        refine Tracked.cons (P := fun h1 => Step c r h fs h1 fs) hgo (fun l hl => ?_) (ih h' b' fs' g3.1.own) (fun h1 hs => ⟨fs, .inl rfl, hs⟩) ?_
        · obtain rfl : l = 0 := by omega
          exact Step.refl ho
        · rintro q h1 ⟨p, q1, q2⟩
          exact ⟨p, ⟨_, hd, q1⟩, g3.trans q2⟩
      | some e =>
        have hfs := hfail _ _ hd
        dsimp only at hfs
        subst hfs
        refine ⟨1, fun _ => 0, fun _ _ _ => Nat.le_refl _, ?_, by rw [hgo], by rw [hgo], by rw [hgo], fun h => by cases h⟩
        intro l hl
        refine ⟨fs', .inl rfl, ?_⟩
        rcases Nat.le_one_iff_eq_zero_or_eq_one.1 hl with rfl | rfl
        · exact Step.refl ho
        · rw [hgo]; exact g3
    · have one := along_stmt w hc hok hr0 r c s ss as hn h b fs ho
      have hs' : simpleStmt s = false := by simpa using hs
      have use : ∀ h', (∃ p, (p = fs ∨ stmtMoment ct mom s ⟨fs, b⟩ p
          ∨ ∃ st', decStmt w ct ((decl c).fields.map (·.2)) s ⟨fs, b⟩ = (st', none) ∧ p = st'.fs) ∧ Step c r h fs h' p) →
          ∃ p, AtStmt w ct mom ((decl c).fields.map (·.2)) 0 (s :: ss) ⟨fs, b⟩ p ∧ Step c r h fs h' p := by
        rintro h' ⟨p, h1 | h1 | h1, h2⟩
        · exact ⟨p, .inl h1, h2⟩
        · exact ⟨p, .inr ⟨hs', .inl h1⟩, h2⟩
        · exact ⟨p, .inr ⟨hs', .inr h1⟩, h2⟩
      simp only [hdecStmts]
      generalize hdecStmt w.suppliers ch r _ s ⟨h, b⟩ = o at one g1 g2 g3 ⊢
      obtain ⟨⟨h', b'⟩, e⟩ := o
      rcases hd : decStmt w ct ((decl c).fields.map (·.2)) s ⟨fs, b⟩ with ⟨⟨fs', b''⟩, e'⟩
      rw [hd] at g1 g2 g3
      dsimp only at g1 g2 g3 ⊢
      subst g1; subst g2
      cases e with
      | some e => exact (one.fail).tracked use
      | none =>
        obtain ⟨k, hgo, hP⟩ := one.reached
        refine Tracked.cons hgo hP (ih h' b' fs' g3.1.own) use ?_
        rintro q h1 ⟨p, q1, q2⟩
        exact ⟨p, ⟨_, hd, q1⟩, g3.trans q2⟩

/-- A thread alone: the statements it has completed after each number of steps. -/
theorem go_tracked (w : World) (m : Nat) (c : Cls) (fs : List Val) (r : Nat) (h : Heap) (b : RBuf) (ho : Unshared h (.obj c fs) (.ref r)) :
    ∃ idx : Nat → Nat, (∀ l l', l ≤ l' → idx l ≤ idx l') ∧ ∀ k, ∃ p,
      AtStmt w (decode w m) (moment w m) ((decl c).fields.map (·.2)) (idx k) (decl c).dec ⟨fs, b⟩ p
        ∧ Step c r h fs (DThread.go w.suppliers (m + 1) k (h, DThread.enter (m + 1) r h ⟨[], b, none⟩)).1 p := by
  obtain ⟨ys, hr, -, -⟩ := unshared_obj h c fs r ho
  have hlt : ([] : List DActivation).length < m + 1 := by simp
  simp only [DThread.enter, hlt, if_true, hr]
  obtain ⟨K, idx, hm, h0, h1, h2, h3, h4⟩ := track_stmts w (along_hdecode w (m + 1) m) (hdecode_ok w m) (fun c fs b => moment_refl w m c fs b) r c []
    (by simp; omega) (decl c).dec h b fs ho
  refine ⟨fun k => idx (min k K), fun l l' hl => hm _ _ (by omega), fun k => ?_⟩
  dsimp only
  rcases Nat.le_total k K with hk | hk
  · rw [Nat.min_eq_left hk]; exact h0 k hk
  · rw [Nat.min_eq_right hk]
    obtain ⟨l, rfl⟩ := Nat.le.dest hk
    rw [DThread.go_add, DThread.go_done]
    · exact h0 K (Nat.le_refl _)
    · rw [h3]
      rcases he : (hdecStmts w.suppliers (hdecode w.suppliers m) r ((decl c).fields.map (·.2)) (decl c).dec ⟨h, b⟩).2 with _ | e
      · exact .inr (h4 he)
      · exact .inl (by rw [he]; exact fun h => by cases h)

/-! ### Which fields are complete -/

theorem stmtMoment_other {call : DecCall} {mom : Mom} {s : DecStmt} {st : DecSt} {p : List Val} (h : stmtMoment call mom s st p) (f : Nat) (hf : s.target ≠ f) :
    p[f]? = st.fs[f]? := by
  cases s with
  | list g t e el =>
    obtain ⟨b', n, j, b'', xs, -, -, -, rfl⟩ := h
    exact List.getElem?_set_ne hf
  | obj g d =>
    rcases h with ⟨-, q, -, rfl⟩ | ⟨c', fs', q, -, -, rfl⟩ <;> exact List.getElem?_set_ne hf
  | call g =>
    obtain ⟨c', fs', q, -, -, rfl⟩ := h
    exact List.getElem?_set_ne hf
  | _ => exact h.elim

theorem decStmts_other (w : World) (call : DecCall) (tys : List FTy) (f : Nat) (ss : List DecStmt) : ∀ st : DecSt, (∀ s ∈ ss, s.target ≠ f) →
    (decStmts w call tys ss st).1.fs[f]? = st.fs[f]? := by
  induction ss with
  | nil => intro st _; rfl
  | cons s ss ih =>
    intro st hs
    have h1 := decStmt_other w call tys s st f (Ne.symm (hs s (by simp)))
    rw [decStmts_cons]
    rcases hd : decStmt w call tys s st with ⟨st', _ | e⟩
    · rw [hd] at h1
      exact (ih st' (fun s hs' => hs s (by simp [hs']))).trans h1
    · rw [hd] at h1
      exact h1

/-- A field no statement to come assigns. -/
theorem AtStmt.after {w : World} {call : DecCall} {mom : Mom} {tys : List FTy} (f : Nat) (ss : List DecStmt) : ∀ (q : Nat) (st : DecSt) (p : List Val),
    AtStmt w call mom tys q ss st p → (∀ s ∈ ss.drop q, s.target ≠ f) → p[f]? = (decStmts w call tys ss st).1.fs[f]? := by
  induction ss with
  | nil =>
    intro q st p h _
    cases q with
    | zero => obtain rfl : p = st.fs := h
              rfl
    | succ q => exact h.elim
  | cons s ss ih =>
    intro q st p h hf
    cases q with
    | zero =>
      have hs : ∀ s' ∈ s :: ss, s'.target ≠ f := hf
      rw [decStmts_other w call tys f (s :: ss) st hs]
      have h1 := hs s (by simp)
      rcases h with rfl | ⟨-, h | ⟨st', h2, rfl⟩⟩
      · rfl
      · exact stmtMoment_other h f h1
      · have := decStmt_other w call tys s st f (Ne.symm h1)
        rw [h2] at this
        exact this
    | succ q =>
      obtain ⟨st', h1, h2⟩ := h
      rw [decStmts_cons, h1]
      exact ih q st' p h2 hf

/-- A field no complete statement has assigned, and the running one does not assign or has not assigned yet. -/
theorem AtStmt.before {w : World} {call : DecCall} {mom : Mom} {tys : List FTy} (f : Nat) (ss : List DecStmt) : ∀ (q : Nat) (st : DecSt) (p : List Val),
    AtStmt w call mom tys q ss st p → (∀ s ∈ ss.take q, s.target ≠ f) → (∀ s, ss[q]? = some s → s.target ≠ f ∨ simpleStmt s = true) →
    p[f]? = st.fs[f]? := by
  induction ss with
  | nil =>
    intro q st p h _ _
    cases q with
    | zero => obtain rfl : p = st.fs := h
              rfl
    | succ q => exact h.elim
  | cons s ss ih =>
    intro q st p h hf hq
    cases q with
    | zero =>
      rcases h with rfl | ⟨hs, h⟩
      · rfl
      · have h1 : s.target ≠ f := by
          rcases hq s rfl with h1 | h1
          · exact h1
          · rw [hs] at h1; cases h1
        rcases h with h | ⟨st', h2, rfl⟩
        · exact stmtMoment_other h f h1
        · have := decStmt_other w call tys s st f (Ne.symm h1)
          rw [h2] at this
          exact this
    | succ q =>
      obtain ⟨st', h1, h2⟩ := h
      have h3 := decStmt_other w call tys s st f (Ne.symm (hf s (by simp)))
      rw [h1] at h3
      rw [ih q st' p h2 (fun s hs => hf s (by simp [hs])) (fun s hs => hq s (by simpa using hs))]
      exact h3

theorem AtStmt.le {w : World} {call : DecCall} {mom : Mom} {tys : List FTy} (ss : List DecStmt) : ∀ (q : Nat) (st : DecSt) (p : List Val),
    AtStmt w call mom tys q ss st p → q ≤ ss.length := by
  induction ss with
  | nil =>
    intro q st p h
    cases q with
    | zero => exact Nat.le_refl _
    | succ q => exact h.elim
  | cons s ss ih =>
    intro q st p h
    cases q with
    | zero => exact Nat.zero_le _
    | succ q =>
      obtain ⟨st', -, h2⟩ := h
      exact Nat.succ_le_succ (ih q st' p h2)

def plainB (c : Cls) (f : Nat) : Bool :=
  match (wire c)[f]? with
  | none | some (.list _) | some (.sub _) | some (.ext _ _) => false
  | _ => true

theorem plain_iff (c : Cls) (f : Nat) : Plain c f ↔ plainB c f = true := by
  unfold Plain plainB
  split <;> simp_all

/-- The targets of the statements go forward, except for two statements in a row for one part. -/
def forward (plain : Nat → Bool) (len : Nat) : List DecStmt → Bool
  | [] => true
  | [s] => decide (s.target < len) && (simpleStmt s || !plain s.target)
  | s :: s' :: ss => (decide (s.target < s'.target) || (s.target == s'.target && !plain s.target)) && (simpleStmt s || !plain s.target)
      && forward plain len (s' :: ss)

theorem dec_forward (c : Cls) : forward (plainB c) (wire c).length (decl c).dec = true := by
  cases c <;> rfl

theorem forward_spec {plain : Nat → Bool} {len : Nat} (ss : List DecStmt) : forward plain len ss = true →
    ss.Pairwise (fun s s' => s.target < s'.target ∨ s.target = s'.target ∧ plain s.target = false)
      ∧ ∀ s ∈ ss, s.target < len ∧ (simpleStmt s = true ∨ plain s.target = false) := by
  induction ss with
  | nil => intro _; exact ⟨.nil, fun s hs => nomatch hs⟩
  | cons s ss ih =>
    intro h
    cases ss with
    | nil =>
      simp only [forward, Bool.and_eq_true, decide_eq_true_eq, Bool.or_eq_true, Bool.not_eq_true'] at h
      exact ⟨List.pairwise_singleton _ _, by intro s' hs'; simp only [List.mem_singleton] at hs'; subst hs'; exact h⟩
    | cons s' ss =>
      simp only [forward, Bool.and_eq_true, decide_eq_true_eq, Bool.or_eq_true, Bool.not_eq_true', beq_iff_eq] at h
      obtain ⟨⟨h1, h2⟩, h3⟩ := h
      obtain ⟨g1, g2⟩ := ih h3
      have hle : ∀ x ∈ s' :: ss, s.target < x.target ∨ s.target = x.target ∧ plain s.target = false := by
        intro x hx
        rcases List.mem_cons.1 hx with rfl | hx'
        · exact h1
        · have := (List.pairwise_cons.1 g1).1 x hx'
          rcases h1 with h1 | ⟨h1, h4⟩ <;> rcases this with h5 | ⟨h5, h6⟩
          · exact .inl (by omega)
          · exact .inl (by omega)
          · exact .inl (by omega)
          · exact .inr ⟨by omega, h4⟩
      refine ⟨List.pairwise_cons.2 ⟨hle, g1⟩, ?_⟩
      intro x hx
      rcases List.mem_cons.1 hx with rfl | hx'
      · refine ⟨?_, h2⟩
        have h4 := (g2 s' (by simp)).1
        rcases h1 with h1 | ⟨h1, -⟩ <;> omega
      · exact g2 x hx'

/-- The first field that is not complete. -/
def frontier (c : Cls) (q : Nat) : Nat :=
  match (decl c).dec[q]? with
  | some s => s.target
  | none => (wire c).length

theorem frontier_mono (c : Cls) (q q' : Nat) (h : q ≤ q') : frontier c q ≤ frontier c q' := by
  obtain ⟨h1, h2⟩ := forward_spec _ (dec_forward c)
  unfold frontier
  rcases Nat.eq_or_lt_of_le h with rfl | hlt
  · exact Nat.le_refl _
  · cases hq' : (decl c).dec[q']? with
    | none =>
      cases hq : (decl c).dec[q]? with
      | none => exact Nat.le_refl _
      | some s => exact Nat.le_of_lt (h2 s (List.mem_of_getElem? hq)).1
    | some s' =>
      obtain ⟨hl', e'⟩ := List.getElem?_eq_some_iff.1 hq'
      have hl : q < (decl c).dec.length := by omega
      rw [List.getElem?_eq_getElem hl]
      have := List.pairwise_iff_getElem.1 h1 q q' hl hl' hlt
      rw [e'] at this
      dsimp only
      omega

theorem at_frontier {w : World} {call : DecCall} {mom : Mom} {c : Cls} {q : Nat} {st : DecSt} {p : List Val}
    (h : AtStmt w call mom ((decl c).fields.map (·.2)) q (decl c).dec st p) (f : Nat) :
    (f < frontier c q → p[f]? = (decStmts w call ((decl c).fields.map (·.2)) (decl c).dec st).1.fs[f]?)
    ∧ (frontier c q < f ∨ frontier c q = f ∧ Plain c f → p[f]? = st.fs[f]?) := by
  obtain ⟨h1, h2⟩ := forward_spec _ (dec_forward c)
  have hpair := List.pairwise_iff_getElem.1 h1
  constructor
  · intro hf
    refine h.after f _ q st p ?_
    intro s hs
    obtain ⟨i, hi, he⟩ := List.mem_iff_getElem.1 hs
    rw [List.getElem_drop] at he
    have hi' : q + i < (decl c).dec.length := by
      rw [List.length_drop] at hi; omega
    have hle : frontier c q ≤ s.target := by
      have := frontier_mono c q (q + i) (by omega)
      unfold frontier at this ⊢
      rw [List.getElem?_eq_getElem hi', he] at this
      exact this
    omega
  · intro hf
    refine h.before f _ q st p ?_ ?_
    · intro s hs e
      obtain ⟨i, hi, he⟩ := List.mem_iff_getElem.1 hs
      rw [List.getElem_take] at he
      rw [List.length_take] at hi
      have hil : i < (decl c).dec.length := by omega
      have hle : s.target ≤ frontier c q := by
        have := frontier_mono c i q (by omega)
        unfold frontier at this ⊢
        rw [List.getElem?_eq_getElem hil, he] at this
        exact this
      rcases hf with hf | ⟨hf, hpl⟩
      · omega
      · rw [plain_iff] at hpl
        cases hq : (decl c).dec[q]? with
        | none =>
          have := (h2 s (List.mem_of_getElem (h := hil) he)).1
          unfold frontier at hf
          rw [hq] at hf
          dsimp only at hf
          omega
        | some s' =>
          obtain ⟨hl', e'⟩ := List.getElem?_eq_some_iff.1 hq
          unfold frontier at hf
          rw [hq] at hf
          dsimp only at hf
          have := hpair i q hil hl' (by omega)
          rw [he, e'] at this
          rcases this with h3 | ⟨-, h4⟩
          · omega
          · rw [e, hpl] at h4; cases h4
    · intro s hs
      unfold frontier at hf
      rw [hs] at hf
      dsimp only at hf
      rcases hf with hf | ⟨hf, hpl⟩
      · exact .inl (by omega)
      · rw [plain_iff] at hpl
        rcases (h2 s (List.mem_of_getElem? hs)).2 with h3 | h3
        · exact .inr h3
        · rw [hf, hpl] at h3; cases h3

/-! ### Schedules -/

theorem halt_tracked (w : World) (e : Halt) (h : Heap) (hap : Apart h e.jobs) (i r m : Nat) (hd : e.depth = m + 1) (b : RBuf) (hj : e.jobs i = .dec r b) (c : Cls)
    (fs : List Val) (ho : Unshared h (.obj c fs) (.ref r)) :
    ∃ idx : Nat → Nat, (∀ j j', j ≤ j' → idx j ≤ idx j') ∧ ∀ j, ∃ p,
      AtStmt w (decode w m) (moment w m) ((decl c).fields.map (·.2)) (idx j) (decl c).dec ⟨fs, b⟩ p
        ∧ Unshared (e.heapAt w h j) (.obj c p) (.ref r) := by
  obtain ⟨idx, hm, hk⟩ := go_tracked w m c fs r h b ho
  refine ⟨fun j => idx ((e.sched.take j).count i), fun j j' hl => hm _ _ ((List.take_sublist_take_left hl).count_le i), fun j => ?_⟩
  obtain ⟨ρ, hi⟩ : ∃ ρ, WInv w w.suppliers e.depth h (fun i => (e.jobs i).start e.depth h) (fun i => Reach h (e.jobs i).root)
      ((WSys.start e.depth h e.jobs).run w w.suppliers e.depth (e.sched.take j)) (fun i => (e.sched.take j).count i) ρ := by
    have := WInv.run (makes_suppliers w) (e.sched.take j) _ _ _ (WInv.start w w.suppliers e.depth h e.jobs hap.2 hap.1)
    simpa only [Nat.zero_add] using this
  have hren := hi.ren i
  rw [hj, Job.start, go_dec, hd] at hren
  obtain ⟨p, h1, h2⟩ := hk ((e.sched.take j).count i)
  have hroot := root_rel hi i
  rw [hj] at hroot
  refine ⟨p, h1, ?_⟩
  unfold Halt.heapAt
  rw [hd]
  exact unshared_rel hren hroot h2.1.own

/-! ### Values of getters -/

theorem partlyFilled_length {w : World} {os ps ns : List Val} (h : PartlyFilled w os ps ns) : ps.length = os.length := by
  induction os generalizing ps ns with
  | nil => cases h; rfl
  | cons o os ih =>
    cases h with
    | untouched => rfl
    | here h => rfl
    | later h => simp [ih h]

/-- A number, a text or null. -/
def Val.flat : Val → Bool
  | .list _ | .obj _ _ => false
  | _ => true

theorem plain_flat {c : Cls} {fs : List Val} (ht : fieldsHaveType (javaTypes c) fs = true) {f : Nat} (hp : Plain c f) {v : Val} (hv : fs[f]? = some v) :
    v.flat = true := by
  rw [type_table] at ht
  unfold Plain at hp
  cases hw : (wire c)[f]? with
  | none => rw [hw] at hp; exact hp.elim
  | some t =>
    have h1 := fieldsHaveType_at ((wire c).map WTy.java) fs f t.java ht (by simp [hw])
    rw [hw] at hp
    obtain ⟨v', h2, h3⟩ := h1
    rw [hv] at h2
    cases h2
    cases t with
    | list e => exact hp.elim
    | sub d => exact hp.elim
    | ext a k => exact hp.elim
    | _ => cases v <;> simp_all [WTy.java, hasType, Val.flat]

theorem flat_shows {h h' : Heap} {v : Val} (hv : v.flat = true) {x y : HVal} (hx : Shows h v x) (hy : Shows h' v y) : x = y := by
  cases v <;> simp_all [Val.flat, Shows]

/-- The getter of a number or a text has the old result as long as the field has the old value. -/
theorem getter_same {h h' : Heap} {c : Cls} {fs p : List Val} {r f : Nat} (ht : fieldsHaveType (javaTypes c) fs = true) (hp : Plain c f)
    (ho : Unshared h (.obj c fs) (.ref r)) (ho' : Unshared h' (.obj c p) (.ref r)) (hl : p.length = fs.length) (he : p[f]? = fs[f]?) :
    h'.field r f = h.field r f := by
  cases hv : fs[f]? with
  | some v =>
    obtain ⟨y, h1, h2, -⟩ := unshared_field h c fs r f v ho hv
    obtain ⟨y', h1', h2', -⟩ := unshared_field h' c p r f v ho' (he.trans hv)
    rw [h1, h1', flat_shows (plain_flat ht hp hv) h2'.1 h2.1]
  | none =>
    obtain ⟨ys, h1, h2, -⟩ := unshared_obj h c fs r ho
    obtain ⟨ys', h1', h2', -⟩ := unshared_obj h' c p r ho'
    have g := ShowsAll_length h fs ys h2
    have g' := ShowsAll_length h' p ys' h2'
    have hf := List.getElem?_eq_none_iff.1 hv
    simp only [Heap.field, h1, h1']
    rw [List.getElem?_eq_none (by omega), List.getElem?_eq_none (by omega)]

end FinProto
