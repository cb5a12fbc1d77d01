import Verif.Proofs.AnyConfined
/-
Helper lemmas for C116: an encode among others who may also make objects.  As the lemmas for `encode` in `AnyConfined.lean`, where the two memories have the same size.
-/
namespace FinProto.Wide

/-- The memory `h` of a run among others and the memory `h'` of a run alone agree on all objects that are not of the others (`S`). -/
structure Off (S : Nat → Prop) (P : Heap → Prop) (h h' : Heap) : Prop where
  same : ∀ a, ¬ S a → h[a]? = h'[a]?
  closed : ∀ (a : Nat) x, ¬ S a → h[a]? = some x → ∀ y ∈ x.values, Free S y
  about : P h

/-- What the others do and what `P` says of their objects. -/
structure Confined (S : Nat → Prop) (P : Heap → Prop) (o : Acts) : Prop where
  same : ∀ k g, P g → ∀ a, ¬ S a → (o k g)[a]? = g[a]?
  stable : ∀ k g, P g → P (o k g)
  depends : ∀ g g', g'.length = g.length → (∀ q, S q → g'[q]? = g[q]?) → P g → P g'

section
variable {S : Nat → Prop} {P : Heap → Prop} {o : Acts} (hC : Confined S P o)
include hC

theorem off_act {h h' : Heap} (hO : Off S P h h') (k : Nat) : Off S P (o k h) h' where
  same a ha := by rw [hC.same k h hO.about a ha]; exact hO.same a ha
  closed a x ha hx := by rw [hC.same k h hO.about a ha] at hx; exact hO.closed a x ha hx
  about := hC.stable k h hO.about

omit hC in
theorem off_field {h h' : Heap} (hO : Off S P h h') {r : Nat} (hr : ¬ S r) (f : Nat) : h.field r f = h'.field r f := by
  unfold Heap.field; rw [hO.same r hr]

omit hC in
theorem off_free {h h' : Heap} (hO : Off S P h h') {r : Nat} (hr : ¬ S r) {f : Nat} {y : HVal} (e : h.field r f = some y) : Free S y := by
  unfold Heap.field at e
  split at e
  · next heq => exact hO.closed r _ hr heq y (List.mem_of_getElem? e)
  · cases e

theorem off_setField {h h' : Heap} (hO : Off S P h h') {r : Nat} (hr : ¬ S r) (f : Nat) {y : HVal} (hy : Free S y) :
    Off S P (h.setField r f y) (h'.setField r f y) := by
  have hs := hO.same r hr
  unfold Heap.setField
  rw [← hs]
  split
  · next c ys heq =>
    have h1 := (List.getElem?_eq_some_iff.1 heq).1
    have h2 := (List.getElem?_eq_some_iff.1 (hs.symm.trans heq)).1
    refine ⟨fun a ha => ?_, fun a z ha hz => ?_, ?_⟩
    · by_cases hra : r = a
      · subst hra; rw [List.getElem?_set_self h1, List.getElem?_set_self h2]
      · rw [List.getElem?_set_ne hra, List.getElem?_set_ne hra]; exact hO.same a ha
    · by_cases hra : r = a
      · subst hra
        rw [List.getElem?_set_self h1] at hz
        cases hz
        intro z hz
        rcases List.mem_or_eq_of_mem_set hz with hz | rfl
        · exact hO.closed r _ hr heq z hz
        · exact hy
      · rw [List.getElem?_set_ne hra] at hz
        exact hO.closed a z ha hz
    · exact hC.depends h _ List.length_set (fun q hq => by rw [List.getElem?_set_ne]; rintro rfl; exact hr hq) hO.about
  · exact hO
end

/-! ### encode -/

/-- Two runs are at the same point. -/
structure EPair (S : Nat → Prop) (P : Heap → Prop) (st st' : RHSt) : Prop where
  k : st.k = st'.k
  buf : st.buf = st'.buf
  loc : st.loc = st'.loc
  off : Off S P st.h st'.h

/-- Two runs end alike. -/
def EAlike (S : Nat → Prop) (P : Heap → Prop) (x x' : RHSt × Option JErr) : Prop := EPair S P x.1 x'.1 ∧ x.2 = x'.2

/-- Two runs get the same value. -/
def ESame (S : Nat → Prop) (P : Heap → Prop) {α : Type} (x x' : RHSt × Except JErr α) : Prop := EPair S P x.1 x'.1 ∧ x.2 = x'.2

/-- A call among others and a call alone. -/
def ECalls (S : Nat → Prop) (P : Heap → Prop) (call call' : RHCall) : Prop :=
  ∀ x h h' k b, Free S x → Off S P h h' → Off S P (call x h k b).1 (call' x h' k b).1 ∧ (call x h k b).2 = (call' x h' k b).2

section
variable {S : Nat → Prop} {P : Heap → Prop} {o : Acts} (hC : Confined S P o)
include hC

theorem elook {st st' : RHSt} (hp : EPair S P st st') {r : Nat} (hr : ¬ S r) (f : Nat) :
    EPair S P (st.alook o r f).1 (st'.alook AStill r f).1 ∧ (st.alook o r f).2 = (st'.alook AStill r f).2 ∧ ∀ y, (st.alook o r f).2 = some y → Free S y := by
  obtain ⟨hk, hb, hl, hO⟩ := hp
  have hO' := off_act hC hO st.k
  exact ⟨⟨congrArg (· + 1) hk, hb, hl, hO'⟩, off_field hO' hr f, fun y e => off_free hO' hr e⟩

theorem eput {st st' : RHSt} (hp : EPair S P st st') {r : Nat} (hr : ¬ S r) (f : Nat) (n : Num) :
    EPair S P (st.aput o r f (.num n)) (st'.aput AStill r f (.num n)) := by
  obtain ⟨hk, hb, hl, hO⟩ := hp
  exact ⟨congrArg (· + 1) hk, hb, hl, off_setField hC (off_act hC hO st.k) hr f (free_num n)⟩

omit hC in
theorem ewrote {st st' : RHSt} (hp : EPair S P st st') (x : WBuf × Option JErr) : EAlike S P (st.wrote x) (st'.wrote x) := ⟨⟨hp.k, rfl, hp.loc, hp.off⟩, rfl⟩

theorem eelems {st st' : RHSt} (hp : EPair S P st st') {r : Nat} (hr : ¬ S r) (f : Nat) :
    ESame S P (st.aelems o r f) (st'.aelems AStill r f) ∧ ∀ xs, (st.aelems o r f).2 = .ok xs → ∀ y ∈ xs, Free S y := by
  obtain ⟨h1, h2, h3⟩ := elook hC hp hr f
  simp only [RHSt.aelems]
  rcases e : st.alook o r f with ⟨s1, x1⟩
  rcases e' : st'.alook AStill r f with ⟨s2, x2⟩
  rw [e, e'] at h1 h2
  rw [e] at h3
  obtain rfl : x1 = x2 := h2
  rcases x1 with _ | (_ | n | s | a)
  · exact ⟨⟨h1, rfl⟩, fun _ h => by cases h⟩
  · exact ⟨⟨h1, rfl⟩, fun _ h => by cases h⟩
  · exact ⟨⟨h1, rfl⟩, fun _ h => by cases h⟩
  · exact ⟨⟨h1, rfl⟩, fun _ h => by cases h⟩
  · have ha : ¬ S a := h3 _ rfl a rfl
    have h4 : s1.h[a]? = s2.h[a]? := h1.off.same a ha
    dsimp only
    rw [← h4]
    split
    · next xs heq => exact ⟨⟨h1, rfl⟩, fun ys h => by cases h; exact h1.off.closed a _ ha heq⟩
    · exact ⟨⟨h1, rfl⟩, fun _ h => by cases h⟩

theorem eget {st st' : RHSt} (hp : EPair S P st st') {r : Nat} (hr : ¬ S r) (f i : Nat) :
    ESame S P (st.aget o r f i) (st'.aget AStill r f i) ∧ ∀ x, (st.aget o r f i).2 = .ok x → Free S x := by
  obtain ⟨⟨h1, h2⟩, h3⟩ := eelems hC hp hr f
  simp only [RHSt.aget]
  rcases e : st.aelems o r f with ⟨s1, x1⟩
  rcases e' : st'.aelems AStill r f with ⟨s2, x2⟩
  rw [e, e'] at h1 h2
  rw [e] at h3
  obtain rfl : x1 = x2 := h2
  rcases x1 with err | xs
  · exact ⟨⟨h1, rfl⟩, fun _ h => by cases h⟩
  · dsimp only
    split
    · next x heq => exact ⟨⟨h1, rfl⟩, fun y h => by cases h; exact h3 xs rfl _ (List.mem_of_getElem? heq)⟩
    · exact ⟨⟨h1, rfl⟩, fun _ h => by cases h⟩

theorem efield {st st' : RHSt} (hp : EPair S P st st') {r : Nat} (hr : ¬ S r) (f : Nat) : ESame S P (st.afield o r f) (st'.afield AStill r f) := by
  obtain ⟨h1, h2, h3⟩ := elook hC hp hr f
  simp only [RHSt.afield]
  rcases e : st.alook o r f with ⟨s1, x1⟩
  rcases e' : st'.alook AStill r f with ⟨s2, x2⟩
  rw [e, e'] at h1 h2
  obtain rfl : x1 = x2 := h2
  rcases x1 with _ | y
  · exact ⟨h1, rfl⟩
  · exact ⟨h1, rfl⟩

omit hC in
theorem edyn {g g' : RHSt → RHSt × Except JErr HVal} (hg : ∀ {st st' : RHSt}, EPair S P st st' → ESame S P (g st) (g' st')) (zt t : PTy) (e : Endian)
    {st st' : RHSt} (hp : EPair S P st st') : EAlike S P (rhdyn g zt t e st) (rhdyn g' zt t e st') := by
  obtain ⟨h1, h2⟩ := hg hp
  simp only [rhdyn]
  rcases e1 : g st with ⟨s1, x1⟩
  rcases e2 : g' st' with ⟨s2, x2⟩
  rw [e1, e2] at h1 h2
  obtain rfl : x1 = x2 := h2
  rcases x1 with err | v
  · exact ⟨h1, rfl⟩
  · dsimp only
    split
    · exact ⟨h1, rfl⟩
    · obtain ⟨g1, g2⟩ := hg h1
      dsimp only at g1 g2
      rcases e3 : g s1 with ⟨t1, y1⟩
      rcases e4 : g' s2 with ⟨t2, y2⟩
      rw [e3, e4] at g1 g2
      obtain rfl : y1 = y2 := g2
      rcases y1 with err | (_ | n | s | a)
      · exact ⟨g1, rfl⟩
      · exact ⟨g1, rfl⟩
      · exact ⟨g1, rfl⟩
      · have hb : t1.buf = t2.buf := g1.buf
        dsimp only
        rw [← hb]
        split
        · exact ⟨⟨g1.k, rfl, g1.loc, g1.off⟩, rfl⟩
        · exact ewrote g1 _
      · exact ⟨g1, rfl⟩
    · have hb : s1.buf = s2.buf := h1.buf
      rw [← hb]; exact ewrote h1 _

variable {call call' : RHCall} (hc : ECalls S P call call')
include hc

omit hC in
theorem ecall {st st' : RHSt} (hp : EPair S P st st') {x : HVal} (hx : Free S x) : EAlike S P (st.call call x) (st'.call call' x) := by
  obtain ⟨h1, h2⟩ := hc x st.h st'.h st.k st.buf hx hp.off
  simp only [RHSt.call]
  rw [← hp.k, ← hp.buf, ← h2]
  exact ⟨⟨rfl, rfl, hp.loc, h1⟩, rfl⟩

theorem eelem {st st' : RHSt} (hp : EPair S P st st') {r : Nat} (hr : ¬ S r) (el : EncElem) (f i : Nat) :
    EAlike S P (aelem o call el r f i st) (aelem AStill call' el r f i st') := by
  obtain ⟨⟨h1, h2⟩, h3⟩ := eget hC hp hr f i
  rcases e1 : st.aget o r f i with ⟨s1, x1⟩
  rcases e2 : st'.aget AStill r f i with ⟨s2, x2⟩
  rw [e1, e2] at h1 h2
  rw [e1] at h3
  obtain rfl : x1 = x2 := h2
  have hb : s1.buf = s2.buf := h1.buf
  cases el with
  | dyn zt t e => exact edyn (fun hp => (eget hC hp hr f i).1) zt t e hp
  | num t e =>
    simp only [aelem, e1, e2]
    rcases x1 with err | x
    · exact ⟨h1, rfl⟩
    · dsimp only; rw [← hb]; exact ewrote h1 _
  | fixed n pad left =>
    simp only [aelem, e1, e2]
    rcases x1 with err | x
    · exact ⟨h1, rfl⟩
    · dsimp only; rw [← hb]; exact ewrote h1 _
  | obj =>
    simp only [aelem, e1, e2]
    rcases x1 with err | x
    · exact ⟨h1, rfl⟩
    · exact ecall hc h1 (h3 x rfl)

theorem eoff_loop {r : Nat} (hr : ¬ S r) (el : EncElem) (f : Nat) : ∀ (m i : Nat) {st st' : RHSt}, EPair S P st st' →
    EAlike S P (aloop o call el r f m i st) (aloop AStill call' el r f m i st')
  | 0, _, _, _, hp => ⟨hp, rfl⟩
  | m + 1, i, st, st', hp => by
    obtain ⟨⟨h1, h2⟩, h3⟩ := eelems hC hp hr f
    simp only [aloop]
    rcases e1 : st.aelems o r f with ⟨s1, x1⟩
    rcases e2 : st'.aelems AStill r f with ⟨s2, x2⟩
    rw [e1, e2] at h1 h2
    obtain rfl : x1 = x2 := h2
    rcases x1 with err | xs
    · exact ⟨h1, rfl⟩
    · dsimp only
      split
      · obtain ⟨g1, g2⟩ := eelem hC hc h1 hr el f i
        dsimp only at g1 g2
        rcases e3 : aelem o call el r f i s1 with ⟨t1, y1⟩
        rcases e4 : aelem AStill call' el r f i s2 with ⟨t2, y2⟩
        rw [e3, e4] at g1 g2
        obtain rfl : y1 = y2 := g2
        rcases y1 with _ | err
        · exact eoff_loop hr el f m (i + 1) g1
        · exact ⟨g1, rfl⟩
      · exact ⟨h1, rfl⟩

theorem estmt (w : World) {st st' : RHSt} (hp : EPair S P st st') {r : Nat} (hr : ¬ S r) (s : EncStmt) :
    EAlike S P (astmt w o call r s st) (astmt w AStill call' r s st') := by
  have hlook := fun f => elook hC hp hr f
  cases s with
  | num f t e =>
    obtain ⟨h1, h2, h3⟩ := hlook f
    simp only [astmt]
    rcases e1 : st.alook o r f with ⟨s1, x1⟩
    rcases e2 : st'.alook AStill r f with ⟨s2, x2⟩
    rw [e1, e2] at h1 h2
    obtain rfl : x1 = x2 := h2
    have hb : s1.buf = s2.buf := h1.buf
    rcases x1 with _ | (_ | n | s | a)
    · exact ⟨h1, rfl⟩
    · exact ⟨h1, rfl⟩
    · dsimp only; rw [← hb]; exact ewrote h1 _
    · exact ⟨h1, rfl⟩
    · exact ⟨h1, rfl⟩
  | fixed f n pad left =>
    obtain ⟨h1, h2, h3⟩ := hlook f
    simp only [astmt]
    rcases e1 : st.alook o r f with ⟨s1, x1⟩
    rcases e2 : st'.alook AStill r f with ⟨s2, x2⟩
    rw [e1, e2] at h1 h2
    obtain rfl : x1 = x2 := h2
    have hb : s1.buf = s2.buf := h1.buf
    rcases x1 with _ | y
    · exact ⟨h1, rfl⟩
    · dsimp only; rw [← hb]; exact ewrote h1 _
  | dyn f zt t e => exact edyn (fun hp => efield hC hp hr f) zt t e hp
  | list f zt t e el =>
    obtain ⟨h1, h2, h3⟩ := hlook f
    simp only [astmt]
    rcases e1 : st.alook o r f with ⟨s1, x1⟩
    rcases e2 : st'.alook AStill r f with ⟨s2, x2⟩
    rw [e1, e2] at h1 h2
    obtain rfl : x1 = x2 := h2
    have hb : s1.buf = s2.buf := h1.buf
    have hrest : EAlike S P
        (match s1.aelems o r f with
          | (st, .error err) => (st, some err)
          | (st, .ok []) => st.wrote (writeInt st.buf zt .be 0)
          | (st, .ok (_ :: _)) =>
            match st.aelems o r f with
            | (st, .error err) => (st, some err)
            | (st, .ok xs) =>
              match st.wrote (writeInt st.buf t e xs.length) with
              | (st, some err) => (st, some err)
              | (st, none) => aloop o call el r f 2147483647 0 st)
        (match s2.aelems AStill r f with
          | (st, .error err) => (st, some err)
          | (st, .ok []) => st.wrote (writeInt st.buf zt .be 0)
          | (st, .ok (_ :: _)) =>
            match st.aelems AStill r f with
            | (st, .error err) => (st, some err)
            | (st, .ok xs) =>
              match st.wrote (writeInt st.buf t e xs.length) with
              | (st, some err) => (st, some err)
              | (st, none) => aloop AStill call' el r f 2147483647 0 st) := by
      obtain ⟨⟨g1, g2⟩, _⟩ := eelems hC h1 hr f
      dsimp only at g1 g2
      rcases e3 : s1.aelems o r f with ⟨t1, y1⟩
      rcases e4 : s2.aelems AStill r f with ⟨t2, y2⟩
      rw [e3, e4] at g1 g2
      obtain rfl : y1 = y2 := g2
      have hb' : t1.buf = t2.buf := g1.buf
      rcases y1 with err | (_ | ⟨y, ys⟩)
      · exact ⟨g1, rfl⟩
      · dsimp only; rw [← hb']; exact ewrote g1 _
      · obtain ⟨⟨k1, k2⟩, _⟩ := eelems hC g1 hr f
        dsimp only at k1 k2 ⊢
        rcases e5 : t1.aelems o r f with ⟨u1, z1⟩
        rcases e6 : t2.aelems AStill r f with ⟨u2, z2⟩
        rw [e5, e6] at k1 k2
        obtain rfl : z1 = z2 := k2
        rcases z1 with err | zs
        · exact ⟨k1, rfl⟩
        · have hb'' : u1.buf = u2.buf := k1.buf
          dsimp only
          rw [← hb'']
          rcases writeInt u1.buf t e zs.length with ⟨b', _ | err⟩
          · exact eoff_loop hC hc hr el f _ _ ⟨k1.k, rfl, k1.loc, k1.off⟩
          · exact ⟨⟨k1.k, rfl, k1.loc, k1.off⟩, rfl⟩
    rcases x1 with _ | (_ | n | s | a)
    · exact ⟨h1, rfl⟩
    · dsimp only; rw [← hb]; exact ewrote h1 _
    · exact hrest
    · exact hrest
    · exact hrest
  | obj f =>
    obtain ⟨h1, h2, h3⟩ := hlook f
    simp only [astmt]
    rcases e1 : st.alook o r f with ⟨s1, x1⟩
    rcases e2 : st'.alook AStill r f with ⟨s2, x2⟩
    rw [e1, e2] at h1 h2
    rw [e1] at h3
    obtain rfl : x1 = x2 := h2
    rcases x1 with _ | y
    · exact ⟨h1, rfl⟩
    · exact ecall hc h1 (h3 y rfl)
  | objOpt f =>
    obtain ⟨h1, h2, h3⟩ := hlook f
    simp only [astmt]
    rcases e1 : st.alook o r f with ⟨s1, x1⟩
    rcases e2 : st'.alook AStill r f with ⟨s2, x2⟩
    rw [e1, e2] at h1 h2
    obtain rfl : x1 = x2 := h2
    have hrest : EAlike S P
        (match s1.alook o r f with
          | (st, some x) => st.call call x
          | (st, none) => (st, some .illTyped))
        (match s2.alook AStill r f with
          | (st, some x) => st.call call' x
          | (st, none) => (st, some .illTyped)) := by
      obtain ⟨g1, g2, g3⟩ := elook hC h1 hr f
      dsimp only at g1 g2 g3
      rcases e3 : s1.alook o r f with ⟨t1, y1⟩
      rcases e4 : s2.alook AStill r f with ⟨t2, y2⟩
      rw [e3, e4] at g1 g2
      rw [e3] at g3
      obtain rfl : y1 = y2 := g2
      rcases y1 with _ | y
      · exact ⟨g1, rfl⟩
      · exact ecall hc g1 (g3 y rfl)
    rcases x1 with _ | (_ | n | s | a)
    · exact ⟨h1, rfl⟩
    · exact ⟨h1, rfl⟩
    · exact hrest
    · exact hrest
    · exact hrest
  | save x =>
    simp only [astmt]
    rw [← hp.buf, ← hp.loc]
    exact ⟨⟨hp.k, rfl, rfl, hp.off⟩, rfl⟩
  | zero t e => simp only [astmt]; rw [← hp.buf]; exact ewrote hp _
  | setLen f x y =>
    simp only [astmt]
    rw [← hp.loc]
    split
    · exact ⟨eput hC hp hr f _, rfl⟩
    · exact ⟨hp, rfl⟩
  | patch x f t e =>
    obtain ⟨h1, h2, h3⟩ := hlook f
    simp only [astmt]
    rcases e1 : st.alook o r f with ⟨s1, x1⟩
    rcases e2 : st'.alook AStill r f with ⟨s2, x2⟩
    rw [e1, e2] at h1 h2
    obtain rfl : x1 = x2 := h2
    have hb : s1.buf = s2.buf := h1.buf
    have hl : s1.loc = s2.loc := h1.loc
    rcases x1 with _ | (_ | n | s | a)
    · exact ⟨h1, rfl⟩
    · exact ⟨h1, rfl⟩
    · dsimp only
      rw [← hb, ← hl]
      split
      · exact ewrote h1 _
      · exact ⟨h1, rfl⟩
    · exact ⟨h1, rfl⟩
    · exact ⟨h1, rfl⟩
  | checksum f alg =>
    simp only [astmt]
    rw [← hp.buf]
    split
    · exact ⟨eput hC hp hr f _, rfl⟩
    · exact ⟨hp, rfl⟩

theorem estmts (w : World) {r : Nat} (hr : ¬ S r) : ∀ (ss : List EncStmt) {st st' : RHSt}, EPair S P st st' →
    EAlike S P (astmts w o call r ss st) (astmts w AStill call' r ss st')
  | [], _, _, hp => ⟨hp, rfl⟩
  | s :: ss, st, st', hp => by
    obtain ⟨h1, h2⟩ := estmt hC hc w hp hr s
    simp only [astmts]
    rcases e : astmt w o call r s st with ⟨s1, x1⟩
    rcases e' : astmt w AStill call' r s st' with ⟨s2, x2⟩
    rw [e, e'] at h1 h2
    obtain rfl : x1 = x2 := h2
    rcases x1 with _ | err
    · exact estmts w hr ss h1
    · exact ⟨h1, rfl⟩
end

theorem aencode_off {S : Nat → Prop} {P : Heap → Prop} {o : Acts} (hC : Confined S P o) (w : World) :
    ∀ n, ECalls S P (aencode w o n) (aencode w AStill n)
  | n, .null, h, h', k, b, _, hO => by cases n <;> exact ⟨hO, rfl⟩
  | 0, .num _, _, _, _, _, _, hO => ⟨hO, rfl⟩
  | 0, .str _, _, _, _, _, _, hO => ⟨hO, rfl⟩
  | 0, .ref _, _, _, _, _, _, hO => ⟨hO, rfl⟩
  | _ + 1, .num _, _, _, _, _, _, hO => ⟨hO, rfl⟩
  | _ + 1, .str _, _, _, _, _, _, hO => ⟨hO, rfl⟩
  | n + 1, .ref r, h, h', k, b, hx, hO => by
    have hr : ¬ S r := hx r rfl
    simp only [aencode]
    rw [← hO.same r hr]
    split
    · next c ys heq =>
      obtain ⟨h1, h2⟩ := estmts hC (aencode_off hC w n) w hr (decl c).enc (st := ⟨h, k, b, fun _ => none⟩) (st' := ⟨h', k, b, fun _ => none⟩)
        ⟨rfl, rfl, rfl, hO⟩
      dsimp only
      exact ⟨h1.off, by rw [h1.k, h1.buf, h2]⟩
    · exact ⟨hO, rfl⟩

/-! ### In terms of the message -/

theorem confined_reach {h : Heap} {x : HVal} {o : Acts} (ho : ∀ k g q, Reach h x q → (o k g)[q]? = g[q]?) {P : Heap → Prop}
    (hP : ∀ g g', (∀ q, ¬ Reach h x q → g'[q]? = g[q]?) → P g → P g') (hs : ∀ k g, P g → P (o k g)) : Confined (fun q => ¬ Reach h x q) P o where
  same k g _ a ha := ho k g a (Classical.not_not.1 ha)
  stable := hs
  depends g g' _ hq := hP g g' hq

theorem off_start {h : Heap} {x : HVal} {P : Heap → Prop} (hP : P h) : Off (fun q => ¬ Reach h x q) P h h where
  same _ _ := rfl
  closed a ob ha hob y hy q e := by
    subst e
    exact fun hn => hn (reach_of_value (Classical.not_not.1 ha) hob hy)
  about := hP

theorem reach_root {h : Heap} {x : HVal} : Free (fun q => ¬ Reach h x q) x := by
  rintro q rfl hn
  exact hn (.here q)

theorem off_reach {S : Nat → Prop} {P : Heap → Prop} {h h' : Heap} (hO : Off S P h h') {x : HVal} {q : Nat} (hr : Reach h' x q) : Free S x → ¬ S q := by
  induction hr with
  | here r => exact fun hx => hx r rfl
  | step r p ob y h1 h2 _ ih =>
    intro hx
    have hS : ¬ S r := hx r rfl
    exact ih (hO.closed r ob hS (by rw [hO.same r hS]; exact h1) y h2)

end FinProto.Wide
