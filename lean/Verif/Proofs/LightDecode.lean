import Verif.Spec.LightDecode
import Verif.Proofs.AnyConfined
import Verif.Proofs.Races
/-
Helper lemmas for C117: a run among others who set numbers and texts, and a run alone, side by side.
-/
namespace FinProto

/-! ### Which fields a decoder looks at -/

/-- The fields a statement reads. -/
def looks : DecStmt → List Nat
  | .list f _ _ _ => [f]
  | .obj f _ => [f]
  | .create _ _ key => [key]
  | .call f => [f]
  | _ => []

def heldB (c : Cls) (f : Nat) : Bool :=
  match (javaTypes c)[f]? with
  | some (.list _) => true
  | some (.obj _) => true
  | _ => false

def steersB (c : Cls) (f : Nat) : Bool :=
  (List.range (wire c).length).any fun i => match (wire c)[i]? with
    | some (.ext _ key) => f == i || f == key
    | _ => false

theorem looks_table (c : Cls) : ((decl c).dec.all fun s => (looks s).all fun f => heldB c f || steersB c f) = true := by
  cases c <;> decide +kernel

theorem looks_fixed {c : Cls} {s : DecStmt} (hs : s ∈ (decl c).dec) {f : Nat} (hf : f ∈ looks s) : ¬ Simple c f := by
  have := looks_table c
  rw [List.all_eq_true] at this
  have := this s hs
  rw [List.all_eq_true] at this
  have := this f hf
  rw [Bool.or_eq_true] at this
  rcases this with h | h
  · intro hl
    apply hl.2
    unfold heldB at h
    split at h
    · next e => exact .inl ⟨_, e⟩
    · next e => exact .inr ⟨_, e⟩
    · cases h
  · intro hl
    apply hl.1
    unfold steersB at h
    rw [List.any_eq_true] at h
    obtain ⟨i, _, h⟩ := h
    split at h
    · next fac key e =>
      rw [Bool.or_eq_true, beq_iff_eq, beq_iff_eq] at h
      exact ⟨i, fac, key, e, h⟩
    · cases h

/-! ### The two memories -/

theorem SameBut.refl {V : Nat → HVal → Prop} : ∀ x, SameBut V x x
  | none => trivial
  | some (.arr _) => rfl
  | some (.msg _ _) => ⟨rfl, rfl, fun _ => .inl rfl⟩

theorem sameBut_arr {V : Nat → HVal → Prop} {x : Option HObj} {xs : List HVal} (h : SameBut V x (some (.arr xs))) : x = some (.arr xs) := by
  rcases x with _ | (⟨c, ys⟩ | ys)
  · cases h
  · cases h
  · exact congrArg (fun z => some (HObj.arr z)) h

theorem sameBut_msg {V : Nat → HVal → Prop} {x : Option HObj} {c : Cls} {zs : List HVal} (h : SameBut V x (some (.msg c zs))) :
    ∃ ys, x = some (.msg c ys) ∧ ys.length = zs.length ∧ ∀ f, ys[f]? = zs[f]? ∨ Simple c f ∧ ∃ y, ys[f]? = some y ∧ V f y := by
  rcases x with _ | (⟨d, ys⟩ | ys)
  · cases h
  · obtain ⟨rfl, h2, h3⟩ := h
    exact ⟨ys, rfl, h2, h3⟩
  · cases h

theorem sameBut_none {V : Nat → HVal → Prop} {x : Option HObj} (h : SameBut V x none) : x = none := by
  rcases x with _ | (⟨c, ys⟩ | ys)
  · rfl
  · cases h
  · cases h

theorem SameBut.trans {V : Nat → HVal → Prop} {x y z : Option HObj} (h : SameBut V x y) (h' : SameBut V y z) : SameBut V x z := by
  rcases z with _ | (⟨c, zs⟩ | zs)
  · rw [sameBut_none h'] at h; exact h
  · obtain ⟨ys, rfl, g2, g3⟩ := sameBut_msg h'
    obtain ⟨xs, rfl, h2, h3⟩ := sameBut_msg h
    refine ⟨rfl, h2.trans g2, fun f => ?_⟩
    rcases h3 f with e | e
    · rw [e]; exact g3 f
    · exact .inr e
  · rw [sameBut_arr h'] at h; exact h

/-- No new references. -/
theorem sameBut_refs {V : Nat → HVal → Prop} (hV : ∀ f a, ¬ V f (.ref a)) {x y : HObj} (h : SameBut V (some x) (some y)) {a : Nat} (ha : .ref a ∈ x.values) :
    .ref a ∈ y.values := by
  rcases y with ⟨c, zs⟩ | zs
  · obtain ⟨ys, e, _, h3⟩ := sameBut_msg h
    cases e
    obtain ⟨f, hf⟩ := List.mem_iff_getElem?.1 ha
    rcases h3 f with e | ⟨_, y, e, hy⟩
    · exact List.mem_of_getElem? (e.symm.trans hf)
    · have := Option.some.inj (e.symm.trans hf)
      subst this
      exact absurd hy (hV f a)
  · have := sameBut_arr h
    cases this
    exact ha

/-- The memory `h` of a run among others and the memory `h'` of a run alone; `S` are the objects of the others, all below `N`. -/
structure Near (S : Nat → Prop) (V : Nat → Nat → HVal → Prop) (N : Nat) (h h' : Heap) : Prop where
  big : N ≤ h.length
  len : h.length = h'.length
  same : ∀ a, ¬ S a → SameBut (V a) h[a]? h'[a]?
  closed : ∀ (a : Nat) x, ¬ S a → h[a]? = some x → ∀ y ∈ x.values, Free S y

/-- What the others do. -/
structure Tame (S : Nat → Prop) (V : Nat → Nat → HVal → Prop) (N : Nat) (o : Acts) : Prop where
  below : ∀ a, S a → a < N
  len : ∀ k g, (o k g).length = g.length
  same : ∀ k g a, ¬ S a → SameBut (V a) (o k g)[a]? g[a]?
  refs : ∀ a f q, ¬ S a → ¬ V a f (.ref q)

/-- Messages stay messages of their classes. -/
def Stays (h h' : Heap) : Prop := ∀ (a : Nat) c ys, h[a]? = some (.msg c ys) → ∃ zs, h'[a]? = some (.msg c zs)

theorem Stays.refl (h : Heap) : Stays h h := fun _ _ ys e => ⟨ys, e⟩
theorem Stays.trans {h1 h2 h3 : Heap} (h : Stays h1 h2) (h' : Stays h2 h3) : Stays h1 h3 := fun a c ys e => by
  obtain ⟨zs, e'⟩ := h a c ys e
  exact h' a c zs e'

theorem stays_setField (h : Heap) (r f : Nat) (y : HVal) : Stays h (h.setField r f y) := by
  intro a c ys e
  unfold Heap.setField
  split
  · next d zs hd =>
    by_cases hra : r = a
    · subst hra
      rw [e] at hd; cases hd
      exact ⟨_, List.getElem?_set_self (List.getElem?_eq_some_iff.1 e).1⟩
    · exact ⟨ys, by rw [List.getElem?_set_ne hra]; exact e⟩
  · exact ⟨ys, e⟩

theorem stays_arr {h : Heap} {a : Nat} {xs : List HVal} (ha : h[a]? = some (.arr xs)) (zs : List HVal) : Stays h (h.set a (.arr zs)) := by
  intro q c ys e
  by_cases hqa : a = q
  · subst hqa; rw [ha] at e; cases e
  · exact ⟨ys, by rw [List.getElem?_set_ne hqa]; exact e⟩

theorem stays_append (h l : Heap) : Stays h (h ++ l) := fun a c ys e =>
  ⟨ys, by rw [List.getElem?_append_left (List.getElem?_eq_some_iff.1 e).1]; exact e⟩

section
variable {S : Nat → Prop} {V : Nat → Nat → HVal → Prop} {N : Nat} {o : Acts} (hC : Tame S V N o)
include hC

theorem Tame.fresh {a : Nat} (h : N ≤ a) : ¬ S a := fun hs => by have := hC.below a hs; omega

theorem near_act {h h' : Heap} (hO : Near S V N h h') (k : Nat) : Near S V N (o k h) h' where
  big := by rw [hC.len]; exact hO.big
  len := by rw [hC.len]; exact hO.len
  same a ha := (hC.same k h a ha).trans (hO.same a ha)
  closed a x ha hx y hy q e := by
    subst e
    rcases hob : h[a]? with _ | ob
    · have := hC.same k h a ha
      rw [hob, hx] at this
      rcases x with ⟨c, ys⟩ | ys <;> cases this
    · exact hO.closed a ob ha hob _ (sameBut_refs (fun f a' => hC.refs a f a' ha) (by rw [← hx, ← hob]; exact hC.same k h a ha) hy) q rfl

omit hC in
theorem near_field {h h' : Heap} (hO : Near S V N h h') {r : Nat} (hr : ¬ S r) {c : Cls} {ys : List HVal} (hc : h'[r]? = some (.msg c ys)) {f : Nat}
    (hf : ¬ Simple c f) : h.field r f = h'.field r f := by
  have := hO.same r hr
  rw [hc] at this
  obtain ⟨zs, e, _, h3⟩ := sameBut_msg this
  unfold Heap.field
  rw [e, hc]
  exact (h3 f).resolve_right fun e => hf e.1

omit hC in
theorem near_free {h h' : Heap} (hO : Near S V N h h') {r : Nat} (hr : ¬ S r) {f : Nat} {y : HVal} (e : h.field r f = some y) : Free S y := by
  unfold Heap.field at e
  split at e
  · next heq => exact hO.closed r _ hr heq y (List.mem_of_getElem? e)
  · cases e

omit hC in
theorem near_put {h h' : Heap} (hO : Near S V N h h') (r : Nat) (x x' : HObj) (hx : ∀ y ∈ x.values, Free S y) (hn : SameBut (V r) (some x) (some x')) :
    Near S V N (h.set r x) (h'.set r x') where
  big := by rw [List.length_set]; exact hO.big
  len := by rw [List.length_set, List.length_set]; exact hO.len
  same a ha := by
    rw [List.getElem?_set, List.getElem?_set, hO.len]
    split
    · next e =>
      subst e
      split
      · exact hn
      · exact trivial
    · exact hO.same a ha
  closed a z ha hz := by
    rw [List.getElem?_set] at hz
    split at hz
    · split at hz
      · cases hz; exact hx
      · cases hz
    · exact hO.closed a z ha hz

omit hC in
theorem near_setField {h h' : Heap} (hO : Near S V N h h') {r : Nat} (hr : ¬ S r) (f : Nat) {y : HVal} (hy : Free S y) :
    Near S V N (h.setField r f y) (h'.setField r f y) := by
  have hs := hO.same r hr
  unfold Heap.setField
  rcases e : h'[r]? with _ | (⟨c, zs⟩ | zs)
  · rw [e] at hs; rw [sameBut_none hs]; exact hO
  · rw [e] at hs
    obtain ⟨ys, e', h2, h3⟩ := sameBut_msg hs
    rw [e']
    refine near_put hO r _ _ (fun z hz => ?_) ⟨rfl, by rw [List.length_set, List.length_set]; exact h2, fun i => ?_⟩
    · rcases List.mem_or_eq_of_mem_set hz with hz | rfl
      · exact hO.closed r _ hr e' z hz
      · exact hy
    · rw [List.getElem?_set, List.getElem?_set, h2]
      split
      · exact .inl rfl
      · exact h3 i
  · rw [e] at hs; rw [sameBut_arr hs]; exact hO

omit hC in
theorem near_append {h h' : Heap} (hO : Near S V N h h') (x : HObj) (hx : ∀ y ∈ x.values, Free S y) : Near S V N (h ++ [x]) (h' ++ [x]) where
  big := by have := hO.big; simp; omega
  len := by have := hO.len; simp; omega
  same a ha := by
    rw [List.getElem?_append, List.getElem?_append, hO.len]
    split
    · exact hO.same a ha
    · exact .refl _
  closed a z ha hz := by
    rw [List.getElem?_append] at hz
    split at hz
    · exact hO.closed a z ha hz
    · have := List.mem_of_getElem? hz
      simp at this; subst this; exact hx

theorem near_alloc (v : Val) : ∀ {h h' : Heap}, Near S V N h h' →
    Near S V N (alloc v h).1 (alloc v h').1 ∧ (alloc v h).2 = (alloc v h').2 ∧ Free S (alloc v h).2 := by
  apply Val.rec
    (motive_1 := fun v => ∀ {h h' : Heap}, Near S V N h h' → Near S V N (alloc v h).1 (alloc v h').1 ∧ (alloc v h).2 = (alloc v h').2 ∧ Free S (alloc v h).2)
    (motive_2 := fun vs => ∀ {h h' : Heap}, Near S V N h h' →
      Near S V N (allocAll vs h).1 (allocAll vs h').1 ∧ (allocAll vs h).2 = (allocAll vs h').2 ∧ ∀ y ∈ (allocAll vs h).2, Free S y)
  · intro h h' hO; exact ⟨hO, rfl, free_null⟩
  · intro n h h' hO; exact ⟨hO, rfl, free_num _⟩
  · intro s h h' hO; exact ⟨hO, rfl, free_str _⟩
  · intro xs ih h h' hO
    obtain ⟨h1, h2, h3⟩ := ih hO
    simp only [alloc]
    rw [← h2, ← h1.len]
    exact ⟨near_append h1 _ h3, rfl, free_ref (hC.fresh h1.big)⟩
  · intro c xs ih h h' hO
    obtain ⟨h1, h2, h3⟩ := ih hO
    simp only [alloc]
    rw [← h2, ← h1.len]
    exact ⟨near_append h1 _ h3, rfl, free_ref (hC.fresh h1.big)⟩
  · intro h h' hO; exact ⟨hO, rfl, fun _ hy => by cases hy⟩
  · intro v vs ihv ihvs h h' hO
    obtain ⟨h1, h2, h3⟩ := ihv hO
    obtain ⟨g1, g2, g3⟩ := ihvs h1
    simp only [allocAll]
    rw [← h2, ← g2]
    refine ⟨g1, rfl, fun y hy => ?_⟩
    rcases List.mem_cons.1 hy with rfl | hy
    · exact h3
    · exact g3 y hy
end

/-! ### decode -/

/-- Two runs are at the same point. -/
structure LPair (S : Nat → Prop) (V : Nat → Nat → HVal → Prop) (N : Nat) (st st' : ADSt) : Prop where
  k : st.k = st'.k
  buf : st.buf = st'.buf
  near : Near S V N st.h st'.h

/-- Two runs that were alone at `h0` end alike. -/
def LAlike (S : Nat → Prop) (V : Nat → Nat → HVal → Prop) (N : Nat) (h0 : Heap) (x x' : ADSt × Option JErr) : Prop := LPair S V N x.1 x'.1 ∧ x.2 = x'.2 ∧ Stays h0 x'.1.h

/-- A call among others and a call alone. -/
def LCalls (S : Nat → Prop) (V : Nat → Nat → HVal → Prop) (N : Nat) (call call' : ADCall) : Prop :=
  ∀ a h h' k b, ¬ S a → Near S V N h h' → Near S V N (call a h k b).1 (call' a h' k b).1 ∧ (call a h k b).2 = (call' a h' k b).2 ∧ Stays h' (call' a h' k b).1

theorem LAlike.after {S : Nat → Prop} {V : Nat → Nat → HVal → Prop} {N : Nat} {h0 h1 : Heap} {x x' : ADSt × Option JErr} (h : Stays h0 h1) (ha : LAlike S V N h1 x x') :
    LAlike S V N h0 x x' := ⟨ha.1, ha.2.1, h.trans ha.2.2⟩

/-- The message at `r` is of class `c`. -/
def IsA (c : Cls) (r : Nat) (h : Heap) : Prop := ∃ ys, h[r]? = some (.msg c ys)

theorem IsA.stays {c : Cls} {r : Nat} {h h' : Heap} (hi : IsA c r h) (hs : Stays h h') : IsA c r h' := by
  obtain ⟨ys, e⟩ := hi
  exact hs r c ys e

section
variable {S : Nat → Prop} {V : Nat → Nat → HVal → Prop} {N : Nat} {o : Acts} (hC : Tame S V N o)
include hC

theorem llook {st st' : ADSt} (hp : LPair S V N st st') {r : Nat} (hr : ¬ S r) {c : Cls} (hi : IsA c r st'.h) {f : Nat} (hf : ¬ Simple c f) :
    LPair S V N (st.look o r f).1 (st'.look AStill r f).1 ∧ (st.look o r f).2 = (st'.look AStill r f).2 ∧ (∀ y, (st.look o r f).2 = some y → Free S y)
      ∧ (st'.look AStill r f).1.h = st'.h := by
  obtain ⟨hk, hb, hO⟩ := hp
  have hO' := near_act hC hO st.k
  obtain ⟨ys, e⟩ := hi
  exact ⟨⟨congrArg (· + 1) hk, hb, hO'⟩, near_field hO' hr e hf, fun y e => near_free hO' hr e, rfl⟩

theorem lput {st st' : ADSt} (hp : LPair S V N st st') {r : Nat} (hr : ¬ S r) (f : Nat) {y : HVal} (hy : Free S y) :
    LPair S V N (st.put o r f y) (st'.put AStill r f y) ∧ Stays st'.h (st'.put AStill r f y).h := by
  obtain ⟨hk, hb, hO⟩ := hp
  exact ⟨⟨congrArg (· + 1) hk, hb, near_setField (near_act hC hO st.k) hr f hy⟩, stays_setField _ _ _ _⟩

omit hC in
theorem lbuf {st st' : ADSt} (hp : LPair S V N st st') (b : RBuf) : LPair S V N { st with buf := b } { st' with buf := b } := ⟨hp.k, rfl, hp.near⟩

theorem ladd {st st' : ADSt} (hp : LPair S V N st st') {l : Option HVal} (hl : ∀ y, l = some y → Free S y) {y : HVal} (hy : Free S y) :
    LAlike S V N st'.h (st.add o l y) (st'.add AStill l y) := by
  have hO' := near_act hC hp.near st.k
  rcases l with _ | (_ | n | s | a)
  · exact ⟨hp, rfl, .refl _⟩
  · exact ⟨hp, rfl, .refl _⟩
  · exact ⟨hp, rfl, .refl _⟩
  · exact ⟨hp, rfl, .refl _⟩
  · have ha : ¬ S a := hl _ rfl a rfl
    have h1 := hO'.same a ha
    simp only [ADSt.add, AStill]
    rcases e : st'.h[a]? with _ | (⟨c, ys⟩ | xs)
    · rw [e] at h1; rw [sameBut_none h1]
      exact ⟨⟨congrArg (· + 1) hp.k, hp.buf, hO'⟩, rfl, .refl _⟩
    · rw [e] at h1
      obtain ⟨zs, e', _⟩ := sameBut_msg h1
      rw [e']
      exact ⟨⟨congrArg (· + 1) hp.k, hp.buf, hO'⟩, rfl, .refl _⟩
    · rw [e] at h1
      have e' := sameBut_arr h1
      rw [e']
      refine ⟨⟨congrArg (· + 1) hp.k, hp.buf, near_put hO' a _ _ (fun z hz => ?_) (.refl _)⟩, rfl, stays_arr e _⟩
      rcases List.mem_append.1 hz with hz | hz
      · exact hO'.closed a _ ha e' z hz
      · simp at hz; subst hz; exact hy

variable {call call' : ADCall} (hc : LCalls S V N call call')
include hc

omit hC in
theorem lcall {st st' : ADSt} (hp : LPair S V N st st') {a : Nat} (ha : ¬ S a) : LAlike S V N st'.h (st.call call a) (st'.call call' a) := by
  obtain ⟨h1, h2, h3⟩ := hc a st.h st'.h st.k st.buf ha hp.near
  simp only [ADSt.call]
  rw [← hp.k, ← hp.buf, ← h2]
  exact ⟨⟨rfl, rfl, h1⟩, rfl, h3⟩

variable {c : Cls} {r : Nat} (hr : ¬ S r)
include hr

theorem lelem {st st' : ADSt} (hp : LPair S V N st st') (hi : IsA c r st'.h) {f : Nat} (hf : ¬ Simple c f) (el : DecElem) :
    LAlike S V N st'.h (adelem o call r f el st) (adelem AStill call' r f el st') := by
  obtain ⟨hl1, hl2, hl3, hl4⟩ := llook hC hp hr hi hf
  cases el with
  | obj d =>
    have hnew : ¬ S st.h.length := hC.fresh hp.near.big
    have hp1 : LPair S V N { st with h := st.h ++ [newMsg d] } { st' with h := st'.h ++ [newMsg d] } := ⟨hp.k, hp.buf, near_append hp.near _ (free_newMsg d)⟩
    obtain ⟨h1, h2, h3⟩ := lcall hc hp1 hnew
    simp only [adelem]
    rw [← hp.near.len]
    rcases e : ({ st with h := st.h ++ [newMsg d] } : ADSt).call call st.h.length with ⟨s1, x1⟩
    rcases e' : ({ st' with h := st'.h ++ [newMsg d] } : ADSt).call call' st.h.length with ⟨s2, x2⟩
    rw [e, e'] at h1 h2
    rw [e'] at h3
    have h3' : Stays st'.h s2.h := (stays_append _ _).trans h3
    obtain rfl : x1 = x2 := h2
    rcases x1 with _ | err
    · obtain ⟨g1, g2, g3, g4⟩ := llook hC h1 hr (hi.stays h3') hf
      dsimp only
      rw [← g2]
      refine .after h3' ?_
      have := ladd hC g1 g3 (free_ref (S := S) hnew)
      rw [g4] at this
      exact this
    · exact ⟨h1, rfl, h3'⟩
  | num t e =>
    simp only [adelem]
    rw [← hp.buf, ← hl2]
    split
    · exact ⟨lbuf hl1 _, rfl, .refl _⟩
    · exact ladd hC (lbuf hl1 _) hl3 (free_num _)
  | fixed n pad left =>
    simp only [adelem]
    rw [← hp.buf, ← hl2]
    split
    · exact ⟨lbuf hl1 _, rfl, .refl _⟩
    · exact ladd hC (lbuf hl1 _) hl3 (free_str _)
  | dyn t e =>
    simp only [adelem]
    rw [← hp.buf, ← hl2]
    split
    · exact ⟨lbuf hp _, rfl, .refl _⟩
    · split
      · split
        · exact ⟨lbuf hl1 _, rfl, .refl _⟩
        · exact ladd hC (lbuf hl1 _) hl3 (free_str _)
      · exact ⟨lbuf hp _, rfl, .refl _⟩

theorem lloop {f : Nat} (hf : ¬ Simple c f) (el : DecElem) : ∀ (m : Nat) {st st' : ADSt}, LPair S V N st st' → IsA c r st'.h →
    LAlike S V N st'.h (adloop o call r f el m st) (adloop AStill call' r f el m st')
  | 0, _, _, hp, _ => ⟨hp, rfl, .refl _⟩
  | m + 1, st, st', hp, hi => by
    obtain ⟨h1, h2, h3⟩ := lelem hC hc hr hp hi hf el
    simp only [adloop]
    rcases e : adelem o call r f el st with ⟨s1, x1⟩
    rcases e' : adelem AStill call' r f el st' with ⟨s2, x2⟩
    rw [e, e'] at h1 h2
    rw [e'] at h3
    obtain rfl : x1 = x2 := h2
    rcases x1 with _ | err
    · exact .after h3 (lloop hf el m h1 (hi.stays h3))
    · exact ⟨h1, rfl, h3⟩

theorem lcallField {st st' : ADSt} (hp : LPair S V N st st') (hi : IsA c r st'.h) {f : Nat} (hf : ¬ Simple c f) :
    LAlike S V N st'.h (adcall o call r f st) (adcall AStill call' r f st') := by
  obtain ⟨h1, h2, h3, h4⟩ := llook hC hp hr hi hf
  simp only [adcall]
  rcases e : st.look o r f with ⟨s1, x1⟩
  rcases e' : st'.look AStill r f with ⟨s2, x2⟩
  rw [e, e'] at h1 h2
  rw [e] at h3
  rw [e'] at h4
  have h4' : s2.h = st'.h := h4
  obtain rfl : x1 = x2 := h2
  rcases x1 with _ | (_ | n | s | a)
  · exact ⟨h1, rfl, by rw [← h4']; exact .refl _⟩
  · exact ⟨h1, rfl, by rw [← h4']; exact .refl _⟩
  · exact ⟨h1, rfl, by rw [← h4']; exact .refl _⟩
  · exact ⟨h1, rfl, by rw [← h4']; exact .refl _⟩
  · have ha : ¬ S a := h3 _ rfl a rfl
    have h5 : SameBut (V a) s1.h[a]? s2.h[a]? := h1.near.same a ha
    dsimp only
    rw [← h4']
    rcases e2 : s2.h[a]? with _ | (⟨d, ys⟩ | xs)
    · rw [e2] at h5; rw [sameBut_none h5]; exact ⟨h1, rfl, .refl _⟩
    · rw [e2] at h5
      obtain ⟨zs, e3, _⟩ := sameBut_msg h5
      rw [e3]
      exact lcall hc h1 ha
    · rw [e2] at h5; rw [sameBut_arr h5]; exact ⟨h1, rfl, .refl _⟩

theorem lstmt (w : World) {st st' : ADSt} (hp : LPair S V N st st') (hi : IsA c r st'.h) (tys : List FTy) (s : DecStmt) (hs : s ∈ (decl c).dec) :
    LAlike S V N st'.h (adstmt w.suppliers o call r tys s st) (adstmt w.suppliers AStill call' r tys s st') := by
  have hlo := fun {f} => looks_fixed (f := f) hs
  cases s with
  | num f t e =>
    simp only [adstmt]
    rw [← hp.buf]
    split
    · exact ⟨lbuf hp _, rfl, .refl _⟩
    · split
      · obtain ⟨h1, h2⟩ := lput hC (lbuf hp _) hr f (free_num _)
        exact ⟨h1, rfl, h2⟩
      · exact ⟨lbuf hp _, rfl, .refl _⟩
  | fixed f n pad left =>
    simp only [adstmt]
    rw [← hp.buf]
    split
    · obtain ⟨h1, h2⟩ := lput hC (lbuf hp _) hr f (free_str _)
      exact ⟨h1, rfl, h2⟩
    · exact ⟨lbuf hp _, rfl, .refl _⟩
  | dyn f t e =>
    simp only [adstmt]
    rw [← hp.buf]
    split
    · obtain ⟨h1, h2⟩ := lput hC (lbuf hp _) hr f (free_str _)
      exact ⟨h1, rfl, h2⟩
    · exact ⟨lbuf hp _, rfl, .refl _⟩
    · exact ⟨lbuf hp _, rfl, .refl _⟩
  | list f t e el =>
    have hf : ¬ Simple c f := hlo (by simp [looks])
    simp only [adstmt]
    rw [← hp.buf]
    split
    · exact ⟨lbuf hp _, rfl, .refl _⟩
    · next b' n heq =>
      split
      · rw [← hp.near.len]
        have h1 : LPair S V N ⟨st.h ++ [.arr []], st.k, b'⟩ ⟨st'.h ++ [.arr []], st'.k, b'⟩ := ⟨hp.k, rfl, near_append hp.near _ fun _ hy => by cases hy⟩
        obtain ⟨h2, h3⟩ := lput hC h1 hr f (free_ref (hC.fresh hp.near.big))
        have h4 := (stays_append st'.h [.arr []]).trans h3
        exact .after h4 (lloop hC hc hr hf el _ h2 (hi.stays h4))
      · exact ⟨lbuf hp _, rfl, .refl _⟩
  | obj f d =>
    have hf : ¬ Simple c f := hlo (by simp [looks])
    obtain ⟨h1, h2, h3, h4⟩ := llook hC hp hr hi hf
    simp only [adstmt]
    rcases e : st.look o r f with ⟨s1, x1⟩
    rcases e' : st'.look AStill r f with ⟨s2, x2⟩
    rw [e, e'] at h1 h2
    rw [e'] at h4
    have h4' : s2.h = st'.h := h4
    obtain rfl : x1 = x2 := h2
    rw [← h4'] at hi ⊢
    rcases x1 with _ | (_ | n | s | a)
    · exact lcallField hC hc hr h1 hi hf
    · have hl : s1.h.length = s2.h.length := h1.near.len
      dsimp only
      rw [← hl]
      have g1 : LPair S V N ⟨s1.h ++ [newMsg d], s1.k, s1.buf⟩ ⟨s2.h ++ [newMsg d], s2.k, s2.buf⟩ := ⟨h1.k, h1.buf, near_append h1.near _ (free_newMsg d)⟩
      obtain ⟨g2, g3⟩ := lput hC g1 hr f (free_ref (hC.fresh h1.near.big))
      have g4 := (stays_append s2.h [newMsg d]).trans g3
      exact .after g4 (lcallField hC hc hr g2 (hi.stays g4) hf)
    · exact lcallField hC hc hr h1 hi hf
    · exact lcallField hC hc hr h1 hi hf
    · exact lcallField hC hc hr h1 hi hf
  | create f fac key =>
    have hf : ¬ Simple c key := hlo (by simp [looks])
    obtain ⟨h1, h2, h3, h4⟩ := llook hC hp hr hi hf
    simp only [adstmt]
    rcases e : st.look o r key with ⟨s1, x1⟩
    rcases e' : st'.look AStill r key with ⟨s2, x2⟩
    rw [e, e'] at h1 h2
    rw [e'] at h4
    have h4' : s2.h = st'.h := h4
    obtain rfl : x1 = x2 := h2
    rw [← h4']
    rcases x1 with _ | y
    · exact ⟨h1, rfl, .refl _⟩
    · dsimp only [World.suppliers]
      rcases w.fac fac (keyOf y.leaf) with _ | v
      · exact ⟨h1, rfl, .refl _⟩
      · obtain ⟨g1, g2, g3⟩ := near_alloc hC v h1.near
        obtain ⟨l, g4⟩ := alloc_append v s2.h
        dsimp only [Option.map_some, adcreate]
        dsimp only at g1 g2 g3
        rw [← g2]
        have g5 : LPair S V N { s1 with h := (alloc v s1.h).1 } { s2 with h := (alloc v s2.h).1 } := ⟨h1.k, h1.buf, g1⟩
        obtain ⟨k1, k2⟩ := lput hC g5 hr f g3
        refine ⟨k1, rfl, Stays.trans ?_ k2⟩
        dsimp only
        rw [g4]
        exact stays_append _ _
  | call f => exact lcallField hC hc hr hp hi (hlo (by simp [looks]))

theorem lstmts (w : World) (tys : List FTy) : ∀ (ss : List DecStmt) {st st' : ADSt}, (∀ s ∈ ss, s ∈ (decl c).dec) → LPair S V N st st' → IsA c r st'.h →
    LAlike S V N st'.h (adstmts w.suppliers o call r tys ss st) (adstmts w.suppliers AStill call' r tys ss st')
  | [], _, _, _, hp, _ => ⟨hp, rfl, .refl _⟩
  | s :: ss, st, st', hs, hp, hi => by
    obtain ⟨h1, h2, h3⟩ := lstmt hC hc hr w hp hi tys s (hs s (by simp))
    simp only [adstmts]
    rcases e : adstmt w.suppliers o call r tys s st with ⟨s1, x1⟩
    rcases e' : adstmt w.suppliers AStill call' r tys s st' with ⟨s2, x2⟩
    rw [e, e'] at h1 h2
    rw [e'] at h3
    obtain rfl : x1 = x2 := h2
    rcases x1 with _ | err
    · exact .after h3 (lstmts w tys ss (fun s hm => hs s (by simp [hm])) h1 (hi.stays h3))
    · exact ⟨h1, rfl, h3⟩
end

theorem adecode_near {S : Nat → Prop} {V : Nat → Nat → HVal → Prop} {N : Nat} {o : Acts} (hC : Tame S V N o) (w : World) :
    ∀ n, LCalls S V N (adecode w.suppliers o n) (adecode w.suppliers AStill n)
  | 0, _, _, _, _, _, _, hO => ⟨hO, rfl, .refl _⟩
  | n + 1, r, h, h', k, b, hr, hO => by
    have hs := hO.same r hr
    simp only [adecode]
    rcases e : h'[r]? with _ | (⟨c, ys⟩ | xs)
    · rw [e] at hs; rw [sameBut_none hs]; exact ⟨hO, rfl, .refl _⟩
    · rw [e] at hs
      obtain ⟨zs, e', _⟩ := sameBut_msg hs
      rw [e']
      obtain ⟨h1, h2, h3⟩ := lstmts hC (adecode_near hC w n) hr w ((decl c).fields.map (·.2)) (decl c).dec (st := ⟨h, k, b⟩) (st' := ⟨h', k, b⟩)
        (fun _ hm => hm) ⟨rfl, rfl, hO⟩ ⟨ys, e⟩
      dsimp only
      exact ⟨h1.near, by rw [h1.k, h1.buf, h2], h3⟩
    · rw [e] at hs; rw [sameBut_arr hs]; exact ⟨hO, rfl, .refl _⟩

/-! ### In terms of the message -/

theorem tame_lightly {h : Heap} {x : HVal} {V : Nat → Nat → HVal → Prop} {o : Acts} (ho : Lightly h x V o) : Tame (fun q => ¬ Mine h x q) V h.length o where
  below _ ha := Nat.lt_of_not_le fun hge => ha (.inr hge)
  len k g := (ho.2 k g).1
  same k g a ha := (ho.2 k g).2 a (Classical.not_not.1 ha)
  refs a f q ha := ho.1 a f q (Classical.not_not.1 ha)

theorem near_start {h : Heap} {x : HVal} {V : Nat → Nat → HVal → Prop} : Near (fun q => ¬ Mine h x q) V h.length h h :=
  have := off_start (h := h) (x := x) (P := fun _ => True) trivial
  ⟨this.big, this.len, fun _ _ => .refl _, this.closed⟩

theorem near_showsBut {S : Nat → Prop} {V : Nat → Nat → HVal → Prop} {N : Nat} {h h' : Heap} (hO : Near S V N h h') :
    ∀ v x, Free S x → Shows h' v x → ShowsBut h V v x := by
  intro v
  apply Val.rec
    (motive_1 := fun v => ∀ x, Free S x → Shows h' v x → ShowsBut h V v x)
    (motive_2 := fun vs => (∀ ys, (∀ y ∈ ys, Free S y) → ShowsAll h' vs ys → ShowsButAll h V vs ys) ∧
      ∀ c r i (zs ys : List HVal), zs.length = ys.length → (∀ j, zs[j]? = ys[j]? ∨ Simple c (i + j) ∧ ∃ y, zs[j]? = some y ∧ V r (i + j) y) → (∀ z ∈ zs, Free S z) →
        ShowsAll h' vs ys → ShowsButFields h V c r i vs zs)
  · intro x _ hs; simpa only [ShowsBut, Shows] using hs
  · intro n x _ hs; simpa only [ShowsBut, Shows] using hs
  · intro s x _ hs; simpa only [ShowsBut, Shows] using hs
  · intro vs ih x hx hs
    simp only [Shows] at hs
    obtain ⟨a, ys, rfl, h1, h2⟩ := hs
    have ha : ¬ S a := hx a rfl
    have h3 := hO.same a ha
    rw [h1] at h3
    have h4 := sameBut_arr h3
    simp only [ShowsBut]
    exact ⟨a, ys, rfl, h4, ih.1 ys (hO.closed a _ ha h4) h2⟩
  · intro c vs ih x hx hs
    simp only [Shows] at hs
    obtain ⟨a, ys, rfl, h1, h2⟩ := hs
    have ha : ¬ S a := hx a rfl
    have h3 := hO.same a ha
    rw [h1] at h3
    obtain ⟨zs, h4, h5, h6⟩ := sameBut_msg h3
    simp only [ShowsBut]
    exact ⟨a, zs, rfl, h4, ih.2 c a 0 zs ys h5 (fun j => by simpa using h6 j) (hO.closed a _ ha h4) h2⟩
  · refine ⟨fun ys _ hs => by simpa only [ShowsButAll, ShowsAll] using hs, fun c r i zs ys hl _ _ hs => ?_⟩
    simp only [ShowsAll] at hs
    subst hs
    simp only [ShowsButFields]
    exact List.length_eq_zero_iff.1 hl
  · intro v vs ihv ihvs
    refine ⟨fun ys hys hs => ?_, fun c r i zs ys hl he hz hs => ?_⟩
    · simp only [ShowsAll] at hs
      obtain ⟨y, ys', rfl, h1, h2⟩ := hs
      simp only [ShowsButAll]
      exact ⟨y, ys', rfl, ihv y (hys y (by simp)) h1, ihvs.1 ys' (fun z hz => hys z (by simp [hz])) h2⟩
    · simp only [ShowsAll] at hs
      obtain ⟨y, ys', rfl, h1, h2⟩ := hs
      rcases zs with _ | ⟨z, zs'⟩
      · simp at hl
      simp only [ShowsButFields]
      refine ⟨z, zs', rfl, ?_, ihvs.2 c r (i + 1) zs' ys' (by simpa using hl) (fun j => ?_) (fun z hm => hz z (by simp [hm])) h2⟩
      · rcases he 0 with e | ⟨e1, y', e2, e3⟩
        · simp at e
          subst e
          exact .inr (ihv z (hz z (by simp)) h1)
        · simp at e2
          subst e2
          exact .inl ⟨e3, e1⟩
      · have := he (j + 1)
        rw [show i + (j + 1) = i + 1 + j by omega] at this
        simpa using this

theorem showsBut_fields_get {h : Heap} {V : Nat → Nat → HVal → Prop} {c : Cls} {r : Nat} : ∀ {vs : List Val} {zs : List HVal} {i : Nat}, ShowsButFields h V c r i vs zs →
    ∀ {j : Nat} {v : Val}, vs[j]? = some v → (∀ y, ¬ V r (i + j) y) → ∃ z, zs[j]? = some z ∧ ShowsBut h V v z
  | [], _, _, _, j, v, hv, _ => by simp at hv
  | v' :: vs, zs, i, hs, j, v, hv, hT => by
    simp only [ShowsButFields] at hs
    obtain ⟨z, zs', rfl, h1, h2⟩ := hs
    rcases j with _ | j
    · simp at hv; subst hv
      refine ⟨z, rfl, ?_⟩
      rcases h1 with h1 | h1
      · exact absurd h1.1 (hT z)
      · exact h1
    · simp at hv
      obtain ⟨z', e, h3⟩ := showsBut_fields_get h2 hv (by rw [show i + 1 + j = i + (j + 1) by omega]; exact hT)
      exact ⟨z', by simpa using e, h3⟩

theorem showsBut_nothing {h : Heap} : ∀ v x, ShowsBut h (fun _ _ _ => False) v x → Shows h v x := by
  intro v
  apply Val.rec
    (motive_1 := fun v => ∀ x, ShowsBut h (fun _ _ _ => False) v x → Shows h v x)
    (motive_2 := fun vs => (∀ ys, ShowsButAll h (fun _ _ _ => False) vs ys → ShowsAll h vs ys) ∧
      ∀ c r i (ys : List HVal), ShowsButFields h (fun _ _ _ => False) c r i vs ys → ShowsAll h vs ys)
  · intro x hs; simpa only [ShowsBut, Shows] using hs
  · intro n x hs; simpa only [ShowsBut, Shows] using hs
  · intro s x hs; simpa only [ShowsBut, Shows] using hs
  · intro vs ih x hs
    simp only [ShowsBut] at hs
    obtain ⟨a, ys, h0, h1, h2⟩ := hs
    simp only [Shows]
    exact ⟨a, ys, h0, h1, ih.1 ys h2⟩
  · intro c vs ih x hs
    simp only [ShowsBut] at hs
    obtain ⟨a, ys, h0, h1, h2⟩ := hs
    simp only [Shows]
    exact ⟨a, ys, h0, h1, ih.2 c a 0 ys h2⟩
  · exact ⟨fun ys hs => by simpa only [ShowsButAll, ShowsAll] using hs, fun c r i ys hs => by simpa only [ShowsButFields, ShowsAll] using hs⟩
  · intro v vs ihv ihvs
    refine ⟨fun ys hs => ?_, fun c r i ys hs => ?_⟩
    · simp only [ShowsButAll] at hs
      obtain ⟨y, ys', h0, h1, h2⟩ := hs
      simp only [ShowsAll]
      exact ⟨y, ys', h0, ihv y h1, ihvs.1 ys' h2⟩
    · simp only [ShowsButFields] at hs
      obtain ⟨y, ys', h0, h1, h2⟩ := hs
      simp only [ShowsAll]
      exact ⟨y, ys', h0, ihv y (h1.resolve_left fun hf => hf.1), ihvs.2 c r (i + 1) ys' h2⟩

/-! ### Setters -/

theorem lightly_setCall {h : Heap} {x : HVal} {V : Nat → Nat → HVal → Prop} {s : SetCall} (hs : Mine h x s.r → V s.r s.f s.y ∧ Simple s.c s.f) (g : Heap) :
    (s.run g).length = g.length ∧ ∀ q, Mine h x q → SameBut (V q) (s.run g)[q]? g[q]? := by
  unfold SetCall.run
  split
  · next c ys hc =>
    split
    · next e =>
      subst e
      unfold Heap.setField
      rw [hc]
      refine ⟨List.length_set, fun q hq => ?_⟩
      by_cases hqr : s.r = q
      · subst hqr
        obtain ⟨h1, h2⟩ := hs hq
        dsimp only
        rw [List.getElem?_set_self (List.getElem?_eq_some_iff.1 hc).1, hc]
        refine ⟨rfl, List.length_set, fun f => ?_⟩
        by_cases hf : s.f = f
        · subst hf
          by_cases hl : s.f < ys.length
          · exact .inr ⟨h2, s.y, List.getElem?_set_self hl, h1⟩
          · rw [List.set_eq_of_length_le (by omega)]; exact .inl rfl
        · exact .inl (List.getElem?_set_ne hf)
      · dsimp only
        rw [List.getElem?_set_ne hqr]
        exact .refl _
    · exact ⟨rfl, fun _ _ => .refl _⟩
  · exact ⟨rfl, fun _ _ => .refl _⟩

theorem lightly_setActs {h : Heap} {x : HVal} {V : Nat → Nat → HVal → Prop} {l : Nat → List SetCall} (hT : ∀ q f a, Mine h x q → ¬ V q f (.ref a))
    (hl : ∀ k, ∀ s ∈ l k, Mine h x s.r → V s.r s.f s.y ∧ Simple s.c s.f) : Lightly h x V (setActs l) := by
  refine ⟨hT, fun k g => ?_⟩
  have := hl k
  revert this
  unfold setActs
  generalize l k = ss
  intro this
  induction ss generalizing g with
  | nil => exact ⟨rfl, fun q _ => .refl _⟩
  | cons s ss ih =>
    obtain ⟨h1, h2⟩ := lightly_setCall (this s (by simp)) g
    obtain ⟨g1, g2⟩ := ih (s.run g) fun s hm => this s (by simp [hm])
    rw [List.foldl_cons]
    exact ⟨g1.trans h1, fun q hq => (g2 q hq).trans (h2 q hq)⟩

theorem simple_of {c : Cls} {f : Nat} (h : (heldB c f || steersB c f) = false) : Simple c f := by
  rw [Bool.or_eq_false_iff] at h
  refine ⟨?_, ?_⟩
  · rintro ⟨i, fac, key, e, hf⟩
    have : steersB c f = true := by
      unfold steersB
      rw [List.any_eq_true]
      refine ⟨i, List.mem_range.2 (List.getElem?_eq_some_iff.1 e).1, ?_⟩
      rw [e]
      simpa using hf
    rw [this] at h; cases h.2
  · rintro (⟨e, he⟩ | ⟨d, hd⟩)
    · have : heldB c f = true := by unfold heldB; rw [he]
      rw [this] at h; cases h.1
    · have : heldB c f = true := by unfold heldB; rw [hd]
      rw [this] at h; cases h.1

end FinProto
