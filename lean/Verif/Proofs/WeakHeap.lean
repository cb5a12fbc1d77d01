import Verif.Spec.WeakHeap
import Verif.Proofs.RacingHeap
/-
Helper lemmas for C112: reads that return what they like are as reads of what somebody assigned just before.
-/
namespace FinProto

/-- Others assign, before each access, to each field what a read of it would return. -/
def asSets (m : Seen) (h : Heap) : HOthers := fun k =>
  (List.range h.length).flatMap fun (r : Nat) =>
    match h[r]? with
    | some (.msg c ys) => ((List.range ys.length).filter fun f => !touchyB c f).map fun f => (r, f, (m k r f).getD ((h.field r f).getD .null))
    | _ => []

theorem mem_asSets {m : Seen} {h : Heap} {k : Nat} {p : Nat × Nat × HVal} : p ∈ asSets m h k ↔
    ∃ c ys, h[p.1]? = some (.msg c ys) ∧ p.2.1 < ys.length ∧ touchyB c p.2.1 = false ∧ p.2.2 = (m k p.1 p.2.1).getD ((h.field p.1 p.2.1).getD .null) := by
  unfold asSets
  rw [List.mem_flatMap]
  constructor
  · rintro ⟨r, hr, hp⟩
    rcases hx : h[r]? with _ | (⟨c, ys⟩ | xs)
    · rw [hx] at hp; cases hp
    · rw [hx] at hp
      obtain ⟨f, hf, rfl⟩ := List.mem_map.1 hp
      obtain ⟨hf, ht⟩ := List.mem_filter.1 hf
      exact ⟨c, ys, hx, List.mem_range.1 hf, by simpa using ht, rfl⟩
    · rw [hx] at hp; cases hp
  · rintro ⟨c, ys, hr, hf, ht, hy⟩
    refine ⟨p.1, List.mem_range.2 (List.getElem?_eq_some_iff.1 hr).1, ?_⟩
    rw [hr]
    exact List.mem_map.2 ⟨p.2.1, List.mem_filter.2 ⟨List.mem_range.2 hf, by simp [ht]⟩, by rw [← hy]⟩

theorem asSets_spares (m : Seen) (h : Heap) : HSpares h (asSets m h) := by
  intro k p hp c ys hc ht
  obtain ⟨c', ys', h1, -, h2, -⟩ := mem_asSets.1 hp
  rw [hc] at h1
  cases h1
  rw [touchy_iff, h2] at ht
  cases ht

theorem toField_one {ps : List (Nat × Nat × HVal)} {q g : Nat} {y : HVal} (hin : (q, g, y) ∈ ps) (hall : ∀ p ∈ ps, p.1 = q → p.2.1 = g → p.2.2 = y) :
    (toField ps q g).getLast? = some y := by
  have h1 : ∀ z ∈ toField ps q g, z = y := by
    intro z hz
    obtain ⟨p, hp, rfl⟩ := List.mem_map.1 hz
    have hp' := List.mem_filter.1 hp
    simp only [Bool.and_eq_true, beq_iff_eq] at hp'
    exact hall p hp'.1 hp'.2.1 hp'.2.2
  have h2 : y ∈ toField ps q g := List.mem_map.2 ⟨(q, g, y), List.mem_filter.2 ⟨hin, by simp⟩, rfl⟩
  rcases hl : (toField ps q g).getLast? with _ | z
  · rw [List.getLast?_eq_none_iff] at hl
    rw [hl] at h2
    cases h2
  · rw [h1 z (List.mem_of_getLast? hl)]

theorem toField_asSets (m : Seen) (h : Heap) (k : Nat) {r f : Nat} {c : Cls} {ys : List HVal} (hr : h[r]? = some (.msg c ys)) (hf : f < ys.length)
    (ht : ¬ Touchy c f) : (toField (asSets m h k) r f).getLast? = some ((m k r f).getD ys[f]) := by
  rw [touchy_iff, Bool.not_eq_true] at ht
  have hd : (h.field r f).getD .null = ys[f] := by rw [Heap.field_msg h r f c ys hr, List.getElem?_eq_getElem hf]; rfl
  apply toField_one
  · exact mem_asSets.2 ⟨c, ys, hr, hf, ht, by rw [hd]⟩
  · intro p hp h1 h2
    obtain ⟨c', ys', -, -, -, h3⟩ := mem_asSets.1 hp
    rw [h3, h1, h2, hd]

theorem toField_none {m : Seen} {h : Heap} {k r f : Nat} (hn : ∀ c ys, h[r]? = some (.msg c ys) → f < ys.length → Touchy c f) : toField (asSets m h k) r f = [] := by
  unfold toField
  rw [List.map_eq_nil_iff, List.filter_eq_nil_iff]
  intro p hp hx
  simp only [Bool.and_eq_true, beq_iff_eq] at hx
  obtain ⟨c, ys, h1, h2, h3, -⟩ := mem_asSets.1 hp
  rw [hx.1] at h1
  rw [hx.2] at h2 h3
  have := hn c ys h1 h2
  rw [touchy_iff, h3] at this
  cases this

/-! ### The two runs -/

/-- The heap of the weak run and that of the other one. -/
structure WRel (h0 h g : Heap) : Prop where
  left : ∀ q : Nat, (h[q]?).map HObj.shape = (h0[q]?).map HObj.shape
  right : ∀ q : Nat, (g[q]?).map HObj.shape = (h0[q]?).map HObj.shape
  touchy : ∀ q c ys f, h0[q]? = some (.msg c ys) → Touchy c f → h.field q f = g.field q f
  plain : ∀ q c ys f, h0[q]? = some (.msg c ys) → ¬ Touchy c f → h.field q f = h0.field q f

theorem shape_msg {h g : Heap} {q : Nat} (hs : (h[q]?).map HObj.shape = (g[q]?).map HObj.shape) {c : Cls} {ys : List HVal} (hq : h[q]? = some (.msg c ys)) :
    ∃ zs, g[q]? = some (.msg c zs) ∧ zs.length = ys.length := by
  rw [hq] at hs
  rcases hg : g[q]? with _ | (⟨d, zs⟩ | xs)
  · rw [hg] at hs; cases hs
  · rw [hg] at hs
    simp only [Option.map_some, HObj.shape, Option.some.injEq, HObj.msg.injEq] at hs
    refine ⟨zs, by rw [hs.1], ?_⟩
    simpa using (congrArg List.length hs.2).symm
  · rw [hg] at hs; cases hs

theorem shape_arr {h g : Heap} {q : Nat} (hs : (h[q]?).map HObj.shape = (g[q]?).map HObj.shape) (xs : List HVal) : h[q]? = some (.arr xs) ↔ g[q]? = some (.arr xs) := by
  rcases h1 : h[q]? with _ | (⟨c, ys⟩ | zs) <;> rcases h2 : g[q]? with _ | (⟨c0, ys0⟩ | xs0) <;> rw [h1, h2] at hs <;> simp [HObj.shape] at hs ⊢
  rw [hs]

theorem shape_field {h g : Heap} {q f : Nat} (hs : (h[q]?).map HObj.shape = (g[q]?).map HObj.shape) : (h.field q f).isSome = (g.field q f).isSome := by
  unfold Heap.field
  rcases h1 : h[q]? with _ | (⟨c, ys⟩ | zs) <;> rcases h2 : g[q]? with _ | (⟨c0, ys0⟩ | xs0) <;> rw [h1, h2] at hs <;> simp [HObj.shape] at hs ⊢
  have := congrArg List.length hs.2
  simp only [List.length_map] at this
  rw [Bool.eq_iff_iff, Option.isSome_iff_exists, Option.isSome_iff_exists]
  by_cases hf : f < ys.length
  · rw [List.getElem?_eq_getElem hf, List.getElem?_eq_getElem (this ▸ hf)]
    exact ⟨fun _ => ⟨_, rfl⟩, fun _ => ⟨_, rfl⟩⟩
  · rw [List.getElem?_eq_none (Nat.le_of_not_lt hf), List.getElem?_eq_none (by omega)]

section
variable {w : World} {m : Seen} {h0 : Heap}

theorem rel_all {h g : Heap} (R : WRel h0 h g) (k : Nat) : WRel h0 h (hsetAll g (asSets m h0 k)) := by
  refine ⟨R.left, fun q => by rw [hsetAll_shape, R.right q], fun q c ys f hq ht => ?_, R.plain⟩
  rw [hsetAll_field, toField_none fun c' ys' h' _ => by rw [hq] at h'; cases h'; exact ht, R.touchy q c ys f hq ht]
  simp

theorem rel_put {h g : Heap} (R : WRel h0 h g) {r f : Nat} {c : Cls} {ys : List HVal} (hr : h0[r]? = some (.msg c ys)) (ht : Touchy c f) (y : HVal) :
    WRel h0 (h.setField r f y) (g.setField r f y) := by
  refine ⟨fun q => by rw [setField_shape, R.left q], fun q => by rw [setField_shape, R.right q], fun q d zs i hq hi => ?_, fun q d zs i hq hi => ?_⟩
  · rw [setField_field, setField_field, R.touchy q d zs i hq hi]
  · rw [setField_field, if_neg, R.plain q d zs i hq hi]
    rintro ⟨rfl, rfl⟩
    rw [hr] at hq
    cases hq
    exact hi ht

/-- Both runs do the same, except for the heap. -/
def Both (h0 : Heap) {α : Type} (a b : RHSt × α) : Prop := ∃ g, b = ({ a.1 with h := g }, a.2) ∧ WRel h0 a.1.h g

/-- Both calls do the same. -/
def CallBoth (h0 : Heap) (call rcall : RHCall) : Prop :=
  ∀ x h g k b, WRel h0 h g → ∃ g', rcall x g k b = (g', (call x h k b).2) ∧ WRel h0 (call x h k b).1 g'

variable {sets : Nat → Nat → HVal → Prop} (hm : MaySee h0 sets m)
include hm

theorem both_look (r f : Nat) (st : RHSt) {g : Heap} (R : WRel h0 st.h g) :
    Both h0 (st.wlook m r f) (RHSt.look (asSets m h0) r f { st with h := g }) := by
  refine ⟨hsetAll g (asSets m h0 st.k), ?_, rel_all R st.k⟩
  unfold RHSt.look RHSt.wlook
  dsimp only
  congr 1
  rw [hsetAll_field]
  rcases hr : h0[r]? with _ | (⟨c, ys⟩ | xs)
  case some.msg =>
    by_cases hf : f < ys.length
    · by_cases ht : Touchy c f
      · have hn : m st.k r f = none := by
          rcases hx : m st.k r f with _ | y
          · rfl
          · obtain ⟨-, c', ys', h1, -, h2⟩ := hm _ _ _ _ hx
            rw [hr] at h1
            cases h1
            exact absurd ht h2
        rw [hn, toField_none fun c' ys' h' _ => by rw [hr] at h'; cases h'; exact ht, R.touchy r c ys f hr ht]
        simp
      · rw [toField_asSets m h0 st.k hr hf ht, R.plain r c ys f hr ht, Heap.field_msg h0 r f c ys hr, List.getElem?_eq_getElem hf]
        have : (g.field r f).isSome := by
          rw [shape_field (R.right r), Heap.field_msg h0 r f c ys hr, List.getElem?_eq_getElem hf]
          rfl
        obtain ⟨z, hz⟩ := Option.isSome_iff_exists.1 this
        rw [hz]
        cases m st.k r f <;> rfl
    · have hn : m st.k r f = none := by
        rcases hx : m st.k r f with _ | y
        · rfl
        · obtain ⟨-, c', ys', h1, h2, -⟩ := hm _ _ _ _ hx
          rw [hr] at h1
          cases h1
          exact absurd h2 hf
      have h1 : h0.field r f = none := by rw [Heap.field_msg h0 r f c ys hr, List.getElem?_eq_none (Nat.le_of_not_lt hf)]
      have h2 : g.field r f = none := by
        have := shape_field (f := f) (R.right r)
        rw [h1] at this
        simpa using this
      have h3 : st.h.field r f = none := by
        have := shape_field (f := f) (R.left r)
        rw [h1] at this
        simpa using this
      rw [hn, h2, h3]
      rfl
  all_goals
    have hn : m st.k r f = none := by
      rcases hx : m st.k r f with _ | y
      · rfl
      · obtain ⟨-, c', ys', h1, -⟩ := hm _ _ _ _ hx
        rw [hr] at h1
        cases h1
    have h1 : h0.field r f = none := by unfold Heap.field; rw [hr]
    have h2 : g.field r f = none := by
      have := shape_field (f := f) (R.right r)
      rw [h1] at this
      simpa using this
    have h3 : st.h.field r f = none := by
      have := shape_field (f := f) (R.left r)
      rw [h1] at this
      simpa using this
    rw [hn, h2, h3]
    rfl

theorem both_elems (r f : Nat) (st : RHSt) {g : Heap} (R : WRel h0 st.h g) :
    Both h0 (st.welems m r f) (RHSt.elems (asSets m h0) r f { st with h := g }) := by
  obtain ⟨g1, e1, R1⟩ := both_look hm r f st R
  unfold RHSt.elems RHSt.welems
  rw [e1]
  revert R1
  rcases st.wlook m r f with ⟨st1, _ | (_ | _ | _ | a)⟩ <;> intro R1 <;> dsimp only at R1 ⊢ <;> try exact ⟨g1, rfl, R1⟩
  have ha := shape_arr ((R1.left a).trans (R1.right a).symm)
  rcases h1 : st1.h[a]? with _ | (⟨c, ys⟩ | xs)
  · rcases h2 : g1[a]? with _ | (⟨c, ys⟩ | xs)
    · exact ⟨g1, rfl, R1⟩
    · exact ⟨g1, rfl, R1⟩
    · rw [(ha xs).2 h2] at h1; cases h1
  · rcases h2 : g1[a]? with _ | (⟨c, ys⟩ | xs)
    · exact ⟨g1, rfl, R1⟩
    · exact ⟨g1, rfl, R1⟩
    · rw [(ha xs).2 h2] at h1; cases h1
  · rw [(ha xs).1 h1]
    exact ⟨g1, rfl, R1⟩

theorem both_get (r f i : Nat) (st : RHSt) {g : Heap} (R : WRel h0 st.h g) :
    Both h0 (st.wget m r f i) (RHSt.get (asSets m h0) r f i { st with h := g }) := by
  obtain ⟨g1, e1, R1⟩ := both_elems hm r f st R
  unfold RHSt.get RHSt.wget
  rw [e1]
  revert R1
  rcases st.welems m r f with ⟨st1, _ | xs⟩ <;> intro R1 <;> dsimp only at R1 ⊢
  · exact ⟨g1, rfl, R1⟩
  · cases xs[i]? <;> exact ⟨g1, rfl, R1⟩

theorem both_field (r f : Nat) (st : RHSt) {g : Heap} (R : WRel h0 st.h g) :
    Both h0 (st.wfield m r f) (RHSt.field (asSets m h0) r f { st with h := g }) := by
  obtain ⟨g1, e1, R1⟩ := both_look hm r f st R
  unfold RHSt.field RHSt.wfield
  rw [e1]
  revert R1
  rcases st.wlook m r f with ⟨st1, _ | x⟩ <;> intro R1 <;> exact ⟨g1, rfl, R1⟩

omit hm in
theorem both_call {call rcall : RHCall} (hc : CallBoth h0 call rcall) (x : HVal) (st : RHSt) {g : Heap} (R : WRel h0 st.h g) :
    Both h0 (st.call call x) (RHSt.call rcall x { st with h := g }) := by
  obtain ⟨g1, e1, R1⟩ := hc x st.h g st.k st.buf R
  unfold RHSt.call
  dsimp only
  rw [e1]
  exact ⟨g1, rfl, R1⟩

omit hm in
theorem both_wrote (st : RHSt) {g : Heap} (R : WRel h0 st.h g) (q : WBuf × Option JErr) : Both h0 (st.wrote q) (RHSt.wrote { st with h := g } q) := ⟨g, rfl, R⟩

omit hm in
theorem both_dyn (x y : RHSt → RHSt × Except JErr HVal) (hx : ∀ (st : RHSt) (g : Heap), WRel h0 st.h g → Both h0 (x st) (y { st with h := g })) (zt t : PTy) (e : Endian)
    (st : RHSt) {g : Heap} (R : WRel h0 st.h g) : Both h0 (rhdyn x zt t e st) (rhdyn y zt t e { st with h := g }) := by
  obtain ⟨g1, e1, R1⟩ := hx st g R
  unfold rhdyn
  rw [e1]
  revert R1
  rcases x st with ⟨st1, _ | v⟩ <;> intro R1
  · exact ⟨g1, rfl, R1⟩
  · dsimp only at R1 ⊢
    rcases v.leaf.asStr with _ | (_ | (_ | ⟨ch, cs⟩))
    · exact ⟨g1, rfl, R1⟩
    · exact ⟨g1, rfl, R1⟩
    · exact ⟨g1, rfl, R1⟩
    · dsimp only
      obtain ⟨g2, e2, R2⟩ := hx st1 g1 R1
      rw [e2]
      revert R2
      rcases x st1 with ⟨st2, _ | (_ | _ | s | _)⟩ <;> intro R2 <;> dsimp only at R2 ⊢ <;> try exact ⟨g2, rfl, R2⟩
      rcases writeInt st2.buf t e (utf8Enc s).length with ⟨b, _ | err⟩ <;> exact ⟨g2, rfl, R2⟩

theorem both_elem {call rcall : RHCall} (hc : CallBoth h0 call rcall) (el : EncElem) (r f i : Nat) (st : RHSt) {g : Heap} (R : WRel h0 st.h g) :
    Both h0 (welem m call el r f i st) (rhelem (asSets m h0) rcall el r f i { st with h := g }) := by
  cases el with
  | dyn zt t e => exact both_dyn _ _ (fun st g R => both_get hm r f i st R) zt t e st R
  | num t e =>
    obtain ⟨g1, e1, R1⟩ := both_get hm r f i st R
    simp only [rhelem, welem]
    rw [e1]
    revert R1
    rcases st.wget m r f i with ⟨st1, _ | x⟩ <;> intro R1 <;> exact ⟨g1, rfl, R1⟩
  | fixed n pad left =>
    obtain ⟨g1, e1, R1⟩ := both_get hm r f i st R
    simp only [rhelem, welem]
    rw [e1]
    revert R1
    rcases st.wget m r f i with ⟨st1, _ | x⟩ <;> intro R1 <;> exact ⟨g1, rfl, R1⟩
  | obj =>
    obtain ⟨g1, e1, R1⟩ := both_get hm r f i st R
    simp only [rhelem, welem]
    rw [e1]
    revert R1
    rcases st.wget m r f i with ⟨st1, _ | x⟩ <;> intro R1
    · exact ⟨g1, rfl, R1⟩
    · exact both_call hc x st1 R1

theorem both_loop {call rcall : RHCall} (hc : CallBoth h0 call rcall) (el : EncElem) (r f : Nat) : ∀ (j i : Nat) (st : RHSt) (g : Heap), WRel h0 st.h g →
    Both h0 (wloop m call el r f j i st) (rhloop (asSets m h0) rcall el r f j i { st with h := g }) := by
  intro j
  induction j with
  | zero => intro i st g R; exact ⟨g, rfl, R⟩
  | succ j ih =>
    intro i st g R
    obtain ⟨g1, e1, R1⟩ := both_elems hm r f st R
    simp only [rhloop, wloop]
    rw [e1]
    revert R1
    rcases st.welems m r f with ⟨st1, _ | xs⟩ <;> intro R1
    · exact ⟨g1, rfl, R1⟩
    · dsimp only at R1 ⊢
      by_cases hi : i < xs.length
      · rw [if_pos hi, if_pos hi]
        obtain ⟨g2, e2, R2⟩ := both_elem hm hc el r f i st1 R1
        rw [e2]
        revert R2
        rcases welem m call el r f i st1 with ⟨st2, _ | err⟩ <;> intro R2
        · exact ih (i + 1) st2 g2 R2
        · exact ⟨g2, rfl, R2⟩
      · rw [if_neg hi, if_neg hi]
        exact ⟨g1, rfl, R1⟩

theorem both_stmt {call rcall : RHCall} (hc : CallBoth h0 call rcall) {r : Nat} {c : Cls} {ys : List HVal} (hr : h0[r]? = some (.msg c ys)) (s : EncStmt)
    (hs : s ∈ (decl c).enc) (st : RHSt) {g : Heap} (R : WRel h0 st.h g) :
    Both h0 (wstmt w m call r s st) (rhstmt w (asSets m h0) rcall r s { st with h := g }) := by
  have hput : ∀ f, assigns w f s = true → Touchy c f := fun f hf => by
    have h1 : fieldComputed w.svc c f = true := computed_layout w c f (List.any_eq_true.2 ⟨s, hs, hf⟩)
    apply comp_touchy
    rcases hx : compB c f with _ | _
    · rw [not_comp w c f hx] at h1; cases h1
    · rfl
  cases s with
  | num f t e =>
    obtain ⟨g1, e1, R1⟩ := both_look hm r f st R
    simp only [rhstmt, wstmt]
    rw [e1]
    revert R1
    rcases st.wlook m r f with ⟨st1, _ | (_ | _ | _ | a)⟩ <;> intro R1 <;> exact ⟨g1, rfl, R1⟩
  | fixed f n pad left =>
    obtain ⟨g1, e1, R1⟩ := both_look hm r f st R
    simp only [rhstmt, wstmt]
    rw [e1]
    revert R1
    rcases st.wlook m r f with ⟨st1, _ | x⟩ <;> intro R1 <;> exact ⟨g1, rfl, R1⟩
  | dyn f zt t e => exact both_dyn _ _ (fun st g R => both_field hm r f st R) zt t e st R
  | list f zt t e el =>
    obtain ⟨g1, e1, R1⟩ := both_look hm r f st R
    simp only [rhstmt, wstmt]
    rw [e1]
    revert R1
    have key : ∀ (st1 : RHSt) (g1 : Heap), WRel h0 st1.h g1 → Both h0 (match st1.welems m r f with
          | (st, .error err) => (st, some err)
          | (st, .ok []) => st.wrote (writeInt st.buf zt .be 0)
          | (st, .ok (_ :: _)) =>
            match st.welems m r f with
            | (st, .error err) => (st, some err)
            | (st, .ok xs) =>
              match st.wrote (writeInt st.buf t e xs.length) with
              | (st, some err) => (st, some err)
              | (st, none) => wloop m call el r f 2147483647 0 st)
        (match RHSt.elems (asSets m h0) r f { st1 with h := g1 } with
          | (st, .error err) => (st, some err)
          | (st, .ok []) => st.wrote (writeInt st.buf zt .be 0)
          | (st, .ok (_ :: _)) =>
            match st.elems (asSets m h0) r f with
            | (st, .error err) => (st, some err)
            | (st, .ok xs) =>
              match st.wrote (writeInt st.buf t e xs.length) with
              | (st, some err) => (st, some err)
              | (st, none) => rhloop (asSets m h0) rcall el r f 2147483647 0 st) := by
      intro st1 g1 R1
      obtain ⟨g2, e2, R2⟩ := both_elems hm r f st1 R1
      rw [e2]
      revert R2
      rcases st1.welems m r f with ⟨st2, _ | (_ | ⟨y, ys⟩)⟩ <;> intro R2
      · exact ⟨g2, rfl, R2⟩
      · exact ⟨g2, rfl, R2⟩
      · dsimp only at R2 ⊢
        obtain ⟨g3, e3, R3⟩ := both_elems hm r f st2 R2
        rw [e3]
        revert R3
        rcases st2.welems m r f with ⟨st3, _ | xs⟩ <;> intro R3
        · exact ⟨g3, rfl, R3⟩
        · dsimp only [RHSt.wrote] at R3 ⊢
          rcases writeInt st3.buf t e xs.length with ⟨b, _ | err⟩
          · exact both_loop hm hc el r f 2147483647 0 { st3 with buf := b } g3 R3
          · exact ⟨g3, rfl, R3⟩
    rcases st.wlook m r f with ⟨st1, _ | (_ | _ | _ | a)⟩ <;> intro R1 <;> dsimp only at R1 ⊢
    · exact ⟨g1, rfl, R1⟩
    · exact ⟨g1, rfl, R1⟩
    · exact key st1 g1 R1
    · exact key st1 g1 R1
    · exact key st1 g1 R1
  | obj f =>
    obtain ⟨g1, e1, R1⟩ := both_look hm r f st R
    simp only [rhstmt, wstmt]
    rw [e1]
    revert R1
    rcases st.wlook m r f with ⟨st1, _ | x⟩ <;> intro R1
    · exact ⟨g1, rfl, R1⟩
    · exact both_call hc x st1 R1
  | objOpt f =>
    obtain ⟨g1, e1, R1⟩ := both_look hm r f st R
    simp only [rhstmt, wstmt]
    rw [e1]
    revert R1
    have key : ∀ (st1 : RHSt) (g1 : Heap), WRel h0 st1.h g1 → Both h0 (match st1.wlook m r f with
          | (st, some x) => st.call call x
          | (st, none) => (st, some .illTyped))
        (match RHSt.look (asSets m h0) r f { st1 with h := g1 } with
          | (st, some x) => st.call rcall x
          | (st, none) => (st, some .illTyped)) := by
      intro st1 g1 R1
      obtain ⟨g2, e2, R2⟩ := both_look hm r f st1 R1
      rw [e2]
      revert R2
      rcases st1.wlook m r f with ⟨st2, _ | x⟩ <;> intro R2
      · exact ⟨g2, rfl, R2⟩
      · exact both_call hc x st2 R2
    rcases st.wlook m r f with ⟨st1, _ | (_ | _ | _ | a)⟩ <;> intro R1 <;> dsimp only at R1 ⊢
    · exact ⟨g1, rfl, R1⟩
    · exact ⟨g1, rfl, R1⟩
    · exact key st1 g1 R1
    · exact key st1 g1 R1
    · exact key st1 g1 R1
  | save x => exact ⟨g, rfl, R⟩
  | zero t e => exact ⟨g, rfl, R⟩
  | setLen f x y =>
    simp only [rhstmt, wstmt]
    rcases st.loc x with _ | a <;> rcases st.loc y with _ | b <;> try exact ⟨g, rfl, R⟩
    exact ⟨_, rfl, rel_put (rel_all R st.k) hr (hput f (by simp [assigns])) _⟩
  | patch x f t e =>
    obtain ⟨g1, e1, R1⟩ := both_look hm r f st R
    simp only [rhstmt, wstmt]
    rw [e1]
    revert R1
    rcases st.wlook m r f with ⟨st1, _ | (_ | n | _ | a)⟩ <;> intro R1 <;> try exact ⟨g1, rfl, R1⟩
    dsimp only at R1 ⊢
    rcases st1.loc x with _ | p <;> rcases n.convert t with _ | q <;> exact ⟨g1, rfl, R1⟩
  | checksum f alg =>
    simp only [rhstmt, wstmt]
    rcases hg : Registry.getService w.svc alg with _ | s
    · exact ⟨g, rfl, R⟩
    · exact ⟨_, rfl, rel_put (rel_all R st.k) hr (hput f (by simp [assigns, hg])) _⟩

theorem both_stmts {call rcall : RHCall} (hc : CallBoth h0 call rcall) {r : Nat} {c : Cls} {ys : List HVal} (hr : h0[r]? = some (.msg c ys)) :
    ∀ (ss : List EncStmt), (∀ s ∈ ss, s ∈ (decl c).enc) → ∀ (st : RHSt) (g : Heap), WRel h0 st.h g →
      Both h0 (wstmts w m call r ss st) (rhstmts w (asSets m h0) rcall r ss { st with h := g }) := by
  intro ss
  induction ss with
  | nil => intro _ st g R; exact ⟨g, rfl, R⟩
  | cons s ss ih =>
    intro hss st g R
    obtain ⟨g1, e1, R1⟩ := both_stmt (w := w) hm hc hr s (hss s List.mem_cons_self) st R
    simp only [rhstmts, wstmts]
    rw [e1]
    revert R1
    rcases wstmt w m call r s st with ⟨st1, _ | err⟩ <;> intro R1
    · exact ih (fun s' hs' => hss s' (List.mem_cons_of_mem _ hs')) st1 g1 R1
    · exact ⟨g1, rfl, R1⟩

theorem both_encode : ∀ n, CallBoth h0 (wencode w m n) (rhencode w (asSets m h0) n) := by
  intro n
  induction n with
  | zero =>
    intro x h g k b R
    cases x <;> exact ⟨g, rfl, R⟩
  | succ n ih =>
    intro x h g k b R
    cases x with
    | ref r =>
      simp only [rhencode, wencode]
      have hs := (R.left r).trans (R.right r).symm
      rcases h1 : h[r]? with _ | (⟨c, ys⟩ | xs)
      · rcases h2 : g[r]? with _ | (⟨c, ys⟩ | xs)
        · exact ⟨g, rfl, R⟩
        · obtain ⟨_, h3, -⟩ := shape_msg hs.symm h2
          rw [h3] at h1; cases h1
        · exact ⟨g, rfl, R⟩
      · obtain ⟨zs, h2, -⟩ := shape_msg hs h1
        obtain ⟨us, h3, -⟩ := shape_msg (R.left r) h1
        rw [h2]
        dsimp only
        obtain ⟨g1, e1, R1⟩ := both_stmts (w := w) hm ih h3 (decl c).enc (fun _ hs => hs) ⟨h, k, b, fun _ => none⟩ g R
        dsimp only at e1 R1
        rw [e1]
        exact ⟨g1, rfl, R1⟩
      · rw [(shape_arr hs xs).1 h1]
        exact ⟨g, rfl, R⟩
    | _ => exact ⟨g, rfl, R⟩

end

/-! ### What was seen -/

theorem fieldAt_weak {m : Seen} {h : Heap} {sets : Nat → Nat → HVal → Prop} (hm : MaySee h sets m) {r : Nat} {c : Cls} {ys : List HVal} (hr : h[r]? = some (.msg c ys))
    {f : Nat} (hf : f < ys.length) (ht : ¬ Touchy c f) (k : Nat) : ∃ y, fieldAt (asSets m h) h r f k = some y ∧ Readable h sets r f y := by
  have h0 : h.field r f = some ys[f] := by rw [Heap.field_msg h r f c ys hr, List.getElem?_eq_getElem hf]
  induction k with
  | zero => exact ⟨_, (fieldAt_zero _ h r f).trans h0, .whole _ (.inl h0)⟩
  | succ k ih =>
    obtain ⟨y, hy, -⟩ := ih
    rw [fieldAt_succ, hy, toField_asSets m h k hr hf ht]
    refine ⟨_, rfl, ?_⟩
    rcases hx : m k r f with _ | z
    · exact .whole _ (.inl h0)
    · exact (hm _ _ _ _ hx).1

theorem saw_picked {m : Seen} {h : Heap} {sets : Nat → Nat → HVal → Prop} (hm : MaySee h sets m) {lo hi : Nat} {x : HVal} {v : Val}
    (hs : Saw (asSets m h) h lo hi x v) : Picked h sets x v := by
  induction hs with
  | null => exact .null
  | num _ _ n => exact .num n
  | str _ _ s => exact .str s
  | list _ _ a xs vs _ _ ha hl _ _ _ ih => exact .list a xs vs ha hl ih
  | msg _ _ r c ys vs fr to hr hl _ _ _ hcomp ih =>
    have hfld : ∀ f, f < ys.length → Touchy c f → fieldAt (asSets m h) h r f (fr f) = h.field r f := fun f _ ht => fieldAt_spared (asSets_spares m h) hr ht _
    refine .msg r c ys vs (fun f => (fieldAt (asSets m h) h r f (fr f)).getD .null) hr hl (fun f hf ht => ?_) (fun f hf ht => ?_) (fun f v hf hc hv => ?_) (fun f hf hc => ?_)
    · obtain ⟨y, hy, hR⟩ := fieldAt_weak hm hr hf ht (fr f)
      rw [hy]
      exact hR
    · rw [hfld f hf ht, Heap.field_msg h r f c ys hr, List.getElem?_eq_getElem hf]
      rfl
    · have hlt : f < ys.length := hl ▸ (List.getElem?_eq_some_iff.1 hv).1
      have : ∃ y, fieldAt (asSets m h) h r f (fr f) = some y := by
        by_cases ht : Touchy c f
        · exact ⟨ys[f], by rw [hfld f hlt ht, Heap.field_msg h r f c ys hr, List.getElem?_eq_getElem hlt]⟩
        · obtain ⟨y, hy, -⟩ := fieldAt_weak hm hr hlt ht (fr f)
          exact ⟨y, hy⟩
      obtain ⟨y, hy⟩ := this
      rw [hy]
      exact ih f y v hf hc hy hv
    · have ht : Touchy c f := by
        revert hc
        unfold Computed Touchy
        rcases (wire c)[f]? with _ | (_ | _ | _ | _ | _ | _ | _ | _) <;> simp
      have h1 : h.field r f = some ys[f] := by rw [Heap.field_msg h r f c ys hr, List.getElem?_eq_getElem hf]
      rw [hfld f hf ht, h1]
      exact hcomp f _ hc h1

theorem readable_typed {h : Heap} {sets : Nat → Nat → HVal → Prop} (ht : TypedHeap h) (hs : STyped h sets) {r : Nat} {c : Cls} {ys : List HVal}
    (hr : h[r]? = some (.msg c ys)) {f : Nat} {t : FTy} (hf : (javaTypes c)[f]? = some t) {y : HVal} (hR : Readable h sets r f y) : ValOf h t y := by
  have key : ∀ z, Stored h sets r f z → ValOf h t z := by
    rintro z (h1 | h1)
    · rw [Heap.field_msg h r f c ys hr] at h1
      exact (ht.fields r c ys hr).2 f t z hf h1
    · exact hs r f z h1 c ys t hr hf
  cases hR with
  | whole _ h1 => exact key y h1
  | long a b h1 _ =>
    have := key _ h1
    cases this with
    | num hn => exact .num hn
  | double a b h1 _ =>
    have := key _ h1
    cases this with
    | num hn => exact .num hn

theorem asSets_typed {m : Seen} {h : Heap} {sets : Nat → Nat → HVal → Prop} (hm : MaySee h sets m) (ht : TypedHeap h) (hs : STyped h sets) : HTyped h (asSets m h) := by
  intro k p hp c ys t hc hf
  obtain ⟨c', ys', h1, h2, -, h3⟩ := mem_asSets.1 hp
  rw [hc] at h1
  cases h1
  have h0 : h.field p.1 p.2.1 = some ys[p.2.1] := by rw [Heap.field_msg h _ _ c ys hc, List.getElem?_eq_getElem h2]
  rw [h3, h0]
  refine readable_typed ht hs hc hf ?_
  rcases hx : m k p.1 p.2.1 with _ | z
  · exact .whole _ (.inl h0)
  · exact (hm _ _ _ _ hx).1

theorem wrel_refl (h : Heap) : WRel h h h := ⟨fun _ => rfl, fun _ => rfl, fun _ _ _ _ _ _ => rfl, fun _ _ _ _ _ _ => rfl⟩

/-- The weak run, as one of C111. -/
theorem wencode_as {w : World} {m : Seen} {h : Heap} {sets : Nat → Nat → HVal → Prop} (hm : MaySee h sets m) {n : Nat} {x : HVal} {b : WBuf} {h' : Heap} {k' : Nat} {b' : WBuf}
    {e : Option JErr} (hrun : wencode w m n x h 0 b = (h', k', b', e)) : ∃ g, rhencode w (asSets m h) n x h 0 b = (g, k', b', e) ∧ WRel h h' g := by
  obtain ⟨g, e1, R⟩ := both_encode (w := w) hm n x h h 0 b (wrel_refl h)
  rw [hrun] at e1 R
  exact ⟨g, e1, R⟩

/-! ### Reads of the memory as it is -/

theorem wlook_none (r f : Nat) (st : RHSt) : st.wlook (fun _ _ _ => none) r f = st.look nobody r f := rfl

theorem welems_none (r f : Nat) (st : RHSt) : st.welems (fun _ _ _ => none) r f = st.elems nobody r f := by
  unfold RHSt.welems RHSt.elems
  rw [wlook_none]
  rcases st.look nobody r f with ⟨st1, _ | (_ | _ | _ | a)⟩ <;> try rfl

theorem wget_none (r f i : Nat) (st : RHSt) : st.wget (fun _ _ _ => none) r f i = st.get nobody r f i := by
  unfold RHSt.wget RHSt.get
  rw [welems_none]
  rcases st.elems nobody r f with ⟨st1, _ | xs⟩ <;> rfl

theorem wfield_none (r f : Nat) (st : RHSt) : st.wfield (fun _ _ _ => none) r f = st.field nobody r f := by
  unfold RHSt.wfield RHSt.field
  rw [wlook_none]
  rcases st.look nobody r f with ⟨st1, _ | x⟩ <;> rfl

theorem welem_none (call : RHCall) (el : EncElem) (r f i : Nat) (st : RHSt) : welem (fun _ _ _ => none) call el r f i st = rhelem nobody call el r f i st := by
  cases el <;> simp only [welem, rhelem, wget_none]
  all_goals rcases st.get nobody r f i with ⟨st1, _ | x⟩ <;> rfl

theorem wloop_none (call : RHCall) (el : EncElem) (r f : Nat) : ∀ (j i : Nat) (st : RHSt), wloop (fun _ _ _ => none) call el r f j i st = rhloop nobody call el r f j i st := by
  intro j
  induction j with
  | zero => intro i st; rfl
  | succ j ih =>
    intro i st
    simp only [wloop, rhloop, welems_none, welem_none]
    rcases st.elems nobody r f with ⟨st1, _ | xs⟩
    · rfl
    · dsimp only
      by_cases hi : i < xs.length
      · rw [if_pos hi, if_pos hi]
        rcases rhelem nobody call el r f i st1 with ⟨st2, _ | err⟩
        · exact ih (i + 1) st2
        · rfl
      · rw [if_neg hi, if_neg hi]

theorem wstmt_none (w : World) (call : RHCall) (r : Nat) (s : EncStmt) (st : RHSt) : wstmt w (fun _ _ _ => none) call r s st = rhstmt w nobody call r s st := by
  cases s with
  | dyn f zt t e =>
    have hg : (fun st : RHSt => st.wfield (fun _ _ _ => none) r f) = fun st => st.field nobody r f := funext fun st => wfield_none r f st
    simp only [wstmt, rhstmt, hg]
  | list f zt t e el =>
    simp only [wstmt, rhstmt, wlook_none, welems_none, wloop_none]
    rcases st.look nobody r f with ⟨st1, _ | (_ | _ | _ | a)⟩ <;> try rfl
    all_goals
      dsimp only
      rcases st1.elems nobody r f with ⟨st2, _ | (_ | ⟨y, ys⟩)⟩ <;> try rfl
      dsimp only
      rcases st2.elems nobody r f with ⟨st3, _ | xs⟩ <;> try rfl
      dsimp only
      rcases st3.wrote (writeInt st3.buf t e xs.length) with ⟨st4, _ | err⟩ <;> rfl
  | num f t e => simp only [wstmt, rhstmt, wlook_none]; rcases st.look nobody r f with ⟨st1, _ | (_ | _ | _ | a)⟩ <;> rfl
  | fixed f n pad left => simp only [wstmt, rhstmt, wlook_none]; rcases st.look nobody r f with ⟨st1, _ | x⟩ <;> rfl
  | obj f => simp only [wstmt, rhstmt, wlook_none]; rcases st.look nobody r f with ⟨st1, _ | x⟩ <;> rfl
  | objOpt f =>
    simp only [wstmt, rhstmt, wlook_none]
    rcases st.look nobody r f with ⟨st1, _ | (_ | _ | _ | a)⟩ <;> try rfl
    all_goals
      dsimp only
      rcases st1.look nobody r f with ⟨st2, _ | x⟩ <;> rfl
  | patch x f t e =>
    simp only [wstmt, rhstmt, wlook_none]
    rcases st.look nobody r f with ⟨st1, _ | (_ | n | _ | a)⟩ <;> try rfl
  | save x => rfl
  | zero t e => rfl
  | setLen f x y =>
    simp only [wstmt, rhstmt]
    rcases st.loc x with _ | a <;> rcases st.loc y with _ | b <;> rfl
  | checksum f alg =>
    simp only [wstmt, rhstmt]
    rcases Registry.getService w.svc alg with _ | s <;> rfl

theorem wencode_none (w : World) : ∀ n, wencode w (fun _ _ _ => none) n = rhencode w nobody n := by
  intro n
  induction n with
  | zero => funext x h k b; cases x <;> rfl
  | succ n ih =>
    funext x h k b
    have hss : ∀ (r : Nat) (ss : List EncStmt) (st : RHSt), wstmts w (fun _ _ _ => none) (rhencode w nobody n) r ss st = rhstmts w nobody (rhencode w nobody n) r ss st := by
      intro r ss
      induction ss with
      | nil => intro st; rfl
      | cons s ss ihs =>
        intro st
        simp only [wstmts, rhstmts, wstmt_none]
        rcases rhstmt w nobody (rhencode w nobody n) r s st with ⟨st1, _ | err⟩
        · exact ihs st1
        · rfl
    cases x with
    | ref r =>
      simp only [wencode, rhencode, ih, hss]
      rcases h[r]? with _ | (⟨c, ys⟩ | xs) <;> rfl
    | _ => rfl

end FinProto
