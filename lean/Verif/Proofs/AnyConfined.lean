import Verif.Spec.AnyConfined
import Verif.Proofs.AnyDecode
/-
Helper lemmas for C116: a run among others who are busy elsewhere and a run alone, side by side.
-/
namespace FinProto

/-- The values of an object that are not theirs (`S`). -/
def Free (S : Nat → Prop) (y : HVal) : Prop := ∀ q, y = .ref q → ¬ S q

/-- The memory `h` of a run among others and the memory `h'` of a run alone; `S` are the objects of the others, all below `N`. -/
structure Off (S : Nat → Prop) (N : Nat) (P : Heap → Prop) (h h' : Heap) : Prop where
  big : N ≤ h.length
  len : h.length = h'.length
  same : ∀ a, ¬ S a → h[a]? = h'[a]?
  closed : ∀ (a : Nat) x, ¬ S a → h[a]? = some x → ∀ y ∈ x.values, Free S y
  about : P h

/-- What the others do and what `P` says of their objects. -/
structure Confined (S : Nat → Prop) (N : Nat) (P : Heap → Prop) (o : Acts) : Prop where
  below : ∀ a, S a → a < N
  len : ∀ k g, (o k g).length = g.length
  same : ∀ k g a, ¬ S a → (o k g)[a]? = g[a]?
  stable : ∀ k g, P g → P (o k g)
  depends : ∀ g g', (∀ q, S q → g'[q]? = g[q]?) → P g → P g'

theorem free_num {S : Nat → Prop} (n : Num) : Free S (.num n) := fun _ h => by cases h
theorem free_str {S : Nat → Prop} (s : JStr) : Free S (.str s) := fun _ h => by cases h
theorem free_null {S : Nat → Prop} : Free S .null := fun _ h => by cases h
theorem free_ref {S : Nat → Prop} {r : Nat} (h : ¬ S r) : Free S (.ref r) := fun _ e => by cases e; exact h

section
variable {S : Nat → Prop} {N : Nat} {P : Heap → Prop} {o : Acts} (hC : Confined S N P o)
include hC

theorem Confined.fresh {a : Nat} (h : N ≤ a) : ¬ S a := fun hs => by have := hC.below a hs; omega

theorem off_act {h h' : Heap} (hO : Off S N P h h') (k : Nat) : Off S N P (o k h) h' where
  big := by rw [hC.len]; exact hO.big
  len := by rw [hC.len]; exact hO.len
  same a ha := by rw [hC.same k h a ha]; exact hO.same a ha
  closed a x ha hx := by rw [hC.same k h a ha] at hx; exact hO.closed a x ha hx
  about := hC.stable k h hO.about

omit hC in
theorem off_field {h h' : Heap} (hO : Off S N P h h') {r : Nat} (hr : ¬ S r) (f : Nat) : h.field r f = h'.field r f := by
  unfold Heap.field; rw [hO.same r hr]

omit hC in
theorem off_free {h h' : Heap} (hO : Off S N P h h') {r : Nat} (hr : ¬ S r) {f : Nat} {y : HVal} (e : h.field r f = some y) : Free S y := by
  unfold Heap.field at e
  split at e
  · next heq => exact hO.closed r _ hr heq y (List.mem_of_getElem? e)
  · cases e

theorem off_set {h h' : Heap} (hO : Off S N P h h') {r : Nat} (hr : ¬ S r) (x : HObj) (hx : ∀ y ∈ x.values, Free S y) : Off S N P (h.set r x) (h'.set r x) where
  big := by rw [List.length_set]; exact hO.big
  len := by rw [List.length_set, List.length_set]; exact hO.len
  same a ha := by
    rw [List.getElem?_set, List.getElem?_set, hO.len]
    split
    · rfl
    · exact hO.same a ha
  closed a z ha hz := by
    rw [List.getElem?_set] at hz
    split at hz
    · split at hz
      · cases hz; exact hx
      · cases hz
    · exact hO.closed a z ha hz
  about := hC.depends h _ (fun q hq => by rw [List.getElem?_set_ne]; rintro rfl; exact hr hq) hO.about

theorem off_setField {h h' : Heap} (hO : Off S N P h h') {r : Nat} (hr : ¬ S r) (f : Nat) {y : HVal} (hy : Free S y) :
    Off S N P (h.setField r f y) (h'.setField r f y) := by
  unfold Heap.setField
  rw [← hO.same r hr]
  split
  · next c ys heq =>
    refine off_set hC hO hr _ fun z hz => ?_
    rcases List.mem_or_eq_of_mem_set hz with hz | rfl
    · exact hO.closed r _ hr heq z hz
    · exact hy
  · exact hO

theorem off_append {h h' : Heap} (hO : Off S N P h h') (x : HObj) (hx : ∀ y ∈ x.values, Free S y) : Off S N P (h ++ [x]) (h' ++ [x]) where
  big := by have := hO.big; simp; omega
  len := by have := hO.len; simp; omega
  same a ha := by
    rw [List.getElem?_append, List.getElem?_append, hO.len]
    split
    · exact hO.same a ha
    · rfl
  closed a z ha hz := by
    rw [List.getElem?_append] at hz
    split at hz
    · exact hO.closed a z ha hz
    · have := List.mem_of_getElem? hz
      simp at this; subst this; exact hx
  about := hC.depends h _ (fun q hq => by rw [List.getElem?_append_left]; have := hC.below q hq; have := hO.big; omega) hO.about

omit hC in
theorem free_newMsg (c : Cls) : ∀ y ∈ (newMsg c).values, Free S y := by
  intro y hy
  simp only [newMsg, HObj.values, List.mem_map] at hy
  obtain ⟨f, _, rfl⟩ := hy
  unfold FTy.hdefault
  split
  · exact free_num _
  · exact free_null

theorem off_alloc (v : Val) : ∀ {h h' : Heap}, Off S N P h h' →
    Off S N P (alloc v h).1 (alloc v h').1 ∧ (alloc v h).2 = (alloc v h').2 ∧ Free S (alloc v h).2 := by
  apply Val.rec
    (motive_1 := fun v => ∀ {h h' : Heap}, Off S N P h h' → Off S N P (alloc v h).1 (alloc v h').1 ∧ (alloc v h).2 = (alloc v h').2 ∧ Free S (alloc v h).2)
    (motive_2 := fun vs => ∀ {h h' : Heap}, Off S N P h h' →
      Off S N P (allocAll vs h).1 (allocAll vs h').1 ∧ (allocAll vs h).2 = (allocAll vs h').2 ∧ ∀ y ∈ (allocAll vs h).2, Free S y)
  · intro h h' hO; exact ⟨hO, rfl, free_null⟩
  · intro n h h' hO; exact ⟨hO, rfl, free_num _⟩
  · intro s h h' hO; exact ⟨hO, rfl, free_str _⟩
  · intro xs ih h h' hO
    obtain ⟨h1, h2, h3⟩ := ih hO
    simp only [alloc]
    rw [← h2, ← h1.len]
    exact ⟨off_append hC h1 _ h3, rfl, free_ref (hC.fresh h1.big)⟩
  · intro c xs ih h h' hO
    obtain ⟨h1, h2, h3⟩ := ih hO
    simp only [alloc]
    rw [← h2, ← h1.len]
    exact ⟨off_append hC h1 _ h3, rfl, free_ref (hC.fresh h1.big)⟩
  · intro h h' hO; exact ⟨hO, rfl, fun _ hy => by cases hy⟩
  · intro v vs ihv ihvs h h' hO
    obtain ⟨h1, h2, h3⟩ := ihv hO
    obtain ⟨g1, g2, g3⟩ := ihvs h1
    simp only [allocAll]
    rw [← h2, ← g2]
    refine ⟨g1, rfl, fun y hy => ?_⟩
    rcases List.mem_cons.1 hy with rfl | hy
    · exact h3
    · exact g3 y hy
end

/-! ### decode -/

/-- Two runs are at the same point. -/
structure DPair (S : Nat → Prop) (N : Nat) (P : Heap → Prop) (st st' : ADSt) : Prop where
  k : st.k = st'.k
  buf : st.buf = st'.buf
  off : Off S N P st.h st'.h

/-- Two runs end alike. -/
def DAlike (S : Nat → Prop) (N : Nat) (P : Heap → Prop) (x x' : ADSt × Option JErr) : Prop := DPair S N P x.1 x'.1 ∧ x.2 = x'.2

/-- A call among others and a call alone. -/
def DCalls (S : Nat → Prop) (N : Nat) (P : Heap → Prop) (call call' : ADCall) : Prop :=
  ∀ a h h' k b, ¬ S a → Off S N P h h' → Off S N P (call a h k b).1 (call' a h' k b).1 ∧ (call a h k b).2 = (call' a h' k b).2

section
variable {S : Nat → Prop} {N : Nat} {P : Heap → Prop} {o : Acts} (hC : Confined S N P o)
include hC

theorem dlook {st st' : ADSt} (hp : DPair S N P st st') {r : Nat} (hr : ¬ S r) (f : Nat) :
    DPair S N P (st.look o r f).1 (st'.look AStill r f).1 ∧ (st.look o r f).2 = (st'.look AStill r f).2 ∧ ∀ y, (st.look o r f).2 = some y → Free S y := by
  obtain ⟨hk, hb, hO⟩ := hp
  have hO' := off_act hC hO st.k
  exact ⟨⟨congrArg (· + 1) hk, hb, hO'⟩, off_field hO' hr f, fun y e => off_free hO' hr e⟩

theorem dput {st st' : ADSt} (hp : DPair S N P st st') {r : Nat} (hr : ¬ S r) (f : Nat) {y : HVal} (hy : Free S y) :
    DPair S N P (st.put o r f y) (st'.put AStill r f y) := by
  obtain ⟨hk, hb, hO⟩ := hp
  exact ⟨congrArg (· + 1) hk, hb, off_setField hC (off_act hC hO st.k) hr f hy⟩

omit hC in
theorem dbuf {st st' : ADSt} (hp : DPair S N P st st') (b : RBuf) : DPair S N P { st with buf := b } { st' with buf := b } := ⟨hp.k, rfl, hp.off⟩

theorem dadd {st st' : ADSt} (hp : DPair S N P st st') {l : Option HVal} (hl : ∀ y, l = some y → Free S y) {y : HVal} (hy : Free S y) :
    DAlike S N P (st.add o l y) (st'.add AStill l y) := by
  have hO' := off_act hC hp.off st.k
  rcases l with _ | (_ | n | s | a)
  · exact ⟨hp, rfl⟩
  · exact ⟨hp, rfl⟩
  · exact ⟨hp, rfl⟩
  · exact ⟨hp, rfl⟩
  · have ha : ¬ S a := hl _ rfl a rfl
    simp only [ADSt.add, AStill]
    rw [hO'.same a ha]
    have h1 := hO'.same a ha
    rcases e : st'.h[a]? with _ | (⟨c, ys⟩ | xs)
    · exact ⟨⟨congrArg (· + 1) hp.k, hp.buf, hO'⟩, rfl⟩
    · exact ⟨⟨congrArg (· + 1) hp.k, hp.buf, hO'⟩, rfl⟩
    · refine ⟨⟨congrArg (· + 1) hp.k, hp.buf, off_set hC hO' ha _ fun z hz => ?_⟩, rfl⟩
      rw [e] at h1
      rcases List.mem_append.1 hz with hz | hz
      · exact hO'.closed a _ ha h1 z hz
      · simp at hz; subst hz; exact hy

variable {call call' : ADCall} (hc : DCalls S N P call call')
include hc

omit hC in
theorem dcall {st st' : ADSt} (hp : DPair S N P st st') {a : Nat} (ha : ¬ S a) : DAlike S N P (st.call call a) (st'.call call' a) := by
  obtain ⟨h1, h2⟩ := hc a st.h st'.h st.k st.buf ha hp.off
  simp only [ADSt.call]
  rw [← hp.k, ← hp.buf, ← h2]
  exact ⟨⟨rfl, rfl, h1⟩, rfl⟩

theorem delem {st st' : ADSt} (hp : DPair S N P st st') {r : Nat} (hr : ¬ S r) (f : Nat) (el : DecElem) :
    DAlike S N P (adelem o call r f el st) (adelem AStill call' r f el st') := by
  obtain ⟨hl1, hl2, hl3⟩ := dlook hC hp hr f
  cases el with
  | obj c =>
    have hnew : ¬ S st.h.length := hC.fresh hp.off.big
    have hp1 : DPair S N P { st with h := st.h ++ [newMsg c] } { st' with h := st'.h ++ [newMsg c] } := ⟨hp.k, hp.buf, off_append hC hp.off _ (free_newMsg c)⟩
    obtain ⟨h1, h2⟩ := dcall hc hp1 hnew
    simp only [adelem]
    rw [← hp.off.len]
    rcases e : ({ st with h := st.h ++ [newMsg c] } : ADSt).call call st.h.length with ⟨s1, x1⟩
    rcases e' : ({ st' with h := st'.h ++ [newMsg c] } : ADSt).call call' st.h.length with ⟨s2, x2⟩
    rw [e, e'] at h1 h2
    obtain rfl : x1 = x2 := h2
    rcases x1 with _ | err
    · obtain ⟨g1, g2, g3⟩ := dlook hC h1 hr f
      dsimp only
      rw [← g2]
      exact dadd hC g1 g3 (free_ref hnew)
    · exact ⟨h1, rfl⟩
  | num t e =>
    simp only [adelem]
    rw [← hp.buf, ← hl2]
    split
    · exact ⟨dbuf hl1 _, rfl⟩
    · exact dadd hC (dbuf hl1 _) hl3 (free_num _)
  | fixed n pad left =>
    simp only [adelem]
    rw [← hp.buf, ← hl2]
    split
    · exact ⟨dbuf hl1 _, rfl⟩
    · exact dadd hC (dbuf hl1 _) hl3 (free_str _)
  | dyn t e =>
    simp only [adelem]
    rw [← hp.buf, ← hl2]
    split
    · exact ⟨dbuf hp _, rfl⟩
    · split
      · split
        · exact ⟨dbuf hl1 _, rfl⟩
        · exact dadd hC (dbuf hl1 _) hl3 (free_str _)
      · exact ⟨dbuf hp _, rfl⟩

theorem doff_loop {r : Nat} (hr : ¬ S r) (f : Nat) (el : DecElem) : ∀ (m : Nat) {st st' : ADSt}, DPair S N P st st' →
    DAlike S N P (adloop o call r f el m st) (adloop AStill call' r f el m st')
  | 0, _, _, hp => ⟨hp, rfl⟩
  | m + 1, st, st', hp => by
    obtain ⟨h1, h2⟩ := delem hC hc hp hr f el
    simp only [adloop]
    rcases e : adelem o call r f el st with ⟨s1, x1⟩
    rcases e' : adelem AStill call' r f el st' with ⟨s2, x2⟩
    rw [e, e'] at h1 h2
    obtain rfl : x1 = x2 := h2
    rcases x1 with _ | err
    · exact doff_loop hr f el m h1
    · exact ⟨h1, rfl⟩

theorem dcallField {st st' : ADSt} (hp : DPair S N P st st') {r : Nat} (hr : ¬ S r) (f : Nat) : DAlike S N P (adcall o call r f st) (adcall AStill call' r f st') := by
  obtain ⟨h1, h2, h3⟩ := dlook hC hp hr f
  simp only [adcall]
  rcases e : st.look o r f with ⟨s1, x1⟩
  rcases e' : st'.look AStill r f with ⟨s2, x2⟩
  rw [e, e'] at h1 h2
  rw [e] at h3
  obtain rfl : x1 = x2 := h2
  rcases x1 with _ | (_ | n | s | a)
  · exact ⟨h1, rfl⟩
  · exact ⟨h1, rfl⟩
  · exact ⟨h1, rfl⟩
  · exact ⟨h1, rfl⟩
  · have ha : ¬ S a := h3 _ rfl a rfl
    have h4 : s1.h[a]? = s2.h[a]? := h1.off.same a ha
    dsimp only
    rw [← h4]
    split
    · exact dcall hc h1 ha
    · exact ⟨h1, rfl⟩

theorem dstmt (w : World) {st st' : ADSt} (hp : DPair S N P st st') {r : Nat} (hr : ¬ S r) (tys : List FTy) (s : DecStmt) :
    DAlike S N P (adstmt w.suppliers o call r tys s st) (adstmt w.suppliers AStill call' r tys s st') := by
  cases s with
  | num f t e =>
    simp only [adstmt]
    rw [← hp.buf]
    split
    · exact ⟨dbuf hp _, rfl⟩
    · split
      · exact ⟨dput hC (dbuf hp _) hr f (free_num _), rfl⟩
      · exact ⟨dbuf hp _, rfl⟩
  | fixed f n pad left =>
    simp only [adstmt]
    rw [← hp.buf]
    split
    · exact ⟨dput hC (dbuf hp _) hr f (free_str _), rfl⟩
    · exact ⟨dbuf hp _, rfl⟩
  | dyn f t e =>
    simp only [adstmt]
    rw [← hp.buf]
    split
    · exact ⟨dput hC (dbuf hp _) hr f (free_str _), rfl⟩
    · exact ⟨dbuf hp _, rfl⟩
    · exact ⟨dbuf hp _, rfl⟩
  | list f t e el =>
    simp only [adstmt]
    rw [← hp.buf]
    split
    · exact ⟨dbuf hp _, rfl⟩
    · next b' n heq =>
      split
      · rw [← hp.off.len]
        have h1 : DPair S N P ⟨st.h ++ [.arr []], st.k, b'⟩ ⟨st'.h ++ [.arr []], st'.k, b'⟩ := ⟨hp.k, rfl, off_append hC hp.off _ fun _ hy => by cases hy⟩
        exact doff_loop hC hc hr f el _ (dput hC h1 hr f (free_ref (hC.fresh hp.off.big)))
      · exact ⟨dbuf hp _, rfl⟩
  | obj f c =>
    obtain ⟨h1, h2, h3⟩ := dlook hC hp hr f
    simp only [adstmt]
    rcases e : st.look o r f with ⟨s1, x1⟩
    rcases e' : st'.look AStill r f with ⟨s2, x2⟩
    rw [e, e'] at h1 h2
    obtain rfl : x1 = x2 := h2
    rcases x1 with _ | (_ | n | s | a)
    · exact dcallField hC hc h1 hr f
    · dsimp only
      rw [← h1.off.len]
      refine dcallField hC hc (dput hC ?_ hr f (free_ref (hC.fresh h1.off.big))) hr f
      exact ⟨h1.k, h1.buf, off_append hC h1.off _ (free_newMsg c)⟩
    · exact dcallField hC hc h1 hr f
    · exact dcallField hC hc h1 hr f
    · exact dcallField hC hc h1 hr f
  | create f fac key =>
    obtain ⟨h1, h2, h3⟩ := dlook hC hp hr key
    simp only [adstmt]
    rcases e : st.look o r key with ⟨s1, x1⟩
    rcases e' : st'.look AStill r key with ⟨s2, x2⟩
    rw [e, e'] at h1 h2
    obtain rfl : x1 = x2 := h2
    rcases x1 with _ | y
    · exact ⟨h1, rfl⟩
    · dsimp only [World.suppliers]
      rcases w.fac fac (keyOf y.leaf) with _ | v
      · exact ⟨h1, rfl⟩
      · obtain ⟨g1, g2, g3⟩ := off_alloc hC v h1.off
        dsimp only [Option.map_some, adcreate]
        rw [← g2]
        refine ⟨dput hC ?_ hr f g3, rfl⟩
        exact ⟨h1.k, h1.buf, g1⟩
  | call f => exact dcallField hC hc hp hr f

theorem dstmts (w : World) {r : Nat} (hr : ¬ S r) (tys : List FTy) : ∀ (ss : List DecStmt) {st st' : ADSt}, DPair S N P st st' →
    DAlike S N P (adstmts w.suppliers o call r tys ss st) (adstmts w.suppliers AStill call' r tys ss st')
  | [], _, _, hp => ⟨hp, rfl⟩
  | s :: ss, st, st', hp => by
    obtain ⟨h1, h2⟩ := dstmt hC hc w hp hr tys s
    simp only [adstmts]
    rcases e : adstmt w.suppliers o call r tys s st with ⟨s1, x1⟩
    rcases e' : adstmt w.suppliers AStill call' r tys s st' with ⟨s2, x2⟩
    rw [e, e'] at h1 h2
    obtain rfl : x1 = x2 := h2
    rcases x1 with _ | err
    · exact dstmts w hr tys ss h1
    · exact ⟨h1, rfl⟩
end

theorem adecode_off {S : Nat → Prop} {N : Nat} {P : Heap → Prop} {o : Acts} (hC : Confined S N P o) (w : World) :
    ∀ n, DCalls S N P (adecode w.suppliers o n) (adecode w.suppliers AStill n)
  | 0, _, _, _, _, _, _, hO => ⟨hO, rfl⟩
  | n + 1, r, h, h', k, b, hr, hO => by
    simp only [adecode]
    rw [← hO.same r hr]
    split
    · next c ys heq =>
      obtain ⟨h1, h2⟩ := dstmts hC (adecode_off hC w n) w hr ((decl c).fields.map (·.2)) (decl c).dec (st := ⟨h, k, b⟩) (st' := ⟨h', k, b⟩) ⟨rfl, rfl, hO⟩
      dsimp only
      exact ⟨h1.off, by rw [h1.k, h1.buf, h2]⟩
    · exact ⟨hO, rfl⟩

/-! ### encode -/

/-- Two runs are at the same point. -/
structure EPair (S : Nat → Prop) (N : Nat) (P : Heap → Prop) (st st' : RHSt) : Prop where
  k : st.k = st'.k
  buf : st.buf = st'.buf
  loc : st.loc = st'.loc
  off : Off S N P st.h st'.h

/-- Two runs end alike. -/
def EAlike (S : Nat → Prop) (N : Nat) (P : Heap → Prop) (x x' : RHSt × Option JErr) : Prop := EPair S N P x.1 x'.1 ∧ x.2 = x'.2

/-- Two runs get the same value. -/
def ESame (S : Nat → Prop) (N : Nat) (P : Heap → Prop) {α : Type} (x x' : RHSt × Except JErr α) : Prop := EPair S N P x.1 x'.1 ∧ x.2 = x'.2

/-- A call among others and a call alone. -/
def ECalls (S : Nat → Prop) (N : Nat) (P : Heap → Prop) (call call' : RHCall) : Prop :=
  ∀ x h h' k b, Free S x → Off S N P h h' → Off S N P (call x h k b).1 (call' x h' k b).1 ∧ (call x h k b).2 = (call' x h' k b).2

section
variable {S : Nat → Prop} {N : Nat} {P : Heap → Prop} {o : Acts} (hC : Confined S N P o)
include hC

theorem elook {st st' : RHSt} (hp : EPair S N P st st') {r : Nat} (hr : ¬ S r) (f : Nat) :
    EPair S N P (st.alook o r f).1 (st'.alook AStill r f).1 ∧ (st.alook o r f).2 = (st'.alook AStill r f).2 ∧ ∀ y, (st.alook o r f).2 = some y → Free S y := by
  obtain ⟨hk, hb, hl, hO⟩ := hp
  have hO' := off_act hC hO st.k
  exact ⟨⟨congrArg (· + 1) hk, hb, hl, hO'⟩, off_field hO' hr f, fun y e => off_free hO' hr e⟩

theorem eput {st st' : RHSt} (hp : EPair S N P st st') {r : Nat} (hr : ¬ S r) (f : Nat) (n : Num) :
    EPair S N P (st.aput o r f (.num n)) (st'.aput AStill r f (.num n)) := by
  obtain ⟨hk, hb, hl, hO⟩ := hp
  exact ⟨congrArg (· + 1) hk, hb, hl, off_setField hC (off_act hC hO st.k) hr f (free_num n)⟩

omit hC in
theorem ewrote {st st' : RHSt} (hp : EPair S N P st st') (x : WBuf × Option JErr) : EAlike S N P (st.wrote x) (st'.wrote x) := ⟨⟨hp.k, rfl, hp.loc, hp.off⟩, rfl⟩

theorem eelems {st st' : RHSt} (hp : EPair S N P st st') {r : Nat} (hr : ¬ S r) (f : Nat) :
    ESame S N P (st.aelems o r f) (st'.aelems AStill r f) ∧ ∀ xs, (st.aelems o r f).2 = .ok xs → ∀ y ∈ xs, Free S y := by
  obtain ⟨h1, h2, h3⟩ := elook hC hp hr f
  simp only [RHSt.aelems]
  rcases e : st.alook o r f with ⟨s1, x1⟩
  rcases e' : st'.alook AStill r f with ⟨s2, x2⟩
  rw [e, e'] at h1 h2
  rw [e] at h3
  obtain rfl : x1 = x2 := h2
  rcases x1 with _ | (_ | n | s | a)
  · exact ⟨⟨h1, rfl⟩, fun _ h => by cases h⟩
  · exact ⟨⟨h1, rfl⟩, fun _ h => by cases h⟩
  · exact ⟨⟨h1, rfl⟩, fun _ h => by cases h⟩
  · exact ⟨⟨h1, rfl⟩, fun _ h => by cases h⟩
  · have ha : ¬ S a := h3 _ rfl a rfl
    have h4 : s1.h[a]? = s2.h[a]? := h1.off.same a ha
    dsimp only
    rw [← h4]
    split
    · next xs heq => exact ⟨⟨h1, rfl⟩, fun ys h => by cases h; exact h1.off.closed a _ ha heq⟩
    · exact ⟨⟨h1, rfl⟩, fun _ h => by cases h⟩

theorem eget {st st' : RHSt} (hp : EPair S N P st st') {r : Nat} (hr : ¬ S r) (f i : Nat) :
    ESame S N P (st.aget o r f i) (st'.aget AStill r f i) ∧ ∀ x, (st.aget o r f i).2 = .ok x → Free S x := by
  obtain ⟨⟨h1, h2⟩, h3⟩ := eelems hC hp hr f
  simp only [RHSt.aget]
  rcases e : st.aelems o r f with ⟨s1, x1⟩
  rcases e' : st'.aelems AStill r f with ⟨s2, x2⟩
  rw [e, e'] at h1 h2
  rw [e] at h3
  obtain rfl : x1 = x2 := h2
  rcases x1 with err | xs
  · exact ⟨⟨h1, rfl⟩, fun _ h => by cases h⟩
  · dsimp only
    split
    · next x heq => exact ⟨⟨h1, rfl⟩, fun y h => by cases h; exact h3 xs rfl _ (List.mem_of_getElem? heq)⟩
    · exact ⟨⟨h1, rfl⟩, fun _ h => by cases h⟩

theorem efield {st st' : RHSt} (hp : EPair S N P st st') {r : Nat} (hr : ¬ S r) (f : Nat) : ESame S N P (st.afield o r f) (st'.afield AStill r f) := by
  obtain ⟨h1, h2, h3⟩ := elook hC hp hr f
  simp only [RHSt.afield]
  rcases e : st.alook o r f with ⟨s1, x1⟩
  rcases e' : st'.alook AStill r f with ⟨s2, x2⟩
  rw [e, e'] at h1 h2
  obtain rfl : x1 = x2 := h2
  rcases x1 with _ | y
  · exact ⟨h1, rfl⟩
  · exact ⟨h1, rfl⟩

omit hC in
theorem edyn {g g' : RHSt → RHSt × Except JErr HVal} (hg : ∀ {st st' : RHSt}, EPair S N P st st' → ESame S N P (g st) (g' st')) (zt t : PTy) (e : Endian)
    {st st' : RHSt} (hp : EPair S N P st st') : EAlike S N P (rhdyn g zt t e st) (rhdyn g' zt t e st') := by
  obtain ⟨h1, h2⟩ := hg hp
  simp only [rhdyn]
  rcases e1 : g st with ⟨s1, x1⟩
  rcases e2 : g' st' with ⟨s2, x2⟩
  rw [e1, e2] at h1 h2
  obtain rfl : x1 = x2 := h2
  rcases x1 with err | v
  · exact ⟨h1, rfl⟩
  · dsimp only
    split
    · exact ⟨h1, rfl⟩
    · obtain ⟨g1, g2⟩ := hg h1
      dsimp only at g1 g2
      rcases e3 : g s1 with ⟨t1, y1⟩
      rcases e4 : g' s2 with ⟨t2, y2⟩
      rw [e3, e4] at g1 g2
      obtain rfl : y1 = y2 := g2
      rcases y1 with err | (_ | n | s | a)
      · exact ⟨g1, rfl⟩
      · exact ⟨g1, rfl⟩
      · exact ⟨g1, rfl⟩
      · have hb : t1.buf = t2.buf := g1.buf
        dsimp only
        rw [← hb]
        split
        · exact ⟨⟨g1.k, rfl, g1.loc, g1.off⟩, rfl⟩
        · exact ewrote g1 _
      · exact ⟨g1, rfl⟩
    · have hb : s1.buf = s2.buf := h1.buf
      rw [← hb]; exact ewrote h1 _

variable {call call' : RHCall} (hc : ECalls S N P call call')
include hc

omit hC in
theorem ecall {st st' : RHSt} (hp : EPair S N P st st') {x : HVal} (hx : Free S x) : EAlike S N P (st.call call x) (st'.call call' x) := by
  obtain ⟨h1, h2⟩ := hc x st.h st'.h st.k st.buf hx hp.off
  simp only [RHSt.call]
  rw [← hp.k, ← hp.buf, ← h2]
  exact ⟨⟨rfl, rfl, hp.loc, h1⟩, rfl⟩

theorem eelem {st st' : RHSt} (hp : EPair S N P st st') {r : Nat} (hr : ¬ S r) (el : EncElem) (f i : Nat) :
    EAlike S N P (aelem o call el r f i st) (aelem AStill call' el r f i st') := by
  obtain ⟨⟨h1, h2⟩, h3⟩ := eget hC hp hr f i
  rcases e1 : st.aget o r f i with ⟨s1, x1⟩
  rcases e2 : st'.aget AStill r f i with ⟨s2, x2⟩
  rw [e1, e2] at h1 h2
  rw [e1] at h3
  obtain rfl : x1 = x2 := h2
  have hb : s1.buf = s2.buf := h1.buf
  cases el with
  | dyn zt t e => exact edyn (fun hp => (eget hC hp hr f i).1) zt t e hp
  | num t e =>
    simp only [aelem, e1, e2]
    rcases x1 with err | x
    · exact ⟨h1, rfl⟩
    · dsimp only; rw [← hb]; exact ewrote h1 _
  | fixed n pad left =>
    simp only [aelem, e1, e2]
    rcases x1 with err | x
    · exact ⟨h1, rfl⟩
    · dsimp only; rw [← hb]; exact ewrote h1 _
  | obj =>
    simp only [aelem, e1, e2]
    rcases x1 with err | x
    · exact ⟨h1, rfl⟩
    · exact ecall hc h1 (h3 x rfl)

theorem eoff_loop {r : Nat} (hr : ¬ S r) (el : EncElem) (f : Nat) : ∀ (m i : Nat) {st st' : RHSt}, EPair S N P st st' →
    EAlike S N P (aloop o call el r f m i st) (aloop AStill call' el r f m i st')
  | 0, _, _, _, hp => ⟨hp, rfl⟩
  | m + 1, i, st, st', hp => by
    obtain ⟨⟨h1, h2⟩, h3⟩ := eelems hC hp hr f
    simp only [aloop]
    rcases e1 : st.aelems o r f with ⟨s1, x1⟩
    rcases e2 : st'.aelems AStill r f with ⟨s2, x2⟩
    rw [e1, e2] at h1 h2
    obtain rfl : x1 = x2 := h2
    rcases x1 with err | xs
    · exact ⟨h1, rfl⟩
    · dsimp only
      split
      · obtain ⟨g1, g2⟩ := eelem hC hc h1 hr el f i
        dsimp only at g1 g2
        rcases e3 : aelem o call el r f i s1 with ⟨t1, y1⟩
        rcases e4 : aelem AStill call' el r f i s2 with ⟨t2, y2⟩
        rw [e3, e4] at g1 g2
        obtain rfl : y1 = y2 := g2
        rcases y1 with _ | err
        · exact eoff_loop hr el f m (i + 1) g1
        · exact ⟨g1, rfl⟩
      · exact ⟨h1, rfl⟩

theorem estmt (w : World) {st st' : RHSt} (hp : EPair S N P st st') {r : Nat} (hr : ¬ S r) (s : EncStmt) :
    EAlike S N P (astmt w o call r s st) (astmt w AStill call' r s st') := by
  have hlook := fun f => elook hC hp hr f
  cases s with
  | num f t e =>
    obtain ⟨h1, h2, h3⟩ := hlook f
    simp only [astmt]
    rcases e1 : st.alook o r f with ⟨s1, x1⟩
    rcases e2 : st'.alook AStill r f with ⟨s2, x2⟩
    rw [e1, e2] at h1 h2
    obtain rfl : x1 = x2 := h2
    have hb : s1.buf = s2.buf := h1.buf
    rcases x1 with _ | (_ | n | s | a)
    · exact ⟨h1, rfl⟩
    · exact ⟨h1, rfl⟩
    · dsimp only; rw [← hb]; exact ewrote h1 _
    · exact ⟨h1, rfl⟩
    · exact ⟨h1, rfl⟩
  | fixed f n pad left =>
    obtain ⟨h1, h2, h3⟩ := hlook f
    simp only [astmt]
    rcases e1 : st.alook o r f with ⟨s1, x1⟩
    rcases e2 : st'.alook AStill r f with ⟨s2, x2⟩
    rw [e1, e2] at h1 h2
    obtain rfl : x1 = x2 := h2
    have hb : s1.buf = s2.buf := h1.buf
    rcases x1 with _ | y
    · exact ⟨h1, rfl⟩
    · dsimp only; rw [← hb]; exact ewrote h1 _
  | dyn f zt t e => exact edyn (fun hp => efield hC hp hr f) zt t e hp
  | list f zt t e el =>
    obtain ⟨h1, h2, h3⟩ := hlook f
    simp only [astmt]
    rcases e1 : st.alook o r f with ⟨s1, x1⟩
    rcases e2 : st'.alook AStill r f with ⟨s2, x2⟩
    rw [e1, e2] at h1 h2
    obtain rfl : x1 = x2 := h2
    have hb : s1.buf = s2.buf := h1.buf
    have hrest : EAlike S N P
        (match s1.aelems o r f with
          | (st, .error err) => (st, some err)
          | (st, .ok []) => st.wrote (writeInt st.buf zt .be 0)
          | (st, .ok (_ :: _)) =>
            match st.aelems o r f with
            | (st, .error err) => (st, some err)
            | (st, .ok xs) =>
              match st.wrote (writeInt st.buf t e xs.length) with
              | (st, some err) => (st, some err)
              | (st, none) => aloop o call el r f 2147483647 0 st)
        (match s2.aelems AStill r f with
          | (st, .error err) => (st, some err)
          | (st, .ok []) => st.wrote (writeInt st.buf zt .be 0)
          | (st, .ok (_ :: _)) =>
            match st.aelems AStill r f with
            | (st, .error err) => (st, some err)
            | (st, .ok xs) =>
              match st.wrote (writeInt st.buf t e xs.length) with
              | (st, some err) => (st, some err)
              | (st, none) => aloop AStill call' el r f 2147483647 0 st) := by
      obtain ⟨⟨g1, g2⟩, _⟩ := eelems hC h1 hr f
      dsimp only at g1 g2
      rcases e3 : s1.aelems o r f with ⟨t1, y1⟩
      rcases e4 : s2.aelems AStill r f with ⟨t2, y2⟩
      rw [e3, e4] at g1 g2
      obtain rfl : y1 = y2 := g2
      have hb' : t1.buf = t2.buf := g1.buf
      rcases y1 with err | (_ | ⟨y, ys⟩)
      · exact ⟨g1, rfl⟩
      · dsimp only; rw [← hb']; exact ewrote g1 _
      · obtain ⟨⟨k1, k2⟩, _⟩ := eelems hC g1 hr f
        dsimp only at k1 k2 ⊢
        rcases e5 : t1.aelems o r f with ⟨u1, z1⟩
        rcases e6 : t2.aelems AStill r f with ⟨u2, z2⟩
        rw [e5, e6] at k1 k2
        obtain rfl : z1 = z2 := k2
        rcases z1 with err | zs
        · exact ⟨k1, rfl⟩
        · have hb'' : u1.buf = u2.buf := k1.buf
          dsimp only
          rw [← hb'']
          rcases writeInt u1.buf t e zs.length with ⟨b', _ | err⟩
          · exact eoff_loop hC hc hr el f _ _ ⟨k1.k, rfl, k1.loc, k1.off⟩
          · exact ⟨⟨k1.k, rfl, k1.loc, k1.off⟩, rfl⟩
    rcases x1 with _ | (_ | n | s | a)
    · exact ⟨h1, rfl⟩
    · dsimp only; rw [← hb]; exact ewrote h1 _
    · exact hrest
    · exact hrest
    · exact hrest
  | obj f =>
    obtain ⟨h1, h2, h3⟩ := hlook f
    simp only [astmt]
    rcases e1 : st.alook o r f with ⟨s1, x1⟩
    rcases e2 : st'.alook AStill r f with ⟨s2, x2⟩
    rw [e1, e2] at h1 h2
    rw [e1] at h3
    obtain rfl : x1 = x2 := h2
    rcases x1 with _ | y
    · exact ⟨h1, rfl⟩
    · exact ecall hc h1 (h3 y rfl)
  | objOpt f =>
    obtain ⟨h1, h2, h3⟩ := hlook f
    simp only [astmt]
    rcases e1 : st.alook o r f with ⟨s1, x1⟩
    rcases e2 : st'.alook AStill r f with ⟨s2, x2⟩
    rw [e1, e2] at h1 h2
    obtain rfl : x1 = x2 := h2
    have hrest : EAlike S N P
        (match s1.alook o r f with
          | (st, some x) => st.call call x
          | (st, none) => (st, some .illTyped))
        (match s2.alook AStill r f with
          | (st, some x) => st.call call' x
          | (st, none) => (st, some .illTyped)) := by
      obtain ⟨g1, g2, g3⟩ := elook hC h1 hr f
      dsimp only at g1 g2 g3
      rcases e3 : s1.alook o r f with ⟨t1, y1⟩
      rcases e4 : s2.alook AStill r f with ⟨t2, y2⟩
      rw [e3, e4] at g1 g2
      rw [e3] at g3
      obtain rfl : y1 = y2 := g2
      rcases y1 with _ | y
      · exact ⟨g1, rfl⟩
      · exact ecall hc g1 (g3 y rfl)
    rcases x1 with _ | (_ | n | s | a)
    · exact ⟨h1, rfl⟩
    · exact ⟨h1, rfl⟩
    · exact hrest
    · exact hrest
    · exact hrest
  | save x =>
    simp only [astmt]
    rw [← hp.buf, ← hp.loc]
    exact ⟨⟨hp.k, rfl, rfl, hp.off⟩, rfl⟩
  | zero t e => simp only [astmt]; rw [← hp.buf]; exact ewrote hp _
  | setLen f x y =>
    simp only [astmt]
    rw [← hp.loc]
    split
    · exact ⟨eput hC hp hr f _, rfl⟩
    · exact ⟨hp, rfl⟩
  | patch x f t e =>
    obtain ⟨h1, h2, h3⟩ := hlook f
    simp only [astmt]
    rcases e1 : st.alook o r f with ⟨s1, x1⟩
    rcases e2 : st'.alook AStill r f with ⟨s2, x2⟩
    rw [e1, e2] at h1 h2
    obtain rfl : x1 = x2 := h2
    have hb : s1.buf = s2.buf := h1.buf
    have hl : s1.loc = s2.loc := h1.loc
    rcases x1 with _ | (_ | n | s | a)
    · exact ⟨h1, rfl⟩
    · exact ⟨h1, rfl⟩
    · dsimp only
      rw [← hb, ← hl]
      split
      · exact ewrote h1 _
      · exact ⟨h1, rfl⟩
    · exact ⟨h1, rfl⟩
    · exact ⟨h1, rfl⟩
  | checksum f alg =>
    simp only [astmt]
    rw [← hp.buf]
    split
    · exact ⟨eput hC hp hr f _, rfl⟩
    · exact ⟨hp, rfl⟩

theorem estmts (w : World) {r : Nat} (hr : ¬ S r) : ∀ (ss : List EncStmt) {st st' : RHSt}, EPair S N P st st' →
    EAlike S N P (astmts w o call r ss st) (astmts w AStill call' r ss st')
  | [], _, _, hp => ⟨hp, rfl⟩
  | s :: ss, st, st', hp => by
    obtain ⟨h1, h2⟩ := estmt hC hc w hp hr s
    simp only [astmts]
    rcases e : astmt w o call r s st with ⟨s1, x1⟩
    rcases e' : astmt w AStill call' r s st' with ⟨s2, x2⟩
    rw [e, e'] at h1 h2
    obtain rfl : x1 = x2 := h2
    rcases x1 with _ | err
    · exact estmts w hr ss h1
    · exact ⟨h1, rfl⟩
end

theorem aencode_off {S : Nat → Prop} {N : Nat} {P : Heap → Prop} {o : Acts} (hC : Confined S N P o) (w : World) :
    ∀ n, ECalls S N P (aencode w o n) (aencode w AStill n)
  | n, .null, h, h', k, b, _, hO => by cases n <;> exact ⟨hO, rfl⟩
  | 0, .num _, _, _, _, _, _, hO => ⟨hO, rfl⟩
  | 0, .str _, _, _, _, _, _, hO => ⟨hO, rfl⟩
  | 0, .ref _, _, _, _, _, _, hO => ⟨hO, rfl⟩
  | _ + 1, .num _, _, _, _, _, _, hO => ⟨hO, rfl⟩
  | _ + 1, .str _, _, _, _, _, _, hO => ⟨hO, rfl⟩
  | n + 1, .ref r, h, h', k, b, hx, hO => by
    have hr : ¬ S r := hx r rfl
    simp only [aencode]
    rw [← hO.same r hr]
    split
    · next c ys heq =>
      obtain ⟨h1, h2⟩ := estmts hC (aencode_off hC w n) w hr (decl c).enc (st := ⟨h, k, b, fun _ => none⟩) (st' := ⟨h', k, b, fun _ => none⟩)
        ⟨rfl, rfl, rfl, hO⟩
      dsimp only
      exact ⟨h1.off, by rw [h1.k, h1.buf, h2]⟩
    · exact ⟨hO, rfl⟩

/-! ### In terms of the message -/

theorem confined_elsewhere {h : Heap} {x : HVal} {o : Acts} (ho : Elsewhere h x o) {P : Heap → Prop} (hP : AboutOthers h x P) (hs : ∀ k g, P g → P (o k g)) :
    Confined (fun q => ¬ Mine h x q) h.length P o where
  below _ ha := Nat.lt_of_not_le fun hge => ha (.inr hge)
  len k g := (ho k g).1
  same k g a ha := (ho k g).2 a (Classical.not_not.1 ha)
  stable := hs
  depends g g' hq := hP g g' hq

theorem reach_of_value {h : Heap} {x : HVal} {a : Nat} (hr : Reach h x a) : ∀ {ob : HObj}, h[a]? = some ob → ∀ {q : Nat}, .ref q ∈ ob.values → Reach h x q := by
  induction hr with
  | here r => exact fun hob _ hq => .step r _ _ _ hob hq (.here _)
  | step r p ob y h1 h2 _ ih => exact fun hob _ hq => .step r _ ob y h1 h2 (ih hob hq)

theorem off_start {h : Heap} {x : HVal} {P : Heap → Prop} (hP : P h) : Off (fun q => ¬ Mine h x q) h.length P h h where
  big := Nat.le_refl _
  len := rfl
  same _ _ := rfl
  closed a ob ha hob y hy q e := by
    subst e
    rcases Classical.not_not.1 ha with hr | hge
    · exact fun hn => hn (.inl (reach_of_value hr hob hy))
    · have := (List.getElem?_eq_some_iff.1 hob).1
      omega
  about := hP

theorem mine_root {h : Heap} {x : HVal} : Free (fun q => ¬ Mine h x q) x := by
  rintro q rfl hn
  exact hn (.inl (.here q))

theorem off_reach {S : Nat → Prop} {N : Nat} {P : Heap → Prop} {h h' : Heap} (hO : Off S N P h h') {x : HVal} {q : Nat} (hr : Reach h' x q) : Free S x → ¬ S q := by
  induction hr with
  | here r => exact fun hx => hx r rfl
  | step r p ob y h1 h2 _ ih =>
    intro hx
    have hS : ¬ S r := hx r rfl
    exact ih (hO.closed r ob hS (by rw [hO.same r hS]; exact h1) y h2)

theorem off_unshared {S : Nat → Prop} {N : Nat} {P : Heap → Prop} {h h' : Heap} (hO : Off S N P h h') {v : Val} {x : HVal} (hx : Free S x)
    (hu : Unshared h' v x) : Unshared h v x := by
  obtain ⟨h1, h2⟩ := shows_frame h' h v x hu.1 fun q hq => hO.same q (off_reach hO ((refs_iff_reach h' v x hu.1 q).1 hq) hx)
  exact ⟨h1, by rw [h2]; exact hu.2⟩

end FinProto
