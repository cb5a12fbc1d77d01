import Verif.Proofs.AnyDecode
import Verif.Proofs.WideEncode
import Verif.Proofs.HalfDecoded
import Verif.Spec.Limited
/-
Helper lemmas for C119: a decode among others who make objects, and a decode alone; the objects are the same up to the places at which they are stored.
-/
namespace FinProto.Limit

/-- The others have some objects (`T`), to which none of the places related by `ρ` belongs. -/
structure Sep (R : Nat → Prop) (P : Heap → Prop) (ρ : Nat → Nat → Prop) (g : Heap) : Prop where
  theirs : ∃ T : Nat → Prop, (∀ p, R p → T p) ∧ (∀ q, T q → q < g.length) ∧
    (∀ q ob, T q → g[q]? = some ob → ∀ p, HVal.ref p ∈ ob.values → T p) ∧ ∀ a b, ρ a b → ¬ T b
  about : P g

/-- A run alone and a run among others are at the same point. -/
structure Pt (R : Nat → Prop) (P : Heap → Prop) (ρ : Nat → Nat → Prop) (st st' : ADSt) : Prop where
  ren : Ren ρ st.h st'.h
  sep : Sep R P ρ st'.h
  k : st.k = st'.k
  buf : st.buf = st'.buf

/-- They end alike. -/
def Ends (R : Nat → Prop) (P : Heap → Prop) (ρ : Nat → Nat → Prop) (x x' : ADSt × Option JErr) : Prop :=
  ∃ σ : Nat → Nat → Prop, (∀ a b, ρ a b → σ a b) ∧ Pt R P σ x.1 x'.1 ∧ x.2 = x'.2

def Calls (R : Nat → Prop) (P : Heap → Prop) (call call' : ADCall) : Prop :=
  ∀ (ρ : Nat → Nat → Prop) a a' st st', ρ a a' → Pt R P ρ st st' → Ends R P ρ (st.call call a) (st'.call call' a')

/-- What is read is the same. -/
def Opt (ρ : Nat → Nat → Prop) (l l' : Option HVal) : Prop := (l = none ∧ l' = none) ∨ ∃ x y, l = some x ∧ l' = some y ∧ RelV ρ x y

theorem theirs_closed {R T : Nat → Prop} {g : Heap} (hR : ∀ p, R p → T p) (hc : ∀ q ob, T q → g[q]? = some ob → ∀ p, HVal.ref p ∈ ob.values → T p) {q : Nat}
    (hq : Theirs R g q) : T q := by
  obtain ⟨p, hp, hr⟩ := hq
  have key : ∀ {x : HVal} {q : Nat}, Reach g x q → (∀ p, x = .ref p → T p) → T q := by
    intro x q hr
    induction hr with
    | here r => exact fun hx => hx r rfl
    | step r q ob y h1 h2 _ ih => exact fun hx => ih fun p e => hc r ob (hx r rfl) h1 p (e ▸ h2)
  exact key hr fun a e => by cases e; exact hR p hp

section
variable {R : Nat → Prop} {P : Heap → Prop} {ρ : Nat → Nat → Prop} (hP : AboutTheirs R P)

include hP in
theorem sep_moves {h h' k k' : Heap} {Q : (Nat → Nat → Prop) → Prop} (hs : Sep R P ρ h') (hm : Moves ρ h h' k k' Q) :
    ∃ σ, Ren σ k k' ∧ (∀ a b, ρ a b → σ a b) ∧ Sep R P σ k' ∧ Q σ := by
  obtain ⟨σ, s1, s2, s3, s4, s5, s6⟩ := hm
  obtain ⟨⟨T, t1, t2, t3, t4⟩, hp⟩ := hs
  have hsame : ∀ q, T q → k'[q]? = h'[q]? := fun q hq => s5 q (t2 q hq) fun a ha => t4 a q ha hq
  refine ⟨σ, s1, s2, ⟨⟨T, t1, fun q hq => Nat.lt_of_lt_of_le (t2 q hq) s4, fun q ob hq ho => ?_, fun a b hab hb => ?_⟩, ?_⟩, s6⟩
  · rw [hsame q hq] at ho; exact t3 q ob hq ho
  · rcases s3 a b hab with h1 | h1
    · exact t4 a b h1 hb
    · have := t2 b hb; omega
  · exact hP h' k' (fun q hq => hsame q (theirs_closed t1 t3 hq)) hp

variable {o : Acts} (hL : Limited R o) (hS : ∀ k g, P g → P (o k g))
include hL hS

theorem act_sep {h' : Heap} (hlt : ∀ a b, ρ a b → b < h'.length) (hs : Sep R P ρ h') (k : Nat) :
    (∀ a b, ρ a b → (o k h')[b]? = h'[b]?) ∧ Sep R P ρ (o k h') := by
  obtain ⟨⟨T, t1, t2, t3, t4⟩, hp⟩ := hs
  obtain ⟨l1, l2, l3⟩ := hL k h'
  have hT : ∀ q, Theirs R h' q → T q := fun q hq => theirs_closed t1 t3 hq
  refine ⟨fun a b hab => ?_, ⟨⟨fun q => T q ∨ h'.length ≤ q ∧ q < (o k h').length, fun p hp => .inl (t1 p hp), ?_, ?_, ?_⟩, hS k h' hp⟩⟩
  · exact l2 b (hlt a b hab) fun hq => t4 a b hab (hT b hq)
  · rintro q (hq | hq)
    · exact Nat.lt_of_lt_of_le (t2 q hq) l1
    · exact hq.2
  · rintro q ob hq ho p hp
    have key : Theirs R h' q ∨ h'.length ≤ q → T p ∨ h'.length ≤ p ∧ p < (o k h').length := fun hq =>
      (l3 q ob hq ho p hp).imp_left (hT p)
    rcases hq with hq | hq
    · by_cases ht : Theirs R h' q
      · exact key (.inl ht)
      · rw [l2 q (t2 q hq) ht] at ho
        exact .inl (t3 q ob hq ho p hp)
    · exact key (.inr hq.1)
  · rintro a b hab (hb | hb)
    · exact t4 a b hab hb
    · have := hlt a b hab; omega

theorem act {h h' : Heap} (hr : Ren ρ h h') (hs : Sep R P ρ h') (k : Nat) : Ren ρ h (o k h') ∧ Sep R P ρ (o k h') := by
  obtain ⟨h1, h2⟩ := act_sep hL hS (fun a b hab => (hr.lt hab).2) hs k
  exact ⟨⟨hr.fn, hr.inj, fun a b hab => by rw [h1 a b hab]; exact hr.obj a b hab⟩, h2⟩

theorem look {st st' : ADSt} (hp : Pt R P ρ st st') {r r' : Nat} (hrr : ρ r r') (f : Nat) :
    Pt R P ρ (st.look AStill r f).1 (st'.look o r' f).1 ∧ Opt ρ (st.look AStill r f).2 (st'.look o r' f).2 := by
  obtain ⟨h1, h2⟩ := act hL hS hp.ren hp.sep st'.k
  exact ⟨⟨h1, h2, congrArg (· + 1) hp.k, hp.buf⟩, h1.field hrr f⟩

include hP

theorem put {st st' : ADSt} (hp : Pt R P ρ st st') {r r' : Nat} (hrr : ρ r r') (f : Nat) {x y : HVal} (hxy : RelV ρ x y) :
    Pt R P ρ (st.put AStill r f x) (st'.put o r' f y) := by
  obtain ⟨h1, h2⟩ := act hL hS hp.ren hp.sep st'.k
  obtain ⟨σ, s1, _, s3, rfl⟩ := sep_moves hP h2 (h1.setField hrr f hxy (Q := (· = ρ)) rfl)
  exact ⟨s1, s3, congrArg (· + 1) hp.k, hp.buf⟩

theorem add {st st' : ADSt} (hp : Pt R P ρ st st') {l l' : Option HVal} (hl : Opt ρ l l') {x y : HVal} (hxy : RelV ρ x y) :
    Ends R P ρ (st.add AStill l x) (st'.add o l' y) := by
  have same : ∀ a b : ADSt, Pt R P ρ a b → ∀ e, Ends R P ρ (a, e) (b, e) := fun a b h e => ⟨ρ, fun _ _ h => h, h, rfl⟩
  rcases hl with ⟨rfl, rfl⟩ | ⟨z, z', rfl, rfl, hz⟩
  · exact same _ _ hp _
  · cases hz with
    | null => exact same _ _ hp _
    | num n => exact same _ _ hp _
    | str s => exact same _ _ hp _
    | ref hab =>
      obtain ⟨h1, h2⟩ := act hL hS hp.ren hp.sep st'.k
      obtain ⟨ob, ob', e1, e2, e3⟩ := h1.obj _ _ hab
      simp only [ADSt.add]
      rw [show AStill st.k st.h = st.h from rfl, e1, e2]
      cases e3 with
      | msg c h3 => exact ⟨ρ, fun _ _ h => h, ⟨h1, h2, congrArg (· + 1) hp.k, hp.buf⟩, rfl⟩
      | arr h3 =>
        obtain ⟨σ, s1, _, s3, rfl⟩ := sep_moves hP h2 (h1.set hab (.arr (h3.snoc hxy)) (Q := (· = ρ)) rfl)
        exact ⟨σ, fun _ _ h => h, ⟨s1, s3, congrArg (· + 1) hp.k, hp.buf⟩, rfl⟩

omit hL hS in
theorem new {st st' : ADSt} (hp : Pt R P ρ st st') {ob ob' : HObj} (ho : RelO ρ ob ob') : ∃ σ : Nat → Nat → Prop, (∀ a b, ρ a b → σ a b) ∧
    Pt R P σ { st with h := st.h ++ [ob] } { st' with h := st'.h ++ [ob'] } ∧ σ st.h.length st'.h.length := by
  obtain ⟨σ, s1, s2, s3, s4⟩ := sep_moves hP hp.sep (hp.ren.new ho)
  exact ⟨σ, s2, ⟨s1, s3, hp.k, hp.buf⟩, s4⟩
end

theorem Pt.withBuf {R : Nat → Prop} {P : Heap → Prop} {ρ : Nat → Nat → Prop} {st st' : ADSt} (hp : Pt R P ρ st st') (b : RBuf) :
    Pt R P ρ { st with buf := b } { st' with buf := b } := ⟨hp.ren, hp.sep, hp.k, rfl⟩

theorem Pt.ends {R : Nat → Prop} {P : Heap → Prop} {ρ : Nat → Nat → Prop} {st st' : ADSt} (hp : Pt R P ρ st st') (e : Option JErr) : Ends R P ρ (st, e) (st', e) :=
  ⟨ρ, fun _ _ h => h, hp, rfl⟩

theorem Ends.after {R : Nat → Prop} {P : Heap → Prop} {ρ σ : Nat → Nat → Prop} (h : ∀ a b, ρ a b → σ a b) {x x' : ADSt × Option JErr} (he : Ends R P σ x x') :
    Ends R P ρ x x' := by
  obtain ⟨τ, t1, t2⟩ := he
  exact ⟨τ, fun a b hab => t1 a b (h a b hab), t2⟩

section
variable {R : Nat → Prop} {P : Heap → Prop} (hP : AboutTheirs R P) {o : Acts} (hL : Limited R o) (hS : ∀ k g, P g → P (o k g))
variable {call call' : ADCall} (hc : Calls R P call call')
include hP hL hS hc

theorem elem {ρ : Nat → Nat → Prop} {st st' : ADSt} (hp : Pt R P ρ st st') {r r' : Nat} (hrr : ρ r r') (f : Nat) (el : DecElem) :
    Ends R P ρ (adelem AStill call r f el st) (adelem o call' r' f el st') := by
  obtain ⟨hl1, hl2⟩ := look hL hS hp hrr f
  cases el with
  | obj c =>
    obtain ⟨σ, s1, s2, s3⟩ := new hP hp (newMsg_rel ρ c)
    refine Ends.after s1 ?_
    obtain ⟨τ, t1, t2, t3⟩ := hc σ _ _ _ _ s3 s2
    refine Ends.after t1 ?_
    simp only [adelem]
    rcases e : ({ st with h := st.h ++ [newMsg c] } : ADSt).call call st.h.length with ⟨y1, x1⟩
    rcases e' : ({ st' with h := st'.h ++ [newMsg c] } : ADSt).call call' st'.h.length with ⟨y2, x2⟩
    rw [e, e'] at t2 t3
    obtain rfl : x1 = x2 := t3
    rcases x1 with _ | err
    · obtain ⟨g1, g2⟩ := look hL hS t2 (t1 _ _ (s1 _ _ hrr)) f
      exact add hP hL hS g1 g2 (.ref (t1 _ _ s3))
    · exact t2.ends _
  | num t e =>
    simp only [adelem]
    rw [← hp.buf]
    split
    · exact (hl1.withBuf _).ends _
    · exact add hP hL hS (hl1.withBuf _) hl2 (.num _)
  | fixed n pad left =>
    simp only [adelem]
    rw [← hp.buf]
    split
    · exact (hl1.withBuf _).ends _
    · exact add hP hL hS (hl1.withBuf _) hl2 (.str _)
  | dyn t e =>
    simp only [adelem]
    rw [← hp.buf]
    split
    · exact (hp.withBuf _).ends _
    · split
      · split
        · exact (hl1.withBuf _).ends _
        · exact add hP hL hS (hl1.withBuf _) hl2 (.str _)
      · exact (hp.withBuf _).ends _

theorem loop (f : Nat) (el : DecElem) : ∀ (m : Nat) {ρ : Nat → Nat → Prop} {r r' : Nat}, ρ r r' → ∀ {st st' : ADSt}, Pt R P ρ st st' →
    Ends R P ρ (adloop AStill call r f el m st) (adloop o call' r' f el m st')
  | 0, _, _, _, _, _, _, hp => hp.ends _
  | m + 1, ρ, r, r', hrr, st, st', hp => by
    obtain ⟨σ, s1, s2, s3⟩ := elem hP hL hS hc hp hrr f el
    refine Ends.after s1 ?_
    simp only [adloop]
    rcases e : adelem AStill call r f el st with ⟨y1, x1⟩
    rcases e' : adelem o call' r' f el st' with ⟨y2, x2⟩
    rw [e, e'] at s2 s3
    obtain rfl : x1 = x2 := s3
    rcases x1 with _ | err
    · exact loop f el m (s1 _ _ hrr) s2
    · exact s2.ends _

omit hP in
theorem callField {ρ : Nat → Nat → Prop} {st st' : ADSt} (hp : Pt R P ρ st st') {r r' : Nat} (hrr : ρ r r') (f : Nat) :
    Ends R P ρ (adcall AStill call r f st) (adcall o call' r' f st') := by
  obtain ⟨h1, h2⟩ := look hL hS hp hrr f
  simp only [adcall]
  rcases e : st.look AStill r f with ⟨s1, x1⟩
  rcases e' : st'.look o r' f with ⟨s2, x2⟩
  rw [e, e'] at h1 h2
  rcases h2 with ⟨h2, h3⟩ | ⟨z, z', h2, h3, hz⟩
  · dsimp only at h2 h3; subst h2 h3; exact h1.ends _
  · dsimp only at h2 h3
    subst h2 h3
    cases hz with
    | null => exact h1.ends _
    | num n => exact h1.ends _
    | str s => exact h1.ends _
    | ref hab =>
      obtain ⟨ob, ob', e1, e2, e3⟩ := h1.ren.obj _ _ hab
      dsimp only at e1 e2 ⊢
      rw [e1, e2]
      cases e3 with
      | msg c h3 => exact hc ρ _ _ _ _ hab h1
      | arr h3 => exact h1.ends _

theorem stmt (w : World) {ρ : Nat → Nat → Prop} {st st' : ADSt} (hp : Pt R P ρ st st') {r r' : Nat} (hrr : ρ r r') (tys : List FTy) (s : DecStmt) :
    Ends R P ρ (adstmt w.suppliers AStill call r tys s st) (adstmt w.suppliers o call' r' tys s st') := by
  cases s with
  | num f t e =>
    simp only [adstmt]
    rw [← hp.buf]
    split
    · exact (hp.withBuf _).ends _
    · split
      · exact (put hP hL hS (hp.withBuf _) hrr f (.num _)).ends _
      · exact (hp.withBuf _).ends _
  | fixed f n pad left =>
    simp only [adstmt]
    rw [← hp.buf]
    split
    · exact (put hP hL hS (hp.withBuf _) hrr f (.str _)).ends _
    · exact (hp.withBuf _).ends _
  | dyn f t e =>
    simp only [adstmt]
    rw [← hp.buf]
    split
    · exact (put hP hL hS (hp.withBuf _) hrr f (.str _)).ends _
    · exact (hp.withBuf _).ends _
    · exact (hp.withBuf _).ends _
  | list f t e el =>
    simp only [adstmt]
    rw [← hp.buf]
    split
    · exact (hp.withBuf _).ends _
    · next b' n heq =>
      split
      · obtain ⟨σ, s1, s2, s3⟩ := new hP (hp.withBuf b') (.arr .nil : RelO ρ (.arr []) (.arr []))
        exact Ends.after s1 (loop hP hL hS hc f el _ (s1 _ _ hrr) (put hP hL hS s2 (s1 _ _ hrr) f (.ref s3)))
      · exact (hp.withBuf _).ends _
  | obj f c =>
    obtain ⟨h1, h2⟩ := look hL hS hp hrr f
    simp only [adstmt]
    rcases e : st.look AStill r f with ⟨y1, x1⟩
    rcases e' : st'.look o r' f with ⟨y2, x2⟩
    rw [e, e'] at h1 h2
    rcases h2 with ⟨h2, h3⟩ | ⟨z, z', h2, h3, hz⟩
    · dsimp only at h2 h3; subst h2 h3; exact callField hL hS hc h1 hrr f
    · dsimp only at h2 h3
      subst h2 h3
      cases hz with
      | null =>
        obtain ⟨σ, s1, s2, s3⟩ := new hP h1 (newMsg_rel ρ c)
        exact Ends.after s1 (callField hL hS hc (put hP hL hS s2 (s1 _ _ hrr) f (.ref s3)) (s1 _ _ hrr) f)
      | num n => exact callField hL hS hc h1 hrr f
      | str s => exact callField hL hS hc h1 hrr f
      | ref hab => exact callField hL hS hc h1 hrr f
  | create f fac key =>
    obtain ⟨h1, h2⟩ := look hL hS hp hrr key
    simp only [adstmt]
    rcases e : st.look AStill r key with ⟨y1, x1⟩
    rcases e' : st'.look o r' key with ⟨y2, x2⟩
    rw [e, e'] at h1 h2
    rcases h2 with ⟨h2, h3⟩ | ⟨z, z', h2, h3, hz⟩
    · dsimp only at h2 h3; subst h2 h3; exact h1.ends _
    · dsimp only at h2 h3
      subst h2 h3
      dsimp only [World.suppliers]
      rw [← hz.leaf]
      rcases w.fac fac (keyOf z.leaf) with _ | v
      · exact h1.ends _
      · obtain ⟨σ, s1, s2, s3, s4⟩ := sep_moves hP h1.sep (alloc_moves v ρ _ _ h1.ren)
        dsimp only [Option.map_some, adcreate]
        refine Ends.after s2 (Pt.ends (put hP hL hS (st := { y1 with h := (alloc v y1.h).1 }) (st' := { y2 with h := (alloc v y2.h).1 }) ?_ (s2 _ _ hrr) f s4) _)
        exact ⟨s1, s3, h1.k, h1.buf⟩
  | call f => exact callField hL hS hc hp hrr f

theorem stmts (w : World) (tys : List FTy) : ∀ (ss : List DecStmt) {ρ : Nat → Nat → Prop} {r r' : Nat}, ρ r r' → ∀ {st st' : ADSt}, Pt R P ρ st st' →
    Ends R P ρ (adstmts w.suppliers AStill call r tys ss st) (adstmts w.suppliers o call' r' tys ss st')
  | [], _, _, _, _, _, _, hp => hp.ends _
  | s :: ss, ρ, r, r', hrr, st, st', hp => by
    obtain ⟨σ, s1, s2, s3⟩ := stmt hP hL hS hc w hp hrr tys s
    refine Ends.after s1 ?_
    simp only [adstmts]
    rcases e : adstmt w.suppliers AStill call r tys s st with ⟨y1, x1⟩
    rcases e' : adstmt w.suppliers o call' r' tys s st' with ⟨y2, x2⟩
    rw [e, e'] at s2 s3
    obtain rfl : x1 = x2 := s3
    rcases x1 with _ | err
    · exact stmts w tys ss (s1 _ _ hrr) s2
    · exact s2.ends _
end

theorem decode {R : Nat → Prop} {P : Heap → Prop} (hP : AboutTheirs R P) {o : Acts} (hL : Limited R o) (hS : ∀ k g, P g → P (o k g)) (w : World) :
    ∀ n, Calls R P (adecode w.suppliers AStill n) (adecode w.suppliers o n)
  | 0, ρ, a, a', st, st', _, hp => by
    simp only [ADSt.call, adecode]
    exact hp.ends _
  | n + 1, ρ, a, a', st, st', haa, hp => by
    obtain ⟨ob, ob', e1, e2, e3⟩ := hp.ren.obj _ _ haa
    simp only [ADSt.call, adecode]
    rw [e1, e2]
    cases e3 with
    | msg c h3 => exact stmts hP hL hS (decode hP hL hS w n) w _ (decl c).dec haa hp
    | arr h3 => exact hp.ends _

theorem sep_start {R : Nat → Prop} {P : Heap → Prop} {h : Heap} {x : HVal} (hd : Divided R h x) (hp : P h) : Sep R P (fun a b => a = b ∧ Reach h x a) h := by
  refine ⟨⟨Theirs R h, fun p hp => ⟨p, hp, .here p⟩, hd.theirs, ?_, ?_⟩, hp⟩
  · rintro q ob ⟨p, hp, hr⟩ ho a ha
    exact ⟨p, hp, reach_of_value hr ho ha⟩
  · rintro a b ⟨rfl, hr⟩
    exact hd.none a hr

/-! ### encode -/

/-- What holds of the memory during an encode. -/
def During (R : Nat → Prop) (P : Heap → Prop) (h : Heap) (x : HVal) (g : Heap) : Prop :=
  Sep R P (fun a b => a = b ∧ Reach h x a) g ∧ ∀ q, Reach h x q → q < g.length

theorem confined {R : Nat → Prop} {P : Heap → Prop} (hP : AboutTheirs R P) {o : Acts} (hL : Limited R o) (hS : ∀ k g, P g → P (o k g)) (h : Heap) (x : HVal) :
    Wide.Confined (fun q => ¬ Reach h x q) (During R P h x) o where
  same k g hg a ha := (act_sep hL hS (fun a b (hab : a = b ∧ Reach h x a) => hg.2 b (hab.1 ▸ hab.2)) hg.1 k).1 a a ⟨rfl, Classical.not_not.1 ha⟩
  stable k g hg :=
    ⟨(act_sep hL hS (fun a b (hab : a = b ∧ Reach h x a) => hg.2 b (hab.1 ▸ hab.2)) hg.1 k).2, fun q hq => Nat.lt_of_lt_of_le (hg.2 q hq) (hL k g).1⟩
  depends g g' hlen hq hg := by
    obtain ⟨⟨⟨T, t1, t2, t3, t4⟩, hp⟩, hlt⟩ := hg
    have hsame : ∀ q, T q → g'[q]? = g[q]? := fun q ht => hq q fun hr => t4 q q ⟨rfl, hr⟩ ht
    refine ⟨⟨⟨T, t1, fun q ht => by rw [hlen]; exact t2 q ht, fun q ob ht ho => ?_, t4⟩, ?_⟩, fun q hq => by rw [hlen]; exact hlt q hq⟩
    · rw [hsame q ht] at ho; exact t3 q ob ht ho
    · exact hP g g' (fun q hq => hsame q (theirs_closed t1 t3 hq)) hp

end FinProto.Limit
