import Verif.Proofs.WideEncode
import Verif.Proofs.LightDecode
/-
Helper lemmas for C116: a decode that makes no objects among others who make objects.
-/
namespace FinProto.Wide

/-- Two runs are at the same point. -/
structure DPair (S : Nat → Prop) (P : Heap → Prop) (st st' : ADSt) : Prop where
  k : st.k = st'.k
  buf : st.buf = st'.buf
  off : Off S P st.h st'.h

/-- Two runs end alike. -/
def DAlike (S : Nat → Prop) (P : Heap → Prop) (x x' : ADSt × Option JErr) : Prop := DPair S P x.1 x'.1 ∧ x.2 = x'.2

section
variable {S : Nat → Prop} {P : Heap → Prop} {o : Acts} (hC : Confined S P o)
include hC

theorem dput {st st' : ADSt} (hp : DPair S P st st') {r : Nat} (hr : ¬ S r) (f : Nat) {y : HVal} (hy : Free S y) :
    DPair S P (st.put o r f y) (st'.put AStill r f y) := by
  obtain ⟨hk, hb, hO⟩ := hp
  exact ⟨congrArg (· + 1) hk, hb, off_setField hC (off_act hC hO st.k) hr f hy⟩

omit hC in
theorem dbuf {st st' : ADSt} (hp : DPair S P st st') (b : RBuf) : DPair S P { st with buf := b } { st' with buf := b } := ⟨hp.k, rfl, hp.off⟩

theorem dstmt {call call' : ADCall} (sup : Suppliers) {st st' : ADSt} (hp : DPair S P st st') {r : Nat} (hr : ¬ S r) (tys : List FTy) (s : DecStmt) (hs : looks s = []) :
    DAlike S P (adstmt sup o call r tys s st) (adstmt sup AStill call' r tys s st') := by
  cases s with
  | num f t e =>
    simp only [adstmt]
    rw [← hp.buf]
    split
    · exact ⟨dbuf hp _, rfl⟩
    · split
      · exact ⟨dput hC (dbuf hp _) hr f (free_num _), rfl⟩
      · exact ⟨dbuf hp _, rfl⟩
  | fixed f n pad left =>
    simp only [adstmt]
    rw [← hp.buf]
    split
    · exact ⟨dput hC (dbuf hp _) hr f (free_str _), rfl⟩
    · exact ⟨dbuf hp _, rfl⟩
  | dyn f t e =>
    simp only [adstmt]
    rw [← hp.buf]
    split
    · exact ⟨dput hC (dbuf hp _) hr f (free_str _), rfl⟩
    · exact ⟨dbuf hp _, rfl⟩
    · exact ⟨dbuf hp _, rfl⟩
  | list f t e el => cases hs
  | obj f c => cases hs
  | create f fac key => cases hs
  | call f => cases hs

theorem dstmts {call call' : ADCall} (sup : Suppliers) {r : Nat} (hr : ¬ S r) (tys : List FTy) : ∀ (ss : List DecStmt), (∀ s ∈ ss, looks s = []) → ∀ {st st' : ADSt},
    DPair S P st st' → DAlike S P (adstmts sup o call r tys ss st) (adstmts sup AStill call' r tys ss st')
  | [], _, _, _, hp => ⟨hp, rfl⟩
  | s :: ss, hs, st, st', hp => by
    obtain ⟨h1, h2⟩ := dstmt hC (call := call) (call' := call') sup hp hr tys s (hs s (.head _))
    simp only [adstmts]
    rcases e : adstmt sup o call r tys s st with ⟨s1, x1⟩
    rcases e' : adstmt sup AStill call' r tys s st' with ⟨s2, x2⟩
    rw [e, e'] at h1 h2
    obtain rfl : x1 = x2 := h2
    rcases x1 with _ | err
    · exact dstmts sup hr tys ss (fun s hm => hs s (.tail _ hm)) h1
    · exact ⟨h1, rfl⟩

theorem adecode_off (sup : Suppliers) (n : Nat) {r : Nat} {h h' : Heap} {c : Cls} {ys : List HVal} (hm : h[r]? = some (.msg c ys)) (hc : ∀ f, Simple c f)
    (k : Nat) (b : RBuf) (hr : ¬ S r) (hO : Off S P h h') :
    Off S P (adecode sup o n r h k b).1 (adecode sup AStill n r h' k b).1 ∧ (adecode sup o n r h k b).2 = (adecode sup AStill n r h' k b).2 := by
  cases n with
  | zero => exact ⟨hO, rfl⟩
  | succ n =>
    have hl : ∀ s ∈ (decl c).dec, looks s = [] := fun s hs => by
      rcases e : looks s with _ | ⟨f, l⟩
      · rfl
      · exact absurd (hc f) (looks_fixed hs (by rw [e]; exact .head _))
    simp only [adecode]
    rw [← hO.same r hr, hm]
    obtain ⟨h1, h2⟩ := dstmts hC (call := adecode sup o n) (call' := adecode sup AStill n) sup hr ((decl c).fields.map (·.2)) (decl c).dec hl
      (st := ⟨h, k, b⟩) (st' := ⟨h', k, b⟩) ⟨rfl, rfl, hO⟩
    dsimp only
    exact ⟨h1.off, by rw [h1.k, h1.buf, h2]⟩
end

theorem off_unshared {S : Nat → Prop} {P : Heap → Prop} {h h' : Heap} (hO : Off S P h h') {v : Val} {x : HVal} (hx : Free S x)
    (hu : Unshared h' v x) : Unshared h v x := by
  obtain ⟨h1, h2⟩ := shows_frame h' h v x hu.1 fun q hq => hO.same q (off_reach hO ((refs_iff_reach h' v x hu.1 q).1 hq) hx)
  exact ⟨h1, by rw [h2]; exact hu.2⟩

/-- Whether a class has neither lists nor parts nor a body. -/
def flatB (c : Cls) : Bool :=
  (javaTypes c).all (fun t => match t with | .list _ => false | .obj _ => false | _ => true) && (wire c).all fun i => match i with | .ext _ _ => false | _ => true

theorem simple_all {c : Cls} (hc : flatB c = true) (f : Nat) : Simple c f := by
  unfold flatB at hc
  rw [Bool.and_eq_true, List.all_eq_true, List.all_eq_true] at hc
  refine ⟨?_, ?_⟩
  · rintro ⟨i, fac, key, e, _⟩
    exact absurd (hc.2 _ (List.mem_of_getElem? e)) (by simp)
  · rintro (⟨e, he⟩ | ⟨d, hd⟩)
    · exact absurd (hc.1 _ (List.mem_of_getElem? he)) (by simp)
    · exact absurd (hc.1 _ (List.mem_of_getElem? hd)) (by simp)

end FinProto.Wide
