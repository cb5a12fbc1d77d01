import Verif.Spec.OwnProgram
import Verif.Proofs.AnyConfined
import Verif.Proofs.AnyHeap
import Verif.Proofs.RacingHeap
import Verif.Proofs.AnyObjects
/-
Helper lemmas for C118: a program among others and the program alone, side by side.
-/
namespace FinProto

/-- The two runs are at the same point. -/
structure OPair (S : Nat → Prop) (N : Nat) (P : Heap → Prop) (st : BusySt) (st' : OwnSt) : Prop where
  env : st.env = st'.env
  log : st.log = st'.log
  free : ∀ y ∈ st.env, Free S y
  off : Off S N P st.h st'.h

section
variable {S : Nat → Prop} {N : Nat} {P : Heap → Prop} {o : Acts}

theorem olearn {st : BusySt} {st' : OwnSt} (hp : OPair S N P st st') {y : HVal} (hy : Free S y) : OPair S N P (st.learn y) (st'.learn y) where
  env := congrArg (· ++ [y]) hp.env
  log := congrArg (· ++ [Sight.value y]) hp.log
  free z hz := by
    rcases List.mem_append.1 hz with hz | hz
    · exact hp.free z hz
    · simp at hz; subst hz; exact hy
  off := hp.off

theorem osee {st : BusySt} {st' : OwnSt} (hp : OPair S N P st st') (s : Sight) : OPair S N P (st.see s) (st'.see s) where
  env := hp.env
  log := congrArg (· ++ [s]) hp.log
  free := hp.free
  off := hp.off

theorem ofail {st : BusySt} {st' : OwnSt} (hp : OPair S N P st st') (y : Option HVal) : OPair S N P (st.see (.threw (some (notObject y)))) (st'.fail y) := by
  have : notObject y = if y = some .null then JErr.nullPointer else .illTyped := by
    rcases y with _ | (_ | _ | _ | _) <;> rfl
  unfold OwnSt.fail
  rw [this]
  exact osee hp _

variable (hC : Confined S N P o)
include hC

theorem owait {st : BusySt} {st' : OwnSt} (hp : OPair S N P st st') : OPair S N P (st.wait o) st' where
  env := hp.env
  log := hp.log
  free := hp.free
  off := off_act hC hp.off st.k

theorem aencode_alone {w : World} {n : Nat} {x : HVal} {h h' : Heap} {k : Nat} {b : WBuf} (hx : Free S x) (hO : Off S N P h h') (hfit : HListsFit h') :
    Off S N P (aencode w o n x h k b).1 (hencode w n x h' b).1 ∧ (aencode w o n x h k b).2.2 = (hencode w n x h' b).2 := by
  obtain ⟨h1, h2⟩ := aencode_off hC w n x h h' k b hx hO
  have e1 : AStill = fun k h => hsetAll h ((fun _ => [] : HOthers) k) := rfl
  have e2 := rhencode_nobody w n x h' k b hfit
  rw [e1, aencode_acts] at h1 h2
  have e3 := congrArg (·.1) e2
  have e4 := congrArg (·.2) e2
  dsimp only at e3 e4
  rw [← e3, ← e4, h2]
  exact ⟨h1, rfl⟩

theorem adecode_alone {w : World} {n a : Nat} {h h' : Heap} {k : Nat} {b : RBuf} (ha : ¬ S a) (hO : Off S N P h h') :
    Off S N P (adecode w.suppliers o n a h k b).1 (hdecode w.suppliers n a h' b).1 ∧ (adecode w.suppliers o n a h k b).2.2 = (hdecode w.suppliers n a h' b).2 := by
  obtain ⟨h1, h2⟩ := adecode_off hC w n a h h' k b ha hO
  obtain ⟨k', e⟩ := adecode_quiet w.suppliers n a h' k b
  rw [e] at h1 h2
  exact ⟨h1, by rw [h2]⟩

theorem off_lapse {h h' : Heap} (hO : Off S N P h h') (k : Nat) : ∀ d, Off S N P (lapse o h k d) h'
  | 0 => hO
  | d + 1 => off_act hC (off_lapse hO k d) (k + d)

theorem lapses_untouched {h h' : Heap} (hO : Off S N P h h') (k : Nat) {x : HVal} (hx : Free S x) : Untouched (lapses o h k) h' x :=
  fun _ q hq => (off_lapse hC hO k _).same q (off_reach hO hq hx)

theorem otill {st : BusySt} {st' : OwnSt} (hp : OPair S N P st st') (k : Nat) : OPair S N P (st.till o k) st' where
  env := hp.env
  log := hp.log
  free := hp.free
  off := off_lapse hC hp.off st.k _

theorem ostep (w : World) (flt : Num → JStr) (n : Nat) (op : OwnOp) {st : BusySt} {st' : OwnSt} (hp : OPair S N P st st') (hfit : HListsFit st'.h) :
    OPair S N P (busyStep w flt o n op st) (ownStep w flt n op st') := by
  have hfree : ∀ {i : Nat} {y : HVal}, st'.env[i]? = some y → Free S y := fun e => hp.free _ (by rw [hp.env]; exact List.mem_of_getElem? e)
  have hw := owait hC hp
  cases op with
  | leaf y => cases y with
    | inl m => exact olearn hp (free_num m)
    | inr s => exact olearn hp (free_str s)
  | null => exact olearn hp free_null
  | new c =>
    have h1 : OPair S N P { st with h := st.h ++ [newMsg c] } { st' with h := st'.h ++ [newMsg c] } := ⟨hp.env, hp.log, hp.free, off_append hC hp.off _ (free_newMsg c)⟩
    have h2 := olearn h1 (y := .ref st.h.length) (free_ref (hC.fresh hp.off.big))
    simp only [busyStep, ownStep]
    rw [hp.off.len] at h2 ⊢
    exact h2
  | newList =>
    have h1 : OPair S N P { st with h := st.h ++ [.arr []] } { st' with h := st'.h ++ [.arr []] } :=
      ⟨hp.env, hp.log, hp.free, off_append hC hp.off _ fun _ hy => by cases hy⟩
    have h2 := olearn h1 (y := .ref st.h.length) (free_ref (hC.fresh hp.off.big))
    simp only [busyStep, ownStep]
    rw [hp.off.len] at h2 ⊢
    exact h2
  | get i f =>
    simp only [busyStep, ownStep]
    rw [hp.env]
    rcases e : st'.env[i]? with _ | (_ | m | s | a)
    · exact ofail hp _
    · exact ofail hp _
    · exact ofail hp _
    · exact ofail hp _
    · have ha : ¬ S a := hfree e a rfl
      dsimp only
      rw [← off_field hw.off ha]
      rcases e2 : (st.wait o).h.field a f with _ | y
      · exact osee hw _
      · exact olearn hw (off_free hw.off ha e2)
  | set i f j =>
    simp only [busyStep, ownStep]
    rw [hp.env]
    rcases e : st'.env[i]? with _ | (_ | m | s | a)
    · exact ofail hp _
    · exact ofail hp _
    · exact ofail hp _
    · exact ofail hp _
    · have ha : ¬ S a := hfree e a rfl
      rcases e2 : st'.env[j]? with _ | y
      · exact ofail hp _
      · exact osee (st := { st.wait o with h := (st.wait o).h.setField a f y }) (st' := { st' with h := st'.h.setField a f y })
          ⟨hp.env, hp.log, hp.free, off_setField hC hw.off ha f (hfree e2)⟩ _
  | size i =>
    simp only [busyStep, ownStep]
    rw [hp.env]
    rcases e : st'.env[i]? with _ | (_ | m | s | a)
    · exact ofail hp _
    · exact ofail hp _
    · exact ofail hp _
    · exact ofail hp _
    · have ha : ¬ S a := hfree e a rfl
      dsimp only
      rw [hw.off.same a ha]
      rcases st'.h[a]? with _ | (⟨c, ys⟩ | xs)
      · exact osee hw _
      · exact osee hw _
      · exact osee hw _
  | item i m =>
    simp only [busyStep, ownStep]
    rw [hp.env]
    rcases e : st'.env[i]? with _ | (_ | m' | s | a)
    · exact ofail hp _
    · exact ofail hp _
    · exact ofail hp _
    · exact ofail hp _
    · have ha : ¬ S a := hfree e a rfl
      have h1 := hw.off.same a ha
      dsimp only
      rw [h1]
      rcases e2 : st'.h[a]? with _ | (⟨c, ys⟩ | xs)
      · exact osee hw _
      · exact osee hw _
      · dsimp only
        rw [e2] at h1
        rcases e3 : xs[m]? with _ | y
        · exact osee hw _
        · exact olearn hw (hw.off.closed a _ ha h1 y (List.mem_of_getElem? e3))
  | add i j =>
    simp only [busyStep, ownStep]
    rw [hp.env]
    rcases e : st'.env[i]? with _ | (_ | m | s | a)
    · exact ofail hp _
    · exact ofail hp _
    · exact ofail hp _
    · exact ofail hp _
    · have ha : ¬ S a := hfree e a rfl
      rcases e2 : st'.env[j]? with _ | y
      · exact ofail hp _
      · have h1 := hw.off.same a ha
        dsimp only
        rw [h1]
        rcases e3 : st'.h[a]? with _ | (⟨c, ys⟩ | xs)
        · exact osee hw _
        · exact osee hw _
        · rw [e3] at h1
          refine osee (st := { st.wait o with h := (st.wait o).h.set a (.arr (xs ++ [y])) }) (st' := { st' with h := st'.h.set a (.arr (xs ++ [y])) })
            ⟨hp.env, hp.log, hp.free, off_set hC hw.off ha _ fun z hz => ?_⟩ _
          rcases List.mem_append.1 hz with hz | hz
          · exact hw.off.closed a _ ha h1 z hz
          · simp at hz; subst hz; exact hfree e2
  | encode i b =>
    simp only [busyStep, ownStep]
    rw [hp.env]
    rcases e : st'.env[i]? with _ | x
    · exact osee hp _
    · obtain ⟨h1, h2⟩ := aencode_alone hC (w := w) (n := n) (k := st.k) (b := b) (hfree e) hp.off hfit
      dsimp only
      rw [h2]
      exact osee (st := ⟨(aencode w o n x st.h st.k b).1, (aencode w o n x st.h st.k b).2.1, st'.env, st.log⟩) (st' := ⟨(hencode w n x st'.h b).1, st'.env, st'.log⟩)
        ⟨rfl, hp.log, hp.env ▸ hp.free, h1⟩ _
  | decode i b =>
    simp only [busyStep, ownStep]
    rw [hp.env]
    rcases e : st'.env[i]? with _ | (_ | m | s | a)
    · exact ofail hp _
    · exact ofail hp _
    · exact ofail hp _
    · exact ofail hp _
    · obtain ⟨h1, h2⟩ := adecode_alone hC (w := w) (n := n) (k := st.k) (b := b) (hfree e a rfl) hp.off
      dsimp only
      rw [h2]
      exact osee (st := ⟨(adecode w.suppliers o n a st.h st.k b).1, (adecode w.suppliers o n a st.h st.k b).2.1, st'.env, st.log⟩)
        (st' := ⟨(hdecode w.suppliers n a st'.h b).1, st'.env, st'.log⟩) ⟨rfl, hp.log, hp.env ▸ hp.free, h1⟩ _
  | equals i j =>
    simp only [busyStep, ownStep]
    rw [hp.env]
    rcases e : st'.env[i]? with _ | (_ | m | s | a)
    · exact ofail hp _
    · exact ofail hp _
    · exact ofail hp _
    · exact ofail hp _
    · rcases e2 : st'.env[j]? with _ | y
      · exact ofail hp _
      · have h1 := gequals_untouched n (.ref a) y st.k (lapses_untouched hC hp.off st.k (hfree e)) (lapses_untouched hC hp.off st.k (hfree e2))
        dsimp only
        rw [h1]
        exact osee (otill hC hp _) _
  | hashCode i =>
    simp only [busyStep, ownStep]
    rw [hp.env]
    rcases e : st'.env[i]? with _ | (_ | m | s | a)
    · exact ofail hp _
    · exact ofail hp _
    · exact ofail hp _
    · exact ofail hp _
    · have h1 := ghash_untouched n (.ref a) st.k (lapses_untouched hC hp.off st.k (hfree e))
      dsimp only
      rw [h1]
      exact osee (otill hC hp _) _
  | toString i =>
    simp only [busyStep, ownStep]
    rw [hp.env]
    rcases e : st'.env[i]? with _ | (_ | m | s | a)
    · exact ofail hp _
    · exact ofail hp _
    · exact ofail hp _
    · exact ofail hp _
    · have h1 := gtoStr_untouched flt n (.ref a) st.k (lapses_untouched hC hp.off st.k (hfree e))
      dsimp only
      rw [h1]
      exact osee (otill hC hp _) _

theorem orun (w : World) (flt : Num → JStr) (n : Nat) (p : List Sight → OwnOp) : ∀ (m : Nat) {st : BusySt} {st' : OwnSt}, OPair S N P st st' →
    (∀ j, j < m → HListsFit (ownRun w flt n p j st').h) → OPair S N P (busyRun w flt o n p m st) (ownRun w flt n p m st')
  | 0, _, _, hp, _ => hp
  | m + 1, st, st', hp, hf => by
    simp only [busyRun, ownRun]
    rw [hp.log]
    exact orun w flt n p m (ostep hC w flt n _ hp (hf 0 (by omega))) fun j hj => hf (j + 1) (by omega)
end

theorem confined_away {h : Heap} {xs : List HVal} {o : Acts} (ho : AwayFrom h xs o) {P : Heap → Prop}
    (hP : ∀ g g', (∀ q, ¬ MineAll h xs q → g'[q]? = g[q]?) → P g → P g') (hs : ∀ k g, P g → P (o k g)) :
    Confined (fun q => ¬ MineAll h xs q) h.length P o where
  below _ ha := Nat.lt_of_not_le fun hge => ha (.inr hge)
  len k g := (ho k g).1
  same k g a ha := (ho k g).2 a (Classical.not_not.1 ha)
  stable := hs
  depends g g' hq := hP g g' hq

theorem opair_start {h : Heap} {xs : List HVal} {P : Heap → Prop} (hP : P h) (k : Nat) (l : List Sight) :
    OPair (fun q => ¬ MineAll h xs q) h.length P ⟨h, k, xs, l⟩ ⟨h, xs, l⟩ where
  env := rfl
  log := rfl
  free y hy q e hn := hn (.inl ⟨y, hy, by subst e; exact .here q⟩)
  off :=
    { big := Nat.le_refl _
      len := rfl
      same := fun _ _ => rfl
      closed := fun a ob ha hob y hy q e => by
        subst e
        rcases Classical.not_not.1 ha with ⟨x, hx, hr⟩ | hge
        · exact fun hn => hn (.inl ⟨x, hx, reach_of_value hr hob hy⟩)
        · have : a < h.length := (List.getElem?_eq_some_iff.1 hob).1
          omega
      about := hP }

end FinProto
