import Verif.Model.Startup
import Verif.Proofs.ConcurrentFactory
import Verif.Proofs.ConcurrentRegistry
/-
Threads and the initialisation of classes: the program as it runs, and the one in which all registries are filled before it starts.
-/
namespace FinProto

/-- The maps of factory `f` are the same. -/
def AgreeOn (f : Fac) (F G : Factories) : Prop := F.map f = G.map f ∧ (f = .sse_SseBinary → F.rev = G.rev)

theorem AgreeOn.refl (f : Fac) (F : Factories) : AgreeOn f F F := ⟨rfl, fun _ => rfl⟩
theorem AgreeOn.symm {f : Fac} {F G : Factories} (h : AgreeOn f F G) : AgreeOn f G F := ⟨h.1.symm, fun e => (h.2 e).symm⟩
theorem AgreeOn.trans {f : Fac} {F G H : Factories} (h : AgreeOn f F G) (h' : AgreeOn f G H) : AgreeOn f F H :=
  ⟨h.1.trans h'.1, fun e => (h.2 e).trans (h'.2 e)⟩

def InitOp.fac : InitOp → Fac
  | .put f _ _ => f
  | .type _ _ => .sse_SseBinary

theorem put_agree {f g : Fac} {F G : Factories} (k : Key) (v : Option Val) (h : AgreeOn f F G) : AgreeOn f (F.put g k v) (G.put g k v) := by
  refine ⟨?_, h.2⟩
  funext k'
  simp only [Factories.put]
  split
  · rfl
  · exact congrFun h.1 k'

theorem put_other {f g : Fac} (F : Factories) (k : Key) (v : Option Val) (hg : f ≠ g) : AgreeOn f (F.put g k v) F := by
  refine ⟨?_, fun _ => rfl⟩
  funext k'
  simp only [Factories.put]
  rw [if_neg fun h => hg h.1]

theorem op_agree {f : Fac} {F G : Factories} (o : InitOp) (h : AgreeOn f F G) : AgreeOn f (o.run F) (o.run G) := by
  cases o with
  | put g k v => exact put_agree k _ h
  | type c t =>
    refine ⟨h.1, fun e => ?_⟩
    funext c'
    simp only [InitOp.run]
    rw [h.2 e]

theorem op_other {f : Fac} (F : Factories) (o : InitOp) (h : f ≠ o.fac) : AgreeOn f (o.run F) F := by
  cases o with
  | put g k v => exact put_other F k _ h
  | type c t => exact ⟨rfl, fun e => absurd e h⟩

theorem ops_agree {f : Fac} (os : List InitOp) : ∀ {F G : Factories}, AgreeOn f F G → AgreeOn f (os.foldl InitOp.run F) (os.foldl InitOp.run G) := by
  induction os with
  | nil => intro F G h; exact h
  | cons o os ih => intro F G h; exact ih (op_agree o h)

theorem initOps_fac (f : Fac) : ∀ o ∈ initOps f, o.fac = f := by
  intro o ho
  unfold initOps at ho
  split at ho
  · next e =>
    subst e
    obtain ⟨r, _, hr⟩ := List.mem_flatMap.mp ho
    simp only [List.mem_cons, List.not_mem_nil, or_false] at hr
    rcases hr with rfl | rfl <;> rfl
  · obtain ⟨r, _, rfl⟩ := List.mem_map.mp ho
    rfl

/-- Running the static initialiser of `f` alone gives the maps of `f` all static initialisers together give. -/
theorem initOps_initial (f : Fac) : AgreeOn f ((initOps f).foldl InitOp.run .empty) Factories.initial := by
  have sse : ∀ (rs : List (Cls × SseMessageType × Cls)) (F G : Factories), AgreeOn .sse_SseBinary F G →
      AgreeOn .sse_SseBinary ((rs.flatMap fun r => [InitOp.put .sse_SseBinary (.int r.2.1.getValue) (fresh r.2.2), .type r.1 r.2.1.getValue]).foldl InitOp.run F)
        (rs.foldl (fun F r => F.registerSse r.1 r.2.1.getValue (some (fresh r.2.2))) G) := by
    intro rs
    induction rs with
    | nil => intro F G h; exact h
    | cons r rs ih =>
      intro F G h
      rw [List.flatMap_cons, List.foldl_append, List.foldl_cons]
      exact ih _ _ (op_agree (.type r.1 r.2.1.getValue) (op_agree (.put .sse_SseBinary (.int r.2.1.getValue) (fresh r.2.2)) h))
  have skip : ∀ (rs : List Reg) (F : Factories), AgreeOn .sse_SseBinary F
      (rs.foldl (fun F r => if r.fac = .sse_SseBinary then F else F.put r.fac r.key (some (fresh r.cls))) F) := by
    intro rs
    induction rs with
    | nil => intro F; exact .refl _ _
    | cons r rs ih =>
      intro F
      rw [List.foldl_cons]
      refine .trans ?_ (ih _)
      split
      · exact .refl _ _
      · next h => exact (put_other F r.key _ fun e => h e.symm).symm
  have others : ∀ (rs : List (Cls × SseMessageType × Cls)) (F : Factories), f ≠ .sse_SseBinary →
      AgreeOn f (rs.foldl (fun F r => F.registerSse r.1 r.2.1.getValue (some (fresh r.2.2))) F) F := by
    intro rs
    induction rs with
    | nil => intro F _; exact .refl _ _
    | cons r rs ih =>
      intro F hf
      rw [List.foldl_cons]
      refine (ih _ hf).trans ?_
      have h1 : AgreeOn f (F.registerSse r.1 r.2.1.getValue (some (fresh r.2.2))) (F.put .sse_SseBinary (.int r.2.1.getValue) (some (fresh r.2.2))) :=
        ⟨rfl, fun e => absurd e hf⟩
      exact h1.trans (put_other F _ _ hf)
  have plain : ∀ (rs : List Reg) (F G : Factories), f ≠ .sse_SseBinary → AgreeOn f F G →
      AgreeOn f (((rs.filter fun r => r.fac = f).map fun r => InitOp.put f r.key (fresh r.cls)).foldl InitOp.run F)
        (rs.foldl (fun F r => if r.fac = .sse_SseBinary then F else F.put r.fac r.key (some (fresh r.cls))) G) := by
    intro rs
    induction rs with
    | nil => intro F G _ h; exact h
    | cons r rs ih =>
      intro F G hf h
      by_cases hr : r.fac = f
      · have hf' : r.fac ≠ .sse_SseBinary := by rw [hr]; exact hf
        rw [List.filter_cons_of_pos (by simpa using hr), List.map_cons, List.foldl_cons, List.foldl_cons, if_neg hf', hr]
        exact ih _ _ hf (op_agree (.put f r.key (fresh r.cls)) h)
      · rw [List.filter_cons_of_neg (by simpa using hr), List.foldl_cons]
        refine ih _ _ hf (h.trans ?_)
        split
        · exact .refl _ _
        · exact (put_other G r.key _ fun e => hr e.symm).symm
  unfold initOps Factories.initial
  split
  · next e =>
    subst e
    exact sse _ _ _ (skip _ _)
  · next hf => exact (plain _ _ _ hf (.refl _ _)).trans (others _ _ hf).symm

/-! ### One step of a thread -/

/-- The factory thread `t` is at work on. -/
def FacThread.at? (t : FacThread) : Option Fac :=
  match t.mid, t.todo with
  | some _, _ => some .sse_SseBinary
  | none, [] => none
  | none, c :: _ => some c.fac

structure SameStep (f : Fac) (st e st' e' : FacSys) : Prop where
  thr : st'.thr = e'.thr
  log : st'.log = e'.log
  maps : AgreeOn f st'.maps e'.maps
  left : ∀ g, g ≠ f → AgreeOn g st'.maps st.maps
  right : ∀ g, g ≠ f → AgreeOn g e'.maps e.maps

theorem remove_agree {f : Fac} {F G : Factories} (k : Key) (h : AgreeOn f F G) :
    AgreeOn f (F.remove f k).1 (G.remove f k).1 ∧ (F.remove f k).2 = (G.remove f k).2 := by
  refine ⟨⟨?_, h.2⟩, ?_⟩
  · funext k'
    simp only [Factories.remove]
    split
    · rfl
    · exact congrFun h.1 k'
  · simp only [Factories.remove]
    rw [congrFun h.1 k]

theorem remove_other {f g : Fac} (F : Factories) (k : Key) (h : g ≠ f) : AgreeOn g (F.remove f k).1 F := by
  refine ⟨?_, fun _ => rfl⟩
  funext k'
  simp only [Factories.remove]
  rw [if_neg fun e => h e.1]

theorem same_step (st e : FacSys) (i : Nat) (f : Fac) (ht : st.thr = e.thr) (hl : st.log = e.log) (hf : (st.thr i).at? = some f)
    (hm : AgreeOn f st.maps e.maps) : SameStep f st e (st.step i) (e.step i) := by
  obtain ⟨F, thr, log⟩ := st
  obtain ⟨G, thr', log'⟩ := e
  dsimp only at ht hl hf hm
  subst ht
  subst hl
  unfold FacSys.step
  dsimp only
  unfold FacThread.at? at hf
  revert hf
  rcases (thr i).mid with _ | ⟨cls, t, s⟩
  · rcases (thr i).todo with _ | ⟨c, cs⟩
    · intro hf; cases hf
    · intro hf
      simp only [Option.some.injEq] at hf
      subst hf
      rcases c with (⟨g, k, s⟩ | ⟨cls, t, s⟩ | ⟨g, k⟩) | ⟨g, k⟩ | cls
      · exact ⟨rfl, rfl, put_agree k s hm, fun g' hg => put_other F k s hg, fun g' hg => put_other G k s hg⟩
      · exact ⟨rfl, rfl, put_agree _ s hm, fun g' hg => put_other F _ s hg, fun g' hg => put_other G _ s hg⟩
      · obtain ⟨h1, h2⟩ := remove_agree k hm
        refine ⟨rfl, ?_, h1, fun g' hg => remove_other F k hg, fun g' hg => remove_other G k hg⟩
        simp only [FacSys.begin, FacSys.next]
        rw [show (F.remove g k).2 = (G.remove g k).2 from h2]
      · refine ⟨rfl, ?_, hm, fun g' hg => .refl _ _, fun g' hg => .refl _ _⟩
        simp only [FacSys.begin, FacSys.next, Factories.create]
        rw [show F.map g k = G.map g k from congrFun hm.1 k]
      · refine ⟨rfl, ?_, hm, fun g' hg => .refl _ _, fun g' hg => .refl _ _⟩
        simp only [FacSys.begin, FacSys.next, Factories.getMsgType]
        rw [hm.2 rfl]
  · intro hf
    simp only [Option.some.injEq] at hf
    subst hf
    exact ⟨rfl, rfl, op_agree (.type cls t) hm, fun g hg => op_other F (.type cls t) hg, fun g hg => op_other G (.type cls t) hg⟩

/-! ### The simulation -/

/-- What is left of the static initialiser. -/
def FacStart.left (st : FacStart) (f : Fac) : List InitOp :=
  match st.cls f with
  | .fresh => initOps f
  | .running _ os => os
  | .ready => []

def ClassState.isReady {α : Type} : ClassState α → Bool | .ready => true | _ => false

/-- The thread that initialises class `f`, if there is one. -/
def ClassState.by? {α : Type} : ClassState α → Option Nat | .running j _ => some j | _ => none

structure StartSim (st : FacStart) (e : FacSys) : Prop where
  thr : st.sys.thr = e.thr
  log : st.sys.log = e.log
  maps : ∀ f, AgreeOn f ((st.left f).foldl InitOp.run st.sys.maps) e.maps
  ops : ∀ f, ∀ o ∈ st.left f, o.fac = f
  mid : ∀ i, (st.sys.thr i).mid ≠ none → st.cls .sse_SseBinary = .ready
  own : ∀ f j, (st.cls f).by? = some j → (st.sys.thr j).mid = none ∧ ∃ c cs, (st.sys.thr j).todo = c :: cs ∧ c.fac = f

theorem left_setCls (st : FacStart) (f g : Fac) (s : ClassState InitOp) : (st.setCls f s).left g =
    if g = f then (match s with | .fresh => initOps f | .running _ os => os | .ready => []) else st.left g := by
  unfold FacStart.left FacStart.setCls
  dsimp only
  by_cases h : g = f
  · subst h; simp only [if_true]
  · simp only [if_neg h]

theorem start_sim (prog : Nat → List FacCall) : StartSim (.start prog) (.start Factories.initial prog) :=
  ⟨rfl, rfl, fun f => initOps_initial f, fun f => initOps_fac f, fun i h => absurd rfl h, fun f j h => by cases h⟩

/-- Progress: what thread `i` does with its next step. -/
inductive Kind (st : FacStart) (i : Nat) : Prop
  | idle : (st.sys.thr i).at? = none → st.step i = st → Kind st i
  | waits (f : Fac) (j : Nat) : (st.sys.thr i).at? = some f → (st.cls f).by? = some j → j ≠ i → st.step i = st → Kind st i
  | begins (f : Fac) : (st.sys.thr i).at? = some f → (st.sys.thr i).mid = none → st.cls f = .fresh → st.step i = st.setCls f (.running i (initOps f)) → Kind st i
  | inits (f : Fac) (o : InitOp) (os : List InitOp) : (st.sys.thr i).at? = some f → (st.sys.thr i).mid = none → st.cls f = .running i (o :: os) →
      st.step i = { st with sys := { st.sys with maps := o.run st.sys.maps } }.setCls f (.running i os) → Kind st i
  | ends (f : Fac) : (st.sys.thr i).at? = some f → (st.sys.thr i).mid = none → st.cls f = .running i [] → st.step i = st.setCls f .ready → Kind st i
  | acts (f : Fac) : (st.sys.thr i).at? = some f → st.cls f = .ready → st.step i = { st with sys := st.sys.step i } → Kind st i

theorem kind {st : FacStart} {e : FacSys} (h : StartSim st e) (i : Nat) : Kind st i := by
  have hmid := h.mid i
  obtain ⟨t, et⟩ : ∃ t, t = st.sys.thr i := ⟨_, rfl⟩
  have hstep : st.step i = st.step i := rfl
  conv at hstep => rhs; unfold FacStart.step
  rw [← et] at hstep hmid
  obtain ⟨todo, mid⟩ := t
  have hat : (st.sys.thr i).at? = (⟨todo, mid⟩ : FacThread).at? := by rw [et]
  have hm : (st.sys.thr i).mid = mid := by rw [← et]
  rcases mid with _ | m
  · rcases todo with _ | ⟨c, cs⟩
    · exact .idle hat hstep
    · dsimp only at hstep
      have hat' : (st.sys.thr i).at? = some c.fac := hat
      rcases hc : st.cls c.fac with _ | ⟨j, os⟩ | _
      · rw [hc] at hstep; exact .begins _ hat' hm hc hstep
      · rw [hc] at hstep
        dsimp only at hstep
        by_cases hj : j = i
        · subst hj
          rw [if_pos rfl] at hstep
          rcases os with _ | ⟨o, os⟩
          · exact .ends _ hat' hm hc hstep
          · exact .inits _ o os hat' hm hc hstep
        · rw [if_neg hj] at hstep
          exact .waits _ j hat' (by rw [hc]; rfl) hj hstep
      · rw [hc] at hstep; exact .acts _ hat' hc hstep
  · exact .acts _ hat (hmid (by simp)) hstep

theorem at_todo {t : FacThread} {f : Fac} (h : t.at? = some f) (hm : t.mid = none) : ∃ c cs, t.todo = c :: cs ∧ c.fac = f := by
  obtain ⟨todo, mid⟩ := t
  dsimp only at hm
  subst hm
  rcases todo with _ | ⟨c, cs⟩
  · cases h
  · simp only [FacThread.at?, Option.some.injEq] at h
    exact ⟨c, cs, rfl, h⟩

theorem facStep_thr_ne (st : FacSys) (i j : Nat) (h : j ≠ i) : (st.step i).thr j = st.thr j := by
  unfold FacSys.step
  split
  · simp [FacSys.next, h]
  · rfl
  · unfold FacSys.begin
    split <;> simp [FacSys.next, h]

/-- After a step a thread is in the middle of a call only if it is at work on the SSE factory. -/
theorem facStep_mid (st : FacSys) (i : Nat) (f : Fac) (hat : (st.thr i).at? = some f) (hmid : ((st.step i).thr i).mid ≠ none) : f = .sse_SseBinary := by
  unfold FacThread.at? at hat
  unfold FacSys.step at hmid
  revert hat hmid
  rcases (st.thr i).mid with _ | ⟨cls, t, s⟩
  · rcases (st.thr i).todo with _ | ⟨c, cs⟩
    · intro h; cases h
    · rcases c with (⟨g, k, s⟩ | ⟨cls, t, s⟩ | ⟨g, k⟩) | ⟨g, k⟩ | cls
      · intro _ h; simp [FacSys.begin, FacSys.next] at h
      · intro h _; simpa [FacCall.fac] using h.symm
      · intro _ h; simp [FacSys.begin, FacSys.next] at h
      · intro _ h; simp [FacSys.begin, FacSys.next] at h
      · intro _ h; simp [FacSys.begin, FacSys.next] at h
  · intro h _; simpa using h.symm

theorem sim_step {st : FacStart} {e : FacSys} (h : StartSim st e) (i : Nat) : StartSim (st.step i) e ∨ StartSim (st.step i) (e.step i) := by
  rcases kind h i with ⟨_, hs⟩ | ⟨f, j, _, _, _, hs⟩ | ⟨f, hat, hm, hc, hs⟩ | ⟨f, o, os, hat, hm, hc, hs⟩ | ⟨f, hat, hm, hc, hs⟩ | ⟨f, hat, hc, hs⟩
  · rw [hs]; exact .inl h
  · rw [hs]; exact .inl h
  · left
    rw [hs]
    have hleft : ∀ g, (st.setCls f (.running i (initOps f))).left g = st.left g := by
      intro g
      rw [left_setCls]
      split
      · next e => subst e; simp only [FacStart.left, hc]
      · rfl
    refine ⟨h.thr, h.log, fun g => by rw [hleft]; exact h.maps g, fun g => by rw [hleft]; exact h.ops g, fun k hk => ?_, fun g j hj => ?_⟩
    · have := h.mid k hk
      simp only [FacStart.setCls]
      rw [if_neg (by rintro rfl; rw [hc] at this; cases this)]
      exact this
    · simp only [FacStart.setCls] at hj
      by_cases hg : g = f
      · subst hg
        rw [if_pos rfl] at hj
        cases hj
        exact ⟨hm, at_todo hat hm⟩
      · rw [if_neg hg] at hj
        exact h.own g j hj
  · left
    rw [hs]
    have hl : st.left f = o :: os := by simp only [FacStart.left, hc]
    have hof : o.fac = f := h.ops f o (by rw [hl]; exact List.mem_cons_self ..)
    have hleft : ∀ g, (FacStart.setCls { st with sys := { st.sys with maps := o.run st.sys.maps } } f (.running i os)).left g = if g = f then os else st.left g := by
      intro g
      rw [left_setCls]
      rfl
    refine ⟨h.thr, h.log, fun g => ?_, fun g => ?_, fun k hk => ?_, fun g j hj => ?_⟩
    · rw [hleft]
      by_cases hg : g = f
      · subst hg
        rw [if_pos rfl]
        have := h.maps g
        rw [hl] at this
        exact this
      · rw [if_neg hg]
        exact (ops_agree _ (op_other _ o (by rw [hof]; exact hg))).trans (h.maps g)
    · rw [hleft]
      by_cases hg : g = f
      · subst hg
        rw [if_pos rfl]
        exact fun o' ho => h.ops g o' (by rw [hl]; exact List.mem_cons_of_mem _ ho)
      · rw [if_neg hg]; exact h.ops g
    · have := h.mid k hk
      simp only [FacStart.setCls]
      rw [if_neg (by rintro rfl; rw [hc] at this; cases this)]
      exact this
    · simp only [FacStart.setCls] at hj
      by_cases hg : g = f
      · subst hg
        rw [if_pos rfl] at hj
        cases hj
        exact ⟨hm, at_todo hat hm⟩
      · rw [if_neg hg] at hj
        exact h.own g j hj
  · left
    rw [hs]
    have hleft : ∀ g, (st.setCls f .ready).left g = st.left g := by
      intro g
      rw [left_setCls]
      split
      · next e => subst e; simp only [FacStart.left, hc]
      · rfl
    refine ⟨h.thr, h.log, fun g => by rw [hleft]; exact h.maps g, fun g => by rw [hleft]; exact h.ops g, fun k hk => ?_, fun g j hj => ?_⟩
    · have := h.mid k hk
      simp only [FacStart.setCls]
      split
      · rfl
      · exact this
    · simp only [FacStart.setCls] at hj
      by_cases hg : g = f
      · subst hg
        rw [if_pos rfl] at hj
        cases hj
      · rw [if_neg hg] at hj
        exact h.own g j hj
  · right
    rw [hs]
    have hl : st.left f = [] := by simp only [FacStart.left, hc]
    have hm : AgreeOn f st.sys.maps e.maps := by
      have := h.maps f
      rw [hl] at this
      exact this
    have hstep := same_step st.sys e i f h.thr h.log hat hm
    have hleft : ∀ g, FacStart.left { st with sys := st.sys.step i } g = st.left g := fun g => rfl
    refine ⟨hstep.thr, hstep.log, fun g => ?_, fun g => h.ops g, fun k hk => ?_, fun g j hj => ?_⟩
    · rw [hleft]
      by_cases hg : g = f
      · subst hg; rw [hl]; exact hstep.maps
      · exact ((ops_agree _ (hstep.left g hg)).trans (h.maps g)).trans (hstep.right g hg).symm
    · by_cases hki : k = i
      · subst hki
        have := facStep_mid st.sys k f hat hk
        subst this
        exact hc
      · have hk' : ((st.sys.step i).thr k).mid ≠ none := hk
        rw [facStep_thr_ne st.sys i k hki] at hk'
        exact h.mid k hk'
    · obtain ⟨h1, c, cs, h2, h3⟩ := h.own g j hj
      have hji : j ≠ i := by
        rintro rfl
        have : (st.sys.thr j).at? = some g := by
          unfold FacThread.at?
          rw [h1, h2]
          simp only [h3]
        rw [hat] at this
        cases this
        rw [hc] at hj
        cases hj
      have : ((st.sys.step i).thr j) = st.sys.thr j := facStep_thr_ne st.sys i j hji
      exact ⟨by rw [this]; exact h1, c, cs, by rw [this]; exact h2, h3⟩

theorem sim_run (sched : List Nat) : ∀ {st : FacStart} {e : FacSys}, StartSim st e →
    ∃ sched', sched'.Sublist sched ∧ StartSim (st.run sched) (e.run sched') := by
  induction sched with
  | nil => intro st e h; exact ⟨[], List.Sublist.refl _, h⟩
  | cons i sched ih =>
    intro st e h
    rcases sim_step h i with h1 | h1
    · obtain ⟨s, h2, h3⟩ := ih h1
      exact ⟨s, h2.cons _, h3⟩
    · obtain ⟨s, h2, h3⟩ := ih h1
      exact ⟨i :: s, h2.cons_cons _, h3⟩

/-! ### Every thread gets to the end -/

def ClassState.weight (f : Fac) : ClassState InitOp → Nat
  | .fresh => (initOps f).length + 2
  | .running _ os => os.length + 1
  | .ready => 0

def FacThread.load (t : FacThread) : Nat := 2 * t.todo.length + t.mid.toList.length

/-- What threads `0 .. T-1` and the initialisers still have to do. -/
def FacStart.load (st : FacStart) (T : Nat) : Nat :=
  (allFac.map fun f => (st.cls f).weight f).sum + ((List.range T).map fun i => (st.sys.thr i).load).sum

theorem sum_le {α : Type} (xs : List α) (a b : α → Nat) (h : ∀ x ∈ xs, a x ≤ b x) : (xs.map a).sum ≤ (xs.map b).sum := by
  induction xs with
  | nil => exact Nat.le_refl _
  | cons x xs ih =>
    have h1 := h x (List.mem_cons_self ..)
    have h2 := ih fun y hy => h y (List.mem_cons_of_mem _ hy)
    simp only [List.map_cons, List.sum_cons]
    omega

theorem sum_lt {α : Type} (xs : List α) (a b : α → Nat) (h : ∀ x ∈ xs, a x ≤ b x) (x : α) (hx : x ∈ xs) (hlt : a x < b x) :
    (xs.map a).sum < (xs.map b).sum := by
  induction xs with
  | nil => cases hx
  | cons y ys ih =>
    simp only [List.map_cons, List.sum_cons]
    have h1 := h y (List.mem_cons_self ..)
    rcases List.mem_cons.mp hx with e | hx
    · have h2 := sum_le ys a b fun z hz => h z (List.mem_cons_of_mem _ hz)
      subst e
      omega
    · have h2 := ih (fun z hz => h z (List.mem_cons_of_mem _ hz)) hx
      omega

theorem load_cls {st st' : FacStart} {T : Nat} (f : Fac) (ht : st'.sys.thr = st.sys.thr) (ho : ∀ g, g ≠ f → st'.cls g = st.cls g)
    (hlt : (st'.cls f).weight f < (st.cls f).weight f) : st'.load T < st.load T := by
  unfold FacStart.load
  rw [ht]
  have := sum_lt allFac (fun g => (st'.cls g).weight g) (fun g => (st.cls g).weight g) (fun g _ => ?_) f (fac_mem f) hlt
  · omega
  · by_cases hg : g = f
    · subst hg; exact Nat.le_of_lt hlt
    · simp only [ho g hg]; exact Nat.le_refl _

theorem load_thr (s : FacSys) (i : Nat) (f : Fac) (h : (s.thr i).at? = some f) : ((s.step i).thr i).load < (s.thr i).load := by
  unfold FacThread.at? at h
  unfold FacSys.step FacThread.load
  revert h
  rcases (s.thr i).mid with _ | ⟨cls, t, s'⟩
  · rcases (s.thr i).todo with _ | ⟨c, cs⟩
    · intro h; cases h
    · intro _
      rcases c with (⟨g, k, s⟩ | ⟨cls, t, s⟩ | ⟨g, k⟩) | ⟨g, k⟩ | cls <;> simp [FacSys.begin, FacSys.next] <;> omega
  · intro _
    simp [FacSys.next]

/-- A step changes nothing, or there is less to do afterwards; a thread that is not at the end and does nothing waits for one that can go on. -/
theorem load_step {st : FacStart} {e : FacSys} (h : StartSim st e) {T : Nat} (hT : ∀ i, T ≤ i → (st.sys.thr i).at? = none) (i : Nat) :
    st.step i = st ∨ (st.step i).load T < st.load T := by
  have hi : ∀ f, (st.sys.thr i).at? = some f → i < T := by
    intro f hf
    by_cases hlt : i < T
    · exact hlt
    · rw [hT i (by omega)] at hf; cases hf
  rcases kind h i with ⟨_, hs⟩ | ⟨f, j, _, _, _, hs⟩ | ⟨f, hat, hm, hc, hs⟩ | ⟨f, o, os, hat, hm, hc, hs⟩ | ⟨f, hat, hm, hc, hs⟩ | ⟨f, hat, hc, hs⟩
  · exact .inl hs
  · exact .inl hs
  · right
    rw [hs]
    refine load_cls f rfl (fun g hg => by simp [FacStart.setCls, hg]) ?_
    rw [hc]
    simp [FacStart.setCls, ClassState.weight]
  · right
    rw [hs]
    refine load_cls f rfl (fun g hg => by simp [FacStart.setCls, hg]) ?_
    rw [hc]
    simp [FacStart.setCls, ClassState.weight]
  · right
    rw [hs]
    refine load_cls f rfl (fun g hg => by simp [FacStart.setCls, hg]) ?_
    rw [hc]
    simp [FacStart.setCls, ClassState.weight]
  · right
    rw [hs]
    unfold FacStart.load
    have := sum_lt (List.range T) (fun k => ((st.sys.step i).thr k).load) (fun k => (st.sys.thr k).load) (fun k _ => ?_) i
      (List.mem_range.mpr (hi f hat)) (load_thr st.sys i f hat)
    · show _ + _ < _
      dsimp only at this ⊢
      omega
    · by_cases hk : k = i
      · subst hk; exact Nat.le_of_lt (load_thr st.sys k f hat)
      · simp only [facStep_thr_ne st.sys i k hk]; exact Nat.le_refl _

theorem stuck {st : FacStart} {e : FacSys} (h : StartSim st e) (i : Nat) (f : Fac) (hat : (st.sys.thr i).at? = some f) (hs : st.step i = st) :
    ∃ j, st.step j ≠ st ∧ (st.sys.thr j).at? ≠ none := by
  have nothing : ∀ {T : Nat}, st.load T < st.load T → False := fun h => Nat.lt_irrefl _ h
  have go : ∀ j g, (st.cls g).by? = some j → st.step j ≠ st ∧ (st.sys.thr j).at? ≠ none := by
    intro j g hj
    obtain ⟨h1, c, cs, h2, h3⟩ := h.own g j hj
    have hat : (st.sys.thr j).at? = some g := by
      unfold FacThread.at?
      rw [h1, h2]
      simp only [h3]
    refine ⟨fun he => ?_, by rw [hat]; simp⟩
    have hcls : ∀ s : ClassState InitOp, (∀ os, st.cls g = .running j os → s ≠ .running j os) → (st.setCls g s).cls g ≠ st.cls g := by
      intro s hs hh
      rcases hc : st.cls g with _ | ⟨k, os⟩ | _
      · rw [hc] at hj; cases hj
      · rw [hc] at hj
        cases hj
        refine hs os hc ?_
        rw [← hc, ← hh]
        simp [FacStart.setCls]
      · rw [hc] at hj; cases hj
    rcases kind h j with ⟨ha, _⟩ | ⟨f', k, ha, hb, hk, _⟩ | ⟨f', ha, _, hc, hs⟩ | ⟨f', o, os, ha, _, hc, hs⟩ | ⟨f', ha, _, hc, hs⟩ | ⟨f', ha, hc, hs⟩
    · rw [hat] at ha; cases ha
    · rw [hat] at ha
      cases ha
      rw [hj] at hb
      cases hb
      exact hk rfl
    · rw [hat] at ha; cases ha; rw [hc] at hj; cases hj
    · rw [hat] at ha
      cases ha
      rw [hs] at he
      have := congrArg (fun s => s.cls g) he
      simp only [FacStart.setCls, if_true, hc] at this
      injection this with _ h5
      exact absurd (congrArg List.length h5) (by simp)
    · rw [hat] at ha
      cases ha
      rw [hs] at he
      have := congrArg (fun s => s.cls g) he
      simp only [FacStart.setCls, if_true, hc] at this
      cases this
    · rw [hat] at ha; cases ha; rw [hc] at hj; cases hj
  rcases kind h i with ⟨ha, _⟩ | ⟨f', j, ha, hb, hk, _⟩ | ⟨f', ha, _, hc, hs'⟩ | ⟨f', o, os, ha, _, hc, hs'⟩ | ⟨f', ha, _, hc, hs'⟩ | ⟨f', ha, hc, hs'⟩
  · rw [hat] at ha; cases ha
  · exact ⟨j, go j f' hb⟩
  · rw [hs'] at hs
    have := congrArg (fun s => s.cls f') hs
    simp only [FacStart.setCls, if_true, hc] at this
    cases this
  · exact ⟨i, go i f' (by rw [hc]; rfl)⟩
  · exact ⟨i, go i f' (by rw [hc]; rfl)⟩
  · rw [hs'] at hs
    have h1 := congrArg (fun s => (s.sys.thr i).load) hs
    have h2 := load_thr st.sys i f' ha
    dsimp only at h1
    omega

theorem idle_step {st : FacStart} {e : FacSys} (h : StartSim st e) {T : Nat} (hT : ∀ i, T ≤ i → (st.sys.thr i).at? = none) (i k : Nat)
    (hk : T ≤ k) : ((st.step i).sys.thr k).at? = none := by
  have same : (st.step i).sys.thr = st.sys.thr → ((st.step i).sys.thr k).at? = none := fun e => by rw [e]; exact hT k hk
  rcases kind h i with ⟨_, hs⟩ | ⟨f, j, _, _, _, hs⟩ | ⟨f, hat, hm, hc, hs⟩ | ⟨f, o, os, hat, hm, hc, hs⟩ | ⟨f, hat, hm, hc, hs⟩ | ⟨f, hat, hc, hs⟩
  · exact same (by rw [hs])
  · exact same (by rw [hs])
  · exact same (by rw [hs]; rfl)
  · exact same (by rw [hs]; rfl)
  · exact same (by rw [hs]; rfl)
  · rw [hs]
    have hne : k ≠ i := by rintro rfl; rw [hT k hk] at hat; cases hat
    show ((st.sys.step i).thr k).at? = none
    rw [facStep_thr_ne st.sys i k hne]
    exact hT k hk

/-- One round: every thread below `T` gets a step (in any order, others too). -/
theorem round_load (T : Nat) (round : List Nat) : ∀ {st : FacStart} {e : FacSys}, StartSim st e → (∀ i, T ≤ i → (st.sys.thr i).at? = none) →
    (∃ e', StartSim (st.run round) e') ∧ (∀ i, T ≤ i → ((st.run round).sys.thr i).at? = none)
      ∧ (st.run round).load T ≤ st.load T ∧ ((∀ i ∈ round, st.step i = st) ∨ (st.run round).load T < st.load T) := by
  induction round with
  | nil => intro st e h hT; exact ⟨⟨e, h⟩, hT, Nat.le_refl _, .inl fun i hi => by cases hi⟩
  | cons i round ih =>
    intro st e h hT
    have hidle : ∀ k, T ≤ k → ((st.step i).sys.thr k).at? = none := fun k hk => idle_step h hT i k hk
    have hsim : ∃ e', StartSim (st.step i) e' := by
      rcases sim_step h i with h1 | h1
      · exact ⟨_, h1⟩
      · exact ⟨_, h1⟩
    obtain ⟨e', h'⟩ := hsim
    obtain ⟨g1, g2, g3, g4⟩ := ih h' hidle
    have hrun : st.run (i :: round) = (st.step i).run round := rfl
    rw [hrun]
    refine ⟨g1, g2, ?_, ?_⟩
    · rcases load_step h hT i with h1 | h1
      · rw [h1] at g3 ⊢; exact g3
      · omega
    · rcases load_step h hT i with h1 | h1
      · rw [h1] at g4 ⊢
        rcases g4 with g4 | g4
        · left
          intro k hk
          rcases List.mem_cons.mp hk with rfl | hk
          · exact h1
          · exact g4 k hk
        · exact .inr g4
      · exact .inr (by omega)

theorem rounds_finish (T : Nat) (rounds : List (List Nat)) : ∀ {st : FacStart} {e : FacSys}, StartSim st e → (∀ i, T ≤ i → (st.sys.thr i).at? = none) →
    (∀ r ∈ rounds, ∀ i, i < T → i ∈ r) → st.load T < rounds.length → ∀ i, ((st.run rounds.flatten).sys.thr i).at? = none := by
  have still : ∀ (sched : List Nat) {st : FacStart} {e : FacSys}, StartSim st e → (∀ i, (st.sys.thr i).at? = none) → st.run sched = st := by
    intro sched
    induction sched with
    | nil => intro st e _ _; rfl
    | cons i sched ih =>
      intro st e h hn
      have : st.step i = st := by
        rcases kind h i with ⟨_, hs⟩ | ⟨f, j, ha, _⟩ | ⟨f, ha, _⟩ | ⟨f, o, os, ha, _⟩ | ⟨f, ha, _⟩ | ⟨f, ha, _⟩
        · exact hs
        all_goals rw [hn i] at ha; cases ha
      show (st.step i).run sched = st
      rw [this]
      exact ih h hn
  induction rounds with
  | nil => intro st e _ _ _ hlt; simp at hlt
  | cons r rounds ih =>
    intro st e h hT hr hlt i
    rw [List.flatten_cons]
    have happ : st.run (r ++ rounds.flatten) = (st.run r).run rounds.flatten := by simp only [FacStart.run, List.foldl_append]
    by_cases hn : ∀ i, (st.sys.thr i).at? = none
    · rw [still _ h hn]; exact hn i
    · obtain ⟨⟨e', g1⟩, g2, g3, g4⟩ := round_load T r h hT
      rw [happ]
      have hless : (st.run r).load T < st.load T := by
        rcases g4 with g4 | g4
        · exfalso
          obtain ⟨k, hk⟩ := Classical.not_forall.mp hn
          have hkT : k < T := by
            by_cases hlt : k < T
            · exact hlt
            · exact absurd (hT k (by omega)) hk
          obtain ⟨f, hf⟩ := Option.ne_none_iff_exists'.mp hk
          obtain ⟨j, h1, h2⟩ := stuck h k f hf (g4 k (hr r (List.mem_cons_self ..) k hkT))
          have hjT : j < T := by
            by_cases hlt : j < T
            · exact hlt
            · exact absurd (hT j (by omega)) h2
          exact h1 (g4 j (hr r (List.mem_cons_self ..) j hjT))
        · exact g4
      refine ih g1 g2 (fun r' hr' => hr r' (List.mem_cons_of_mem _ hr')) ?_ i
      simp only [List.length_cons] at hlt
      omega

/-! ### The checksum registry -/

def RegStart.left (st : RegStart) : List Service :=
  match st.cls with
  | .fresh => [crc16Service, crc32Service]
  | .running _ ss => ss
  | .ready => []

structure RegStartSim (st : RegStart) (e : RegSys) : Prop where
  thr : st.sys.thr = e.thr
  log : st.sys.log = e.log
  map : st.left.foldl (fun r s => (Registry.registry r s).1) st.sys.map = e.map
  mid : ∀ i, (st.sys.thr i).mid ≠ none → st.cls = .ready
  own : ∀ j, st.cls.by? = some j → (st.sys.thr j).todo ≠ []

theorem regStart_sim (prog : Nat → List RegCall) : RegStartSim (.start prog) (.start Registry.initial prog) :=
  ⟨rfl, rfl, rfl, fun _ h => absurd rfl h, fun _ h => by cases h⟩

theorem regSim_step {st : RegStart} {e : RegSys} (h : RegStartSim st e) (i : Nat) : RegStartSim (st.step i) e ∨ RegStartSim (st.step i) (e.step i) := by
  obtain ⟨sys, cls⟩ := st
  have hmid := h.mid
  have hown := h.own
  have act : cls = .ready → RegStartSim ⟨sys.step i, cls⟩ (e.step i) := by
    rintro rfl
    have hmap : sys.map = e.map := h.map
    have : sys = e := by
      obtain ⟨m, t, l⟩ := sys
      obtain ⟨m', t', l'⟩ := e
      have h1 : t = t' := h.thr
      have h2 : l = l' := h.log
      dsimp only at hmap
      subst h1; subst h2; subst hmap
      rfl
    subst this
    exact ⟨rfl, rfl, rfl, fun _ _ => rfl, fun _ h => by cases h⟩
  unfold RegStart.step
  dsimp only at hmid hown ⊢
  rcases hm : (sys.thr i).mid with _ | s
  · rcases ht : (sys.thr i).todo with _ | ⟨c, cs⟩
    · exact .inl h
    · dsimp only
      rcases cls with _ | ⟨j, ss⟩ | _
      · refine .inl ⟨h.thr, h.log, h.map, fun k hk => (by cases hmid k hk), fun j hj => ?_⟩
        cases hj
        show (sys.thr i).todo ≠ []
        rw [ht]; simp
      · dsimp only
        by_cases hj : j = i
        · rw [if_pos hj]
          rcases ss with _ | ⟨s, ss⟩
          · exact .inl ⟨h.thr, h.log, h.map, fun k hk => rfl, fun _ hj => by cases hj⟩
          · refine .inl ⟨h.thr, h.log, h.map, fun k hk => (by cases hmid k hk), fun j hj => ?_⟩
            cases hj
            show (sys.thr i).todo ≠ []
            rw [ht]; simp
        · rw [if_neg hj]; exact .inl h
      · exact .inr (act rfl)
  · exact .inr (act (hmid i (by rw [hm]; simp)))

theorem regSim_run (sched : List Nat) : ∀ {st : RegStart} {e : RegSys}, RegStartSim st e →
    ∃ sched', sched'.Sublist sched ∧ RegStartSim (st.run sched) (e.run sched') := by
  induction sched with
  | nil => intro st e h; exact ⟨[], List.Sublist.refl _, h⟩
  | cons i sched ih =>
    intro st e h
    rcases regSim_step h i with h1 | h1
    · obtain ⟨s, h2, h3⟩ := ih h1
      exact ⟨s, h2.cons _, h3⟩
    · obtain ⟨s, h2, h3⟩ := ih h1
      exact ⟨i :: s, h2.cons_cons _, h3⟩

/-- Rounds in which every thread below `T` gets a step, for any kind of system. -/
theorem rounds_done {σ : Type} (step : σ → Nat → σ) (load : σ → Nat) (Inv Done : σ → Prop) (T : Nat)
    (hinv : ∀ s i, Inv s → Inv (step s i)) (hload : ∀ s i, Inv s → step s i = s ∨ load (step s i) < load s)
    (hstuck : ∀ s, Inv s → (∀ i, i < T → step s i = s) → Done s) (hdone : ∀ s i, Done s → step s i = s) (rounds : List (List Nat)) :
    ∀ s, Inv s → (∀ r ∈ rounds, ∀ i, i < T → i ∈ r) → load s < rounds.length → Done (rounds.flatten.foldl step s) := by
  have one : ∀ (r : List Nat) s, Inv s → Inv (r.foldl step s) ∧ load (r.foldl step s) ≤ load s
      ∧ ((∀ i ∈ r, step s i = s) ∨ load (r.foldl step s) < load s) := by
    intro r
    induction r with
    | nil => intro s h; exact ⟨h, Nat.le_refl _, .inl fun i hi => by cases hi⟩
    | cons i r ih =>
      intro s h
      obtain ⟨g1, g2, g3⟩ := ih (step s i) (hinv s i h)
      simp only [List.foldl_cons]
      rcases hload s i h with e | e
      · rw [e] at g1 g2 g3 ⊢
        refine ⟨g1, g2, ?_⟩
        rcases g3 with g3 | g3
        · refine .inl fun k hk => ?_
          rcases List.mem_cons.mp hk with rfl | hk
          · exact e
          · exact g3 k hk
        · exact .inr g3
      · exact ⟨g1, by omega, .inr (by omega)⟩
  have still : ∀ (r : List Nat) s, Done s → r.foldl step s = s := by
    intro r
    induction r with
    | nil => intro s _; rfl
    | cons i r ih => intro s h; rw [List.foldl_cons, hdone s i h]; exact ih s h
  induction rounds with
  | nil => intro s _ _ h; simp at h
  | cons r rounds ih =>
    intro s h hr hlt
    rw [List.flatten_cons, List.foldl_append]
    obtain ⟨g1, g2, g3⟩ := one r s h
    rcases g3 with g3 | g3
    · have hd := hstuck s h fun i hi => g3 i (hr r (List.mem_cons_self ..) i hi)
      rw [still r s hd, still _ s hd]
      exact hd
    · refine ih _ g1 (fun r' hr' => hr r' (List.mem_cons_of_mem _ hr')) ?_
      simp only [List.length_cons] at hlt
      omega

def RegThread.load (t : RegThread) : Nat := 2 * t.todo.length + t.mid.toList.length

def RegStart.load (st : RegStart) (T : Nat) : Nat :=
  (match st.cls with | .fresh => 4 | .running _ ss => ss.length + 1 | .ready => 0) + ((List.range T).map fun i => (st.sys.thr i).load).sum

def RegThread.idle (t : RegThread) : Prop := t.mid = none ∧ t.todo = []

theorem regStep_thr_ne (s : RegSys) (i k : Nat) (h : k ≠ i) : (s.step i).thr k = s.thr k := by
  unfold RegSys.step
  split
  · simp [h]
  · rfl
  · next c cs _ _ =>
    cases c with
    | registry sv => simp only [RegSys.begin]; split <;> simp [h]
    | _ => simp [RegSys.begin, h]

theorem reg_load_thr (s : RegSys) (i : Nat) (h : ¬ (s.thr i).idle) : ((s.step i).thr i).load < (s.thr i).load := by
  unfold RegThread.idle at h
  unfold RegSys.step RegThread.load
  revert h
  rcases (s.thr i).mid with _ | sv
  · rcases (s.thr i).todo with _ | ⟨c, cs⟩
    · intro h; exact absurd ⟨rfl, rfl⟩ h
    · intro _
      cases c with
      | registry sv => simp only [RegSys.begin]; split <;> simp <;> omega
      | _ => simp [RegSys.begin] <;> omega
  · intro _
    simp

theorem reg_rounds (T : Nat) (prog : Nat → List RegCall) (hT : ∀ i, T ≤ i → prog i = []) (rounds : List (List Nat))
    (hr : ∀ r ∈ rounds, ∀ i, i < T → i ∈ r) (hlt : (RegStart.start prog).load T < rounds.length) :
    ∀ i, (((RegStart.start prog).run rounds.flatten).sys.thr i).idle := by
  refine rounds_done RegStart.step (RegStart.load · T) (fun st => (∃ e, RegStartSim st e) ∧ ∀ i, T ≤ i → (st.sys.thr i).idle)
    (fun st => ∀ i, (st.sys.thr i).idle) T ?_ ?_ ?_ ?_ rounds (.start prog) ⟨⟨_, regStart_sim prog⟩, fun i hi => ⟨rfl, hT i hi⟩⟩ hr hlt
  · rintro st i ⟨⟨e, h⟩, hT⟩
    refine ⟨?_, fun k hk => ?_⟩
    · rcases regSim_step h i with h1 | h1
      · exact ⟨_, h1⟩
      · exact ⟨_, h1⟩
    · by_cases hki : k = i
      · subst hki
        obtain ⟨h1, h2⟩ := hT k hk
        have : st.step k = st := by unfold RegStart.step; rw [h1, h2]
        rw [this]; exact hT k hk
      · have : (st.step i).sys.thr k = st.sys.thr k := by
          unfold RegStart.step
          split
          · exact regStep_thr_ne st.sys i k hki
          · rfl
          · split
            · exact regStep_thr_ne st.sys i k hki
            · rfl
            · split
              · split <;> rfl
              · rfl
        rw [this]; exact hT k hk
  · rintro st i ⟨⟨e, h⟩, hT⟩
    have thr : ¬ (st.sys.thr i).idle → ((List.range T).map fun k => ((st.sys.step i).thr k).load).sum < ((List.range T).map fun k => (st.sys.thr k).load).sum := by
      intro hi
      have hiT : i < T := by
        by_cases hlt : i < T
        · exact hlt
        · exact absurd (hT i (by omega)) hi
      refine sum_lt _ _ _ (fun k _ => ?_) i (List.mem_range.mpr hiT) (reg_load_thr st.sys i hi)
      by_cases hk : k = i
      · subst hk; exact Nat.le_of_lt (reg_load_thr st.sys k hi)
      · simp only [regStep_thr_ne st.sys i k hk]; exact Nat.le_refl _
    unfold RegStart.step RegStart.load
    rcases hm : (st.sys.thr i).mid with _ | sv
    · rcases ht : (st.sys.thr i).todo with _ | ⟨c, cs⟩
      · exact .inl rfl
      · have hni : ¬ (st.sys.thr i).idle := fun hi => by rw [hi.2] at ht; cases ht
        dsimp only
        rcases hc : st.cls with _ | ⟨j, ss⟩ | _
        · right; simp
        · dsimp only
          by_cases hj : j = i
          · rw [if_pos hj]
            rcases ss with _ | ⟨s, ss⟩
            · right; simp
            · right; simp
          · rw [if_neg hj]; exact .inl rfl
        · right
          have := thr hni
          dsimp only
          omega
    · right
      have := thr fun hi => by rw [hi.1] at hm; cases hm
      dsimp only
      omega
  · rintro st ⟨⟨e, h⟩, hT⟩ hs i
    by_cases hi : (st.sys.thr i).idle
    · exact hi
    · exfalso
      have below : ∀ k, ¬ (st.sys.thr k).idle → k < T := by
        intro k hk
        by_cases hlt : k < T
        · exact hlt
        · exact absurd (hT k (by omega)) hk
      have ready : ¬ st.cls = .ready := by
        intro hc
        have hst := hs i (below i hi)
        have : st.step i = { st with sys := st.sys.step i } := by
          unfold RegStart.step
          rcases hm : (st.sys.thr i).mid with _ | sv
          · rcases ht : (st.sys.thr i).todo with _ | ⟨c, cs⟩
            · exact absurd ⟨hm, ht⟩ hi
            · simp only [hc]
          · rfl
        rw [this] at hst
        have h1 := congrArg (fun s => (s.sys.thr i).load) hst
        have h2 := reg_load_thr st.sys i hi
        dsimp only at h1
        omega
      have hmid : ∀ k, (st.sys.thr k).mid = none := fun k => Classical.byContradiction fun hk => ready (h.mid k hk)
      have who : ∀ k, (st.sys.thr k).todo ≠ [] → (st.cls = .fresh ∨ st.cls.by? = some k) → False := by
        intro k hk hcase
        have hst := hs k (below k fun hi => hk hi.2)
        unfold RegStart.step at hst
        rw [hmid k] at hst
        rcases ht : (st.sys.thr k).todo with _ | ⟨c, cs⟩
        · exact hk ht
        · rw [ht] at hst
          dsimp only at hst
          rcases hc : st.cls with _ | ⟨j, ss⟩ | _
          · rw [hc] at hst
            have := congrArg RegStart.cls hst
            rw [hc] at this
            cases this
          · rw [hc] at hcase hst
            rcases hcase with hcase | hcase
            · cases hcase
            · cases hcase
              dsimp only at hst
              rw [if_pos rfl] at hst
              rcases ss with _ | ⟨s, ss⟩
              · have := congrArg RegStart.cls hst
                rw [hc] at this
                cases this
              · have := congrArg RegStart.cls hst
                rw [hc] at this
                injection this with _ h5
                exact absurd (congrArg List.length h5) (by simp)
          · exact ready hc
      have hti : (st.sys.thr i).todo ≠ [] := fun ht => hi ⟨hmid i, ht⟩
      rcases hc : st.cls with _ | ⟨j, ss⟩ | _
      · exact who i hti (.inl hc)
      · have hb : st.cls.by? = some j := by rw [hc]; rfl
        exact who j (h.own j hb) (.inr hb)
      · exact ready hc
  · intro st i hd
    obtain ⟨h1, h2⟩ := hd i
    unfold RegStart.step
    rw [h1, h2]

end FinProto
