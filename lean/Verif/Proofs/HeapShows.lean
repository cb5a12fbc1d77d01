import Verif.Proofs.ConcurrentHeap
import Verif.Proofs.HeapObjects
import Verif.Proofs.Retry
/-
What a message on the heap shows after `encode`, whichever parts it shares.
-/
namespace FinProto

/-! ### `encode` assigns fields of objects that can be reached only -/

theorem go_outside (w : World) (n : Nat) {P : Nat → Prop} : ∀ (k : Nat) (h : Heap) (t : HThread), ClosedUnder P h → Own P h t →
    ∀ q, ¬ P q → (HThread.go w n k (h, t)).1[q]? = h[q]?
  | 0, h, t, _, _, q, _ => rfl
  | k + 1, h, t, hcl, ho, q, hq => by
    obtain ⟨-, f2, f3⟩ := step_form w n hcl (fun _ _ => rfl) t ho
    have hcl' := f3.closed hcl
    have ho' : Own P (t.step w n h).1 (t.step w n h).2 := f2.chg f3.chg
    rw [HThread.go]
    rw [go_outside w n k _ _ hcl' ho' q hq]
    rcases f3 with ⟨e, -⟩ | ⟨r, c, f, m, hP, -, -, -, e, -⟩
    · rw [e]
    · rw [e]
      exact Heap.setField_ne _ _ _ _ _ (fun he => hq (he ▸ hP))

theorem hencode_outside (w : World) (n : Nat) (x : HVal) (h : Heap) (b : WBuf) (q : Nat) (hq : ¬ Reach h x q) :
    (hencode w n x h b).1[q]? = h[q]? := by
  obtain ⟨K, hK⟩ := go_hencode w n x h b
  have := (hK K).2 ((hK K).1 (Nat.le_refl K))
  rw [← this]
  refine go_outside w n K h _ (reach_closed h x) ?_ q hq
  refine enter_own n x (fun p hp => ?_) _ (fun a ha => by cases ha)
  rw [hp]
  exact .here p

theorem not_computed {w : World} {c : Cls} (hc : hasComputed c = false) (f : Nat) : computed w c f = false := by
  cases h : computed w c f with
  | false => rfl
  | true =>
    rw [computed, List.any_eq_true] at h
    obtain ⟨s, hs, ha⟩ := h
    rw [(computed_has hs ha).2] at hc
    cases hc

/-- Objects without computed fields are not changed. -/
theorem chg_plain {w : World} {h h' : Heap} (hc : Chg w h h') {q : Nat} {o : HObj} (hq : h[q]? = some o)
    (hp : ∀ c ys, o = .msg c ys → hasComputed c = false) : h'[q]? = h[q]? := by
  rw [hq]
  cases o with
  | arr ys => exact hc.2.1 q ys hq
  | msg c ys =>
    obtain ⟨ys', h1, h2, h3⟩ := hc.2.2 q c ys hq
    rw [h1]
    have : ys' = ys := List.ext_getElem? fun f => h3 f (not_computed (hp c ys rfl) f)
    rw [this]

theorem frameless_part {h : Heap} {v : Val} {r : Nat} {o : HObj} {y : HVal} (hs : Shows h v (.ref r)) (hf : frameless v = true)
    (hr : h[r]? = some o) : (∀ c ys, o = .msg c ys → hasComputed c = false) ∧ (y ∈ o.values → ∃ u, Shows h u y ∧ frameless u = true) := by
  have mem : ∀ (vs : List Val) (ys : List HVal), ShowsAll h vs ys → framelessList vs = true → y ∈ ys → ∃ u, Shows h u y ∧ frameless u = true := by
    intro vs
    induction vs with
    | nil => intro ys hs _ hy; rw [ShowsAll] at hs; subst hs; cases hy
    | cons v vs ih =>
      intro ys hs hf hy
      rw [ShowsAll] at hs
      obtain ⟨z, zs, rfl, h1, h2⟩ := hs
      simp only [framelessList, Bool.and_eq_true] at hf
      rcases List.mem_cons.mp hy with rfl | hy
      · exact ⟨v, h1, hf.1⟩
      · exact ih zs h2 hf.2 hy
  cases v with
  | list xs =>
    rw [Shows] at hs
    obtain ⟨a, ys, e, ha, hall⟩ := hs
    cases e
    rw [hr] at ha
    cases ha
    exact ⟨fun c zs e => (by cases e), fun hy => mem xs ys hall (by simpa [frameless] using hf) hy⟩
  | obj c xs =>
    rw [Shows] at hs
    obtain ⟨a, ys, e, ha, hall⟩ := hs
    cases e
    rw [hr] at ha
    cases ha
    simp only [frameless, Bool.and_eq_true, Bool.not_eq_true'] at hf
    exact ⟨fun c zs e => by cases e; exact hf.1, fun hy => mem xs ys hall hf.2 hy⟩
  | _ => simp [Shows] at hs

/-- Nothing of a message without frames is changed by any `encode`. -/
theorem frameless_reach {w : World} {h h' : Heap} (hc : Chg w h h') {x : HVal} {q : Nat} (hr : Reach h x q) :
    ∀ v, Shows h v x → frameless v = true → h'[q]? = h[q]? := by
  induction hr with
  | here r =>
    intro v hs hf
    cases hr : h[r]? with
    | none =>
      have : h'.length ≤ r := by rw [hc.1]; exact List.getElem?_eq_none_iff.mp hr
      exact List.getElem?_eq_none_iff.mpr this
    | some o =>
      rw [← hr]
      exact chg_plain hc hr (frameless_part (y := .null) hs hf hr).1
  | step r q o y ho hy _ ih =>
    intro v hs hf
    obtain ⟨u, h1, h2⟩ := (frameless_part hs hf ho).2 hy
    exact ih u h1 h2

theorem frameless_refs {w : World} {h h' : Heap} (hc : Chg w h h') {v : Val} {x : HVal} (hs : Shows h v x) (hf : frameless v = true) :
    ∀ q ∈ refs h v x, h'[q]? = h[q]? := fun q hq => frameless_reach hc ((refs_iff_reach h v x hs q).mp hq) v hs hf

/-- Encoding a message without frames changes nothing at all. -/
theorem hencode_frameless (w : World) (n : Nat) (v : Val) (x : HVal) (h : Heap) (b : WBuf) (hs : Shows h v x) (hf : frameless v = true) :
    (hencode w n x h b).1 = h := by
  refine List.ext_getElem? fun q => ?_
  by_cases hq : Reach h x q
  · exact frameless_reach (hencode_chg w n x h b) hq v hs hf
  · exact hencode_outside w n x h b q hq

/-! ### Fields -/

theorem ShowsAll_iff (h : Heap) : ∀ (vs : List Val) (ys : List HVal), ShowsAll h vs ys ↔
    vs.length = ys.length ∧ ∀ (f : Nat) (v : Val) (y : HVal), vs[f]? = some v → ys[f]? = some y → Shows h v y
  | [], ys => by
    rw [ShowsAll]
    constructor
    · rintro rfl; exact ⟨rfl, fun f v y hv => by simp at hv⟩
    · rintro ⟨hl, -⟩
      exact List.eq_nil_of_length_eq_zero (by simpa using hl.symm)
  | v :: vs, [] => by
    rw [ShowsAll]
    constructor
    · rintro ⟨z, zs, e, -⟩; cases e
    · rintro ⟨hl, -⟩; simp at hl
  | v :: vs, y :: ys => by
    rw [ShowsAll_cons, ShowsAll_iff h vs ys]
    constructor
    · rintro ⟨h1, h2, h3⟩
      refine ⟨by simp [h2], fun f u z hu hz => ?_⟩
      cases f with
      | zero => simp only [List.getElem?_cons_zero, Option.some.injEq] at hu hz; subst hu; subst hz; exact h1
      | succ f => simp only [List.getElem?_cons_succ] at hu hz; exact h3 f u z hu hz
    · rintro ⟨hl, h3⟩
      exact ⟨h3 0 v y rfl rfl, by simpa using hl, fun f u z hu hz => h3 (f + 1) u z (by simpa using hu) (by simpa using hz)⟩

/-- A field is replaced, or the message in it has changed; what the other fields show is not touched. -/
theorem shows_update {h h' : Heap} {c : Cls} {fs : List Val} {r f : Nat} {ys : List HVal}
    (hall : ShowsAll h fs ys) {v' : Val} {y' : HVal} (hr' : h'[r]? = some (.msg c (ys.set f y'))) (hv : f < ys.length → Shows h' v' y')
    (hrest : ∀ g u z, g ≠ f → fs[g]? = some u → ys[g]? = some z → ∀ q ∈ refs h u z, h'[q]? = h[q]?) :
    Shows h' (.obj c (fs.set f v')) (.ref r) := by
  rw [ShowsAll_iff] at hall
  rw [Shows]
  refine ⟨r, _, rfl, hr', ?_⟩
  rw [ShowsAll_iff]
  refine ⟨by simp [hall.1], fun g u z hu hz => ?_⟩
  by_cases hg : g = f
  · subst hg
    have hlt : g < ys.length := by
      have := (List.getElem?_eq_some_iff.mp hz).1
      simpa using this
    rw [List.getElem?_set_self hlt] at hz
    rw [List.getElem?_set_self (by rw [hall.1]; exact hlt)] at hu
    cases hu; cases hz
    exact hv hlt
  · rw [List.getElem?_set_ne (Ne.symm hg)] at hu hz
    exact (shows_frame h h' u z (hall.2 g u z hu hz) (hrest g u z hg hu hz)).1

theorem sizeOf_list (xs : List Val) (u : Val) (hu : u ∈ xs) (c : Cls) : sizeOf u < sizeOf (Val.obj c xs) := by
  have := List.sizeOf_lt_of_mem hu
  simp only [Val.obj.sizeOf_spec]
  omega

theorem reach_value {h : Heap} {r q : Nat} {o : HObj} {y : HVal} (hq : Reach h y q) :
    ∀ v, Shows h v (.ref r) → h[r]? = some o → y ∈ o.values → q ≠ r := by
  intro v hs ho hy he
  subst he
  have part : ∀ {v : Val} {r : Nat} {o : HObj} {y : HVal}, Shows h v (.ref r) → h[r]? = some o → y ∈ o.values →
      ∃ u, Shows h u y ∧ sizeOf u < sizeOf v := by
    intro v r o y hs hr hy
    have mem : ∀ (vs : List Val) (ys : List HVal), ShowsAll h vs ys → y ∈ ys → ∃ u ∈ vs, Shows h u y := by
      intro vs
      induction vs with
      | nil => intro ys hs hy; rw [ShowsAll] at hs; subst hs; cases hy
      | cons v vs ih =>
        intro ys hs hy
        rw [ShowsAll] at hs
        obtain ⟨z, zs, rfl, h1, h2⟩ := hs
        rcases List.mem_cons.mp hy with rfl | hy
        · exact ⟨v, List.mem_cons_self .., h1⟩
        · obtain ⟨u, hu, hs⟩ := ih zs h2 hy
          exact ⟨u, List.mem_cons_of_mem _ hu, hs⟩
    cases v with
    | list xs =>
      rw [Shows] at hs
      obtain ⟨a, ys, e, ha, hall⟩ := hs
      cases e
      rw [hr] at ha
      cases ha
      obtain ⟨u, hu, h1⟩ := mem xs ys hall hy
      have := List.sizeOf_lt_of_mem hu
      exact ⟨u, h1, by simp only [Val.list.sizeOf_spec]; omega⟩
    | obj c xs =>
      rw [Shows] at hs
      obtain ⟨a, ys, e, ha, hall⟩ := hs
      cases e
      rw [hr] at ha
      cases ha
      obtain ⟨u, hu, h1⟩ := mem xs ys hall hy
      exact ⟨u, h1, sizeOf_list xs u hu c⟩
    | _ => simp [Shows] at hs
  have go : ∀ {x : HVal} {q : Nat}, Reach h x q → ∀ v, Shows h v x → ∃ u, Shows h u (.ref q) ∧ sizeOf u ≤ sizeOf v := by
    intro x q hr
    induction hr with
    | here r => intro v hv; exact ⟨v, hv, Nat.le_refl _⟩
    | step r q o y ho hy _ ih =>
      intro v hv
      obtain ⟨u, h1, h2⟩ := part hv ho hy
      obtain ⟨t, h3, h4⟩ := ih u h1
      exact ⟨t, h3, by omega⟩
  obtain ⟨u, h1, h2⟩ := part hs ho hy
  obtain ⟨t, h3, h4⟩ := go hq u h1
  have := shows_det v _ _ hs h3
  subst this
  omega

/-! ### At most one field of a class can hold frames -/

def FTy.isCodec : FTy → Bool | .codec => true | _ => false

def codecsFrom : Nat → List FTy → List Nat
  | _, [] => []
  | i, t :: ts => (if t.isCodec then [i] else []) ++ codecsFrom (i + 1) ts

theorem mem_codecsFrom : ∀ (ts : List FTy) (i f : Nat), ts[f]? = some .codec → i + f ∈ codecsFrom i ts
  | [], i, f, h => by simp at h
  | t :: ts, i, f, h => by
    rw [codecsFrom, List.mem_append]
    cases f with
    | zero =>
      simp only [List.getElem?_cons_zero, Option.some.injEq] at h
      subst h
      exact .inl (by simp [FTy.isCodec])
    | succ f =>
      have := mem_codecsFrom ts (i + 1) f (by simpa using h)
      exact .inr (by rw [show i + (f + 1) = i + 1 + f by omega]; exact this)

theorem codecs_table (c : Cls) : decide ((codecsFrom 0 (javaTypes c)).length ≤ 1) = true := by
  cases c <;> rfl

theorem one_codec (c : Cls) (f g : Nat) (hf : (javaTypes c)[f]? = some .codec) (hg : (javaTypes c)[g]? = some .codec) : f = g := by
  have h0 := of_decide_eq_true (codecs_table c)
  have h1 := mem_codecsFrom _ 0 f hf
  have h2 := mem_codecsFrom _ 0 g hg
  revert h0 h1 h2
  rcases codecsFrom 0 (javaTypes c) with _ | ⟨a, _ | ⟨b, l⟩⟩
  · intro _ h; cases h
  · intro _ h1 h2
    simp only [List.mem_singleton] at h1 h2
    omega
  · intro h; simp at h

/-- Classes of fields and list elements: they have no computed fields and no field that can hold any message. -/
def FTy.staticOk : FTy → Bool
  | .obj c => !hasComputed c && (javaTypes c).all fun t => !t.isCodec
  | .list (.obj c) => !hasComputed c && (javaTypes c).all fun t => !t.isCodec
  | _ => true

theorem static_table (c : Cls) : ((javaTypes c).all FTy.staticOk) = true := by
  cases c <;> rfl

theorem frameless_typed (v : Val) : (∀ t, hasType t v = true → t.staticOk = true → t.isCodec = false → frameless v = true)
    ∧ ∀ e, elemHasType e v = true → (FTy.list e).staticOk = true → frameless v = true := by
  have obj : ∀ (c : Cls) (fs : List Val), (∀ ts, fieldsHaveType ts fs = true → ts.all FTy.staticOk = true → (ts.all fun t => !t.isCodec) = true →
      framelessList fs = true) → fieldsHaveType (javaTypes c) fs = true → (!hasComputed c && (javaTypes c).all fun t => !t.isCodec) = true →
      frameless (.obj c fs) = true := by
    intro c fs ih ht hc
    rw [Bool.and_eq_true] at hc
    rw [frameless, Bool.and_eq_true]
    exact ⟨hc.1, ih _ ht (static_table c) hc.2⟩
  apply Val.rec
    (motive_1 := fun v => (∀ t, hasType t v = true → t.staticOk = true → t.isCodec = false → frameless v = true)
      ∧ ∀ e, elemHasType e v = true → (FTy.list e).staticOk = true → frameless v = true)
    (motive_2 := fun vs => (∀ ts, fieldsHaveType ts vs = true → ts.all FTy.staticOk = true → (ts.all fun t => !t.isCodec) = true →
      framelessList vs = true) ∧ ∀ e, elemsHaveType e vs = true → (FTy.list e).staticOk = true → framelessList vs = true)
  · exact ⟨fun _ _ _ _ => rfl, fun _ _ _ => rfl⟩
  · exact fun _ => ⟨fun _ _ _ _ => rfl, fun _ _ _ => rfl⟩
  · exact fun _ => ⟨fun _ _ _ _ => rfl, fun _ _ _ => rfl⟩
  · intro xs ih
    refine ⟨fun t ht hs _ => ?_, fun e he => by simp [elemHasType] at he⟩
    cases t with
    | list e => exact ih.2 e (by simpa [hasType] using ht) hs
    | _ => simp [hasType] at ht
  · intro c fs ih
    refine ⟨fun t ht hs hk => ?_, fun e he hs => ?_⟩
    · cases t with
      | obj d =>
        simp only [hasType, Bool.and_eq_true, decide_eq_true_eq] at ht
        obtain ⟨rfl, ht⟩ := ht
        exact obj c fs ih.1 ht hs
      | codec => simp [FTy.isCodec] at hk
      | _ => simp [hasType] at ht
    · cases e with
      | obj d =>
        simp only [elemHasType, Bool.and_eq_true, decide_eq_true_eq] at he
        obtain ⟨rfl, ht⟩ := he
        exact obj c fs ih.1 ht hs
      | _ => simp [elemHasType] at he
  · exact ⟨fun _ _ _ _ => rfl, fun _ _ _ => rfl⟩
  · intro v vs ih1 ih2
    refine ⟨fun ts ht hs hk => ?_, fun e he hs => ?_⟩
    · cases ts with
      | nil => simp [fieldsHaveType] at ht
      | cons t ts =>
        simp only [fieldsHaveType, Bool.and_eq_true] at ht
        simp only [List.all_cons, Bool.and_eq_true, Bool.not_eq_true'] at hs hk
        rw [framelessList, Bool.and_eq_true]
        exact ⟨ih1.1 t ht.1 hs.1 hk.1, ih2.1 ts ht.2 hs.2 hk.2⟩
    · simp only [elemsHaveType, Bool.and_eq_true] at he
      rw [framelessList, Bool.and_eq_true]
      exact ⟨ih1.2 e he.1 hs, ih2.2 e he.2 hs⟩

/-- What the fields of a message of class `c` hold: frames in the one field that can hold any message only. -/
def FrameSpine (c : Cls) (fs : List Val) : Prop := ∀ (f : Nat) (v : Val), fs[f]? = some v →
  ((javaTypes c)[f]? = some .codec ∧ (v = .null ∨ wellTyped v = true)) ∨ ((javaTypes c)[f]? ≠ some .codec ∧ frameless v = true)

theorem spine_typed (c : Cls) (fs : List Val) (ht : fieldsHaveType (javaTypes c) fs = true) : FrameSpine c fs := by
  have get : ∀ (fs : List Val) (ts : List FTy) (i : Nat) (v : Val), fieldsHaveType ts fs = true → fs[i]? = some v →
      ∃ t, ts[i]? = some t ∧ hasType t v = true := by
    intro fs
    induction fs with
    | nil => intro ts i v _ hv; simp at hv
    | cons x xs ih =>
      intro ts i v ht hv
      cases ts with
      | nil => simp [fieldsHaveType] at ht
      | cons t ts =>
        simp only [fieldsHaveType, Bool.and_eq_true] at ht
        cases i with
        | zero => simp only [List.getElem?_cons_zero, Option.some.injEq] at hv; subst hv; exact ⟨t, rfl, ht.1⟩
        | succ i => simpa using ih ts i v ht.2 (by simpa using hv)
  intro f v hv
  obtain ⟨t, h1, h2⟩ := get fs _ f v ht hv
  by_cases hc : t = .codec
  · subst hc
    refine .inl ⟨h1, ?_⟩
    cases v with
    | null => exact .inl rfl
    | obj d gs => exact .inr (by simpa [wellTyped] using h2)
    | _ => simp [hasType] at h2
  · refine .inr ⟨by rw [h1]; simpa using hc, (frameless_typed v).1 t h2 ?_ ?_⟩
    · exact List.all_eq_true.mp (static_table c) t (List.mem_of_getElem? h1)
    · cases t <;> first | rfl | exact absurd rfl hc

/-! ### The statements -/

def CallShows (w : World) (n : Nat) : Prop := ∀ v x h b, (v = .null ∨ wellTyped v = true) → Shows h v x →
  Shows (hencode w n x h b).1 (encode w n v b).1 x

theorem field_shows {h : Heap} {c : Cls} {fs : List Val} {r : Nat} {ys : List HVal} (hr : h[r]? = some (.msg c ys)) (hall : ShowsAll h fs ys)
    (f : Nat) : (fs[f]? = none ∧ h.field r f = none) ∨ ∃ v y, fs[f]? = some v ∧ h.field r f = some y ∧ ys[f]? = some y ∧ Shows h v y := by
  rw [ShowsAll_iff] at hall
  rw [Heap.field_msg h r f c ys hr]
  cases hv : fs[f]? with
  | none =>
    left
    refine ⟨rfl, ?_⟩
    rw [List.getElem?_eq_none_iff] at hv ⊢
    omega
  | some v =>
    right
    have hlt : f < ys.length := by rw [← hall.1]; exact (List.getElem?_eq_some_iff.mp hv).1
    have hy : ys[f]? = some ys[f] := List.getElem?_eq_getElem hlt
    exact ⟨v, ys[f], rfl, hy, hy, hall.2 f v _ hv hy⟩

theorem spine_set {c : Cls} {fs : List Val} (hk : FrameSpine c fs) (f : Nat) (v : Val)
    (hv : ((javaTypes c)[f]? = some .codec ∧ (v = .null ∨ wellTyped v = true)) ∨ ((javaTypes c)[f]? ≠ some .codec ∧ frameless v = true)) :
    FrameSpine c (fs.set f v) := by
  intro g u hu
  by_cases hg : f = g
  · subst hg
    have hlt : f < fs.length := by
      have := (List.getElem?_eq_some_iff.mp hu).1
      simpa using this
    rw [List.getElem?_set_self hlt] at hu
    cases hu
    exact hv
  · rw [List.getElem?_set_ne hg] at hu
    exact hk g u hu

theorem hencElems_frameless (w : World) (n : Nat) (el : EncElem) : ∀ (vs : List Val) (ys : List HVal) (h : Heap) (b : WBuf), ShowsAll h vs ys →
    framelessList vs = true → (hencElems (hencode w n) el ys h b).1 = h ∧ (encElems (encode w n) el vs b).1 = vs
  | [], ys, h, b, hs, _ => by
    rw [ShowsAll] at hs; subst hs
    exact ⟨rfl, rfl⟩
  | v :: vs, ys, h, b, hs, hf => by
    rw [ShowsAll] at hs
    obtain ⟨z, zs, rfl, h1, h2⟩ := hs
    simp only [framelessList, Bool.and_eq_true] at hf
    have e1 : (hencElem (hencode w n) el z h b).1 = h := by
      cases el <;> first | rfl | exact hencode_frameless w n v z h b h1 hf.1
    have e2 : (encElem (encode w n) el v b).1 = v := (encElem_still _ el v (encode_still w n v hf.1)).1 b
    have e3 := (hencElem_sim (hencode_sim w n) el v z h b (shows_sim w h v z h1)).1
    simp only [hencElems, encElems]
    revert e1 e2 e3
    rcases hencElem (hencode w n) el z h b with ⟨h', b', e⟩
    rcases encElem (encode w n) el v b with ⟨v', b'', e'⟩
    dsimp only
    rintro rfl rfl e3
    cases e3
    cases e with
    | some e => exact ⟨rfl, rfl⟩
    | none =>
      obtain ⟨g1, g2⟩ := hencElems_frameless w n el vs zs h' b' h2 hf.2
      dsimp only
      exact ⟨g1, by rw [g2]⟩

def StmtShows (c : Cls) (r : Nat) (oh : HEncSt × Option JErr) (ot : EncSt × Option JErr) : Prop :=
  oh.2 = ot.2 ∧ oh.1.buf = ot.1.buf ∧ oh.1.loc = ot.1.loc ∧ Shows oh.1.h (.obj c ot.1.fs) (.ref r) ∧ FrameSpine c ot.1.fs

def objField : EncStmt → Option Nat
  | .setLen f _ _ => some f
  | .checksum f _ => some f
  | _ => none

def notCodec (c : Cls) (f : Nat) : Bool := match (javaTypes c)[f]? with | some t => !t.isCodec | none => true

theorem assigned_table (c : Cls) : ((decl c).enc.all fun s => match objField s with | some f => notCodec c f | none => true) = true := by
  cases c <;> rfl

theorem notCodec_ne {c : Cls} {f : Nat} (h : notCodec c f = true) : (javaTypes c)[f]? ≠ some .codec := by
  intro he
  rw [notCodec, he] at h
  cases h

theorem assign_shows {h : Heap} {c : Cls} {fs : List Val} {r : Nat} (f : Nat) (n : Num) (hs : Shows h (.obj c fs) (.ref r)) :
    Shows (h.setField r f (.num n)) (.obj c (fs.set f (.num n))) (.ref r) := by
  have hs' := hs
  rw [Shows] at hs
  obtain ⟨r', ys, e, hr, hall⟩ := hs
  cases e
  refine shows_update hall (Heap.setField_self h r f c ys (.num n) hr) (fun _ => by rw [Shows]) fun g u z hg hu hz q hq => ?_
  refine Heap.setField_ne _ _ _ _ _ ?_
  have hz' := ((ShowsAll_iff h fs ys).mp hall).2 g u z hu hz
  exact reach_value ((refs_iff_reach h u z hz' q).mp hq) _ hs' hr (List.mem_of_getElem? hz)

/-- A nested call. -/
theorem nested_shows (w : World) {n : Nat} (hc : CallShows w n) {c : Cls} {r : Nat} {h : Heap} {fs : List Val} {ys : List HVal}
    (hs : Shows h (.obj c fs) (.ref r)) (hr : h[r]? = some (.msg c ys)) (hall : ShowsAll h fs ys) (hk : FrameSpine c fs) (b : WBuf)
    (f : Nat) (v : Val) (y : HVal) (h1 : fs[f]? = some v) (h3 : ys[f]? = some y) (h4 : Shows h v y) :
    Shows (hencode w n y h b).1 (.obj c (fs.set f (encode w n v b).1)) (.ref r) ∧ FrameSpine c (fs.set f (encode w n v b).1) := by
  rcases hk f v h1 with ⟨hf, hv⟩ | ⟨hf, hv⟩
  · constructor
    · have hr' : (hencode w n y h b).1[r]? = some (.msg c (ys.set f y)) := by
        have he : ys.set f y = ys := by
          refine List.ext_getElem? fun g => ?_
          by_cases hg : f = g
          · subst hg
            rw [List.getElem?_set_self (List.getElem?_eq_some_iff.mp h3).1, h3]
          · rw [List.getElem?_set_ne hg]
        rw [he, hencode_outside w n y h b r (fun hq => reach_value hq _ hs hr (List.mem_of_getElem? h3) rfl), hr]
      refine shows_update hall hr' (fun _ => hc v y h b hv h4) fun g u z hg hu hz => ?_
      have hz' := ((ShowsAll_iff h fs ys).mp hall).2 g u z hu hz
      rcases hk g u hu with ⟨hg', _⟩ | ⟨_, hu'⟩
      · exact absurd (one_codec c g f hg' hf) hg
      · exact frameless_refs (hencode_chg w n y h b) hz' hu'
    · refine spine_set hk f _ (.inl ⟨hf, ?_⟩)
      rcases hv with rfl | hv
      · left
        cases n <;> rfl
      · right
        cases v with
        | obj d gs =>
          have ht : fieldsHaveType (javaTypes d) gs = true := by simpa [wellTyped, hasType] using hv
          obtain ⟨gs', g1, g2, -⟩ := (encode_keeps w n).2 d gs b ht
          rw [g1]
          simpa [wellTyped, hasType] using g2
        | _ => simp [wellTyped] at hv
  · rw [(encode_still w n v hv).1 b, hencode_frameless w n v y h b h4 hv, set_self h1]
    exact ⟨hs, hk⟩

theorem hencStmt_shows (w : World) {n : Nat} (hc : CallShows w n) {c : Cls} {r : Nat} {h : Heap} {fs : List Val} (s : EncStmt)
    (hmem : s ∈ (decl c).enc) (hs : Shows h (.obj c fs) (.ref r)) (hk : FrameSpine c fs) (b : WBuf) (loc : Nat → Option Nat) :
    StmtShows c r (hencStmt w (hencode w n) r s ⟨h, b, loc⟩) (encStmt w (encode w n) s ⟨fs, b, loc⟩) := by
  have hrefl : ∀ (b' : WBuf) (loc' : Nat → Option Nat) (e : Option JErr), StmtShows c r (⟨h, b', loc'⟩, e) (⟨fs, b', loc'⟩, e) :=
    fun b' loc' e => ⟨rfl, rfl, rfl, hs, hk⟩
  have hs' := hs
  rw [Shows] at hs'
  obtain ⟨r', ys, e, hr, hall⟩ := hs'
  cases e
  have hass : ∀ f (m : Num) (b' : WBuf) (loc' : Nat → Option Nat), notCodec c f = true →
      StmtShows c r (⟨h.setField r f (.num m), b', loc'⟩, none) (⟨fs.set f (.num m), b', loc'⟩, none) :=
    fun f m b' loc' hf => ⟨rfl, rfl, rfl, assign_shows f m hs, spine_set hk f _ (.inr ⟨notCodec_ne hf, rfl⟩)⟩
  cases s with
  | num f t e =>
    simp only [hencStmt, encStmt]
    rcases field_shows hr hall f with ⟨h1, h2⟩ | ⟨v, y, h1, h2, h3, h4⟩
    · rw [h1, h2]; exact hrefl _ _ _
    · rw [h1, h2]
      cases v <;> rw [Shows] at h4
      · subst h4; exact hrefl _ _ _
      · subst h4; exact hrefl _ _ _
      · subst h4; exact hrefl _ _ _
      · obtain ⟨a, zs, rfl, -⟩ := h4; exact hrefl _ _ _
      · obtain ⟨a, zs, rfl, -⟩ := h4; exact hrefl _ _ _
  | fixed f m pad left =>
    simp only [hencStmt, encStmt]
    rcases field_shows hr hall f with ⟨h1, h2⟩ | ⟨v, y, h1, h2, h3, h4⟩
    · rw [h1, h2]; exact hrefl _ _ _
    · rw [h1, h2]
      simp only [sim_fixed w h v y (shows_sim w h v y h4)]
      exact hrefl _ _ _
  | dyn f zt t e =>
    simp only [hencStmt, encStmt]
    rcases field_shows hr hall f with ⟨h1, h2⟩ | ⟨v, y, h1, h2, h3, h4⟩
    · rw [h1, h2]; exact hrefl _ _ _
    · rw [h1, h2]
      simp only [sim_dyn w h v y (shows_sim w h v y h4)]
      exact hrefl _ _ _
  | list f zt t e el =>
    simp only [hencStmt, encStmt]
    rcases field_shows hr hall f with ⟨h1, h2⟩ | ⟨v, y, h1, h2, h3, h4⟩
    · rw [h1, h2]; exact hrefl _ _ _
    · rw [h1, h2]
      cases v with
      | null => rw [Shows] at h4; subst h4; exact hrefl _ _ _
      | num n => rw [Shows] at h4; subst h4; exact hrefl _ _ _
      | str n => rw [Shows] at h4; subst h4; exact hrefl _ _ _
      | obj c' fs' =>
        rw [Shows] at h4
        obtain ⟨a, ys, rfl, ha, _⟩ := h4
        simp only [ha]
        exact hrefl _ _ _
      | list xs =>
        have hfl : framelessList xs = true := by
          rcases hk f _ h1 with ⟨_, hv | hv⟩ | ⟨_, hv⟩
          · cases hv
          · simp [wellTyped] at hv
          · simpa [frameless] using hv
        rw [Shows] at h4
        obtain ⟨a, zs, rfl, ha, hzs⟩ := h4
        simp only [ha]
        have hl := ShowsAll_length h _ _ hzs
        cases xs with
        | nil =>
          rw [ShowsAll] at hzs; subst hzs
          exact hrefl _ _ _
        | cons x xs =>
          cases zs with
          | nil => simp at hl
          | cons z zs =>
            dsimp only
            rw [hl]
            rcases writeInt b t e (z :: zs).length with ⟨b', _ | err⟩
            · dsimp only
              obtain ⟨g1, g2⟩ := hencElems_frameless w n el (x :: xs) (z :: zs) h b' hzs hfl
              have g3 := (hencElems_sim (hencode_sim w n) el (x :: xs) (z :: zs) h b'
                (by have := shows_sim w h (.list (x :: xs)) (.ref a) (by rw [Shows]; exact ⟨a, _, rfl, ha, hzs⟩)
                    rw [HSim] at this
                    obtain ⟨a', ys', e, ha', hh⟩ := this
                    cases e
                    rw [ha] at ha'
                    cases ha'
                    exact hh)).1
              rw [g1, g2, g3, set_self h1]
              exact hrefl _ _ _
            · exact hrefl _ _ _
  | obj f =>
    simp only [hencStmt, encStmt]
    rcases field_shows hr hall f with ⟨h1, h2⟩ | ⟨v, y, h1, h2, h3, h4⟩
    · rw [h1, h2]; exact hrefl _ _ _
    · rw [h1, h2]
      have g1 := (hencode_sim w n v y h b (shows_sim w h v y h4)).1
      obtain ⟨g2, g3⟩ := nested_shows w hc hs hr hall hk b f v y h1 h3 h4
      exact ⟨by simp only [g1], by simp only [g1], rfl, g2, g3⟩
  | objOpt f =>
    simp only [hencStmt, encStmt]
    rcases field_shows hr hall f with ⟨h1, h2⟩ | ⟨v, y, h1, h2, h3, h4⟩
    · rw [h1, h2]; exact hrefl _ _ _
    · rw [h1, h2]
      have g1 := (hencode_sim w n v y h b (shows_sim w h v y h4)).1
      obtain ⟨g2, g3⟩ := nested_shows w hc hs hr hall hk b f v y h1 h3 h4
      have hgo : StmtShows c r ((⟨(hencode w n y h b).1, (hencode w n y h b).2.1, loc⟩, (hencode w n y h b).2.2) : HEncSt × Option JErr)
          ((⟨fs.set f (encode w n v b).1, (encode w n v b).2.1, loc⟩, (encode w n v b).2.2) : EncSt × Option JErr) :=
        ⟨by simp only [g1], by simp only [g1], rfl, g2, g3⟩
      cases v with
      | null => rw [Shows] at h4; subst h4; exact hrefl _ _ _
      | num m => rw [Shows] at h4; subst h4; exact hgo
      | str m => rw [Shows] at h4; subst h4; exact hgo
      | list xs =>
        rw [Shows] at h4
        obtain ⟨a, zs, rfl, _⟩ := h4
        exact hgo
      | obj c' fs' =>
        rw [Shows] at h4
        obtain ⟨a, zs, rfl, _⟩ := h4
        exact hgo
  | save x => exact hrefl _ _ _
  | zero t e => exact hrefl _ _ _
  | setLen f x y =>
    have hnc : notCodec c f = true := List.all_eq_true.mp (assigned_table c) _ hmem
    simp only [hencStmt, encStmt]
    cases hx : loc x with
    | none => exact hrefl _ _ _
    | some p =>
      cases hy : loc y with
      | none => exact hrefl _ _ _
      | some q => exact hass f _ _ _ hnc
  | patch x f t e =>
    simp only [hencStmt, encStmt]
    cases hx : loc x with
    | none => exact hrefl _ _ _
    | some p =>
      rcases field_shows hr hall f with ⟨h1, h2⟩ | ⟨v, y, h1, h2, h3, h4⟩
      · rw [h1, h2]; exact hrefl _ _ _
      · rw [h1, h2]
        cases v <;> rw [Shows] at h4
        · subst h4; exact hrefl _ _ _
        · rename_i m
          subst h4
          dsimp only
          cases m.convert t <;> exact hrefl _ _ _
        · subst h4; exact hrefl _ _ _
        · obtain ⟨a, zs, rfl, -⟩ := h4; exact hrefl _ _ _
        · obtain ⟨a, zs, rfl, -⟩ := h4; exact hrefl _ _ _
  | checksum f alg =>
    have hnc : notCodec c f = true := List.all_eq_true.mp (assigned_table c) _ hmem
    simp only [hencStmt, encStmt]
    cases Registry.getService w.svc alg with
    | none => exact hrefl _ _ _
    | some s => exact hass f _ _ _ hnc

theorem hencStmts_shows (w : World) {n : Nat} (hc : CallShows w n) {c : Cls} {r : Nat} : ∀ (ss : List EncStmt) (h : Heap) (fs : List Val)
    (b : WBuf) (loc : Nat → Option Nat), (∀ s ∈ ss, s ∈ (decl c).enc) → Shows h (.obj c fs) (.ref r) → FrameSpine c fs →
    Shows (hencStmts w (hencode w n) r ss ⟨h, b, loc⟩).1.h (.obj c (encStmts w (encode w n) ss ⟨fs, b, loc⟩).1.fs) (.ref r)
  | [], h, fs, b, loc, _, hs, _ => hs
  | s :: ss, h, fs, b, loc, hmem, hs, hk => by
    obtain ⟨h1, h2, h3, h4, h5⟩ := hencStmt_shows w hc s (hmem s (List.mem_cons_self ..)) hs hk b loc
    simp only [hencStmts, encStmts]
    revert h1 h2 h3 h4 h5
    rcases hencStmt w (hencode w n) r s ⟨h, b, loc⟩ with ⟨⟨h', b', loc'⟩, e⟩
    rcases encStmt w (encode w n) s ⟨fs, b, loc⟩ with ⟨⟨fs', b'', loc''⟩, e'⟩
    dsimp only
    rintro rfl rfl rfl h4 h5
    cases e with
    | some e => exact h4
    | none => exact hencStmts_shows w hc ss h' fs' b' loc' (fun s hs => hmem s (List.mem_cons_of_mem _ hs)) h4 h5

theorem hencode_shows (w : World) : ∀ n, CallShows w n
  | 0 => fun v x h b hv hs => by
    rcases hv with rfl | hv
    · rw [Shows] at hs; subst hs; simp [encode, Shows]
    · cases v with
      | obj c fs =>
        have hs' := hs
        rw [Shows] at hs'
        obtain ⟨r, ys, rfl, -⟩ := hs'
        exact hs
      | _ => simp [wellTyped] at hv
  | n + 1 => fun v x h b hv hs => by
    rcases hv with rfl | hv
    · rw [Shows] at hs; subst hs; simp [encode, Shows]
    · cases v with
      | obj c fs =>
        have ht : fieldsHaveType (javaTypes c) fs = true := by simpa [wellTyped, hasType] using hv
        have hs' := hs
        rw [Shows] at hs'
        obtain ⟨r, ys, rfl, hr, -⟩ := hs'
        simp only [hencode, hr, encode]
        exact hencStmts_shows w (hencode_shows w n) (decl c).enc h fs b _ (fun _ hm => hm) hs (spine_typed c fs ht)
      | _ => simp [wellTyped] at hv

end FinProto
