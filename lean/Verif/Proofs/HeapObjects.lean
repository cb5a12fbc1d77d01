import Verif.Model.HeapObjects
import Verif.Proofs.HeapBasic
import Verif.Proofs.ObjectMethods
import Verif.Proofs.ToString
/-
Helpers for C76: `equals`, `hashCode` and `toString` on the heap against the same methods on trees.
-/
namespace FinProto

theorem showsAll_get {h : Heap} : ∀ {vs : List Val} {ys : List HVal}, ShowsAll h vs ys → ∀ (i : Nat),
    (vs[i]? = none ∧ ys[i]? = none) ∨ ∃ v y, vs[i]? = some v ∧ ys[i]? = some y ∧ Shows h v y
  | [], ys, hs, i => by rw [ShowsAll] at hs; subst hs; simp
  | v :: vs, ys, hs, i => by
    rw [ShowsAll] at hs
    obtain ⟨z, zs, rfl, h1, h2⟩ := hs
    cases i with
    | zero => exact .inr ⟨v, z, rfl, rfl, h1⟩
    | succ i => simpa using showsAll_get h2 i

theorem showsAll_build {h : Heap} : ∀ (ys : List HVal), (∀ y ∈ ys, ∃ v, Shows h v y) → ∃ vs, ShowsAll h vs ys
  | [], _ => ⟨[], by rw [ShowsAll]⟩
  | y :: ys, hy => by
    obtain ⟨v, hv⟩ := hy y (List.mem_cons_self ..)
    obtain ⟨vs, hvs⟩ := showsAll_build ys (fun z hz => hy z (List.mem_cons_of_mem _ hz))
    exact ⟨v :: vs, (ShowsAll_cons ..).mpr ⟨hv, hvs⟩⟩

/-- A reference shows one value only. -/
theorem shows_det {h : Heap} (v : Val) : ∀ x u, Shows h v x → Shows h u x → v = u := by
  apply Val.rec
    (motive_1 := fun v => ∀ x u, Shows h v x → Shows h u x → v = u)
    (motive_2 := fun vs => ∀ ys us, ShowsAll h vs ys → ShowsAll h us ys → vs = us)
  · intro x u h1 h2
    rw [Shows] at h1; subst h1
    cases u <;> simp [Shows] at h2 ⊢
  · intro n x u h1 h2
    rw [Shows] at h1; subst h1
    cases u <;> simp [Shows] at h2 ⊢
    exact h2
  · intro n x u h1 h2
    rw [Shows] at h1; subst h1
    cases u <;> simp [Shows] at h2 ⊢
    exact h2
  · intro xs ih x u h1 h2
    rw [Shows] at h1
    obtain ⟨a, ys, rfl, ha, hall⟩ := h1
    cases u with
    | list us =>
      rw [Shows] at h2
      obtain ⟨a', ys', e, ha', hall'⟩ := h2
      cases e
      rw [ha] at ha'
      cases ha'
      rw [ih ys us hall hall']
    | obj c us =>
      rw [Shows] at h2
      obtain ⟨a', ys', e, ha', _⟩ := h2
      cases e
      rw [ha] at ha'
      cases ha'
    | _ => simp [Shows] at h2
  · intro c fs ih x u h1 h2
    rw [Shows] at h1
    obtain ⟨a, ys, rfl, ha, hall⟩ := h1
    cases u with
    | obj d us =>
      rw [Shows] at h2
      obtain ⟨a', ys', e, ha', hall'⟩ := h2
      cases e
      rw [ha] at ha'
      cases ha'
      rw [ih ys us hall hall']
    | list us =>
      rw [Shows] at h2
      obtain ⟨a', ys', e, ha', _⟩ := h2
      cases e
      rw [ha] at ha'
      cases ha'
    | _ => simp [Shows] at h2
  · intro ys us h1 h2
    rw [ShowsAll] at h1; subst h1
    cases us with
    | nil => rfl
    | cons u us => simp [ShowsAll] at h2
  · intro v vs ih1 ih2 ys us h1 h2
    rw [ShowsAll] at h1
    obtain ⟨z, zs, rfl, hz, hzs⟩ := h1
    cases us with
    | nil => simp [ShowsAll] at h2
    | cons u us =>
      rw [ShowsAll_cons] at h2
      rw [ih1 z u hz h2.1, ih2 zs us hzs h2.2]

/-! ### hashCode -/

theorem hhashSeq_eq {h : Heap} (n : Nat) (ih : ∀ v x, Shows h v x → hhash h n x = v.hashCode n) :
    ∀ (vs : List Val) (ys : List HVal) (k : BitVec 32), ShowsAll h vs ys → hhashSeq (hhash h n) k ys = hashSeq (Val.hashCode n) k vs
  | [], ys, k, hs => by rw [ShowsAll] at hs; subst hs; rfl
  | v :: vs, ys, k, hs => by
    rw [ShowsAll] at hs
    obtain ⟨z, zs, rfl, h1, h2⟩ := hs
    simp only [hhashSeq, hashSeq, ih v z h1]
    cases v.hashCode n with
    | error e => rfl
    | ok i => exact hhashSeq_eq n ih vs zs _ h2

theorem hpick_eq {h : Heap} {vs : List Val} {ys : List HVal} (hs : ShowsAll h vs ys) : ∀ is,
    (hpick ys is = none ∧ pick vs is = none) ∨ ∃ vs' ys', pick vs is = some vs' ∧ hpick ys is = some ys' ∧ ShowsAll h vs' ys'
  | [] => .inr ⟨[], [], rfl, rfl, by rw [ShowsAll]⟩
  | i :: is => by
    simp only [hpick, pick]
    rcases showsAll_get hs i with ⟨h1, h2⟩ | ⟨v, y, h1, h2, h3⟩
    · rw [h1, h2]; exact .inl ⟨rfl, rfl⟩
    · rcases hpick_eq hs is with ⟨h4, h5⟩ | ⟨vs', ys', h4, h5, h6⟩
      · rw [h1, h2, h4, h5]; exact .inl ⟨rfl, rfl⟩
      · rw [h1, h2, h4, h5]; exact .inr ⟨_, _, rfl, rfl, (ShowsAll_cons ..).mpr ⟨h3, h6⟩⟩

theorem hhash_eq (h : Heap) (n : Nat) : ∀ v x, Shows h v x → hhash h n x = v.hashCode n := by
  induction n with
  | zero => intro v x _; rfl
  | succ n ih =>
    intro v x hs
    cases v with
    | null => rw [Shows] at hs; subst hs; rfl
    | num a => rw [Shows] at hs; subst hs; rfl
    | str s => rw [Shows] at hs; subst hs; rfl
    | list xs =>
      have hs0 := hs
      rw [Shows] at hs
      obtain ⟨a, ys, rfl, ha, hall⟩ := hs
      simp only [hhash, ha, Val.hashCode]
      exact hhashSeq_eq n ih xs ys 1 hall
    | obj c fs =>
      have hs0 := hs
      rw [Shows] at hs
      obtain ⟨a, ys, rfl, ha, hall⟩ := hs
      simp only [hhash, ha, Val.hashCode]
      cases (decl c).hash with
      | self => exact ih _ _ hs0
      | fields is =>
        rcases hpick_eq hall is with ⟨h1, h2⟩ | ⟨vs', ys', h1, h2, h3⟩
        · simp only [h1, h2]
        · simp only [h1, h2]
          exact hhashSeq_eq n ih vs' ys' 1 h3

/-! ### toString -/

theorem allSome_shows {γ : Type} {h : Heap} (f : HVal → Option γ) (g : Val → Option γ) : ∀ (vs : List Val) (ys : List HVal),
    ShowsAll h vs ys → (∀ v y, Shows h v y → v ∈ vs → f y = g v) → allSome f ys = allSome g vs
  | [], ys, hs, _ => by rw [ShowsAll] at hs; subst hs; rfl
  | v :: vs, ys, hs, hc => by
    rw [ShowsAll] at hs
    obtain ⟨z, zs, rfl, h1, h2⟩ := hs
    simp only [allSome]
    rw [hc v z h1 (List.mem_cons_self ..), allSome_shows f g vs zs h2 (fun a b r ha => hc a b r (List.mem_cons_of_mem _ ha))]

theorem allSome_congr {α γ : Type} (f g : α → Option γ) (xs : List α) (hc : ∀ x ∈ xs, f x = g x) : allSome f xs = allSome g xs := by
  induction xs with
  | nil => rfl
  | cons x xs ih =>
    simp only [allSome]
    rw [hc x (List.mem_cons_self ..), ih fun a ha => hc a (List.mem_cons_of_mem _ ha)]

theorem sizeOf_mem_list (xs : List Val) (v : Val) (h : v ∈ xs) : sizeOf v < sizeOf (Val.list xs) := by
  have := List.sizeOf_lt_of_mem h
  simp only [Val.list.sizeOf_spec]
  omega

theorem htoStr_eq (h : Heap) (flt : Num → JStr) (n : Nat) : ∀ v x, Shows h v x → htoStr h flt n x = v.toStr flt n := by
  induction n with
  | zero => intro v x _; rfl
  | succ n ih =>
    intro v x hs
    cases v with
    | null => rw [Shows] at hs; subst hs; rfl
    | num a => rw [Shows] at hs; subst hs; rfl
    | str s => rw [Shows] at hs; subst hs; rfl
    | list xs =>
      have hs0 := hs
      rw [Shows] at hs
      obtain ⟨a, ys, rfl, ha, hall⟩ := hs
      simp only [htoStr, ha, Val.toStr]
      rw [allSome_shows _ (Val.toStr flt n) xs ys hall]
      intro v y hv hm
      by_cases hya : y = .ref a
      · subst hya
        have := shows_det v _ _ hv hs0
        have := sizeOf_mem_list xs v hm
        simp_all
      · rw [if_neg hya, ih v y hv]
    | obj c fs =>
      rw [Shows] at hs
      obtain ⟨a, ys, rfl, ha, hall⟩ := hs
      simp only [htoStr, ha, Val.toStr]
      congr 1
      apply allSome_congr
      intro p _
      cases p with
      | lit s => rfl
      | field i =>
        rcases showsAll_get hall i with ⟨h1, h2⟩ | ⟨v, y, h1, h2, h3⟩
        · simp only [h1, h2]
        · simp only [h1, h2]
          exact ih v y h3

/-! ### equals -/

theorem hequalsAll_eq {h : Heap} (n : Nat)
    (ih : ∀ v u x y, Shows h v x → Shows h u y → shaped v = true → shaped u = true → height v ≤ n → hequals h n x y = .ok (v.equals u)) :
    ∀ (vs us : List Val) (xs ys : List HVal), ShowsAll h vs xs → ShowsAll h us ys → shapeds vs = true → shapeds us = true → heights vs ≤ n →
      xs.length = ys.length → hequalsAll (hequals h n) xs ys = .ok (Val.equalsList vs us)
  | [], us, xs, ys, h1, h2, _, _, _, hl => by
    rw [ShowsAll] at h1; subst h1
    cases ys with
    | nil =>
      have := ShowsAll_length h us [] h2
      cases us with
      | nil => rfl
      | cons u us => simp at this
    | cons y ys => simp at hl
  | v :: vs, us, xs, ys, h1, h2, s1, s2, hh, hl => by
    rw [ShowsAll] at h1
    obtain ⟨x, xs, rfl, h1, h1'⟩ := h1
    cases us with
    | nil => rw [ShowsAll] at h2; subst h2; simp at hl
    | cons u us =>
      rw [ShowsAll] at h2
      obtain ⟨y, ys, rfl, h2, h2'⟩ := h2
      simp only [shapeds, Bool.and_eq_true] at s1 s2
      simp only [heights] at hh
      simp only [hequalsAll, Val.equalsList, ih v u x y h1 h2 s1.1 s2.1 (by omega)]
      cases v.equals u with
      | false => rfl
      | true => simpa using hequalsAll_eq n ih vs us xs ys h1' h2' s1.2 s2.2 (by omega) (by simpa using hl)

theorem hequalsFields_eq {h : Heap} (n : Nat) (vs us : List Val) (xs ys : List HVal) (h1 : ShowsAll h vs xs) (h2 : ShowsAll h us ys)
    (ih : ∀ (v u : Val) x y, v ∈ vs → u ∈ us → Shows h v x → Shows h u y → hequals h n x y = .ok (v.equals u)) :
    ∀ ps : List (Nat × Nat), (∀ p ∈ ps, p.1 < vs.length ∧ p.2 < us.length) →
    hequalsFields (hequals h n) xs ys ps = .ok (ps.all fun p => match (Val.equalsFns vs)[p.1]?, us[p.2]? with
        | some e, some y => e y
        | _, _ => false)
  | [], _ => rfl
  | p :: ps, hp => by
    have hb := hp p (List.mem_cons_self ..)
    rcases showsAll_get h1 p.1 with ⟨a, _⟩ | ⟨v, x, a1, a2, a3⟩
    · rw [List.getElem?_eq_none_iff] at a; omega
    rcases showsAll_get h2 p.2 with ⟨a, _⟩ | ⟨u, y, b1, b2, b3⟩
    · rw [List.getElem?_eq_none_iff] at a; omega
    have hr := hequalsFields_eq n vs us xs ys h1 h2 ih ps (fun q hq => hp q (List.mem_cons_of_mem _ hq))
    simp only [hequalsFields, a2, b2, ih v u x y (List.mem_of_getElem? a1) (List.mem_of_getElem? b1) a3 b3, List.all_cons, b1]
    have hv : (Val.equalsFns vs)[p.1]? = some (fun y => v.equals y) := by rw [equalsFns_eq, List.getElem?_map, a1]; rfl
    rw [hv]
    dsimp only
    cases v.equals u with
    | false => rfl
    | true => rw [Bool.true_and]; exact hr

theorem hequals_eq (h : Heap) (n : Nat) : ∀ v u x y, Shows h v x → Shows h u y → shaped v = true → shaped u = true → height v ≤ n →
    hequals h n x y = .ok (v.equals u) := by
  induction n with
  | zero => intro v u x y _ _ _ _ hh; cases v <;> simp [height] at hh
  | succ n ih =>
    intro v u x y h1 h2 s1 s2 hh
    cases v with
    | null =>
      rw [Shows] at h1; subst h1
      cases u with
      | list us => rw [Shows] at h2; obtain ⟨a, ys, rfl, _⟩ := h2; rfl
      | obj c us => rw [Shows] at h2; obtain ⟨a, ys, rfl, _⟩ := h2; rfl
      | _ => rw [Shows] at h2; subst h2; rfl
    | num a =>
      rw [Shows] at h1; subst h1
      cases u with
      | list us => rw [Shows] at h2; obtain ⟨a, ys, rfl, _⟩ := h2; rfl
      | obj c us => rw [Shows] at h2; obtain ⟨a, ys, rfl, _⟩ := h2; rfl
      | _ => rw [Shows] at h2; subst h2; rfl
    | str s =>
      rw [Shows] at h1; subst h1
      cases u with
      | list us => rw [Shows] at h2; obtain ⟨a, ys, rfl, _⟩ := h2; rfl
      | obj c us => rw [Shows] at h2; obtain ⟨a, ys, rfl, _⟩ := h2; rfl
      | _ => rw [Shows] at h2; subst h2; rfl
    | list vs =>
      have h10 := h1
      rw [Shows] at h1
      obtain ⟨r, xs, rfl, hr, hall⟩ := h1
      by_cases hy : y = .ref r
      · subst hy
        have := shows_det _ _ _ h10 h2
        subst this
        rw [(equals_same (.list vs) _ s1 s1).mpr (same_refl _)]
        simp [hequals]
      · cases u with
        | list us =>
          rw [Shows] at h2
          obtain ⟨q, ys, rfl, hq, hall'⟩ := h2
          have hne : r ≠ q := fun e => hy (by rw [e])
          simp only [hequals, if_neg hne, hr, hq, Val.equals]
          by_cases hl : xs.length = ys.length
          · rw [if_pos hl]
            exact hequalsAll_eq n ih vs us xs ys hall hall' (by simpa [shaped] using s1) (by simpa [shaped] using s2)
              (by simp only [height] at hh; omega) hl
          · rw [if_neg hl]
            congr 1
            symm
            rw [Bool.eq_false_iff]
            intro he
            have := ((equalsList_iff vs us).mp he).1
            rw [ShowsAll_length h vs xs hall, ShowsAll_length h us ys hall'] at this
            exact hl this
        | obj c us =>
          rw [Shows] at h2
          obtain ⟨q, ys, rfl, hq, hall'⟩ := h2
          have hne : r ≠ q := fun e => hy (by rw [e])
          simp only [hequals, if_neg hne, hr, hq, Val.equals]
        | _ => rw [Shows] at h2; subst h2; simp only [hequals, hr, Val.equals]
    | obj c vs =>
      have h10 := h1
      rw [Shows] at h1
      obtain ⟨r, xs, rfl, hr, hall⟩ := h1
      by_cases hy : y = .ref r
      · subst hy
        have := shows_det _ _ _ h10 h2
        subst this
        rw [(equals_same (.obj c vs) _ s1 s1).mpr (same_refl _)]
        simp [hequals]
      · cases u with
        | obj d us =>
          rw [Shows] at h2
          obtain ⟨q, ys, rfl, hq, hall'⟩ := h2
          have hne : r ≠ q := fun e => hy (by rw [e])
          simp only [hequals, if_neg hne, hr, hq, Val.equals]
          by_cases hcd : c = d
          · subst hcd
            simp only [shaped, Bool.and_eq_true, decide_eq_true_eq] at s1 s2
            rw [if_pos rfl, hequalsFields_eq n vs us xs ys hall hall'
              (fun v u x y hv hu h1 h2 => ih v u x y h1 h2 ((shapeds_iff _).mp s1.2 v hv) ((shapeds_iff _).mp s2.2 u hu)
                (by simp only [height] at hh; have := heights_mem vs v hv; omega))]
            · simp only [decide_true, Bool.true_and]
              rfl
            · intro p hp
              rw [eqs_table] at hp
              simp only [List.mem_map, List.mem_range] at hp
              obtain ⟨i, hi, rfl⟩ := hp
              rw [s1.1, s2.1]
              exact ⟨hi, hi⟩
          · simp [hcd]
        | list us =>
          rw [Shows] at h2
          obtain ⟨q, ys, rfl, hq, hall'⟩ := h2
          have hne : r ≠ q := fun e => hy (by rw [e])
          simp only [hequals, if_neg hne, hr, hq, Val.equals]
        | _ => rw [Shows] at h2; subst h2; simp only [hequals, hr, Val.equals]

/-! ### Cycles -/

/-- Every message on the heap has the fields of its class. -/
def FieldsOK (h : Heap) : Prop := ∀ (r : Nat) c fs, h[r]? = some (.msg c fs) → fs.length = (layout c).length

theorem hhashSeq_ok (f : HVal → Except JErr (BitVec 32)) : ∀ (xs : List HVal) (k i : BitVec 32), hhashSeq f k xs = .ok i →
    ∀ x ∈ xs, ∃ j, f x = .ok j
  | [], _, _, _, x, hx => by cases hx
  | y :: ys, k, i, hk, x, hx => by
    simp only [hhashSeq] at hk
    cases hy : f y with
    | error e => rw [hy] at hk; cases hk
    | ok j =>
      rw [hy] at hk
      rcases List.mem_cons.mp hx with rfl | hx
      · exact ⟨j, hy⟩
      · exact hhashSeq_ok f ys _ i hk x hx

theorem hpick_mem (fs : List HVal) : ∀ (is : List Nat) (vs : List HVal), hpick fs is = some vs → ∀ i ∈ is, ∀ y, fs[i]? = some y → y ∈ vs
  | [], _, _, i, hi, _, _ => by cases hi
  | j :: is, vs, hp, i, hi, y, hy => by
    simp only [hpick] at hp
    cases hj : fs[j]? with
    | none => rw [hj] at hp; cases hp
    | some z =>
      cases hr : hpick fs is with
      | none => rw [hj, hr] at hp; cases hp
      | some zs =>
        rw [hj, hr] at hp
        cases hp
        rcases List.mem_cons.mp hi with rfl | hi
        · rw [hj] at hy; cases hy; exact List.mem_cons_self ..
        · exact List.mem_cons_of_mem _ (hpick_mem fs is zs hr i hi y hy)

theorem hhash_finite (h : Heap) (hf : FieldsOK h) (n : Nat) : ∀ x k, hhash h n x = .ok k → ∃ v, Shows h v x := by
  induction n with
  | zero => intro x k hk; cases hk
  | succ n ih =>
    intro x k hk
    cases x with
    | null => exact ⟨.null, by rw [Shows]⟩
    | num a => exact ⟨.num a, by rw [Shows]⟩
    | str s => exact ⟨.str s, by rw [Shows]⟩
    | ref r =>
      simp only [hhash] at hk
      cases hr : h[r]? with
      | none => rw [hr] at hk; cases hk
      | some o =>
        rw [hr] at hk
        cases o with
        | arr xs =>
          obtain ⟨vs, hvs⟩ := showsAll_build (h := h) xs (fun y hy => by
            obtain ⟨j, hj⟩ := hhashSeq_ok _ xs 1 k hk y hy
            exact ih y j hj)
          exact ⟨.list vs, by rw [Shows]; exact ⟨r, xs, rfl, hr, hvs⟩⟩
        | msg c fs =>
          simp only [hash_table] at hk
          by_cases hc : fieldLess c = true
          · rw [if_pos hc] at hk
            exact ih _ k hk
          · rw [if_neg hc] at hk
            dsimp only at hk
            cases hp : hpick fs (List.range (layout c).length) with
            | none => rw [hp] at hk; cases hk
            | some zs =>
              rw [hp] at hk
              obtain ⟨vs, hvs⟩ := showsAll_build (h := h) fs (fun y hy => by
                obtain ⟨i, hi, e⟩ := List.getElem_of_mem hy
                have hm := hpick_mem fs _ zs hp i (by rw [List.mem_range, ← hf r c fs hr]; exact hi) y
                  (by rw [List.getElem?_eq_getElem hi, e])
                obtain ⟨j, hj⟩ := hhashSeq_ok _ zs 1 k hk y hm
                exact ih y j hj)
              exact ⟨.obj c vs, by rw [Shows]; exact ⟨r, fs, rfl, hr, hvs⟩⟩

theorem allSome_mem {α β : Type} (f : α → Option β) : ∀ (xs : List α) (ys : List β), allSome f xs = some ys → ∀ x ∈ xs, ∃ y, f x = some y
  | [], _, _, x, hx => by cases hx
  | z :: zs, ys, hs, x, hx => by
    simp only [allSome] at hs
    cases hz : f z with
    | none => rw [hz] at hs; cases hs
    | some y =>
      cases hr : allSome f zs with
      | none => rw [hz, hr] at hs; cases hs
      | some ys' =>
        rcases List.mem_cons.mp hx with rfl | hx
        · exact ⟨y, hz⟩
        · exact allSome_mem f zs ys' hr x hx

theorem strFields_mem : ∀ (names : List String) (i : Nat) (first : Bool) (j : Nat), i ≤ j → j < i + names.length →
    StrPart.field j ∈ strFields i first names
  | [], i, _, j, h1, h2 => by simp at h2; omega
  | nm :: names, i, first, j, h1, h2 => by
    simp only [strFields, List.length_cons] at h2 ⊢
    rcases Nat.lt_or_ge i j with hij | hij
    · exact List.mem_cons_of_mem _ (List.mem_cons_of_mem _ (strFields_mem names (i + 1) false j (by omega) (by omega)))
    · have : i = j := by omega
      subst this
      simp

theorem str_field_mem (c : Cls) (i : Nat) (hi : i < (layout c).length) : StrPart.field i ∈ (decl c).str := by
  rw [str_table]
  have hc : fieldLess c ≠ true := by
    intro hc
    have : layout c = [] := by simpa [fieldLess] using hc
    rw [this] at hi
    cases hi
  rw [if_neg hc]
  simp only [List.cons_append, List.mem_cons, List.mem_append]
  exact .inr (.inl (strFields_mem _ 0 true i (Nat.zero_le _) (by simpa using hi)))

theorem htoStr_finite (h : Heap) (hf : FieldsOK h) (hl : ∀ (a : Nat) xs, h[a]? = some (.arr xs) → HVal.ref a ∉ xs) (flt : Num → JStr) (n : Nat) :
    ∀ x s, htoStr h flt n x = some s → ∃ v, Shows h v x := by
  induction n with
  | zero => intro x k hk; cases hk
  | succ n ih =>
    intro x k hk
    cases x with
    | null => exact ⟨.null, by rw [Shows]⟩
    | num a => exact ⟨.num a, by rw [Shows]⟩
    | str s => exact ⟨.str s, by rw [Shows]⟩
    | ref r =>
      simp only [htoStr] at hk
      cases hr : h[r]? with
      | none => rw [hr] at hk; cases hk
      | some o =>
        rw [hr] at hk
        cases o with
        | arr xs =>
          simp only [Option.map_eq_some_iff] at hk
          obtain ⟨ss, hss, _⟩ := hk
          obtain ⟨vs, hvs⟩ := showsAll_build (h := h) xs (fun y hy => by
            obtain ⟨j, hj⟩ := allSome_mem _ xs ss hss y hy
            have hne : y ≠ .ref r := fun e => hl r xs hr (e ▸ hy)
            rw [if_neg hne] at hj
            exact ih y j hj)
          exact ⟨.list vs, by rw [Shows]; exact ⟨r, xs, rfl, hr, hvs⟩⟩
        | msg c fs =>
          simp only [Option.map_eq_some_iff] at hk
          obtain ⟨ss, hss, _⟩ := hk
          obtain ⟨vs, hvs⟩ := showsAll_build (h := h) fs (fun y hy => by
            obtain ⟨i, hi, e⟩ := List.getElem_of_mem hy
            obtain ⟨j, hj⟩ := allSome_mem _ _ ss hss (.field i) (str_field_mem c i (by rw [← hf r c fs hr]; exact hi))
            simp only [List.getElem?_eq_getElem hi, e] at hj
            exact ih y j hj)
          exact ⟨.obj c vs, by rw [Shows]; exact ⟨r, fs, rfl, hr, hvs⟩⟩

end FinProto
