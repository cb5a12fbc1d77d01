import Verif.Proofs.Stable
/-
Helper lemmas: classes inside a decoded message; a decoded message has all mandatory parts.
-/
namespace FinProto

/-- The classes nested in a layout. -/
def WTy.parts : WTy → List Cls
  | .sub c | .list (.sub c) => [c]
  | _ => []

/-- `Q` is closed under the nested and polymorphic parts of the layouts. -/
structure Closed (w : World) (Q : Cls → Prop) : Prop where
  sub : ∀ c, Q c → ∀ t ∈ wire c, ∀ c' ∈ t.parts, Q c'
  ext : ∀ c, Q c → ∀ fac key, WTy.ext fac key ∈ wire c → ∀ kv c', w.fac fac kv = some (fresh c') → Q c'

/-- Everything known of one value. -/
def Within (Q : Cls → Prop) (n : Nat) (k : Conv) (t : WTy) (v : Val) : Prop :=
  everyField (classesIn Q) k t v ∧ completeField t v = true ∧ depth v ≤ n

def CallIn (Q : Cls → Prop) (n : Nat) (call : DecCall) : Prop :=
  ∀ c b fs b', Q c → call c (freshFields c) b = (fs, b', none) →
    everyFields (classesIn Q) (conv c.mod) (wire c) fs ∧ completeFields (wire c) fs = true ∧ depthList fs + 1 ≤ n

theorem in_plain (w : World) (hw : FreshSuppliers w) (Q : Cls → Prop) (n : Nat) (call : DecCall) (hc : CallIn Q n call) (k : Conv)
    (done : List Val) (t : WTy) (hsub : ∀ c' ∈ t.parts, Q c')
    (hext : ∀ fac key, t = .ext fac key → ∀ kv c', w.fac fac kv = some (fresh c') → Q c') (hl : ∀ e, t ≠ .list e)
    (old v : Val) (hold : old = .null ∨ t.java.default = old) (b b' : RBuf)
    (h : readField w call k done t old b = (v, b', none)) : Within Q n k t v := by
  have hnum : ∀ (p : PTy), (match b.readNum (ordOf k p) p with
        | (b', .ok n) => (.num n, b', none)
        | (b', .error e) => (old, b', some e)) = (v, b', (none : Option JErr)) → ∃ m, v = .num m := by
    intro p
    rcases b.readNum (ordOf k p) p with ⟨b1, e | m⟩ <;> intro h <;> simp at h
    exact ⟨m, h.1.symm⟩
  cases t with
  | num p => obtain ⟨m, rfl⟩ := hnum p h; exact ⟨trivial, rfl, Nat.zero_le _⟩
  | len p => obtain ⟨m, rfl⟩ := hnum p h; exact ⟨trivial, rfl, Nat.zero_le _⟩
  | cksum p a => obtain ⟨m, rfl⟩ := hnum p h; exact ⟨trivial, rfl, Nat.zero_le _⟩
  | text m pad left =>
    simp only [readField] at h
    revert h
    rcases readFixedString b m pad left with ⟨b1, e | s⟩ <;> intro h <;> simp at h
    obtain ⟨rfl, rfl⟩ := h
    exact ⟨trivial, rfl, Nat.zero_le _⟩
  | vstr =>
    have hold' : old = .null := by rcases hold with h | h; exact h; exact h.symm
    subst hold'
    simp only [readField] at h
    revert h
    rcases readDyn b k.strLen k.order with ⟨b1, e | _ | s⟩ <;> intro h <;> simp at h
    · obtain ⟨rfl, rfl⟩ := h
      exact ⟨trivial, rfl, Nat.zero_le _⟩
    · obtain ⟨rfl, rfl⟩ := h
      exact ⟨trivial, rfl, Nat.zero_le _⟩
  | list e => exact absurd rfl (hl e)
  | sub c =>
    have hold' : old = .null := by rcases hold with h | h; exact h; exact h.symm
    subst hold'
    simp only [readField, Prod.mk.injEq] at h
    obtain ⟨rfl, h2⟩ := h
    have hq : Q c := hsub c (by simp [WTy.parts])
    have := hc c b _ b' hq (Prod.ext rfl h2)
    exact ⟨⟨hq, this.1⟩, this.2.1, this.2.2⟩
  | ext fac key =>
    simp only [readField] at h
    revert h
    cases hkey : done[key]? with
    | none => intro h; simp at h
    | some kv =>
      dsimp only
      cases hfac : w.fac fac (keyOf kv) with
      | none => intro h; simp at h
      | some x =>
        obtain ⟨c', rfl⟩ := hw _ _ _ hfac
        intro h
        simp only [fresh, Prod.mk.injEq] at h
        obtain ⟨rfl, h2⟩ := h
        have hq : Q c' := hext fac key rfl _ c' hfac
        have := hc c' b _ b' hq (Prod.ext rfl h2)
        exact ⟨⟨hq, this.1⟩, this.2.1, this.2.2⟩

theorem everyElem_of (P : Conv → WTy → Val → Prop) (k : Conv) (e : EWTy) (v : Val) (h : everyField P k e.toWTy v) :
    everyElem P k e v := by
  cases v <;> first | exact h | exact h.1

theorem completeElem_of (e : EWTy) (v : Val) (hn : v ≠ .null) (h : completeField e.toWTy v = true) : completeElem e v = true := by
  cases v <;> first | rfl | exact h | exact absurd rfl hn

theorem in_elems (w : World) (hw : FreshSuppliers w) (Q : Cls → Prop) (n : Nat) (call : DecCall) (hc : CallIn Q n call) (k : Conv)
    (e : EWTy) (hsub : ∀ c' ∈ (WTy.list e).parts, Q c') : ∀ (m : Nat) (acc xs : List Val) (b b' : RBuf),
      decElems call (decElOf k e) m acc b = (acc ++ xs, b', none) →
      everyElems (classesIn Q) k e xs ∧ completeElems e xs = true ∧ ∀ x ∈ xs, depth x ≤ n := by
  intro m
  induction m with
  | zero =>
    intro acc xs b b' h
    simp only [decElems, Prod.mk.injEq, and_true] at h
    have : xs = [] := List.append_right_eq_self.mp h.1.symm
    subst this
    exact ⟨trivial, rfl, by simp⟩
  | succ m ih =>
    intro acc xs b b' h
    simp only [decElems] at h
    revert h
    rcases hd : decElem call (decElOf k e) b with ⟨b1, e1 | _ | v⟩ <;> intro h
    · simp at h
    · exact ih acc xs b1 b' h
    · dsimp only at h
      have hpre := (decElems_length call (decElOf k e) m (acc ++ [v]) b1).2
      rw [h] at hpre
      obtain ⟨r, hr⟩ := hpre
      simp only [List.append_assoc, List.cons_append, List.nil_append] at hr
      have := List.append_cancel_left hr
      subst this
      obtain ⟨h1, hnn⟩ := decElem_readField w call k e b b1 v hd
      have h2 := in_plain w hw Q n call hc k [] e.toWTy (by cases e <;> simp_all [WTy.parts, EWTy.toWTy])
        (by cases e <;> simp [EWTy.toWTy]) (by cases e <;> simp [EWTy.toWTy]) .null v (.inl rfl) b b1 h1
      have h3 := ih (acc ++ [v]) r b1 b' (by rw [h]; simp)
      refine ⟨⟨everyElem_of _ k e v h2.1, h3.1⟩, ?_, ?_⟩
      · simp only [completeElems, completeElem_of e v hnn h2.2.1, h3.2.1, Bool.and_self]
      · intro x hx
        rcases List.mem_cons.mp hx with rfl | hx
        · exact h2.2.2
        · exact h3.2.2 x hx

theorem in_field (w : World) (hw : FreshSuppliers w) (Q : Cls → Prop) (n : Nat) (call : DecCall) (hc : CallIn Q n call) (k : Conv)
    (done : List Val) (t : WTy) (hsub : ∀ c' ∈ t.parts, Q c')
    (hext : ∀ fac key, t = .ext fac key → ∀ kv c', w.fac fac kv = some (fresh c') → Q c') (v : Val) (b b' : RBuf)
    (h : readField w call k done t t.blankValue b = (v, b', none)) : Within Q n k t v := by
  by_cases hl : ∀ e, t ≠ .list e
  · exact in_plain w hw Q n call hc k done t hsub hext hl _ v (.inr rfl) b b' h
  · obtain ⟨e, rfl⟩ : ∃ e, t = .list e := Classical.byContradiction fun hn => hl fun e he => hn ⟨e, he⟩
    simp only [readField] at h
    revert h
    rcases hr : b.readNum k.order k.listLen with ⟨b1, e1 | m⟩ <;> intro h
    · simp at h
    · dsimp only at h
      by_cases hpos : 0 < m.bits.toInt
      · rw [if_pos hpos] at h
        simp only [Prod.mk.injEq] at h
        obtain ⟨rfl, h2⟩ := h
        have h3 := in_elems w hw Q n call hc k e hsub _ [] _ b1 b' (Prod.ext rfl h2)
        exact ⟨⟨trivial, h3.1⟩, h3.2.1, depthList_le n _ h3.2.2⟩
      · rw [if_neg hpos] at h
        simp only [Prod.mk.injEq, and_true] at h
        obtain ⟨rfl, rfl⟩ := h
        exact ⟨trivial, rfl, Nat.zero_le _⟩

theorem in_fields (w : World) (hw : FreshSuppliers w) (Q : Cls → Prop) (n : Nat) (call : DecCall) (hc : CallIn Q n call) (k : Conv)
    (ts : List WTy) : ∀ (done fs : List Val) (b b' : RBuf), (∀ t ∈ ts, ∀ c' ∈ t.parts, Q c') →
      (∀ fac key, .ext fac key ∈ ts → ∀ kv c', w.fac fac kv = some (fresh c') → Q c') →
      readFields w call k done ts (ts.map WTy.blankValue) b = (done ++ fs, b', none) →
      everyFields (classesIn Q) k ts fs ∧ completeFields ts fs = true ∧ depthList fs ≤ n := by
  induction ts with
  | nil =>
    intro done fs b b' _ _ h
    simp only [List.map_nil, readFields, Prod.mk.injEq, and_true, List.append_nil] at h
    have : fs = [] := List.append_right_eq_self.mp h.1.symm
    subst this
    exact ⟨trivial, rfl, Nat.zero_le _⟩
  | cons t ts ih =>
    intro done fs b b' hsub hext h
    simp only [List.map_cons, readFields] at h
    revert h
    rcases hr : readField w call k done t t.blankValue b with ⟨v, b1, _ | e⟩ <;> intro h
    · dsimp only at h
      have hpre := readFields_prefix w call k ts (done ++ [v]) (ts.map WTy.blankValue) b1
      rw [h] at hpre
      obtain ⟨r, hr'⟩ := hpre
      have : fs = v :: r := by
        simp only [List.append_assoc, List.cons_append, List.nil_append] at hr'
        exact (List.append_cancel_left hr').symm
      subst this
      have h1 := in_field w hw Q n call hc k done t (hsub t (by simp)) (fun fac key ht => hext fac key (by simp [ht])) v b b1 hr
      have h2 := ih (done ++ [v]) r b1 b' (fun t ht => hsub t (by simp [ht])) (fun fac key ht => hext fac key (by simp [ht]))
        (by rw [h]; simp)
      refine ⟨⟨h1.1, h2.1⟩, ?_, ?_⟩
      · simp only [completeFields, h1.2.1, h2.2.1, Bool.and_self]
      · have := h1.2.2
        simp only [depthList]
        omega
    · simp at h

theorem decode_in (w : World) (hw : FreshSuppliers w) (Q : Cls → Prop) (hQ : Closed w Q) (n : Nat) : CallIn Q n (decode w n) := by
  induction n with
  | zero =>
    intro c b fs b' _ h
    simp [decode] at h
  | succ n ih =>
    intro c b fs b' hq h
    rw [decode_eq w n c _ _ (by simp [freshFields_eq]), freshFields_eq] at h
    have := in_fields w hw Q n (decode w n) ih (conv c.mod) (wire c) [] fs b b' (hQ.sub c hq) (hQ.ext c hq) h
    exact ⟨this.1, this.2.1, by omega⟩

theorem closed_true (w : World) : Closed w (fun _ => True) := ⟨fun _ _ _ _ _ _ => trivial, fun _ _ _ _ _ _ _ _ => trivial⟩

/-! ### Protocols -/

/-- Protocol of the messages of a factory. -/
theorem parts_mod (c : Cls) : (wire c).all (fun t => t.parts.all fun c' => c'.mod == c.mod) = true := by
  cases c <;> decide

theorem ext_mod (c : Cls) : (wire c).all (fun t => match t with
    | .ext fac _ => defaultRegs.all fun r => !(r.fac == fac) || r.cls.mod == c.mod
    | _ => true) = true := by
  cases c <;> decide +kernel

theorem closed_mod (w : World) (hd : DefaultClasses w) (m : Mod) : Closed w (fun c => c.mod = m) := by
  constructor
  · intro c hc t ht c' hc'
    have := parts_mod c
    rw [List.all_eq_true] at this
    have := this t ht
    rw [List.all_eq_true] at this
    have := this c' hc'
    simp only [beq_iff_eq] at this
    rw [this, hc]
  · intro c hc fac key ht kv c' hf
    have := ext_mod c
    rw [List.all_eq_true] at this
    have := this _ ht
    dsimp only at this
    rw [List.all_eq_true] at this
    obtain ⟨r, hr, h1, h2⟩ := hd fac kv c' (freshFields c') hf
    have := this r hr
    rw [h1, h2] at this
    simp only [beq_self_eq_true, Bool.not_true, Bool.false_or, beq_iff_eq] at this
    rw [this, hc]

/-! ### Combining conditions -/

/-- How conditions `P` and `R` on the fields of a message imply `T`; `S` is known of the layouts of the classes `Q`. -/
structure Combine (Q : Cls → Prop) (S : WTy → Prop) (P R T : Conv → WTy → Val → Prop) : Prop where
  layout : ∀ c, Q c → ∀ t ∈ wire c, S t
  elem : ∀ e, S (.list e) → S e.toWTy
  imp : ∀ k t v, S t → P k t v → R k t v → T k t v

def CombP (Q : Cls → Prop) (S : WTy → Prop) (P R T : Conv → WTy → Val → Prop) (v : Val) : Prop :=
  (∀ k t, S t → everyField (classesIn Q) k t v → everyField P k t v → everyField R k t v → everyField T k t v) ∧
  (∀ k e, S e.toWTy → everyElem (classesIn Q) k e v → everyElem P k e v → everyElem R k e v → everyElem T k e v)

theorem combFields {Q : Cls → Prop} {S : WTy → Prop} {P R T : Conv → WTy → Val → Prop} (k : Conv) (ts : List WTy)
    (fs : List Val) (h : ∀ x ∈ fs, CombP Q S P R T x) : (∀ t ∈ ts, S t) → everyFields (classesIn Q) k ts fs → everyFields P k ts fs →
      everyFields R k ts fs → everyFields T k ts fs := by
  induction fs generalizing ts with
  | nil => intros; trivial
  | cons v vs ih =>
    cases ts with
    | nil => intros; trivial
    | cons t ts =>
      intro hs h1 h2 h3
      exact ⟨(h v (by simp)).1 k t (hs t (by simp)) h1.1 h2.1 h3.1,
        ih ts (fun x hx => h x (by simp [hx])) (fun t ht => hs t (by simp [ht])) h1.2 h2.2 h3.2⟩

theorem combElems {Q : Cls → Prop} {S : WTy → Prop} {P R T : Conv → WTy → Val → Prop} (k : Conv) (e : EWTy)
    (fs : List Val) (h : ∀ x ∈ fs, CombP Q S P R T x) : S e.toWTy → everyElems (classesIn Q) k e fs → everyElems P k e fs →
      everyElems R k e fs → everyElems T k e fs := by
  induction fs with
  | nil => intros; trivial
  | cons v vs ih =>
    intro hs h1 h2 h3
    exact ⟨(h v (by simp)).2 k e hs h1.1 h2.1 h3.1, ih (fun x hx => h x (by simp [hx])) hs h1.2 h2.2 h3.2⟩

theorem combP {Q : Cls → Prop} {S : WTy → Prop} {P R T : Conv → WTy → Val → Prop} (hc : Combine Q S P R T) (v : Val) : CombP Q S P R T v := by
  refine Val.ind (P := CombP Q S P R T) ?_ ?_ ?_ ?_ ?_ v
  · exact ⟨fun k t hs _ h2 h3 => hc.imp k t _ hs h2 h3, fun k e hs _ h2 h3 => hc.imp k _ _ hs h2 h3⟩
  · intro n; exact ⟨fun k t hs _ h2 h3 => hc.imp k t _ hs h2 h3, fun k e hs _ h2 h3 => hc.imp k _ _ hs h2 h3⟩
  · intro s; exact ⟨fun k t hs _ h2 h3 => hc.imp k t _ hs h2 h3, fun k e hs _ h2 h3 => hc.imp k _ _ hs h2 h3⟩
  · intro xs ih
    refine ⟨fun k t hs h1 h2 h3 => ⟨hc.imp k t _ hs h2.1 h3.1, ?_⟩, fun k e hs _ h2 h3 => hc.imp k _ _ hs h2 h3⟩
    cases t with
    | list e => exact combElems k e xs ih (hc.elem e hs) h1.2 h2.2 h3.2
    | _ => trivial
  · intro c fs ih
    exact ⟨fun k t hs h1 h2 h3 => ⟨hc.imp k t _ hs h2.1 h3.1, combFields _ _ fs ih (hc.layout c h1.1) h1.2 h2.2 h3.2⟩,
      fun k e hs h1 h2 h3 => ⟨hc.imp k _ _ hs h2.1 h3.1, combFields _ _ fs ih (hc.layout c h1.1) h1.2 h2.2 h3.2⟩⟩

theorem everywhere_combine {Q : Cls → Prop} {S : WTy → Prop} {P R T : Conv → WTy → Val → Prop} (hc : Combine Q S P R T) (c : Cls) (fs : List Val)
    (hq : Q c) (h1 : everywhere (classesIn Q) (.obj c fs)) (h2 : everywhere P (.obj c fs)) (h3 : everywhere R (.obj c fs)) :
    everywhere T (.obj c fs) :=
  combFields _ _ fs (fun x _ => combP hc x) (hc.layout c hq) h1 h2 h3

/-- A condition that is always true. -/
def always (_ : Conv) (_ : WTy) (_ : Val) : Prop := True

theorem always_all (P : Conv → WTy → Val → Prop) (hP : ∀ k t v, P k t v) (v : Val) :
    (∀ k t, everyField P k t v) ∧ (∀ k e, everyElem P k e v) := by
  have fields : ∀ (fs : List Val), (∀ x ∈ fs, (∀ k t, everyField P k t x) ∧ (∀ k e, everyElem P k e x)) →
      ∀ k ts, everyFields P k ts fs := by
    intro fs
    induction fs with
    | nil => intros; trivial
    | cons v vs ih =>
      intro h k ts
      cases ts with
      | nil => trivial
      | cons t ts => exact ⟨(h v (by simp)).1 k t, ih (fun x hx => h x (by simp [hx])) k ts⟩
  have elems : ∀ (fs : List Val), (∀ x ∈ fs, (∀ k t, everyField P k t x) ∧ (∀ k e, everyElem P k e x)) →
      ∀ k e, everyElems P k e fs := by
    intro fs
    induction fs with
    | nil => intros; trivial
    | cons v vs ih =>
      intro h k e
      exact ⟨(h v (by simp)).2 k e, ih (fun x hx => h x (by simp [hx])) k e⟩
  refine Val.ind (P := fun v => (∀ k t, everyField P k t v) ∧ (∀ k e, everyElem P k e v)) ?_ ?_ ?_ ?_ ?_ v
  · exact ⟨fun k t => hP k t _, fun k e => hP k _ _⟩
  · intro n; exact ⟨fun k t => hP k t _, fun k e => hP k _ _⟩
  · intro s; exact ⟨fun k t => hP k t _, fun k e => hP k _ _⟩
  · intro xs ih
    refine ⟨fun k t => ⟨hP k t _, ?_⟩, fun k e => hP k _ _⟩
    cases t with
    | list e => exact elems xs ih k e
    | _ => trivial
  · intro c fs ih
    exact ⟨fun k t => ⟨hP k t _, fields fs ih _ _⟩, fun k e => ⟨hP k _ _, fields fs ih _ _⟩⟩

theorem everywhere_always (P : Conv → WTy → Val → Prop) (hP : ∀ k t v, P k t v) (c : Cls) (fs : List Val) : everywhere P (.obj c fs) :=
  ((always_all P hP (.obj c fs)).1 (conv c.mod) (.sub c)).2

/-- Both conditions hold everywhere. -/
theorem everywhere_and {P R : Conv → WTy → Val → Prop} (c : Cls) (fs : List Val) (h1 : everywhere P (.obj c fs)) (h2 : everywhere R (.obj c fs)) :
    everywhere (fun k t v => P k t v ∧ R k t v) (.obj c fs) :=
  everywhere_combine (Q := fun _ => True) (S := fun _ => True) (P := P) (R := R)
    ⟨fun _ _ _ _ => trivial, fun _ _ => trivial, fun _ _ _ _ a b => ⟨a, b⟩⟩ c fs trivial
    (everywhere_always _ (fun _ _ v => by cases v <;> trivial) c fs) h1 h2

/-- No left-padded texts and no lists of length-prefixed strings. -/
def WTy.ordinary : WTy → Bool
  | .text _ _ left => !left
  | .list (.text _ _ left) => !left
  | .list .vstr => false
  | _ => true

/-- Only the sample protocol has such fields. -/
theorem ordinary_table (c : Cls) : c.mod = .sample ∨ (wire c).all WTy.ordinary = true := by
  cases c <;> first | exact .inr (by decide) | exact .inl rfl

theorem intact_of (c : Cls) (fs : List Val) (hc : c.mod ≠ .sample) (h1 : everywhere (classesIn fun d => d.mod = c.mod) (.obj c fs))
    (h2 : everywhere noReplacement (.obj c fs)) : everywhere intact (.obj c fs) := by
  refine everywhere_combine (Q := fun d => d.mod = c.mod) (S := fun t => t.ordinary = true) (P := noReplacement) (R := noReplacement)
    ⟨?_, ?_, ?_⟩ c fs rfl h1 h2 h2
  · intro d hd t ht
    rcases ordinary_table d with h | h
    · exact absurd (hd.symm.trans h) hc
    · rw [List.all_eq_true] at h
      exact h t ht
  · intro e he
    cases e <;> first | rfl | exact he | (simp [WTy.ordinary] at he)
  · intro k t v hs h _
    refine ⟨h, ?_, ?_⟩
    · cases t with
      | text n pad left =>
        cases left with
        | true => simp [WTy.ordinary] at hs
        | false => trivial
      | _ => trivial
    · cases t with
      | list e =>
        cases e with
        | vstr => simp [WTy.ordinary] at hs
        | _ => trivial
      | _ => trivial

end FinProto
