import Verif.Proofs.Stream
/-
Helper lemmas for receivers whose buffer has old bytes behind the writer index: if `decode` finds an unknown key there, it does so for a
reason that no further bytes can change.
-/
namespace FinProto

theorem Law.carry {α : Type} {f : Reader α} (hf : Law f) {data sp : List Byte} {rd : Nat} (hrd : rd ≤ data.length) {a : α} {b' : RBuf}
    (h : f ⟨data, sp, rd⟩ = (a, b', none)) (hin : b'.rd ≤ data.length) (more sp' : List Byte) :
    f ⟨data ++ more, sp', rd⟩ = (a, ⟨data ++ more, sp', b'.rd⟩, none) := by
  have h1 := hf.local' ⟨data, sp, rd⟩
  rw [h] at h1
  obtain ⟨X, ⟨t, hX⟩, hr, hacc⟩ := h1 rfl
  dsimp only at hX hr hacc
  have hX' : X = (data.drop rd).take X.length := by
    have h2 : X = (X ++ t).take X.length := by simp
    rw [h2, hX, List.drop_append_of_le_length hrd, List.take_append_of_le_length (by simp; omega)]
    simp
  have hdata : data ++ more = data.take rd ++ X ++ ((data.drop rd).drop X.length ++ more) := by
    conv => lhs; rw [← List.take_append_drop rd data]
    conv => lhs; rw [← List.take_append_drop X.length (data.drop rd)]
    rw [← hX']
    simp [List.append_assoc]
  have hl : (data.take rd).length = rd := by simp; omega
  have := (hacc (data.take rd)).1 ((data.drop rd).drop X.length ++ more) sp'
  rw [← hdata, hl] at this
  rw [this, hr]

structure Doom {α : Type} (f : Reader α) : Prop extends Law f where
  beyond : ∀ b, b.data.length < b.rd → (f b).2.2 ≠ some .illegalArgument
  doom : ∀ data sp rd more sp', rd ≤ data.length → (f ⟨data, sp, rd⟩).2.2 = some .illegalArgument → (f ⟨data ++ more, sp', rd⟩).2.2 ≠ none

theorem Doom.pure {α : Type} (a : α) : Doom (fun b => (a, b, none)) where
  toLaw := Law.pure a
  beyond _ _ h := by cases h
  doom _ _ _ _ _ _ h := by cases h

theorem Doom.fail {α : Type} (a : α) (e : JErr) (he : e ≠ .illegalArgument) : Doom (fun b => (a, b, some e)) where
  toLaw := Law.fail a e
  beyond _ _ h := he (Option.some.inj h)
  doom _ _ _ _ _ _ h := absurd (Option.some.inj h) he

theorem Doom.bind {α β : Type} {f : Reader α} {g : α → Reader β} (h : α → β) (hf : Doom f) (hg : ∀ a, Doom (g a)) :
    Doom (Reader.bind f g h) where
  toLaw := Law.bind h hf.toLaw fun a => (hg a).toLaw
  beyond b hb := by
    have h1 := hf.data b
    have h2 := hf.forward b
    have h3 := hf.beyond b hb
    rcases hfb : f b with ⟨a, b', _ | e1⟩
    · rw [hfb] at h1 h2
      simp only [Reader.bind, hfb]
      exact (hg a).beyond b' (by dsimp only at h1 h2; rw [h1]; omega)
    · rw [hfb] at h3
      simp only [Reader.bind, hfb]
      exact h3
  doom data sp rd more sp' hrd he := by
    have h1 := hf.data ⟨data, sp, rd⟩
    have h2 := hf.spare ⟨data, sp, rd⟩
    have h4 := hf.doom data sp rd more sp' hrd
    rcases hfb : f ⟨data, sp, rd⟩ with ⟨a, b', _ | e1⟩
    · rw [hfb] at h1 h2
      simp only [Reader.bind, hfb] at he
      by_cases hin : b'.rd ≤ data.length
      · have := hf.toLaw.carry hrd hfb hin more sp'
        simp only [Reader.bind, this]
        obtain ⟨d, s, r⟩ := b'
        dsimp only at h1 h2 hin
        subst h1 h2
        exact (hg a).doom _ _ _ _ _ hin he
      · exact absurd he ((hg a).beyond b' (by dsimp only at h1; rw [h1]; omega))
    · rw [hfb] at h4
      simp only [Reader.bind, hfb] at he
      have := h4 he
      simp only [Reader.bind]
      rcases hfb' : f ⟨data ++ more, sp', rd⟩ with ⟨a', b'', _ | e2⟩
      · rw [hfb'] at this; exact absurd rfl this
      · simp

theorem doom_readNum (e : Endian) (t : PTy) : Doom (toReader fun b => b.readNum e t) := by
  have key : ∀ b, ((toReader fun b => b.readNum e t) b).2.2 ≠ some .illegalArgument := by
    intro b h
    simp only [toReader] at h
    revert h
    rcases hr : b.readNum e t with ⟨b', x | n⟩ <;> intro h
    · cases h
      exact absurd (readNum_err hr) (by decide)
    · cases h
  exact { toLaw := law_readNum e t, beyond := fun b _ => key b, doom := fun data sp rd _ _ _ h => absurd h (key _) }

theorem doom_readText (n : Nat) : Doom (toReader fun b => b.readText n) := by
  have key : ∀ b, ((toReader fun b => b.readText n) b).2.2 ≠ some .illegalArgument := by
    intro b h
    simp only [toReader] at h
    revert h
    rcases hr : b.readText n with ⟨b', x | n⟩ <;> intro h
    · cases h
      exact absurd (readText_err hr) (by decide)
    · cases h
  exact { toLaw := law_readText n, beyond := fun b _ => key b, doom := fun data sp rd _ _ _ h => absurd h (key _) }

/-! ### Compound reads -/

theorem doom_readFixedString (n : Nat) (pad : JChar) (left : Bool) : Doom (toReader fun b => readFixedString b n pad left) := by
  have : (toReader fun b => readFixedString b n pad left) =
      Reader.bind (toReader fun b => b.readText n)
        (fun o b => (o.map (trimByChar · pad left), b, none)) (fun _ => none) := by
    funext b
    simp only [toReader, readFixedString, Reader.bind]
    rcases b.readText n with ⟨b', e | s⟩
    · rfl
    · cases left <;> rfl
  rw [this]
  exact Doom.bind _ (doom_readText n) fun a => Doom.pure _

theorem doom_readDyn (t : PTy) (e : Endian) : Doom (toReader fun b => readDyn b t e) := by
  have : (toReader fun b => readDyn b t e) =
      Reader.bind (toReader fun b => b.readNum e t)
        (fun o => match o with
          | none => fun b => (none, b, none)
          | some n => if 0 < n.bits.toInt then
              Reader.bind (toReader fun b => b.readText n.bits.toNat) (fun o b => (o.map some, b, none)) (fun _ => none)
            else fun b => (some none, b, none)) (fun _ => none) := by
    funext b
    simp only [toReader, readDyn, Reader.bind]
    rcases b.readNum e t with ⟨b', e | n⟩
    · rfl
    · dsimp only
      by_cases h : 0 < n.bits.toInt
      · rw [if_pos h, if_pos h]
        simp only [Reader.bind, toReader]
        rcases b'.readText n.bits.toNat with ⟨b'', e | s⟩ <;> rfl
      · rw [if_neg h, if_neg h]
  rw [this]
  refine Doom.bind _ (doom_readNum e t) fun a => ?_
  cases a with
  | none => exact Doom.pure _
  | some n =>
    dsimp only
    split
    · exact Doom.bind _ (doom_readText _) fun a => Doom.pure _
    · exact Doom.pure _

theorem doom_decElem (call : DecCall) (hc : ∀ c fs, Doom (call c fs)) (el : DecElem) : Doom (toReader (decElem call el)) := by
  cases el with
  | num t e =>
    have : toReader (decElem call (.num t e)) =
        Reader.bind (toReader fun b => b.readNum e t) (fun o b => (o.map fun n => some (.num n), b, none)) (fun _ => none) := by
      funext b
      simp only [toReader, decElem, Reader.bind]
      rcases b.readNum e t with ⟨b', e | n⟩ <;> rfl
    rw [this]
    exact Doom.bind _ (doom_readNum e t) fun a => Doom.pure _
  | fixed n pad left =>
    have : toReader (decElem call (.fixed n pad left)) =
        Reader.bind (toReader fun b => readFixedString b n pad left)
          (fun o b => (o.map fun s => some (.str s), b, none)) (fun _ => none) := by
      funext b
      simp only [toReader, decElem, Reader.bind]
      rcases readFixedString b n pad left with ⟨b', e | n⟩ <;> rfl
    rw [this]
    exact Doom.bind _ (doom_readFixedString n pad left) fun a => Doom.pure _
  | dyn t e =>
    have : toReader (decElem call (.dyn t e)) =
        Reader.bind (toReader fun b => readDyn b t e)
          (fun o b => (o.map fun s => s.map .str, b, none)) (fun _ => none) := by
      funext b
      simp only [toReader, decElem, Reader.bind]
      rcases readDyn b t e with ⟨b', e | n⟩ <;> rfl
    rw [this]
    exact Doom.bind _ (doom_readDyn t e) fun a => Doom.pure _
  | obj c =>
    have : toReader (decElem call (.obj c)) =
        Reader.bind (call c (freshFields c)) (fun fs b => (some (some (.obj c fs)), b, none)) (fun _ => none) := by
      funext b
      simp only [toReader, decElem, Reader.bind]
      rcases call c (freshFields c) b with ⟨fs, b', _ | e⟩ <;> rfl
    rw [this]
    exact Doom.bind _ (hc _ _) fun a => Doom.pure _

theorem doom_decElems (call : DecCall) (hc : ∀ c fs, Doom (call c fs)) (el : DecElem) (n : Nat) :
    ∀ acc, Doom (decElems call el n acc) := by
  induction n with
  | zero =>
    intro acc
    have : decElems call el 0 acc = fun b => (acc, b, none) := funext fun b => rfl
    rw [this]
    exact Doom.pure _
  | succ n ih =>
    intro acc
    have : decElems call el (n + 1) acc =
        Reader.bind (toReader (decElem call el))
          (fun o => match o with
            | some (some v) => decElems call el n (acc ++ [v])
            | _ => decElems call el n acc) (fun _ => acc) := by
      funext b
      simp only [decElems, toReader, Reader.bind]
      rcases decElem call el b with ⟨b', e | _ | v⟩ <;> rfl
    rw [this]
    refine Doom.bind _ (doom_decElem call hc el) fun a => ?_
    split <;> exact ih _

theorem doom_obj (call : DecCall) (hc : ∀ c fs, Doom (call c fs)) (c : Cls) (cs : List Val) (k : List Val → List Val) :
    Doom (fun b => (k (call c cs b).1, (call c cs b).2.1, (call c cs b).2.2)) := by
  have : (fun b => (k (call c cs b).1, (call c cs b).2.1, (call c cs b).2.2)) =
      Reader.bind (call c cs) (fun fs b => (k fs, b, none)) k := by
    funext b
    simp only [Reader.bind]
    rcases call c cs b with ⟨fs, b', _ | e⟩ <;> rfl
  rw [this]
  exact Doom.bind _ (hc _ _) fun a => Doom.pure _

theorem doom_stmt (w : World) (call : DecCall) (hc : ∀ c fs, Doom (call c fs)) (tys : List FTy) (s : DecStmt) (fs : List Val)
    (hs : ∀ f fac key, s ≠ .create f fac key) :
    Doom (stmtReader w call tys s fs) := by
  cases s with
  | num f t e =>
    have : stmtReader w call tys (.num f t e) fs =
        Reader.bind (toReader fun b => b.readNum e t)
          (fun o => match o.bind fun n => tys[f]?.bind (assignNum · n) with
            | some v => fun b => (fs.set f v, b, none)
            | none => fun b => (fs, b, some .illTyped)) (fun _ => fs) := by
      funext b
      simp only [stmtReader, decStmt, toReader, Reader.bind]
      rcases b.readNum e t with ⟨b', e | n⟩
      · rfl
      · dsimp only [Option.bind_some]
        cases tys[f]?.bind (assignNum · n) <;> rfl
    rw [this]
    refine Doom.bind _ (doom_readNum e t) fun a => ?_
    split
    · exact Doom.pure _
    · exact Doom.fail _ _ (by decide)
  | fixed f n pad left =>
    have : stmtReader w call tys (.fixed f n pad left) fs =
        Reader.bind (toReader fun b => readFixedString b n pad left)
          (fun o b => ((match o with | some s => fs.set f (.str s) | none => fs), b, none)) (fun _ => fs) := by
      funext b
      simp only [stmtReader, decStmt, toReader, Reader.bind]
      rcases readFixedString b n pad left with ⟨b', e | n⟩ <;> rfl
    rw [this]
    exact Doom.bind _ (doom_readFixedString n pad left) fun a => Doom.pure _
  | dyn f t e =>
    have : stmtReader w call tys (.dyn f t e) fs =
        Reader.bind (toReader fun b => readDyn b t e)
          (fun o b => ((match o with | some (some s) => fs.set f (.str s) | _ => fs), b, none)) (fun _ => fs) := by
      funext b
      simp only [stmtReader, decStmt, toReader, Reader.bind]
      rcases readDyn b t e with ⟨b', e | _ | n⟩ <;> rfl
    rw [this]
    exact Doom.bind _ (doom_readDyn t e) fun a => Doom.pure _
  | list f t e el =>
    have : stmtReader w call tys (.list f t e el) fs =
        Reader.bind (toReader fun b => b.readNum e t)
          (fun o => match o with
            | none => fun b => (fs, b, none)
            | some n => if 0 < n.bits.toInt then
                Reader.bind (decElems call el n.bits.toNat []) (fun xs b => (fs.set f (.list xs), b, none))
                  (fun xs => fs.set f (.list xs))
              else fun b => (fs, b, none)) (fun _ => fs) := by
      funext b
      simp only [stmtReader, decStmt, toReader, Reader.bind]
      rcases b.readNum e t with ⟨b', e | n⟩
      · rfl
      · dsimp only
        by_cases h : 0 < n.bits.toInt
        · rw [if_pos h, if_pos h]
          simp only [Reader.bind]
          rcases decElems call el n.bits.toNat [] b' with ⟨xs, b'', _ | e⟩ <;> rfl
        · rw [if_neg h, if_neg h]
    rw [this]
    refine Doom.bind _ (doom_readNum e t) fun a => ?_
    cases a with
    | none => exact Doom.pure _
    | some n =>
      dsimp only
      split
      · exact Doom.bind _ (doom_decElems call hc el _ _) fun a => Doom.pure _
      · exact Doom.pure _
  | obj f c =>
    unfold stmtReader decStmt
    dsimp only
    rcases hf : fs[f]? with _ | v
    · exact Doom.fail _ _ (by decide)
    · cases v with
      | null => exact doom_obj call hc c (freshFields c) fun xs => fs.set f (.obj c xs)
      | obj c' fs' => exact doom_obj call hc c' fs' fun xs => fs.set f (.obj c' xs)
      | _ => exact Doom.fail _ _ (by decide)
  | create f fac key => exact absurd rfl (hs f fac key)
  | call f =>
    unfold stmtReader decStmt
    dsimp only
    rcases hf : fs[f]? with _ | v
    · exact Doom.fail _ _ (by decide)
    · cases v with
      | null => exact Doom.fail _ _ (by decide)
      | obj c' fs' => exact doom_obj call hc c' fs' fun xs => fs.set f (.obj c' xs)
      | _ => exact Doom.fail _ _ (by decide)


/-- The field a statement assigns. -/
def DecStmt.target : DecStmt → Nat
  | .num f _ _ | .fixed f _ _ _ | .dyn f _ _ | .list f _ _ _ | .obj f _ | .create f _ _ | .call f => f

/-- Every `create` comes behind a number, and its key is not assigned behind the last number in front of it. -/
def sure : Bool → List Nat → List DecStmt → Bool
  | _, _, [] => true
  | seen, since, .create f _ key :: ss => seen && !since.contains key && sure seen (f :: since) ss
  | _, _, .num _ _ _ :: ss => sure true [] ss
  | seen, since, s :: ss => sure seen (s.target :: since) ss

theorem sure_table : allCls.all (fun c => sure false [] (decl c).dec) = true := by decide +kernel

theorem decStmt_other (w : World) (call : DecCall) (tys : List FTy) (s : DecStmt) (st : DecSt) (k : Nat) (hk : k ≠ s.target) :
    (decStmt w call tys s st).1.fs[k]? = st.fs[k]? := by
  cases s <;> simp only [DecStmt.target] at hk <;> simp only [decStmt] <;> repeat' split
  all_goals first | rfl | (simp only; rw [List.getElem?_set_ne (Ne.symm hk)])

theorem sure_other {seen : Bool} {since : List Nat} {s : DecStmt} {ss : List DecStmt} (h : sure seen since (s :: ss) = true)
    (h1 : ∀ f fac key, s ≠ .create f fac key) (h2 : ∀ f t e, s ≠ .num f t e) : sure seen (s.target :: since) ss = true := by
  cases s
  case create => exact absurd rfl (h1 _ _ _)
  case num => exact absurd rfl (h2 _ _ _)
  all_goals exact h

theorem decStmts_cons (w : World) (call : DecCall) (tys : List FTy) (s : DecStmt) (ss : List DecStmt) (st : DecSt) :
    decStmts w call tys (s :: ss) st = match decStmt w call tys s st with
      | (st', none) => decStmts w call tys ss st'
      | (st', some e) => (st', some e) := rfl

theorem num_beyond (w : World) (call : DecCall) (tys : List FTy) (f : Nat) (t : PTy) (e : Endian) (fs : List Val) (b : RBuf)
    (hb : b.data.length < b.rd) : decStmt w call tys (.num f t e) ⟨fs, b⟩ = (⟨fs, b⟩, some .indexOutOfBounds) := by
  simp only [decStmt, RBuf.readNum]
  rw [if_neg (by omega)]

theorem num_inside (w : World) (call : DecCall) (tys : List FTy) (f : Nat) (t : PTy) (e : Endian) (fs : List Val) (b : RBuf) (st : DecSt)
    (h : decStmt w call tys (.num f t e) ⟨fs, b⟩ = (st, none)) : st.buf.rd ≤ b.data.length := by
  simp only [decStmt, RBuf.readNum] at h
  by_cases hb : b.rd + t.size ≤ b.data.length
  · rw [if_pos hb] at h
    revert h
    dsimp only
    cases tys[f]?.bind (assignNum · (Num.ofBytes e t ((b.data.drop b.rd).take t.size))) <;> intro h <;> cases h
    exact hb
  · rw [if_neg hb] at h
    cases h

section
variable (w : World) (call : DecCall) (hc : ∀ c fs, Doom (call c fs)) (tys : List FTy)
include hc

theorem beyond_stmts (ss : List DecStmt) : ∀ (fs : List Val) (b : RBuf) (since : List Nat), b.data.length < b.rd → sure false since ss = true →
    (decStmts w call tys ss ⟨fs, b⟩).2 ≠ some .illegalArgument := by
  induction ss with
  | nil => intro fs b since _ _ h; cases h
  | cons s ss ih =>
    intro fs b since hb hs
    rw [decStmts_cons]
    by_cases h1 : ∃ f fac key, s = .create f fac key
    · obtain ⟨f, fac, key, rfl⟩ := h1
      simp [sure] at hs
    by_cases h2 : ∃ f t e, s = .num f t e
    · obtain ⟨f, t, e, rfl⟩ := h2
      rw [num_beyond w call tys f t e fs b hb]
      simp
    have h1' : ∀ f fac key, s ≠ .create f fac key := fun f fac key h => h1 ⟨f, fac, key, h⟩
    have h2' : ∀ f t e, s ≠ .num f t e := fun f t e h => h2 ⟨f, t, e, h⟩
    have hd := doom_stmt w call hc tys s fs h1'
    have e1 := hd.beyond b hb
    have e2 := hd.data b
    have e3 := hd.forward b
    simp only [stmtReader] at e1 e2 e3
    revert e1 e2 e3
    rcases decStmt w call tys s ⟨fs, b⟩ with ⟨⟨fs', b'⟩, _ | e⟩
    · intro _ e2 e3
      exact ih fs' b' _ (by dsimp only at e2 e3; rw [e2]; omega) (sure_other hs h1' h2')
    · intro e1 _ _
      exact e1

theorem late_stmts (ss : List DecStmt) : ∀ (fsA fsB : List Val) (bA bB : RBuf) (seen : Bool) (since : List Nat), bA.data.length < bA.rd →
    sure seen since ss = true → (∀ k, k ∉ since → fsA[k]? = fsB[k]?) → (decStmts w call tys ss ⟨fsA, bA⟩).2 = some .illegalArgument →
    (decStmts w call tys ss ⟨fsB, bB⟩).2 ≠ none := by
  induction ss with
  | nil => intro fsA fsB bA bB seen since _ _ _ h; cases h
  | cons s ss ih =>
    intro fsA fsB bA bB seen since hb hs hag hA
    rw [decStmts_cons] at hA ⊢
    by_cases h1 : ∃ f fac key, s = .create f fac key
    · obtain ⟨f, fac, key, rfl⟩ := h1
      simp only [sure, Bool.and_eq_true, Bool.not_eq_true', List.contains_eq_mem, decide_eq_false_iff_not] at hs
      have hk := hag key hs.1.2
      simp only [decStmt] at hA ⊢
      rw [← hk]
      rcases hv : fsA[key]? with _ | v
      · rw [hv] at hA; cases hA
      · rw [hv] at hA
        dsimp only at hA ⊢
        rcases hf : w.fac fac (keyOf v) with _ | v'
        · simp
        · rw [hf] at hA
          dsimp only at hA ⊢
          refine ih _ _ _ _ seen (f :: since) hb hs.2 (fun k hk => ?_) hA
          rw [List.mem_cons, not_or] at hk
          rw [List.getElem?_set_ne (Ne.symm hk.1), List.getElem?_set_ne (Ne.symm hk.1)]
          exact hag k hk.2
    by_cases h2 : ∃ f t e, s = .num f t e
    · obtain ⟨f, t, e, rfl⟩ := h2
      rw [num_beyond w call tys f t e fsA bA hb] at hA
      cases hA
    have h1' : ∀ f fac key, s ≠ .create f fac key := fun f fac key h => h1 ⟨f, fac, key, h⟩
    have h2' : ∀ f t e, s ≠ .num f t e := fun f t e h => h2 ⟨f, t, e, h⟩
    have hd := doom_stmt w call hc tys s fsA h1'
    have e1 := hd.beyond bA hb
    have e2 := hd.data bA
    have e3 := hd.forward bA
    have oA := fun k (hk : k ≠ s.target) => decStmt_other w call tys s ⟨fsA, bA⟩ k hk
    have oB := fun k (hk : k ≠ s.target) => decStmt_other w call tys s ⟨fsB, bB⟩ k hk
    simp only [stmtReader] at e1 e2 e3
    revert e1 e2 e3 oA oB hA
    rcases decStmt w call tys s ⟨fsA, bA⟩ with ⟨⟨fsA', bA'⟩, _ | e⟩
    · rcases decStmt w call tys s ⟨fsB, bB⟩ with ⟨⟨fsB', bB'⟩, _ | e⟩
      · intro hA _ e2 e3 oA oB
        refine ih _ _ _ _ seen (s.target :: since) (by dsimp only at e2 e3; rw [e2]; omega) (sure_other hs h1' h2') (fun k hk => ?_) hA
        rw [List.mem_cons, not_or] at hk
        have a := oA k hk.1
        have b := oB k hk.1
        dsimp only at a b
        rw [a, b]
        exact hag k hk.2
      · intro _ _ _ _ _ _
        simp
    · intro hA e1
      exact absurd hA e1

theorem doom_stmts (ss : List DecStmt) : ∀ (fs : List Val) (data sp : List Byte) (rd : Nat) (more sp' : List Byte) (seen : Bool)
    (since : List Nat), rd ≤ data.length → sure seen since ss = true →
    (decStmts w call tys ss ⟨fs, ⟨data, sp, rd⟩⟩).2 = some .illegalArgument → (decStmts w call tys ss ⟨fs, ⟨data ++ more, sp', rd⟩⟩).2 ≠ none := by
  induction ss with
  | nil => intro fs data sp rd more sp' seen since _ _ h; cases h
  | cons s ss ih =>
    intro fs data sp rd more sp' seen since hrd hs hA
    rw [decStmts_cons] at hA ⊢
    by_cases h1 : ∃ f fac key, s = .create f fac key
    · obtain ⟨f, fac, key, rfl⟩ := h1
      simp only [sure, Bool.and_eq_true] at hs
      simp only [decStmt] at hA ⊢
      rcases hv : fs[key]? with _ | v
      · simp
      · rw [hv] at hA
        dsimp only at hA ⊢
        rcases hf : w.fac fac (keyOf v) with _ | v'
        · simp
        · rw [hf] at hA
          exact ih _ _ _ _ _ _ seen (f :: since) hrd hs.2 hA
    have h1' : ∀ f fac key, s ≠ .create f fac key := fun f fac key h => h1 ⟨f, fac, key, h⟩
    have hd := doom_stmt w call hc tys s fs h1'
    have e1 := hd.doom data sp rd more sp' hrd
    have e2 := hd.data ⟨data, sp, rd⟩
    have e3 := hd.spare ⟨data, sp, rd⟩
    have e4 := fun a b' => hd.toLaw.carry (sp := sp) (a := a) (b' := b') hrd (more := more) (sp' := sp')
    have oA := fun k (hk : k ≠ s.target) => decStmt_other w call tys s ⟨fs, ⟨data, sp, rd⟩⟩ k hk
    have oB := fun k (hk : k ≠ s.target) => decStmt_other w call tys s ⟨fs, ⟨data ++ more, sp', rd⟩⟩ k hk
    simp only [stmtReader] at e1 e2 e3 e4
    rcases hsA : decStmt w call tys s ⟨fs, ⟨data, sp, rd⟩⟩ with ⟨⟨fsA, ⟨dA, spA, rdA⟩⟩, _ | e⟩
    · rw [hsA] at hA e2 e3 oA
      dsimp only at hA e2 e3
      subst e2 e3
      by_cases hin : rdA ≤ dA.length
      · have := e4 fsA ⟨dA, spA, rdA⟩ (by rw [hsA]) hin
        rcases hsB : decStmt w call tys s ⟨fs, ⟨dA ++ more, sp', rd⟩⟩ with ⟨⟨fsB, bB⟩, _ | e⟩
        · rw [hsB] at this
          dsimp only at this
          simp only [Prod.mk.injEq, and_true] at this
          obtain ⟨rfl, rfl⟩ := this
          obtain ⟨seen', since', hs'⟩ : ∃ seen' since', sure seen' since' ss = true := by
            by_cases h2 : ∃ f t e, s = .num f t e
            · obtain ⟨f, t, e, rfl⟩ := h2
              exact ⟨true, [], hs⟩
            · exact ⟨_, _, sure_other hs h1' fun f t e h => h2 ⟨f, t, e, h⟩⟩
          exact ih _ _ _ _ _ _ seen' since' hin hs' hA
        · simp
      · by_cases h2 : ∃ f t e, s = .num f t e
        · obtain ⟨f, t, e, rfl⟩ := h2
          exact absurd (num_inside w call tys f t e fs _ _ hsA) hin
        have h2' : ∀ f t e, s ≠ .num f t e := fun f t e h => h2 ⟨f, t, e, h⟩
        rcases hsB : decStmt w call tys s ⟨fs, ⟨dA ++ more, sp', rd⟩⟩ with ⟨⟨fsB, bB⟩, _ | e⟩
        · rw [hsB] at oB
          refine late_stmts w call hc tys ss fsA fsB _ bB seen (s.target :: since) (by dsimp only; omega) (sure_other hs h1' h2') (fun k hk => ?_) hA
          rw [List.mem_cons, not_or] at hk
          have a := oA k hk.1
          have b := oB k hk.1
          dsimp only at a b
          rw [a, b]
        · simp
    · rw [hsA] at hA e1
      have := e1 hA
      rcases hsB : decStmt w call tys s ⟨fs, ⟨data ++ more, sp', rd⟩⟩ with ⟨⟨fsB, bB⟩, _ | e⟩
      · rw [hsB] at this
        exact absurd rfl this
      · simp
end

/-- `decode` that ends with an unknown key, with whatever bytes behind the writer index, cannot succeed with more bytes either. -/
theorem doom_decode (w : World) (n : Nat) : ∀ c fs, Doom (decode w n c fs) := by
  induction n with
  | zero => intro c fs; exact Doom.fail _ _ (by decide)
  | succ n ih =>
    intro c fs
    have ht := List.all_eq_true.mp sure_table c (mem_allCls c)
    exact
      { toLaw := law_decode w (n + 1) c fs
        beyond := fun b hb => beyond_stmts w _ ih _ _ fs b [] hb ht
        doom := fun data sp rd more sp' hrd h => doom_stmts w _ ih _ _ fs data sp rd more sp' false [] hrd ht h }

end FinProto
