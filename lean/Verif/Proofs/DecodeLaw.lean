import Verif.Model.Interp
import Verif.Proofs.BinaryCodec
/-
Helper lemmas: what every reader does with the buffer.  It never changes the content, never moves the reader index back or past the
backing array, its success depends on the consumed bytes only, and if some of these are missing it fails with an index error.
-/
namespace FinProto

/-- A reader: result, buffer, exception. -/
abbrev Reader (α : Type) := RBuf → α × RBuf × Option JErr

/-- `f` succeeds with `a` on exactly the bytes `X`, wherever they are. -/
def Accepts {α : Type} (f : Reader α) (X : List Byte) (a : α) : Prop :=
  ∀ pre : List Byte,
    (∀ post sp, f ⟨pre ++ X ++ post, sp, pre.length⟩ = (a, ⟨pre ++ X ++ post, sp, pre.length + X.length⟩, none))
    ∧ (∀ Y, Y <+: X → Y ≠ X → (f ⟨pre ++ Y, [], pre.length⟩).2.2 = some .indexOutOfBounds)

structure Law {α : Type} (f : Reader α) : Prop where
  data : ∀ b, (f b).2.1.data = b.data
  spare : ∀ b, (f b).2.1.spare = b.spare
  forward : ∀ b, b.rd ≤ (f b).2.1.rd
  inside : ∀ b, (f b).2.1.rd ≤ max b.rd (b.data ++ b.spare).length
  local' : ∀ b, (f b).2.2 = none →
    ∃ X, X <+: (b.data ++ b.spare).drop b.rd ∧ (f b).2.1.rd = b.rd + X.length ∧ Accepts f X (f b).1

theorem RBuf.ext' {b b' : RBuf} (h1 : b.data = b'.data) (h2 : b.spare = b'.spare) (h3 : b.rd = b'.rd) : b = b' := by
  cases b; cases b'; simp_all

theorem Law.pure {α : Type} (a : α) : Law (fun b => (a, b, none)) where
  data _ := rfl
  spare _ := rfl
  forward _ := Nat.le_refl _
  inside b := by dsimp only; omega
  local' b _ := ⟨[], List.nil_prefix, rfl, fun pre => ⟨fun post sp => rfl, fun Y h1 h2 => absurd (List.prefix_nil.mp h1) h2⟩⟩

theorem Law.fail {α : Type} (a : α) (e : JErr) : Law (fun b => (a, b, some e)) where
  data _ := rfl
  spare _ := rfl
  forward _ := Nat.le_refl _
  inside b := by dsimp only; omega
  local' b h := by cases h

/-- Sequencing. -/
def Reader.bind {α β : Type} (f : Reader α) (g : α → Reader β) (h : α → β) : Reader β := fun b =>
  match f b with
  | (a, b', none) => g a b'
  | (a, b', some e) => (h a, b', some e)

theorem prefix_drop_append {α : Type} {X1 X2 d : List α} {r : Nat} (h1 : X1 <+: d.drop r)
    (h2 : X2 <+: d.drop (r + X1.length)) : X1 ++ X2 <+: d.drop r := by
  obtain ⟨t1, h1⟩ := h1
  obtain ⟨t2, h2⟩ := h2
  refine ⟨t2, ?_⟩
  rw [← List.drop_drop, ← h1, List.drop_left] at h2
  rw [List.append_assoc, h2, h1]

theorem prefix_split {α : Type} {Y X1 X2 : List α} (h : Y <+: X1 ++ X2) :
    Y <+: X1 ∨ ∃ Z, Y = X1 ++ Z ∧ Z <+: X2 := by
  obtain ⟨t, h⟩ := h
  rcases List.append_eq_append_iff.mp h with ⟨a, h1, h2⟩ | ⟨a, h1, h2⟩
  · exact .inl ⟨a, h1.symm⟩
  · exact .inr ⟨a, h1, ⟨t, h2.symm⟩⟩

theorem Accepts.bind {α β : Type} {f : Reader α} {g : α → Reader β} {h : α → β} {X1 X2 : List Byte} {a : α} {c : β}
    (h1 : Accepts f X1 a) (h2 : Accepts (g a) X2 c) : Accepts (Reader.bind f g h) (X1 ++ X2) c := by
  intro pre
  constructor
  · intro post sp
    have e1 := (h1 pre).1 (X2 ++ post) sp
    have e2 := (h2 (pre ++ X1)).1 post sp
    simp only [← List.append_assoc, List.length_append] at e1 e2 ⊢
    rw [Reader.bind, e1]
    dsimp only
    rw [e2, Nat.add_assoc]
  · intro Y hY hne
    rcases prefix_split hY with hp | ⟨Z, rfl, hZ⟩
    · by_cases hX : Y = X1
      · subst hX
        -- everything of the first part is there, the second part is missing
        have e1 := (h1 pre).1 [] []
        simp only [List.append_nil] at e1
        rw [Reader.bind, e1]
        dsimp only
        have := (h2 (pre ++ Y)).2 [] List.nil_prefix (by
          intro h
          apply hne
          rw [← h, List.append_nil])
        simpa using this
      · have := (h1 pre).2 Y hp hX
        rw [Reader.bind]
        revert this
        rcases f ⟨pre ++ Y, [], pre.length⟩ with ⟨a', b', _ | e⟩
        · intro h; cases h
        · exact fun h => h
    · have e1 := (h1 pre).1 Z []
      rw [← List.append_assoc, Reader.bind, e1]
      dsimp only
      have := (h2 (pre ++ X1)).2 Z hZ (by
        intro h
        apply hne
        rw [h])
      simpa using this

theorem Law.bind {α β : Type} {f : Reader α} {g : α → Reader β} (h : α → β) (hf : Law f) (hg : ∀ a, Law (g a)) :
    Law (Reader.bind f g h) where
  data b := by
    have := hf.data b
    unfold Reader.bind
    revert this
    rcases f b with ⟨a, b', _ | e⟩ <;> intro this
    · exact ((hg a).data b').trans this
    · exact this
  spare b := by
    have := hf.spare b
    unfold Reader.bind
    revert this
    rcases f b with ⟨a, b', _ | e⟩ <;> intro this
    · exact ((hg a).spare b').trans this
    · exact this
  forward b := by
    have := hf.forward b
    unfold Reader.bind
    revert this
    rcases f b with ⟨a, b', _ | e⟩ <;> intro this
    · exact Nat.le_trans this ((hg a).forward b')
    · exact this
  inside b := by
    have h1 := hf.inside b
    have h2 := hf.data b
    have h3 := hf.spare b
    unfold Reader.bind
    revert h1 h2 h3
    rcases f b with ⟨a, b', _ | e⟩ <;> intro h1 h2 h3
    · have := (hg a).inside b'
      dsimp only at *
      rw [h2, h3] at this
      omega
    · exact h1
  local' b hok := by
    have h1 := hf.local' b
    have h2 := hf.data b
    have h3 := hf.spare b
    rcases hfb : f b with ⟨a, b', _ | e⟩
    · rw [hfb] at h1 h2 h3
      have hb : Reader.bind f g h b = g a b' := by simp only [Reader.bind, hfb]
      rw [hb] at hok ⊢
      obtain ⟨X1, p1, r1, a1⟩ := h1 rfl
      obtain ⟨X2, p2, r2, a2⟩ := (hg a).local' b' hok
      dsimp only at *
      rw [h2, h3, r1] at p2
      refine ⟨X1 ++ X2, prefix_drop_append p1 p2, ?_, a1.bind a2⟩
      rw [r2, r1, List.length_append]
      omega
    · simp only [Reader.bind, hfb] at hok
      cases hok

/-! ### The two primitive reads -/

/-- An `Except` reader as a reader. -/
def toReader {α : Type} (g : RBuf → RBuf × Except JErr α) : Reader (Option α) := fun b =>
  match g b with
  | (b', .ok a) => (some a, b', none)
  | (b', .error e) => (none, b', some e)

theorem take_prefix_drop {α : Type} (d : List α) (r n : Nat) : (d.drop r).take n <+: d.drop r := List.take_prefix _ _

theorem law_readNum (e : Endian) (t : PTy) : Law (toReader fun b => b.readNum e t) := by
  have key : ∀ b : RBuf, (toReader fun b => b.readNum e t) b =
      if b.rd + t.size ≤ b.data.length then
        (some (Num.ofBytes e t ((b.data.drop b.rd).take t.size)), { b with rd := b.rd + t.size }, none)
      else (none, b, some .indexOutOfBounds) := by
    intro b
    simp only [toReader, RBuf.readNum]
    by_cases h : b.rd + t.size ≤ b.data.length
    · rw [if_pos h, if_pos h]
    · rw [if_neg h, if_neg h]
  constructor
  · intro b; rw [key]; split <;> rfl
  · intro b; rw [key]; split <;> rfl
  · intro b; rw [key]; split
    · exact Nat.le_add_right _ _
    · exact Nat.le_refl _
  · intro b; rw [key]; split
    · simp only [List.length_append]; omega
    · dsimp only; omega
  · intro b hok
    rw [key] at hok
    by_cases hc : b.rd + t.size ≤ b.data.length
    · refine ⟨(b.data.drop b.rd).take t.size, ?_, ?_, ?_⟩
      · rw [List.drop_append_of_le_length (by omega)]
        exact (List.take_prefix _ _).trans (List.prefix_append _ _)
      · rw [key, if_pos hc]
        simp only [List.length_take, List.length_drop]
        omega
      · rw [key, if_pos hc]
        dsimp only
        have hlen : ((b.data.drop b.rd).take t.size).length = t.size := by
          simp only [List.length_take, List.length_drop]; omega
        intro pre
        constructor
        · intro post sp
          rw [key, if_pos (by simp only [List.length_append, hlen]; omega)]
          simp only [List.append_assoc, List.drop_left, hlen]
          rw [List.take_append_of_le_length (by omega), List.take_of_length_le (by omega)]
        · intro Y hY hne
          have hl : Y.length < t.size := by
            have := hY.length_le
            rcases Nat.lt_or_ge Y.length t.size with h | h
            · exact h
            · exact absurd (hY.eq_of_length (by omega)) hne
          rw [key, if_neg (by simp only [List.length_append]; omega)]
    · rw [if_neg hc] at hok; cases hok

theorem law_readText (n : Nat) : Law (toReader fun b => b.readText n) := by
  have key : ∀ b : RBuf, (toReader fun b => b.readText n) b =
      if n = 0 then (some [], b, none)
      else if b.rd + n ≤ (b.data ++ b.spare).length then
        (some (utf8Dec (((b.data ++ b.spare).drop b.rd).take n)), { b with rd := b.rd + n }, none)
      else (none, b, some .indexOutOfBounds) := by
    intro b
    simp only [toReader, RBuf.readText]
    by_cases h0 : n = 0
    · rw [if_pos h0, if_pos h0]
    · rw [if_neg h0, if_neg h0]
      by_cases h : b.rd + n ≤ (b.data ++ b.spare).length
      · rw [if_pos h, if_pos h]
      · rw [if_neg h, if_neg h]
  by_cases hn : n = 0
  · subst hn
    have : (toReader fun b => b.readText 0) = fun b => (some [], b, none) := funext fun b => by rw [key, if_pos rfl]
    rw [this]
    exact Law.pure _
  · have key : ∀ b : RBuf, (toReader fun b => b.readText n) b =
      if b.rd + n ≤ (b.data ++ b.spare).length then
        (some (utf8Dec (((b.data ++ b.spare).drop b.rd).take n)), { b with rd := b.rd + n }, none)
      else (none, b, some .indexOutOfBounds) := by
      intro b; rw [key, if_neg hn]
    constructor
    · intro b; rw [key]; split <;> rfl
    · intro b; rw [key]; split <;> rfl
    · intro b; rw [key]; split
      · exact Nat.le_add_right _ _
      · exact Nat.le_refl _
    · intro b; rw [key]; split
      · dsimp only; omega
      · dsimp only; omega
    · intro b hok
      rw [key] at hok
      by_cases hc : b.rd + n ≤ (b.data ++ b.spare).length
      · refine ⟨((b.data ++ b.spare).drop b.rd).take n, List.take_prefix _ _, ?_, ?_⟩
        · rw [key, if_pos hc, List.length_take, List.length_drop]
          dsimp only
          omega
        · rw [key, if_pos hc]
          dsimp only
          have hlen : (((b.data ++ b.spare).drop b.rd).take n).length = n := by
            rw [List.length_take, List.length_drop]; omega
          generalize ((b.data ++ b.spare).drop b.rd).take n = X at hlen
          intro pre
          constructor
          · intro post sp
            rw [key, if_pos (by simp only [List.length_append, hlen]; omega)]
            simp only [List.append_assoc, List.drop_left, hlen]
            rw [List.take_append_of_le_length (by omega), List.take_of_length_le (by omega)]
          · intro Y hY hne
            have hl : Y.length < n := by
              have := hY.length_le
              rcases Nat.lt_or_ge Y.length n with h | h
              · exact h
              · exact absurd (hY.eq_of_length (by omega)) hne
            rw [key, if_neg (by simp only [List.length_append, List.length_nil]; omega)]
      · rw [if_neg hc] at hok; cases hok

/-! ### Compound reads -/

theorem law_readFixedString (n : Nat) (pad : JChar) (left : Bool) : Law (toReader fun b => readFixedString b n pad left) := by
  have : (toReader fun b => readFixedString b n pad left) =
      Reader.bind (toReader fun b => b.readText n)
        (fun o b => (o.map (trimByChar · pad left), b, none)) (fun _ => none) := by
    funext b
    simp only [toReader, readFixedString, Reader.bind]
    rcases b.readText n with ⟨b', e | s⟩
    · rfl
    · cases left <;> rfl
  rw [this]
  exact Law.bind _ (law_readText n) fun a => Law.pure _

theorem law_readDyn (t : PTy) (e : Endian) : Law (toReader fun b => readDyn b t e) := by
  have : (toReader fun b => readDyn b t e) =
      Reader.bind (toReader fun b => b.readNum e t)
        (fun o => match o with
          | none => fun b => (none, b, none)
          | some n => if 0 < n.bits.toInt then
              Reader.bind (toReader fun b => b.readText n.bits.toNat) (fun o b => (o.map some, b, none)) (fun _ => none)
            else fun b => (some none, b, none)) (fun _ => none) := by
    funext b
    simp only [toReader, readDyn, Reader.bind]
    rcases b.readNum e t with ⟨b', e | n⟩
    · rfl
    · dsimp only
      by_cases h : 0 < n.bits.toInt
      · rw [if_pos h, if_pos h]
        simp only [Reader.bind, toReader]
        rcases b'.readText n.bits.toNat with ⟨b'', e | s⟩ <;> rfl
      · rw [if_neg h, if_neg h]
  rw [this]
  refine Law.bind _ (law_readNum e t) fun a => ?_
  cases a with
  | none => exact Law.pure _
  | some n =>
    dsimp only
    split
    · exact Law.bind _ (law_readText _) fun a => Law.pure _
    · exact Law.pure _

theorem law_decElem (call : DecCall) (hc : ∀ c fs, Law (call c fs)) (el : DecElem) : Law (toReader (decElem call el)) := by
  cases el with
  | num t e =>
    have : toReader (decElem call (.num t e)) =
        Reader.bind (toReader fun b => b.readNum e t) (fun o b => (o.map fun n => some (.num n), b, none)) (fun _ => none) := by
      funext b
      simp only [toReader, decElem, Reader.bind]
      rcases b.readNum e t with ⟨b', e | n⟩ <;> rfl
    rw [this]
    exact Law.bind _ (law_readNum e t) fun a => Law.pure _
  | fixed n pad left =>
    have : toReader (decElem call (.fixed n pad left)) =
        Reader.bind (toReader fun b => readFixedString b n pad left)
          (fun o b => (o.map fun s => some (.str s), b, none)) (fun _ => none) := by
      funext b
      simp only [toReader, decElem, Reader.bind]
      rcases readFixedString b n pad left with ⟨b', e | n⟩ <;> rfl
    rw [this]
    exact Law.bind _ (law_readFixedString n pad left) fun a => Law.pure _
  | dyn t e =>
    have : toReader (decElem call (.dyn t e)) =
        Reader.bind (toReader fun b => readDyn b t e)
          (fun o b => (o.map fun s => s.map .str, b, none)) (fun _ => none) := by
      funext b
      simp only [toReader, decElem, Reader.bind]
      rcases readDyn b t e with ⟨b', e | n⟩ <;> rfl
    rw [this]
    exact Law.bind _ (law_readDyn t e) fun a => Law.pure _
  | obj c =>
    have : toReader (decElem call (.obj c)) =
        Reader.bind (call c (freshFields c)) (fun fs b => (some (some (.obj c fs)), b, none)) (fun _ => none) := by
      funext b
      simp only [toReader, decElem, Reader.bind]
      rcases call c (freshFields c) b with ⟨fs, b', _ | e⟩ <;> rfl
    rw [this]
    exact Law.bind _ (hc _ _) fun a => Law.pure _

theorem law_decElems (call : DecCall) (hc : ∀ c fs, Law (call c fs)) (el : DecElem) (n : Nat) :
    ∀ acc, Law (decElems call el n acc) := by
  induction n with
  | zero =>
    intro acc
    have : decElems call el 0 acc = fun b => (acc, b, none) := funext fun b => rfl
    rw [this]
    exact Law.pure _
  | succ n ih =>
    intro acc
    have : decElems call el (n + 1) acc =
        Reader.bind (toReader (decElem call el))
          (fun o => match o with
            | some (some v) => decElems call el n (acc ++ [v])
            | _ => decElems call el n acc) (fun _ => acc) := by
      funext b
      simp only [decElems, toReader, Reader.bind]
      rcases decElem call el b with ⟨b', e | _ | v⟩ <;> rfl
    rw [this]
    refine Law.bind _ (law_decElem call hc el) fun a => ?_
    split <;> exact ih _

/-- A statement as a reader. -/
def stmtReader (w : World) (call : DecCall) (tys : List FTy) (s : DecStmt) (fs : List Val) : Reader (List Val) := fun b =>
  ((decStmt w call tys s ⟨fs, b⟩).1.fs, (decStmt w call tys s ⟨fs, b⟩).1.buf, (decStmt w call tys s ⟨fs, b⟩).2)

theorem law_obj (call : DecCall) (hc : ∀ c fs, Law (call c fs)) (c : Cls) (cs : List Val) (k : List Val → List Val) :
    Law (fun b => (k (call c cs b).1, (call c cs b).2.1, (call c cs b).2.2)) := by
  have : (fun b => (k (call c cs b).1, (call c cs b).2.1, (call c cs b).2.2)) =
      Reader.bind (call c cs) (fun fs b => (k fs, b, none)) k := by
    funext b
    simp only [Reader.bind]
    rcases call c cs b with ⟨fs, b', _ | e⟩ <;> rfl
  rw [this]
  exact Law.bind _ (hc _ _) fun a => Law.pure _

theorem law_stmt (w : World) (call : DecCall) (hc : ∀ c fs, Law (call c fs)) (tys : List FTy) (s : DecStmt) (fs : List Val) :
    Law (stmtReader w call tys s fs) := by
  cases s with
  | num f t e =>
    have : stmtReader w call tys (.num f t e) fs =
        Reader.bind (toReader fun b => b.readNum e t)
          (fun o => match o.bind fun n => tys[f]?.bind (assignNum · n) with
            | some v => fun b => (fs.set f v, b, none)
            | none => fun b => (fs, b, some .illTyped)) (fun _ => fs) := by
      funext b
      simp only [stmtReader, decStmt, toReader, Reader.bind]
      rcases b.readNum e t with ⟨b', e | n⟩
      · rfl
      · dsimp only [Option.bind_some]
        cases tys[f]?.bind (assignNum · n) <;> rfl
    rw [this]
    refine Law.bind _ (law_readNum e t) fun a => ?_
    split
    · exact Law.pure _
    · exact Law.fail _ _
  | fixed f n pad left =>
    have : stmtReader w call tys (.fixed f n pad left) fs =
        Reader.bind (toReader fun b => readFixedString b n pad left)
          (fun o b => ((match o with | some s => fs.set f (.str s) | none => fs), b, none)) (fun _ => fs) := by
      funext b
      simp only [stmtReader, decStmt, toReader, Reader.bind]
      rcases readFixedString b n pad left with ⟨b', e | n⟩ <;> rfl
    rw [this]
    exact Law.bind _ (law_readFixedString n pad left) fun a => Law.pure _
  | dyn f t e =>
    have : stmtReader w call tys (.dyn f t e) fs =
        Reader.bind (toReader fun b => readDyn b t e)
          (fun o b => ((match o with | some (some s) => fs.set f (.str s) | _ => fs), b, none)) (fun _ => fs) := by
      funext b
      simp only [stmtReader, decStmt, toReader, Reader.bind]
      rcases readDyn b t e with ⟨b', e | _ | n⟩ <;> rfl
    rw [this]
    exact Law.bind _ (law_readDyn t e) fun a => Law.pure _
  | list f t e el =>
    have : stmtReader w call tys (.list f t e el) fs =
        Reader.bind (toReader fun b => b.readNum e t)
          (fun o => match o with
            | none => fun b => (fs, b, none)
            | some n => if 0 < n.bits.toInt then
                Reader.bind (decElems call el n.bits.toNat []) (fun xs b => (fs.set f (.list xs), b, none))
                  (fun xs => fs.set f (.list xs))
              else fun b => (fs, b, none)) (fun _ => fs) := by
      funext b
      simp only [stmtReader, decStmt, toReader, Reader.bind]
      rcases b.readNum e t with ⟨b', e | n⟩
      · rfl
      · dsimp only
        by_cases h : 0 < n.bits.toInt
        · rw [if_pos h, if_pos h]
          simp only [Reader.bind]
          rcases decElems call el n.bits.toNat [] b' with ⟨xs, b'', _ | e⟩ <;> rfl
        · rw [if_neg h, if_neg h]
    rw [this]
    refine Law.bind _ (law_readNum e t) fun a => ?_
    cases a with
    | none => exact Law.pure _
    | some n =>
      dsimp only
      split
      · exact Law.bind _ (law_decElems call hc el _ _) fun a => Law.pure _
      · exact Law.pure _
  | obj f c =>
    unfold stmtReader decStmt
    dsimp only
    rcases hf : fs[f]? with _ | v
    · exact Law.fail _ _
    · cases v with
      | null => exact law_obj call hc c (freshFields c) fun xs => fs.set f (.obj c xs)
      | obj c' fs' => exact law_obj call hc c' fs' fun xs => fs.set f (.obj c' xs)
      | _ => exact Law.fail _ _
  | create f fac key =>
    unfold stmtReader decStmt
    dsimp only
    rcases hf : fs[key]? with _ | v
    · exact Law.fail _ _
    · dsimp only
      rcases hw : w.fac fac (keyOf v) with _ | v'
      · exact Law.fail _ _
      · exact Law.pure _
  | call f =>
    unfold stmtReader decStmt
    dsimp only
    rcases hf : fs[f]? with _ | v
    · exact Law.fail _ _
    · cases v with
      | null => exact Law.fail _ _
      | obj c' fs' => exact law_obj call hc c' fs' fun xs => fs.set f (.obj c' xs)
      | _ => exact Law.fail _ _

def stmtsReader (w : World) (call : DecCall) (tys : List FTy) (ss : List DecStmt) (fs : List Val) : Reader (List Val) := fun b =>
  ((decStmts w call tys ss ⟨fs, b⟩).1.fs, (decStmts w call tys ss ⟨fs, b⟩).1.buf, (decStmts w call tys ss ⟨fs, b⟩).2)

theorem law_stmts (w : World) (call : DecCall) (hc : ∀ c fs, Law (call c fs)) (tys : List FTy) (ss : List DecStmt) :
    ∀ fs, Law (stmtsReader w call tys ss fs) := by
  induction ss with
  | nil => intro fs; exact Law.pure fs
  | cons s ss ih =>
    intro fs
    have : stmtsReader w call tys (s :: ss) fs =
        Reader.bind (stmtReader w call tys s fs) (fun fs' => stmtsReader w call tys ss fs') id := by
      funext b
      simp only [stmtsReader, stmtReader, decStmts, Reader.bind]
      rcases decStmt w call tys s ⟨fs, b⟩ with ⟨⟨fs', b'⟩, _ | e⟩ <;> rfl
    rw [this]
    exact Law.bind _ (law_stmt w call hc tys s fs) ih

/-- `decode` obeys the law, for every class, object, registry state and stack depth. -/
theorem law_decode (w : World) (n : Nat) : ∀ c fs, Law (decode w n c fs) := by
  induction n with
  | zero => intro c fs; exact Law.fail _ _
  | succ n ih => intro c fs; exact law_stmts w _ ih _ _ fs

end FinProto
