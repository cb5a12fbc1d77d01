import Verif.Proofs.Resume
import Verif.Proofs.DecodeErrors
/-
Helper lemmas: every outcome of a reader except an index error is final, and an index error can be cured by more bytes.
-/
namespace FinProto

structure Stream {α : Type} (f : Reader α) : Prop extends Law f where
  final : ∀ b e, (f b).2.2 = some e → e ≠ .indexOutOfBounds → ∃ X, X <+: (b.data ++ b.spare).drop b.rd ∧ (f b).2.1.rd = b.rd + X.length
    ∧ ∀ pre post sp, f ⟨pre ++ X ++ post, sp, pre.length⟩ = ((f b).1, ⟨pre ++ X ++ post, sp, pre.length + X.length⟩, some e)
  more : ∀ data rd, rd ≤ data.length → ∃ Y, (f ⟨data ++ Y, [], rd⟩).2.2 ≠ some .indexOutOfBounds

theorem Stream.pure {α : Type} (a : α) : Stream (fun b => (a, b, none)) where
  toLaw := Law.pure a
  final b e h := by cases h
  more data rd _ := ⟨[], by simp⟩

theorem Stream.fail {α : Type} (a : α) (e : JErr) (he : e ≠ .indexOutOfBounds) : Stream (fun b => (a, b, some e)) where
  toLaw := Law.fail a e
  final b e' h _ := by
    cases h
    exact ⟨[], List.nil_prefix, rfl, fun pre post sp => by simp⟩
  more data rd _ := ⟨[], by simpa using he⟩

theorem Stream.bind {α β : Type} {f : Reader α} {g : α → Reader β} (h : α → β) (hf : Stream f) (hg : ∀ a, Stream (g a)) :
    Stream (Reader.bind f g h) where
  toLaw := Law.bind h hf.toLaw fun a => (hg a).toLaw
  final b e he hne := by
    have h1 := hf.local' b
    have h2 := hf.data b
    have h3 := hf.spare b
    have h4 := hf.final b
    rcases hfb : f b with ⟨a, b', _ | e1⟩
    · rw [hfb] at h1 h2 h3
      have hb : Reader.bind f g h b = g a b' := by simp only [Reader.bind, hfb]
      rw [hb] at he ⊢
      obtain ⟨X1, p1, r1, a1⟩ := h1 rfl
      obtain ⟨X2, p2, r2, a2⟩ := (hg a).final b' e he hne
      dsimp only at *
      rw [h2, h3, r1] at p2
      refine ⟨X1 ++ X2, prefix_drop_append p1 p2, by rw [r2, r1, List.length_append]; omega, ?_⟩
      intro pre post sp
      have e1 := (a1 pre).1 (X2 ++ post) sp
      have e2 := a2 (pre ++ X1) post sp
      simp only [← List.append_assoc, List.length_append] at e1 e2 ⊢
      rw [Reader.bind, e1]
      dsimp only
      rw [e2, Nat.add_assoc]
    · rw [hfb] at h4
      have hb : Reader.bind f g h b = (h a, b', some e1) := by simp only [Reader.bind, hfb]
      rw [hb] at he ⊢
      cases he
      obtain ⟨X, p, r, a1⟩ := h4 e rfl hne
      refine ⟨X, p, r, ?_⟩
      intro pre post sp
      rw [Reader.bind, a1]
  more data rd hrd := by
    obtain ⟨Y, hY⟩ := hf.more data rd hrd
    rcases hfb : f ⟨data ++ Y, [], rd⟩ with ⟨a, b', _ | e1⟩
    · have h1 := hf.data ⟨data ++ Y, [], rd⟩
      have h2 := hf.spare ⟨data ++ Y, [], rd⟩
      have h3 := hf.inside ⟨data ++ Y, [], rd⟩
      rw [hfb] at h1 h2 h3
      dsimp only at h1 h2 h3
      have hle : b'.rd ≤ (data ++ Y).length := by
        simp only [List.append_nil, List.length_append] at h3 ⊢
        omega
      obtain ⟨Z, hZ⟩ := (hg a).more (data ++ Y) b'.rd hle
      refine ⟨Y ++ Z, ?_⟩
      have := hf.toLaw.extend (bt := ⟨data ++ Y, [], rd⟩) (bf := ⟨data ++ Y ++ Z, [], rd⟩) ⟨List.prefix_append _ _, .inl rfl⟩
        (by rw [hfb]) (by rw [hfb]; exact hle)
      rw [hfb] at this
      rw [← List.append_assoc, Reader.bind, this]
      exact hZ
    · refine ⟨Y, ?_⟩
      rw [hfb] at hY
      rw [Reader.bind, hfb]
      exact hY

theorem stream_readNum (e : Endian) (t : PTy) : Stream (toReader fun b => b.readNum e t) where
  toLaw := law_readNum e t
  final b er h hne := by
    exfalso
    simp only [toReader] at h
    revert h
    rcases hr : b.readNum e t with ⟨b', x | n⟩ <;> intro h
    · cases h
      exact hne (readNum_err hr)
    · cases h
  more data rd hrd := by
    refine ⟨List.replicate t.size 0, ?_⟩
    simp only [toReader, RBuf.readNum]
    rw [if_pos (by simp; omega)]
    simp

theorem stream_readText (n : Nat) : Stream (toReader fun b => b.readText n) where
  toLaw := law_readText n
  final b er h hne := by
    exfalso
    simp only [toReader] at h
    revert h
    rcases hr : b.readText n with ⟨b', x | n⟩ <;> intro h
    · cases h
      exact hne (readText_err hr)
    · cases h
  more data rd hrd := by
    refine ⟨List.replicate n 0, ?_⟩
    simp only [toReader, RBuf.readText]
    by_cases h0 : n = 0
    · rw [if_pos h0]; simp
    · rw [if_neg h0, if_pos (by simp; omega)]
      simp

/-! ### Compound reads -/

theorem stream_readFixedString (n : Nat) (pad : JChar) (left : Bool) : Stream (toReader fun b => readFixedString b n pad left) := by
  have : (toReader fun b => readFixedString b n pad left) =
      Reader.bind (toReader fun b => b.readText n)
        (fun o b => (o.map (trimByChar · pad left), b, none)) (fun _ => none) := by
    funext b
    simp only [toReader, readFixedString, Reader.bind]
    rcases b.readText n with ⟨b', e | s⟩
    · rfl
    · cases left <;> rfl
  rw [this]
  exact Stream.bind _ (stream_readText n) fun a => Stream.pure _

theorem stream_readDyn (t : PTy) (e : Endian) : Stream (toReader fun b => readDyn b t e) := by
  have : (toReader fun b => readDyn b t e) =
      Reader.bind (toReader fun b => b.readNum e t)
        (fun o => match o with
          | none => fun b => (none, b, none)
          | some n => if 0 < n.bits.toInt then
              Reader.bind (toReader fun b => b.readText n.bits.toNat) (fun o b => (o.map some, b, none)) (fun _ => none)
            else fun b => (some none, b, none)) (fun _ => none) := by
    funext b
    simp only [toReader, readDyn, Reader.bind]
    rcases b.readNum e t with ⟨b', e | n⟩
    · rfl
    · dsimp only
      by_cases h : 0 < n.bits.toInt
      · rw [if_pos h, if_pos h]
        simp only [Reader.bind, toReader]
        rcases b'.readText n.bits.toNat with ⟨b'', e | s⟩ <;> rfl
      · rw [if_neg h, if_neg h]
  rw [this]
  refine Stream.bind _ (stream_readNum e t) fun a => ?_
  cases a with
  | none => exact Stream.pure _
  | some n =>
    dsimp only
    split
    · exact Stream.bind _ (stream_readText _) fun a => Stream.pure _
    · exact Stream.pure _

theorem stream_decElem (call : DecCall) (hc : ∀ c fs, Stream (call c fs)) (el : DecElem) : Stream (toReader (decElem call el)) := by
  cases el with
  | num t e =>
    have : toReader (decElem call (.num t e)) =
        Reader.bind (toReader fun b => b.readNum e t) (fun o b => (o.map fun n => some (.num n), b, none)) (fun _ => none) := by
      funext b
      simp only [toReader, decElem, Reader.bind]
      rcases b.readNum e t with ⟨b', e | n⟩ <;> rfl
    rw [this]
    exact Stream.bind _ (stream_readNum e t) fun a => Stream.pure _
  | fixed n pad left =>
    have : toReader (decElem call (.fixed n pad left)) =
        Reader.bind (toReader fun b => readFixedString b n pad left)
          (fun o b => (o.map fun s => some (.str s), b, none)) (fun _ => none) := by
      funext b
      simp only [toReader, decElem, Reader.bind]
      rcases readFixedString b n pad left with ⟨b', e | n⟩ <;> rfl
    rw [this]
    exact Stream.bind _ (stream_readFixedString n pad left) fun a => Stream.pure _
  | dyn t e =>
    have : toReader (decElem call (.dyn t e)) =
        Reader.bind (toReader fun b => readDyn b t e)
          (fun o b => (o.map fun s => s.map .str, b, none)) (fun _ => none) := by
      funext b
      simp only [toReader, decElem, Reader.bind]
      rcases readDyn b t e with ⟨b', e | n⟩ <;> rfl
    rw [this]
    exact Stream.bind _ (stream_readDyn t e) fun a => Stream.pure _
  | obj c =>
    have : toReader (decElem call (.obj c)) =
        Reader.bind (call c (freshFields c)) (fun fs b => (some (some (.obj c fs)), b, none)) (fun _ => none) := by
      funext b
      simp only [toReader, decElem, Reader.bind]
      rcases call c (freshFields c) b with ⟨fs, b', _ | e⟩ <;> rfl
    rw [this]
    exact Stream.bind _ (hc _ _) fun a => Stream.pure _

theorem stream_decElems (call : DecCall) (hc : ∀ c fs, Stream (call c fs)) (el : DecElem) (n : Nat) :
    ∀ acc, Stream (decElems call el n acc) := by
  induction n with
  | zero =>
    intro acc
    have : decElems call el 0 acc = fun b => (acc, b, none) := funext fun b => rfl
    rw [this]
    exact Stream.pure _
  | succ n ih =>
    intro acc
    have : decElems call el (n + 1) acc =
        Reader.bind (toReader (decElem call el))
          (fun o => match o with
            | some (some v) => decElems call el n (acc ++ [v])
            | _ => decElems call el n acc) (fun _ => acc) := by
      funext b
      simp only [decElems, toReader, Reader.bind]
      rcases decElem call el b with ⟨b', e | _ | v⟩ <;> rfl
    rw [this]
    refine Stream.bind _ (stream_decElem call hc el) fun a => ?_
    split <;> exact ih _

theorem stream_obj (call : DecCall) (hc : ∀ c fs, Stream (call c fs)) (c : Cls) (cs : List Val) (k : List Val → List Val) :
    Stream (fun b => (k (call c cs b).1, (call c cs b).2.1, (call c cs b).2.2)) := by
  have : (fun b => (k (call c cs b).1, (call c cs b).2.1, (call c cs b).2.2)) =
      Reader.bind (call c cs) (fun fs b => (k fs, b, none)) k := by
    funext b
    simp only [Reader.bind]
    rcases call c cs b with ⟨fs, b', _ | e⟩ <;> rfl
  rw [this]
  exact Stream.bind _ (hc _ _) fun a => Stream.pure _

theorem stream_stmt (w : World) (call : DecCall) (hc : ∀ c fs, Stream (call c fs)) (tys : List FTy) (s : DecStmt) (fs : List Val) :
    Stream (stmtReader w call tys s fs) := by
  cases s with
  | num f t e =>
    have : stmtReader w call tys (.num f t e) fs =
        Reader.bind (toReader fun b => b.readNum e t)
          (fun o => match o.bind fun n => tys[f]?.bind (assignNum · n) with
            | some v => fun b => (fs.set f v, b, none)
            | none => fun b => (fs, b, some .illTyped)) (fun _ => fs) := by
      funext b
      simp only [stmtReader, decStmt, toReader, Reader.bind]
      rcases b.readNum e t with ⟨b', e | n⟩
      · rfl
      · dsimp only [Option.bind_some]
        cases tys[f]?.bind (assignNum · n) <;> rfl
    rw [this]
    refine Stream.bind _ (stream_readNum e t) fun a => ?_
    split
    · exact Stream.pure _
    · exact Stream.fail _ _ (by decide)
  | fixed f n pad left =>
    have : stmtReader w call tys (.fixed f n pad left) fs =
        Reader.bind (toReader fun b => readFixedString b n pad left)
          (fun o b => ((match o with | some s => fs.set f (.str s) | none => fs), b, none)) (fun _ => fs) := by
      funext b
      simp only [stmtReader, decStmt, toReader, Reader.bind]
      rcases readFixedString b n pad left with ⟨b', e | n⟩ <;> rfl
    rw [this]
    exact Stream.bind _ (stream_readFixedString n pad left) fun a => Stream.pure _
  | dyn f t e =>
    have : stmtReader w call tys (.dyn f t e) fs =
        Reader.bind (toReader fun b => readDyn b t e)
          (fun o b => ((match o with | some (some s) => fs.set f (.str s) | _ => fs), b, none)) (fun _ => fs) := by
      funext b
      simp only [stmtReader, decStmt, toReader, Reader.bind]
      rcases readDyn b t e with ⟨b', e | _ | n⟩ <;> rfl
    rw [this]
    exact Stream.bind _ (stream_readDyn t e) fun a => Stream.pure _
  | list f t e el =>
    have : stmtReader w call tys (.list f t e el) fs =
        Reader.bind (toReader fun b => b.readNum e t)
          (fun o => match o with
            | none => fun b => (fs, b, none)
            | some n => if 0 < n.bits.toInt then
                Reader.bind (decElems call el n.bits.toNat []) (fun xs b => (fs.set f (.list xs), b, none))
                  (fun xs => fs.set f (.list xs))
              else fun b => (fs, b, none)) (fun _ => fs) := by
      funext b
      simp only [stmtReader, decStmt, toReader, Reader.bind]
      rcases b.readNum e t with ⟨b', e | n⟩
      · rfl
      · dsimp only
        by_cases h : 0 < n.bits.toInt
        · rw [if_pos h, if_pos h]
          simp only [Reader.bind]
          rcases decElems call el n.bits.toNat [] b' with ⟨xs, b'', _ | e⟩ <;> rfl
        · rw [if_neg h, if_neg h]
    rw [this]
    refine Stream.bind _ (stream_readNum e t) fun a => ?_
    cases a with
    | none => exact Stream.pure _
    | some n =>
      dsimp only
      split
      · exact Stream.bind _ (stream_decElems call hc el _ _) fun a => Stream.pure _
      · exact Stream.pure _
  | obj f c =>
    unfold stmtReader decStmt
    dsimp only
    rcases hf : fs[f]? with _ | v
    · exact Stream.fail _ _ (by decide)
    · cases v with
      | null => exact stream_obj call hc c (freshFields c) fun xs => fs.set f (.obj c xs)
      | obj c' fs' => exact stream_obj call hc c' fs' fun xs => fs.set f (.obj c' xs)
      | _ => exact Stream.fail _ _ (by decide)
  | create f fac key =>
    unfold stmtReader decStmt
    dsimp only
    rcases hf : fs[key]? with _ | v
    · exact Stream.fail _ _ (by decide)
    · dsimp only
      rcases hw : w.fac fac (keyOf v) with _ | v'
      · exact Stream.fail _ _ (by decide)
      · exact Stream.pure _
  | call f =>
    unfold stmtReader decStmt
    dsimp only
    rcases hf : fs[f]? with _ | v
    · exact Stream.fail _ _ (by decide)
    · cases v with
      | null => exact Stream.fail _ _ (by decide)
      | obj c' fs' => exact stream_obj call hc c' fs' fun xs => fs.set f (.obj c' xs)
      | _ => exact Stream.fail _ _ (by decide)

theorem stream_stmts (w : World) (call : DecCall) (hc : ∀ c fs, Stream (call c fs)) (tys : List FTy) (ss : List DecStmt) :
    ∀ fs, Stream (stmtsReader w call tys ss fs) := by
  induction ss with
  | nil => intro fs; exact Stream.pure fs
  | cons s ss ih =>
    intro fs
    have : stmtsReader w call tys (s :: ss) fs =
        Reader.bind (stmtReader w call tys s fs) (fun fs' => stmtsReader w call tys ss fs') id := by
      funext b
      simp only [stmtsReader, stmtReader, decStmts, Reader.bind]
      rcases decStmt w call tys s ⟨fs, b⟩ with ⟨⟨fs', b'⟩, _ | e⟩ <;> rfl
    rw [this]
    exact Stream.bind _ (stream_stmt w call hc tys s fs) ih

/-- `decode` is a stream reader, for every class, object, registry state and stack depth. -/
theorem stream_decode (w : World) (n : Nat) : ∀ c fs, Stream (decode w n c fs) := by
  induction n with
  | zero => intro c fs; exact Stream.fail _ _ (by decide)
  | succ n ih => intro c fs; exact stream_stmts w _ ih _ _ fs

end FinProto
