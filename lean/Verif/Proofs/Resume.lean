import Verif.Proofs.Decode
import Verif.Proofs.DecodeLaw
/-
Helper lemmas: decoding again, with more bytes, into an object a failed `decode` has left half filled.
-/
namespace FinProto

theorem law_obj' (call : DecCall) (hc : ∀ c fs, Law (call c fs)) (c : Cls) (cs : List Val) (k : List Val → Val) :
    Law (fun b => (k (call c cs b).1, (call c cs b).2)) := by
  have : (fun b => (k (call c cs b).1, (call c cs b).2)) =
      Reader.bind (call c cs) (fun fs b => (k fs, b, none)) k := by
    funext b
    simp only [Reader.bind]
    rcases call c cs b with ⟨fs, b', _ | e⟩ <;> rfl
  rw [this]
  exact Law.bind _ (hc _ _) fun a => Law.pure _

/-- Reading one field obeys the law. -/
theorem law_readField (w : World) (call : DecCall) (hc : ∀ c fs, Law (call c fs)) (k : Conv) (done : List Val) (t : WTy) (old : Val) :
    Law (readField w call k done t old) := by
  have num : ∀ p, Law (readField w call k done (.num p) old) := by
    intro p
    have : readField w call k done (.num p) old =
        Reader.bind (toReader fun b => b.readNum (ordOf k p) p)
          (fun o b => ((match o with | some n => .num n | none => old), b, none)) (fun _ => old) := by
      funext b
      simp only [readField, toReader, Reader.bind]
      rcases b.readNum (ordOf k p) p with ⟨b', e | n⟩ <;> rfl
    rw [this]
    exact Law.bind _ (law_readNum _ _) fun a => Law.pure _
  cases t with
  | num p => exact num p
  | len p => exact num p
  | cksum p alg => exact num p
  | text n pad left =>
    have : readField w call k done (.text n pad left) old =
        Reader.bind (toReader fun b => readFixedString b n pad left)
          (fun o b => ((match o with | some s => .str s | none => old), b, none)) (fun _ => old) := by
      funext b
      simp only [readField, toReader, Reader.bind]
      rcases readFixedString b n pad left with ⟨b', e | n⟩ <;> rfl
    rw [this]
    exact Law.bind _ (law_readFixedString n pad left) fun a => Law.pure _
  | vstr =>
    have : readField w call k done .vstr old =
        Reader.bind (toReader fun b => readDyn b k.strLen k.order)
          (fun o b => ((match o with | some (some s) => .str s | _ => old), b, none)) (fun _ => old) := by
      funext b
      simp only [readField, toReader, Reader.bind]
      rcases readDyn b k.strLen k.order with ⟨b', e | _ | n⟩ <;> rfl
    rw [this]
    exact Law.bind _ (law_readDyn _ _) fun a => Law.pure _
  | list e =>
    have : readField w call k done (.list e) old =
        Reader.bind (toReader fun b => b.readNum k.order k.listLen)
          (fun o => match o with
            | none => fun b => (old, b, none)
            | some n => if 0 < n.bits.toInt then
                Reader.bind (decElems call (decElOf k e) n.bits.toNat []) (fun xs b => (.list xs, b, none)) (fun xs => .list xs)
              else fun b => (old, b, none)) (fun _ => old) := by
      funext b
      simp only [readField, toReader, Reader.bind]
      rcases b.readNum k.order k.listLen with ⟨b', e | n⟩
      · rfl
      · dsimp only
        by_cases h : 0 < n.bits.toInt
        · rw [if_pos h, if_pos h]
          simp only [Reader.bind]
          rcases decElems call (decElOf k e) n.bits.toNat [] b' with ⟨xs, b'', _ | e⟩ <;> rfl
        · rw [if_neg h, if_neg h]
    rw [this]
    refine Law.bind _ (law_readNum _ _) fun a => ?_
    cases a with
    | none => exact Law.pure _
    | some n =>
      dsimp only
      split
      · exact Law.bind _ (law_decElems call hc _ _ _) fun a => Law.pure _
      · exact Law.pure _
  | sub c =>
    unfold readField
    cases old with
    | null => exact law_obj' call hc c (freshFields c) (.obj c)
    | obj c' fs' => exact law_obj' call hc c' fs' (.obj c')
    | _ => exact Law.fail _ _
  | ext fac key =>
    unfold readField
    dsimp only
    rcases done[key]? with _ | kv
    · exact Law.fail _ _
    · dsimp only
      rcases w.fac fac (keyOf kv) with _ | v'
      · exact Law.fail _ _
      · cases v' with
        | null => exact Law.fail _ _
        | obj c' fs' => exact law_obj' call hc c' fs' (.obj c')
        | _ => exact Law.fail _ _

/-- `bt` is a cut version of `bf`; the readers are at the same place unless the one on `bt` has left its bytes. -/
def Beh (bt bf : RBuf) : Prop := bt.data <+: bf.data ∧ (bt.rd = bf.rd ∨ bt.data.length < bt.rd)

/-- What was read successfully within the bytes of the cut buffer is read likewise from the long one. -/
theorem Law.extend {α : Type} {f : Reader α} (hf : Law f) {bt bf : RBuf} (h : Beh bt bf) (hok : (f bt).2.2 = none)
    (hin : (f bt).2.1.rd ≤ bt.data.length) : f bf = ((f bt).1, { bf with rd := (f bt).2.1.rd }, none) := by
  obtain ⟨X, h1, h2, h3⟩ := hf.local' bt hok
  have hrd : bt.rd = bf.rd := by
    rcases h.2 with h | h
    · exact h
    · omega
  obtain ⟨q, hq⟩ := h.1
  rw [List.drop_append_of_le_length (by omega)] at h1
  have hX : X <+: bt.data.drop bt.rd := by
    refine List.prefix_of_prefix_length_le h1 (List.prefix_append _ _) ?_
    simp; omega
  obtain ⟨r, hr⟩ := hX
  have hd : bt.data = bt.data.take bt.rd ++ X ++ r := by
    rw [List.append_assoc, hr, List.take_append_drop]
  have hl : (bt.data.take bt.rd).length = bt.rd := by simp; omega
  have := (h3 (bt.data.take bt.rd)).1 (r ++ q) bf.spare
  have hb : (⟨bt.data.take bt.rd ++ X ++ (r ++ q), bf.spare, (bt.data.take bt.rd).length⟩ : RBuf) = bf := by
    apply RBuf.ext'
    · dsimp only
      rw [← hq, ← List.append_assoc, ← hd]
    · rfl
    · dsimp only; rw [hl, hrd]
  rw [hb] at this
  rw [this]
  congr 2
  apply RBuf.ext'
  · have := congrArg RBuf.data hb
    exact this
  · rfl
  · dsimp only; rw [hl, h2]

theorem readNum_extend {bt bf : RBuf} (h : Beh bt bf) (e : Endian) (t : PTy) (b' : RBuf) (n : Num) (hr : bt.readNum e t = (b', .ok n)) :
    bf.readNum e t = ({ bf with rd := b'.rd }, .ok n) := by
  have hle : bt.rd + t.size ≤ bt.data.length := by
    unfold RBuf.readNum at hr
    split at hr
    · assumption
    · simp at hr
  have := (law_readNum e t).extend h (by simp [toReader, hr]) (by
    simp only [toReader, hr]
    unfold RBuf.readNum at hr
    rw [if_pos hle] at hr
    simp only [Prod.mk.injEq] at hr
    rw [← hr.1]
    exact hle)
  simp only [toReader, hr] at this
  revert this
  rcases bf.readNum e t with ⟨b2, er | m⟩
  · simp
  · simp only [Prod.mk.injEq, Option.some.injEq, and_true, Except.ok.injEq]
    intro this
    exact ⟨this.2, this.1⟩

/-- A second call, with more bytes, on what the first one left. -/
def CallResume (call : DecCall) : Prop :=
  ∀ c olds bt bf, fieldsHaveType (javaTypes c) olds = true → Beh bt bf → (call c olds bf).2.2 = none →
    call c (call c olds bt).1 bf = call c olds bf

theorem freshTyped (c : Cls) : fieldsHaveType (javaTypes c) (freshFields c) = true := by
  have : ∀ l : List (String × FTy), fieldsHaveType (l.map (·.2)) (l.map fun f => f.2.default) = true := by
    intro l
    induction l with
    | nil => rfl
    | cons a l ih =>
      simp only [List.map_cons, fieldsHaveType, ih, Bool.and_true]
      cases a.2 <;> simp [FTy.default, hasType]
  exact this _

theorem readField_resume (w : World) (call : DecCall) (hc : CallResume call) (k : Conv) (doneT doneF : List Val) (t : WTy) (old : Val)
    (bt bf : RBuf) (ho : hasType t.java old = true) (h : Beh bt bf) (hok : (readField w call k doneF t old bf).2.2 = none) :
    readField w call k doneF t (readField w call k doneT t old bt).1 bf = readField w call k doneF t old bf := by
  have num : ∀ (p : PTy) (o : Val), (readField w call k doneF (.num p) old bf).2.2 = none →
      readField w call k doneF (.num p) o bf = readField w call k doneF (.num p) old bf := by
    intro p o hok
    revert hok
    simp only [readField]
    rcases bf.readNum (ordOf k p) p with ⟨b1, e | n⟩
    · intro h; simp at h
    · intro _; rfl
  cases t with
  | num p => exact num p _ hok
  | len p => exact num p _ hok
  | cksum p alg => exact num p _ hok
  | text n pad left =>
    revert hok
    generalize (readField w call k doneT (.text n pad left) old bt).1 = o
    simp only [readField]
    rcases readFixedString bf n pad left with ⟨b1, e | s⟩
    · intro h; simp at h
    · intro _; rfl
  | vstr =>
    have key : (readField w call k doneT .vstr old bt).1 = old ∨ ∃ b' s, readDyn bt k.strLen k.order = (b', .ok (some s)) := by
      simp only [readField]
      rcases readDyn bt k.strLen k.order with ⟨b1, e | _ | s⟩
      · exact .inl rfl
      · exact .inl rfl
      · exact .inr ⟨_, _, rfl⟩
    rcases key with key | ⟨b', s, hr⟩
    · rw [key]
    · have hpos : ∃ b1 n, bt.readNum k.order k.strLen = (b1, .ok n) ∧ 0 < n.bits.toInt := by
        unfold readDyn at hr
        revert hr
        rcases bt.readNum k.order k.strLen with ⟨b1, e | n⟩
        · intro hr; simp at hr
        · dsimp only
          by_cases hp : 0 < n.bits.toInt
          · intro _; exact ⟨b1, n, rfl, hp⟩
          · rw [if_neg hp]; intro hr; simp at hr
      obtain ⟨b1, n, h1, h2⟩ := hpos
      have h3 := readNum_extend h _ _ _ _ h1
      have hF : ∀ b2 r, readDyn bf k.strLen k.order = (b2, .ok r) → r ≠ none := by
        intro b2 r hr
        unfold readDyn at hr
        rw [h3] at hr
        dsimp only at hr
        rw [if_pos h2] at hr
        revert hr
        rcases RBuf.readText _ _ with ⟨b3, e | s⟩
        · intro hr; simp at hr
        · intro hr
          simp only [Prod.mk.injEq, Except.ok.injEq] at hr
          rw [← hr.2]; simp
      revert hok
      generalize (readField w call k doneT .vstr old bt).1 = o
      simp only [readField]
      rcases hd : readDyn bf k.strLen k.order with ⟨b2, e | _ | s⟩
      · intro h; simp at h
      · exact absurd rfl (hF _ _ hd)
      · intro _; rfl
  | list e =>
    have key : (readField w call k doneT (.list e) old bt).1 = old ∨ ∃ b' n, bt.readNum k.order k.listLen = (b', .ok n) ∧ 0 < n.bits.toInt := by
      simp only [readField]
      rcases bt.readNum k.order k.listLen with ⟨b1, e | n⟩
      · exact .inl rfl
      · dsimp only
        by_cases hp : 0 < n.bits.toInt
        · exact .inr ⟨_, _, rfl, hp⟩
        · rw [if_neg hp]; exact .inl rfl
    rcases key with key | ⟨b', n, hr, hp⟩
    · rw [key]
    · have h3 := readNum_extend h _ _ _ _ hr
      simp only [readField, h3]
      rw [if_pos hp, if_pos hp]
  | sub c =>
    cases old with
    | null =>
      simp only [readField] at hok ⊢
      rw [hc c (freshFields c) bt bf (freshTyped c) h hok]
    | obj c' fs' =>
      simp only [hasType, WTy.java, Bool.and_eq_true] at ho
      simp only [readField] at hok ⊢
      rw [hc c' fs' bt bf ho.2 h hok]
    | num | str | list => simp [hasType, WTy.java] at ho
  | ext fac key =>
    revert hok
    generalize (readField w call k doneT (.ext fac key) old bt).1 = o
    simp only [readField]
    rcases doneF[key]? with _ | kv
    · intro h; simp at h
    · dsimp only
      rcases w.fac fac (keyOf kv) with _ | v'
      · intro h; simp at h
      · cases v' <;> exact fun _ => rfl

theorem readFields_resume (w : World) (call : DecCall) (hl : ∀ c fs, Law (call c fs)) (hc : CallResume call) (k : Conv) (ts : List WTy) :
    ∀ (doneT doneF olds : List Val) (bt bf : RBuf), fieldsHaveType (ts.map WTy.java) olds = true → Beh bt bf →
      (bt.rd ≤ bt.data.length → doneT = doneF) → (readFields w call k doneF ts olds bf).2.2 = none →
      readFields w call k doneF ts ((readFields w call k doneT ts olds bt).1.drop doneT.length) bf = readFields w call k doneF ts olds bf := by
  induction ts with
  | nil =>
    intro doneT doneF olds bt bf ht _ _ _
    cases olds with
    | nil => simp [readFields]
    | cons => simp [fieldsHaveType] at ht
  | cons t ts ih =>
    intro doneT doneF olds bt bf ht hb hd hok
    cases olds with
    | nil => simp [fieldsHaveType] at ht
    | cons old olds =>
      simp only [List.map_cons, fieldsHaveType, Bool.and_eq_true] at ht
      have law := law_readField w call hl k doneT t old
      -- the long run succeeds on this field
      rcases hF : readField w call k doneF t old bf with ⟨vF, bF, _ | eF⟩
      · have hA := readField_resume w call hc k doneT doneF t old bt bf ht.1 hb (by rw [hF])
        rw [hF] at hA
        have hokF : (readFields w call k (doneF ++ [vF]) ts olds bF).2.2 = none := by
          simpa [readFields, hF] using hok
        have goalR : readFields w call k doneF (t :: ts) (old :: olds) bf = readFields w call k (doneF ++ [vF]) ts olds bF := by
          simp [readFields, hF]
        rw [goalR]
        rcases hT : readField w call k doneT t old bt with ⟨vT, bT, _ | eT⟩
        · have h1 : readFields w call k doneT (t :: ts) (old :: olds) bt = readFields w call k (doneT ++ [vT]) ts olds bT := by
            simp [readFields, hT]
          rw [h1]
          obtain ⟨rest, hrest⟩ := readFields_prefix w call k ts (doneT ++ [vT]) olds bT
          have hdrop : (readFields w call k (doneT ++ [vT]) ts olds bT).1.drop doneT.length = vT :: rest := by
            rw [← hrest]; simp
          have hdrop' : (readFields w call k (doneT ++ [vT]) ts olds bT).1.drop (doneT ++ [vT]).length = rest := by
            rw [← hrest]; simp
          rw [hdrop]
          rw [hT] at hA
          dsimp only at hA
          simp only [readFields, hA]
          rw [← hdrop']
          have hdata : bT.data = bt.data := by
            have := law.data bt; rw [hT] at this; exact this
          have hfwd : bt.rd ≤ bT.rd := by
            have := law.forward bt; rw [hT] at this; exact this
          have hFdata : bF.data = bf.data := by
            have := (law_readField w call hl k doneF t old).data bf; rw [hF] at this; exact this
          by_cases hin : bT.rd ≤ bt.data.length
          · have hdd := hd (by omega)
            subst hdd
            have := law.extend hb (by rw [hT]) (by rw [hT]; exact hin)
            rw [hT, hF] at this
            simp only [Prod.mk.injEq, and_true] at this
            obtain ⟨rfl, h2⟩ := this
            refine ih _ _ olds bT bF ht.2 ⟨by rw [hdata, hFdata]; exact hb.1, .inl ?_⟩ (fun _ => rfl) hokF
            rw [h2]
          · refine ih _ _ olds bT bF ht.2 ⟨by rw [hdata, hFdata]; exact hb.1, .inr (by rw [hdata]; omega)⟩ (fun h => ?_) hokF
            rw [hdata] at h
            exact absurd h hin
        · have h1 : (readFields w call k doneT (t :: ts) (old :: olds) bt).1 = doneT ++ vT :: olds := by
            simp [readFields, hT]
          rw [h1]
          rw [hT] at hA
          dsimp only at hA
          simp [readFields, hA]
      · simp [readFields, hF] at hok

theorem decode_resume (w : World) (n : Nat) : CallResume (decode w n) := by
  induction n with
  | zero => intro c olds bt bf _ _ h; simp [decode] at h
  | succ n ih =>
    intro c olds bt bf ht hb hok
    have hl := fields_length c olds ht
    rw [decode_eq w n c olds bf hl] at hok ⊢
    rw [decode_eq w n c olds bt hl]
    rw [decode_eq w n c _ bf (by rw [readFields_length]; simpa using hl)]
    rw [type_table] at ht
    have := readFields_resume w (decode w n) (law_decode w n) ih (conv c.mod) (wire c) [] [] olds bt bf ht hb (fun _ => rfl) hok
    simpa using this

end FinProto
