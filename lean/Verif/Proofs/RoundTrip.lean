import Verif.Spec.Receive
import Verif.Proofs.Decode
import Verif.Proofs.DecodeLaw
/-
Helper lemmas: decoding the image of a message into a new object gives the received message.
-/
namespace FinProto

/-- `f` succeeds with `a` on the bytes `X`, wherever they are. -/
def Reads {α : Type} (f : Reader α) (X : List Byte) (a : α) : Prop :=
  ∀ pre post sp, f ⟨pre ++ X ++ post, sp, pre.length⟩ = (a, ⟨pre ++ X ++ post, sp, pre.length + X.length⟩, none)

theorem Reads.pure {α : Type} (a : α) : Reads (fun b => (a, b, none)) [] a := by
  intro pre post sp; simp

theorem Reads.bind {α β : Type} {f : Reader α} {g : α → Reader β} {h : α → β} {X1 X2 : List Byte} {a : α} {c : β}
    (h1 : Reads f X1 a) (h2 : Reads (g a) X2 c) : Reads (Reader.bind f g h) (X1 ++ X2) c := by
  intro pre post sp
  have e1 := h1 pre (X2 ++ post) sp
  have e2 := h2 (pre ++ X1) post sp
  simp only [← List.append_assoc, List.length_append] at e1 e2 ⊢
  rw [Reader.bind, e1]
  dsimp only
  rw [e2, Nat.add_assoc]

theorem Reads.map {α β : Type} {f : Reader α} {X : List Byte} {a : α} (m : α → β) (h : α → β) (h1 : Reads f X a) :
    Reads (Reader.bind f (fun o b => (m o, b, none)) h) X (m a) := by
  intro pre post sp
  rw [Reader.bind, h1]

theorem reads_num (k : Conv) (n : Num) : Reads (toReader fun b => b.readNum (ordOf k n.ty) n.ty) (n.bytes k.order) (some n) := by
  intro pre post sp
  have hl : (n.bytes k.order).length = n.ty.size := by simp
  simp only [toReader, RBuf.readNum]
  rw [if_pos (by simp)]
  simp only [List.append_assoc, List.drop_left, hl]
  rw [List.take_append_of_le_length (by omega), List.take_of_length_le (by omega), ← bytes_ordOf, Num.ofBytes_bytes]

theorem reads_text (X : List Byte) : Reads (toReader fun b => b.readText X.length) X (some (utf8Dec X)) := by
  intro pre post sp
  have := readText_within ⟨pre ++ X ++ post, sp, pre.length⟩ X.length (by simp)
  simp only [toReader, this]
  simp

/-- A count below the sign limit is read back as it is. -/
theorem reads_count (k : Conv) (t : PTy) (m : Nat) (ht : t.isCount = true) (hm : countFits t m) :
    ∃ n : Num, Reads (toReader fun b => b.readNum k.order t) (countImage k t m) (some n)
      ∧ n.bits.toNat = m ∧ (0 < n.bits.toInt ↔ 0 < m) := by
  let n : Num := ⟨t, BitVec.ofNat t.bits m⟩
  have hlt : m < 2 ^ t.bits := by
    unfold countFits at hm
    have : 2 ^ (8 * t.size - 1) ≤ 2 ^ t.bits := Nat.pow_le_pow_right (by decide) (by simp [PTy.bits])
    omega
  have hbytes : n.bytes k.order = countImage k t m := by
    simp only [Num.bytes, countImage, n, BitVec.toNat_ofNat, Nat.mod_eq_of_lt hlt]
  have hord : ordOf k t = k.order := by
    cases t <;> simp [PTy.isCount] at ht <;> rfl
  refine ⟨n, ?_, ?_, ?_⟩
  · have := reads_num k n
    rw [hbytes] at this
    rw [← hord]
    exact this
  · simp only [n, BitVec.toNat_ofNat, Nat.mod_eq_of_lt hlt]
  · have : n.bits.toInt = m := by
      have h2 : n.bits.toNat = m := by simp only [n, BitVec.toNat_ofNat, Nat.mod_eq_of_lt hlt]
      rw [BitVec.toInt_eq_toNat_of_lt, h2]
      rw [h2]
      unfold countFits at hm
      show 2 * m < 2 ^ t.bits
      have : t.bits = (8 * t.size - 1) + 1 := by
        have := t.size_pos
        simp only [PTy.bits]
        omega
      rw [this, Nat.pow_succ]
      omega
    rw [this]
    omega

theorem reads_fixed (n : Nat) (pad : JChar) (left : Bool) (s : JStr) (h : left = true → s ≠ []) :
    Reads (toReader fun b => readFixedString b n pad left) (textImage n pad left s) (some (textReceived n pad left s)) := by
  have him : textImage n pad left s = fixedField n pad left s := by
    unfold textImage
    rw [if_neg]
    intro hc
    simp only [Bool.and_eq_true, List.isEmpty_iff] at hc
    exact h hc.1 hc.2
  rw [him]
  have hl := fixedField_length n pad left s
  intro pre post sp
  have := readFixedString_within ⟨pre ++ fixedField n pad left s ++ post, sp, pre.length⟩ n pad left (by simp [hl])
  simp only [toReader, this, hl]
  simp only [List.append_assoc, List.drop_left]
  rw [List.take_append_of_le_length (by omega), List.take_of_length_le (by omega)]
  rfl

theorem reads_dyn (k : Conv) (s : JStr) (hk : k.strLen.isCount = true) (hm : countFits k.strLen (utf8Enc s).length) :
    Reads (toReader fun b => readDyn b k.strLen k.order) (vstrImage k s)
      (some (if s = [] then none else some (utf8Dec (utf8Enc s)))) := by
  have heq : (toReader fun b => readDyn b k.strLen k.order) =
      Reader.bind (toReader fun b => b.readNum k.order k.strLen)
        (fun o => match o with
          | none => fun b => (none, b, none)
          | some n => if 0 < n.bits.toInt then
              Reader.bind (toReader fun b => b.readText n.bits.toNat) (fun o b => (o.map some, b, none)) (fun _ => none)
            else fun b => (some none, b, none)) (fun _ => none) := by
    funext b
    simp only [toReader, readDyn, Reader.bind]
    rcases b.readNum k.order k.strLen with ⟨b', e | n⟩
    · rfl
    · dsimp only
      by_cases h : 0 < n.bits.toInt
      · rw [if_pos h, if_pos h]
        simp only [Reader.bind, toReader]
        rcases b'.readText n.bits.toNat with ⟨b'', e | s⟩ <;> rfl
      · rw [if_neg h, if_neg h]
  obtain ⟨n, h1, h2, h3⟩ := reads_count k k.strLen _ hk hm
  rw [heq]
  unfold vstrImage
  refine Reads.bind h1 ?_
  dsimp only
  by_cases hs : s = []
  · subst hs
    rw [if_neg (by rw [h3]; simp), if_pos rfl]
    exact Reads.pure _
  · have : (utf8Enc s).length ≠ 0 := by
      intro h
      exact hs ((utf8Enc_eq_nil s).mp (List.length_eq_zero_iff.mp h))
    rw [if_pos (by rw [h3]; omega), if_neg hs, h2]
    exact Reads.map (Option.map some) _ (reads_text (utf8Enc s))

/-! ### elements -/

/-- The recursive call reads back messages of smaller depth. -/
def CallReads (w : World) (n : Nat) (call : DecCall) : Prop :=
  ∀ c fs, fieldsHaveType (javaTypes c) fs = true → completeFields (wire c) fs = true →
    legibleFields w (conv c.mod) (receivedFields (wire c) fs) (wire c) fs → depthList fs < n →
    Reads (call c (freshFields c)) (imageFields (conv c.mod) (wire c) fs) (receivedFields (wire c) fs)

theorem reads_elem (w : World) (n : Nat) (call : DecCall) (hc : CallReads w n call) (k : Conv) (hk : k.strLen.isCount = true)
    (e : EWTy) (v : Val) (ht : elemHasType e.java v = true) (hcp : completeElem e v = true) (hl : legibleElem w k e v)
    (hd : depth v ≤ n) :
    Reads (toReader (decElem call (decElOf k e))) (imageElem k e v) (some (receivedElem e v)) := by
  have heq : ∀ f : Reader (Option (Option Val)), f = Reader.bind f (fun o b => (o, b, none)) id := by
    intro f
    funext b
    simp only [Reader.bind, id]
    rcases f b with ⟨a, b', _ | e⟩ <;> rfl
  cases e with
  | num t =>
    cases v with
    | num m =>
      simp only [EWTy.java, elemHasType, decide_eq_true_eq] at ht
      subst ht
      have : toReader (decElem call (.num m.ty (ordOf k m.ty))) =
          Reader.bind (toReader fun b => b.readNum (ordOf k m.ty) m.ty)
            (fun o b => (o.map fun n => some (.num n), b, none)) (fun _ => none) := by
        funext b
        simp only [toReader, decElem, Reader.bind]
        rcases b.readNum (ordOf k m.ty) m.ty with ⟨b', e | n⟩ <;> rfl
      simp only [decElOf, imageElem, receivedElem, this]
      exact Reads.map (Option.map fun n => some (Val.num n)) _ (reads_num k m)
    | null => simp [completeElem] at hcp
    | _ => simp [EWTy.java, elemHasType] at ht
  | text len pad left =>
    have hs : v.isStr = true := by cases v <;> simp [EWTy.java, elemHasType] at ht <;> rfl
    have hl' : left = true → v.text ≠ [] := by cases v <;> simp [Val.isStr] at hs <;> simpa [legibleElem] using hl
    have hi : imageElem k (.text len pad left) v = textImage len pad left v.text := by
      cases v <;> simp [Val.isStr] at hs <;> rfl
    have hr : receivedElem (.text len pad left) v = some (.str (textReceived len pad left v.text)) := by
      cases v <;> simp [Val.isStr] at hs <;> rfl
    have : toReader (decElem call (.fixed len pad left)) =
        Reader.bind (toReader fun b => readFixedString b len pad left)
          (fun o b => (o.map fun s => some (.str s), b, none)) (fun _ => none) := by
      funext b
      simp only [toReader, decElem, Reader.bind]
      rcases readFixedString b len pad left with ⟨b', e | n⟩ <;> rfl
    simp only [decElOf, hi, hr, this]
    exact Reads.map (Option.map fun s => some (Val.str s)) _ (reads_fixed len pad left v.text hl')
  | vstr =>
    have hs : v.isStr = true := by cases v <;> simp [EWTy.java, elemHasType] at ht <;> rfl
    have hl' : countFits k.strLen (utf8Enc v.text).length := by
      cases v <;> simp [Val.isStr] at hs <;> simpa [legibleElem] using hl
    have hi : imageElem k .vstr v = vstrImage k v.text := by
      cases v <;> simp [Val.isStr] at hs <;> rfl
    have hr : receivedElem .vstr v = if v.text = [] then none else some (.str (utf8Dec (utf8Enc v.text))) := by
      cases v <;> simp [Val.isStr] at hs <;> rfl
    have : toReader (decElem call (.dyn k.strLen k.order)) =
        Reader.bind (toReader fun b => readDyn b k.strLen k.order)
          (fun o b => (o.map fun s => s.map .str, b, none)) (fun _ => none) := by
      funext b
      simp only [toReader, decElem, Reader.bind]
      rcases readDyn b k.strLen k.order with ⟨b', e | n⟩ <;> rfl
    simp only [decElOf, hi, hr, this]
    have := Reads.map (Option.map fun s => s.map Val.str) (fun _ => none) (reads_dyn k v.text hk hl')
    have he : ((some (if v.text = [] then none else some (utf8Dec (utf8Enc v.text)))).map fun s => s.map Val.str) =
        some (if v.text = [] then none else some (.str (utf8Dec (utf8Enc v.text)))) := by
      split <;> rfl
    rw [he] at this
    exact this
  | sub c =>
    cases v with
    | obj c' fs =>
      simp only [EWTy.java, elemHasType, Bool.and_eq_true, decide_eq_true_eq] at ht
      obtain ⟨rfl, ht⟩ := ht
      simp only [completeElem] at hcp
      simp only [legibleElem] at hl
      simp only [depth] at hd
      have : toReader (decElem call (.obj c')) =
          Reader.bind (call c' (freshFields c')) (fun fs b => (some (some (.obj c' fs)), b, none)) (fun _ => none) := by
        funext b
        simp only [toReader, decElem, Reader.bind]
        rcases call c' (freshFields c') b with ⟨fs, b', _ | e⟩ <;> rfl
      simp only [decElOf, imageElem, receivedElem, this]
      exact Reads.map (fun fs => some (some (Val.obj c' fs))) _ (hc c' fs ht hcp hl (by omega))
    | null => simp [completeElem] at hcp
    | _ => simp [EWTy.java, elemHasType] at ht

theorem reads_elems (w : World) (n : Nat) (call : DecCall) (hc : CallReads w n call) (k : Conv) (hk : k.strLen.isCount = true)
    (e : EWTy) (xs : List Val) : ∀ acc : List Val, elemsHaveType e.java xs = true → completeElems e xs = true →
      legibleElems w k e xs → depthList xs ≤ n →
    Reads (decElems call (decElOf k e) xs.length acc) (imageElems k e xs) (acc ++ receivedElems e xs) := by
  induction xs with
  | nil =>
    intro acc _ _ _ _
    have : decElems call (decElOf k e) 0 acc = fun b => (acc, b, none) := funext fun b => rfl
    simp only [List.length_nil, this, imageElems, receivedElems, List.append_nil]
    exact Reads.pure _
  | cons v vs ih =>
    intro acc ht hcp hl hd
    simp only [elemsHaveType, Bool.and_eq_true] at ht
    simp only [completeElems, Bool.and_eq_true] at hcp
    simp only [legibleElems] at hl
    simp only [depthList] at hd
    have heq : decElems call (decElOf k e) (vs.length + 1) acc =
        Reader.bind (toReader (decElem call (decElOf k e)))
          (fun o => match o with
            | some (some v) => decElems call (decElOf k e) vs.length (acc ++ [v])
            | _ => decElems call (decElOf k e) vs.length acc) (fun _ => acc) := by
      funext b
      simp only [decElems, toReader, Reader.bind]
      rcases decElem call (decElOf k e) b with ⟨b', e | _ | v⟩ <;> rfl
    simp only [List.length_cons, heq, imageElems]
    refine Reads.bind (reads_elem w n call hc k hk e v ht.1 hcp.1 hl.1 (by omega)) ?_
    simp only [receivedElems]
    cases receivedElem e v with
    | none => exact ih acc ht.2 hcp.2 hl.2 (by omega)
    | some v' =>
      have := ih (acc ++ [v']) ht.2 hcp.2 hl.2 (by omega)
      simpa using this

/-! ### fields -/

/-- Field of a new object. -/
def WTy.blankValue (t : WTy) : Val := t.java.default

theorem freshFields_eq (c : Cls) : freshFields c = (wire c).map WTy.blankValue := by
  have h : freshFields c = (javaTypes c).map FTy.default := by simp [freshFields, javaTypes]
  rw [h, type_table, List.map_map]
  rfl

theorem reads_field (w : World) (n : Nat) (call : DecCall) (hc : CallReads w n call) (k : Conv) (hk : k.strLen.isCount = true)
    (hk' : k.listLen.isCount = true) (done got : List Val) (t : WTy) (v : Val)
    (ht : hasType t.java v = true) (hcp : completeField t v = true) (hl : legibleField w k got t v) (hd : depth v ≤ n)
    (hkey : ∀ fac key, t = .ext fac key → done[key]? = got[key]?) :
    Reads (readField w call k done t t.blankValue) (imageField k t v) (receivedField t v) := by
  have hnum : ∀ (t : WTy) (m : Num), (t = .num m.ty ∨ t = .len m.ty ∨ ∃ alg, t = .cksum m.ty alg) → ∀ old,
      Reads (readField w call k done t old) (m.bytes k.order) (.num m) := by
    intro t m ht old
    have : readField w call k done t old =
        Reader.bind (toReader fun b => b.readNum (ordOf k m.ty) m.ty)
          (fun o b => ((match o with | some m => .num m | none => old), b, none)) (fun _ => old) := by
      funext b
      rcases ht with rfl | rfl | ⟨alg, rfl⟩ <;>
      · simp only [readField, toReader, Reader.bind]
        rcases b.readNum (ordOf k m.ty) m.ty with ⟨b', e | n⟩ <;> rfl
    rw [this]
    exact Reads.map (fun o => match o with | some m => Val.num m | none => old) _ (reads_num k m)
  cases t with
  | num p =>
    cases v with
    | num m =>
      simp only [WTy.java, hasType, decide_eq_true_eq] at ht
      subst ht
      exact hnum _ m (.inl rfl) _
    | _ => simp [WTy.java, hasType] at ht
  | len p =>
    cases v with
    | num m =>
      simp only [WTy.java, hasType, decide_eq_true_eq] at ht
      subst ht
      exact hnum _ m (.inr (.inl rfl)) _
    | _ => simp [WTy.java, hasType] at ht
  | cksum p alg =>
    cases v with
    | num m =>
      simp only [WTy.java, hasType, decide_eq_true_eq] at ht
      subst ht
      exact hnum _ m (.inr (.inr ⟨alg, rfl⟩)) _
    | _ => simp [WTy.java, hasType] at ht
  | text len pad left =>
    have hs : v.isStr = true := by cases v <;> simp [WTy.java, hasType] at ht <;> rfl
    have hl' : left = true → v.text ≠ [] := by
      cases v <;> simp [Val.isStr] at hs <;> simp only [legibleField] at hl
      · intro h; rw [hl] at h; cases h
      · exact hl
    have hi : imageField k (.text len pad left) v = textImage len pad left v.text := by
      cases v <;> simp [Val.isStr] at hs <;> rfl
    have hr : receivedField (.text len pad left) v = .str (textReceived len pad left v.text) := by
      cases v <;> simp [Val.isStr] at hs <;> rfl
    generalize WTy.blankValue _ = old
    have : readField w call k done (.text len pad left) old =
        Reader.bind (toReader fun b => readFixedString b len pad left)
          (fun o b => ((match o with | some s => .str s | none => old), b, none)) (fun _ => old) := by
      funext b
      simp only [readField, toReader, Reader.bind]
      rcases readFixedString b len pad left with ⟨b', e | n⟩ <;> rfl
    rw [hi, hr, this]
    have := Reads.bind (X2 := []) (h := fun _ => old)
      (g := fun o b => ((match o with | some s => .str s | none => old), b, none))
      (reads_fixed len pad left v.text hl') (Reads.pure (Val.str (textReceived len pad left v.text)))
    simpa using this
  | vstr =>
    have hs : v.isStr = true := by cases v <;> simp [WTy.java, hasType] at ht <;> rfl
    have hl' : countFits k.strLen (utf8Enc v.text).length := by
      cases v <;> simp [Val.isStr] at hs <;> simp only [legibleField] at hl
      · exact Nat.pow_pos (by decide)
      · exact hl
    have hi : imageField k .vstr v = vstrImage k v.text := by
      cases v <;> simp [Val.isStr] at hs <;> rfl
    have hr : receivedField .vstr v = if v.text = [] then .null else .str (utf8Dec (utf8Enc v.text)) := by
      cases v <;> simp [Val.isStr] at hs <;> rfl
    have : readField w call k done .vstr WTy.vstr.blankValue =
        Reader.bind (toReader fun b => readDyn b k.strLen k.order)
          (fun o b => ((match o with | some (some s) => .str s | _ => .null), b, none)) (fun _ => .null) := by
      funext b
      simp only [readField, toReader, Reader.bind]
      rcases readDyn b k.strLen k.order with ⟨b', e | _ | n⟩ <;> rfl
    rw [hi, hr, this]
    have h2 := reads_dyn k v.text hk hl'
    by_cases hv : v.text = []
    · rw [if_pos hv] at h2 ⊢
      have := Reads.bind (X2 := []) (h := fun _ => Val.null)
        (g := fun o b => ((match o with | some (some s) => .str s | _ => .null), b, none)) h2 (Reads.pure Val.null)
      simpa using this
    · rw [if_neg hv] at h2 ⊢
      have := Reads.bind (X2 := []) (h := fun _ => Val.null)
        (g := fun o b => ((match o with | some (some s) => .str s | _ => .null), b, none)) h2
        (Reads.pure (Val.str (utf8Dec (utf8Enc v.text))))
      simpa using this
  | list e =>
    have heq : readField w call k done (.list e) (WTy.list e).blankValue =
        Reader.bind (toReader fun b => b.readNum k.order k.listLen)
          (fun o => match o with
            | none => fun b => (.null, b, none)
            | some n => if 0 < n.bits.toInt then
                Reader.bind (decElems call (decElOf k e) n.bits.toNat []) (fun xs b => (.list xs, b, none)) (fun xs => .list xs)
              else fun b => (.null, b, none)) (fun _ => .null) := by
      funext b
      simp only [readField, toReader, Reader.bind]
      rcases b.readNum k.order k.listLen with ⟨b', e | n⟩
      · rfl
      · dsimp only
        by_cases h : 0 < n.bits.toInt
        · rw [if_pos h, if_pos h]
          simp only [Reader.bind]
          rcases decElems call (decElOf k e) n.bits.toNat [] b' with ⟨xs, b'', _ | e⟩ <;> rfl
        · rw [if_neg h, if_neg h]; rfl
    rw [heq]
    cases v with
    | null =>
      simp only [imageField, receivedField]
      obtain ⟨m, h1, h2, h3⟩ := reads_count k k.listLen 0 hk' (Nat.pow_pos (by decide))
      have := Reads.bind (X2 := []) (h := fun _ => Val.null)
        (g := fun o => match o with
            | none => fun b => (.null, b, none)
            | some n => if 0 < n.bits.toInt then
                Reader.bind (decElems call (decElOf k e) n.bits.toNat []) (fun xs b => (.list xs, b, none)) (fun xs => .list xs)
              else fun b => (.null, b, none)) (c := Val.null) h1 (by
          dsimp only
          rw [if_neg (by rw [h3]; decide)]
          exact Reads.pure _)
      simpa using this
    | list xs =>
      simp only [WTy.java, hasType] at ht
      simp only [completeField] at hcp
      simp only [legibleField] at hl
      simp only [depth] at hd
      simp only [imageField, receivedField]
      obtain ⟨m, h1, h2, h3⟩ := reads_count k k.listLen xs.length hk' hl.1
      refine Reads.bind h1 ?_
      dsimp only
      cases xs with
      | nil =>
        rw [if_neg (by rw [h3]; simp)]
        exact Reads.pure _
      | cons x xs =>
        rw [if_pos (by rw [h3]; simp), h2]
        have := Reads.bind (X2 := []) (h := fun xs => Val.list xs) (g := fun xs b => (.list xs, b, none))
          (reads_elems w n call hc k hk e (x :: xs) [] ht hcp hl.2 hd) (Reads.pure _)
        simpa using this
    | _ => simp [WTy.java, hasType] at ht
  | sub c =>
    cases v with
    | obj c' fs =>
      simp only [WTy.java, hasType, Bool.and_eq_true, decide_eq_true_eq] at ht
      obtain ⟨rfl, ht⟩ := ht
      simp only [completeField] at hcp
      simp only [legibleField] at hl
      simp only [depth] at hd
      have : readField w call k done (.sub c') (WTy.sub c').blankValue =
          Reader.bind (call c' (freshFields c')) (fun fs b => (.obj c' fs, b, none)) (fun fs => .obj c' fs) := by
        funext b
        show (_, _) = _
        simp only [Reader.bind]
        rcases call c' (freshFields c') b with ⟨fs, b', _ | e⟩ <;> rfl
      simp only [imageField, receivedField, this]
      have := Reads.bind (X2 := []) (h := fun fs => Val.obj c' fs) (g := fun fs b => (Val.obj c' fs, b, none))
        (hc c' fs ht hcp hl.2 (by omega)) (Reads.pure _)
      simpa using this
    | null => simp [completeField] at hcp
    | _ => simp [WTy.java, hasType] at ht
  | ext fac key =>
    cases v with
    | obj c' fs =>
      simp only [WTy.java, hasType, Bool.and_eq_true] at ht
      simp only [completeField] at hcp
      simp only [legibleField] at hl
      simp only [depth] at hd
      obtain ⟨⟨kv, hg, hw⟩, hl⟩ := hl
      have : readField w call k done (.ext fac key) (WTy.ext fac key).blankValue =
          Reader.bind (call c' (freshFields c')) (fun fs b => (.obj c' fs, b, none)) (fun fs => .obj c' fs) := by
        funext b
        simp only [readField, hkey fac key rfl, hg, hw, fresh, Reader.bind]
        rcases call c' (freshFields c') b with ⟨fs, b', _ | e⟩ <;> rfl
      simp only [imageField, receivedField, this]
      have := Reads.bind (X2 := []) (h := fun fs => Val.obj c' fs) (g := fun fs b => (Val.obj c' fs, b, none))
        (hc c' fs ht.2 hcp hl (by omega)) (Reads.pure _)
      simpa using this
    | null => simp [legibleField] at hl
    | _ => simp [WTy.java, hasType] at ht

theorem reads_fields (w : World) (n : Nat) (call : DecCall) (hc : CallReads w n call) (k : Conv) (hk : k.strLen.isCount = true)
    (hk' : k.listLen.isCount = true) (all : List WTy) (ts : List WTy) : ∀ (done vs : List Val),
      fieldsHaveType (ts.map WTy.java) vs = true → completeFields ts vs = true →
      legibleFields w k (done ++ receivedFields ts vs) ts vs → depthList vs ≤ n → keysOk done.length all ts = true →
    Reads (readFields w call k done ts (ts.map WTy.blankValue)) (imageFields k ts vs) (done ++ receivedFields ts vs) := by
  induction ts with
  | nil =>
    intro done vs ht _ _ _ _
    cases vs with
    | nil => exact Reads.pure _
    | cons v vs => simp [fieldsHaveType] at ht
  | cons t ts ih =>
    intro done vs ht hcp hl hd hkey
    cases vs with
    | nil => simp [fieldsHaveType] at ht
    | cons v vs =>
      simp only [List.map_cons, fieldsHaveType, Bool.and_eq_true] at ht
      simp only [completeFields, Bool.and_eq_true] at hcp
      simp only [legibleFields, receivedFields] at hl
      simp only [depthList] at hd
      have hk0 : ∀ fac key, t = .ext fac key → key < done.length := by
        intro fac key h
        subst h
        simp only [keysOk, Bool.and_eq_true, decide_eq_true_eq] at hkey
        exact hkey.1.1
      have hk1 : keysOk (done.length + 1) all ts = true := by
        cases t <;> simp only [keysOk, Bool.and_eq_true] at hkey
        case ext => exact hkey.2
        all_goals exact hkey
      have heq : readFields w call k done (t :: ts) ((t :: ts).map WTy.blankValue) =
          Reader.bind (readField w call k done t t.blankValue)
            (fun v => readFields w call k (done ++ [v]) ts (ts.map WTy.blankValue)) (fun v => done ++ v :: ts.map WTy.blankValue) := by
        funext b
        simp only [List.map_cons, readFields, Reader.bind]
        rcases readField w call k done t t.blankValue b with ⟨v, b', _ | e⟩ <;> rfl
      rw [heq]
      simp only [imageFields, receivedFields]
      refine Reads.bind (reads_field w n call hc k hk hk' done _ t v ht.1 hcp.1 hl.1 (by omega) ?_) ?_
      · intro fac key h
        rw [List.getElem?_append_left (hk0 fac key h)]
      · have := ih (done ++ [receivedField t v]) vs ht.2 hcp.2 (by simpa using hl.2) (by omega) (by simpa using hk1)
        simpa using this

theorem decode_reads (w : World) (n : Nat) : CallReads w n (decode w n) := by
  induction n with
  | zero => intro c fs _ _ _ hd; omega
  | succ n ih =>
    intro c fs ht hcp hl hd
    have hk := conv_counts c.mod
    have : decode w (n + 1) c (freshFields c) =
        readFields w (decode w n) (conv c.mod) [] (wire c) ((wire c).map WTy.blankValue) := by
      funext b
      rw [decode_eq w n c _ b (freshFields_length c), freshFields_eq]
    rw [this]
    have := reads_fields w n (decode w n) ih (conv c.mod) hk.1 hk.2 (wire c) (wire c) [] fs
      (by rw [← type_table]; exact ht) hcp (by simpa using hl) (by omega) (keysOk_table c)
    simpa using this

end FinProto
