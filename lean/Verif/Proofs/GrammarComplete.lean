import Verif.Proofs.Grammar
/-
Helper lemmas: every byte string of the grammar is accepted by `decode`, given enough stack.
-/
namespace FinProto

open Grammar

theorem reads_num_any (e : Endian) (n : Num) : Reads (toReader fun b => b.readNum e n.ty) (n.bytes e) (some n) := by
  intro pre post sp
  have hl : (n.bytes e).length = n.ty.size := by simp
  simp only [toReader, RBuf.readNum]
  rw [if_pos (by simp)]
  simp only [List.append_assoc, List.drop_left, hl]
  rw [List.take_append_of_le_length (by omega), List.take_of_length_le (by omega), Num.ofBytes_bytes]

theorem toReader_some {α : Type} {f : RBuf → RBuf × Except JErr α} {b b' : RBuf} {a : α}
    (h : toReader f b = (some a, b', none)) : f b = (b', .ok a) := by
  unfold toReader at h
  revert h
  rcases f b with ⟨b1, e | x⟩ <;> intro h
  · simp at h
  · simp only [Prod.mk.injEq, Option.some.injEq, and_true] at h
    rw [h.1, h.2]

theorem countRead {k : Conv} {t : PTy} {z : Int} {p : List Byte} (hp : Count k t z p) (pre post sp : List Byte) :
    ∃ n : Num, n.bits.toInt = z ∧ RBuf.readNum ⟨pre ++ p ++ post, sp, pre.length⟩ k.order t
      = (⟨pre ++ p ++ post, sp, pre.length + p.length⟩, .ok n) := by
  obtain ⟨n, rfl, h, rfl⟩ := hp
  exact ⟨n, h, toReader_some (reads_num_any k.order n pre post sp)⟩

theorem readDyn_some {k : Conv} {p bytes : List Byte} (hp : Count k k.strLen bytes.length p) (hne : bytes ≠ []) :
    Reads (toReader fun b => readDyn b k.strLen k.order) (p ++ bytes) (some (some (utf8Dec bytes))) := by
  intro pre post sp
  obtain ⟨n, hn, h⟩ := countRead hp pre (bytes ++ post) sp
  have hpos : 0 < bytes.length := List.length_pos_iff.mpr hne
  have hz : 0 < n.bits.toInt := by omega
  have hnat : n.bits.toNat = bytes.length := by have := toNat_of_pos _ hz; omega
  have ht := toReader_some (reads_text bytes (pre ++ p) post sp)
  simp only [List.append_assoc, List.length_append] at h ht ⊢
  simp only [toReader, readDyn, h]
  rw [if_pos hz, hnat, ht]
  simp only [Nat.add_assoc]

theorem readDyn_none {k : Conv} {p : List Byte} {z : Int} (hp : Count k k.strLen z p) (hz : z ≤ 0) :
    Reads (toReader fun b => readDyn b k.strLen k.order) p (some none) := by
  intro pre post sp
  obtain ⟨n, hn, h⟩ := countRead hp pre post sp
  simp only [toReader, readDyn, h]
  rw [if_neg (by omega)]

theorem readFixed_some {n : Nat} {pad : JChar} {left : Bool} {bytes : List Byte} {s : JStr} (hl : bytes.length = n)
    (hs : Unpadded pad left bytes s) : Reads (toReader fun b => readFixedString b n pad left) bytes (some s) := by
  intro pre post sp
  have ht := toReader_some (reads_text bytes pre post sp)
  rw [hl] at ht
  rw [unpadded_trim] at hs
  simp only [toReader, readFixedString, ht, hl]
  cases left <;> rw [hs] <;> rfl

/-- With enough stack. -/
def Deep (P : Nat → Prop) : Prop := ∃ N, ∀ n, N ≤ n → P n

theorem Deep.both {P Q R : Nat → Prop} (hp : Deep P) (hq : Deep Q) (h : ∀ n, P n → Q n → R n) : Deep R := by
  obtain ⟨N, hN⟩ := hp
  obtain ⟨M, hM⟩ := hq
  exact ⟨max N M, fun n hn => h n (hN n (by omega)) (hM n (by omega))⟩

theorem Deep.map {P Q : Nat → Prop} (hp : Deep P) (h : ∀ n, P n → Q n) : Deep Q := by
  obtain ⟨N, hN⟩ := hp
  exact ⟨N, fun n hn => h n (hN n hn)⟩

theorem Deep.succ {P Q : Nat → Prop} (hp : Deep P) (h : ∀ n, P n → Q (n + 1)) : Deep Q := by
  obtain ⟨N, hN⟩ := hp
  refine ⟨N + 1, fun n hn => ?_⟩
  obtain ⟨m, rfl⟩ : ∃ m, n = m + 1 := ⟨n - 1, by omega⟩
  exact h m (hN m (by omega))

theorem Deep.all {P : Nat → Prop} (h : ∀ n, P n) : Deep P := ⟨0, fun n _ => h n⟩

theorem Fields.length_eq {w : World} {k : Conv} {ts : List WTy} : ∀ {front olds : List Val} {X : List Byte} {news : List Val},
    Fields w k front ts olds X news → olds.length = ts.length ∧ news.length = ts.length := by
  induction ts with
  | nil => intro front olds X news h; cases h; exact ⟨rfl, rfl⟩
  | cons t ts ih =>
    intro front olds X news h
    cases h with
    | cons _ hs => have := ih hs; simp [this.1, this.2]

theorem reads_cons {w : World} {call : DecCall} {k : Conv} {front : List Val} {t : WTy} {ts : List WTy} {old : Val} {olds : List Val}
    {X Y : List Byte} {v : Val} {news : List Val} (h1 : Reads (readField w call k front t old) X v)
    (h2 : Reads (readFields w call k (front ++ [v]) ts olds) Y (front ++ [v] ++ news)) :
    Reads (readFields w call k front (t :: ts) (old :: olds)) (X ++ Y) (front ++ v :: news) := by
  intro pre post sp
  have e1 := h1 pre (Y ++ post) sp
  have e2 := h2 (pre ++ X) post sp
  simp only [List.append_assoc, List.length_append] at e1 e2 ⊢
  rw [readFields, e1]
  dsimp only
  rw [e2, Nat.add_assoc]
  simp

theorem reads_elems_cons {call : DecCall} {el : DecElem} {m : Nat} {acc : List Val}
    {X Y : List Byte} {v : Val} {xs : List Val} (h1 : Reads (toReader (decElem call el)) X (some (some v)))
    (h2 : Reads (decElems call el m (acc ++ [v])) Y (acc ++ [v] ++ xs)) :
    Reads (decElems call el (m + 1) acc) (X ++ Y) (acc ++ v :: xs) := by
  intro pre post sp
  have e1 := toReader_some (h1 pre (Y ++ post) sp)
  have e2 := h2 (pre ++ X) post sp
  simp only [List.append_assoc, List.length_append] at e1 e2 ⊢
  rw [decElems, e1]
  dsimp only
  rw [e2, Nat.add_assoc]
  simp

theorem reads_elems_skip {call : DecCall} {el : DecElem} {m : Nat} {acc : List Val}
    {X Y : List Byte} {xs : List Val} (h1 : Reads (toReader (decElem call el)) X (some none))
    (h2 : Reads (decElems call el m acc) Y (acc ++ xs)) :
    Reads (decElems call el (m + 1) acc) (X ++ Y) (acc ++ xs) := by
  intro pre post sp
  have e1 := toReader_some (h1 pre (Y ++ post) sp)
  have e2 := h2 (pre ++ X) post sp
  simp only [List.append_assoc, List.length_append] at e1 e2 ⊢
  rw [decElems, e1]
  dsimp only
  rw [e2, Nat.add_assoc]

theorem reads_field_num {w : World} {call : DecCall} {k : Conv} {front : List Val} {old : Val} (n : Num) :
    Reads (readField w call k front (.num n.ty) old) (n.bytes k.order) (.num n) := by
  intro pre post sp
  have h := toReader_some (reads_num k n pre post sp)
  simp only [readField, h]

theorem reads_field_text {w : World} {call : DecCall} {k : Conv} {front : List Val} {old : Val} {n : Nat} {pad : JChar} {left : Bool}
    {X : List Byte} {s : JStr} (hl : X.length = n) (hs : Unpadded pad left X s) :
    Reads (readField w call k front (.text n pad left) old) X (.str s) := by
  intro pre post sp
  have h := toReader_some (readFixed_some hl hs pre post sp)
  simp only [readField, h]

theorem reads_field_str {w : World} {call : DecCall} {k : Conv} {front : List Val} {old : Val} {p X : List Byte}
    (hp : Count k k.strLen X.length p) (hne : X ≠ []) :
    Reads (readField w call k front .vstr old) (p ++ X) (.str (utf8Dec X)) := by
  intro pre post sp
  have h := toReader_some (readDyn_some hp hne pre post sp)
  simp only [readField, h]

theorem reads_field_strNone {w : World} {call : DecCall} {k : Conv} {front : List Val} {old : Val} {p : List Byte} {z : Int}
    (hp : Count k k.strLen z p) (hz : z ≤ 0) :
    Reads (readField w call k front .vstr old) p old := by
  intro pre post sp
  have h := toReader_some (readDyn_none hp hz pre post sp)
  simp only [readField, h]

theorem reads_field_list {w : World} {call : DecCall} {k : Conv} {front : List Val} {e : EWTy} {old : Val} {p X : List Byte} {m : Nat}
    {xs : List Val} (hp : Count k k.listLen m p) (hm : 0 < m) (h : Reads (decElems call (decElOf k e) m []) X xs) :
    Reads (readField w call k front (.list e) old) (p ++ X) (.list xs) := by
  intro pre post sp
  obtain ⟨n, hn, h1⟩ := countRead hp pre (X ++ post) sp
  have hz : 0 < n.bits.toInt := by omega
  have hnat : n.bits.toNat = m := by have := toNat_of_pos _ hz; omega
  have h2 := h (pre ++ p) post sp
  simp only [List.append_assoc, List.length_append] at h1 h2 ⊢
  simp only [readField, h1]
  rw [if_pos hz, hnat, h2]
  simp only [Nat.add_assoc]

theorem reads_field_listNone {w : World} {call : DecCall} {k : Conv} {front : List Val} {e : EWTy} {old : Val} {p : List Byte} {z : Int}
    (hp : Count k k.listLen z p) (hz : z ≤ 0) :
    Reads (readField w call k front (.list e) old) p old := by
  intro pre post sp
  obtain ⟨n, hn, h1⟩ := countRead hp pre post sp
  simp only [readField, h1]
  rw [if_neg (by omega)]

mutual
theorem msg_complete {w : World} {c : Cls} {olds : List Val} {X : List Byte} {news : List Val} :
    Msg w c olds X news → Deep fun n => Reads (decode w n c olds) X news
  | .mk h => by
    have hl := (Fields.length_eq h).1
    refine (fields_complete h).succ fun n hn => ?_
    intro pre post sp
    rw [decode_eq w n c olds _ hl]
    have := hn pre post sp
    simpa using this
theorem fields_complete {w : World} {k : Conv} {front : List Val} {ts : List WTy} {olds : List Val} {X : List Byte} {news : List Val} :
    Fields w k front ts olds X news → Deep fun n => Reads (readFields w (decode w n) k front ts olds) X (front ++ news)
  | .nil => Deep.all fun n => by intro pre post sp; simp [readFields]
  | .cons h hs => (field_complete h).both (fields_complete hs) fun n h1 h2 => reads_cons h1 h2
theorem field_complete {w : World} {k : Conv} {front : List Val} {t : WTy} {old : Val} {X : List Byte} {v : Val} :
    Field w k front t old X v → Deep fun n => Reads (readField w (decode w n) k front t old) X v
  | .num n => Deep.all fun _ => reads_field_num n
  | .len n => Deep.all fun m => reads_field_num (w := w) (call := decode w m) (front := front) n
  | .cksum n => Deep.all fun m => reads_field_num (w := w) (call := decode w m) (front := front) n
  | .text hl hs => Deep.all fun _ => reads_field_text hl hs
  | .str hp hne => Deep.all fun _ => reads_field_str hp hne
  | .strNone hp hz => Deep.all fun _ => reads_field_strNone hp hz
  | .list hp hm h => (elems_complete h []).map fun n hn => reads_field_list hp hm (by simpa using hn)
  | .listNone hp hz => Deep.all fun _ => reads_field_listNone hp hz
  | .subNew h => (msg_complete h).map fun n hn => by
      intro pre post sp
      simp only [readField, hn pre post sp]
  | .subOld h => (msg_complete h).map fun n hn => by
      intro pre post sp
      simp only [readField, hn pre post sp]
  | .ext hk hr h => (msg_complete h).map fun n hn => by
      intro pre post sp
      simp only [readField, hk, hr, hn pre post sp]
theorem elems_complete {w : World} {k : Conv} {e : EWTy} {m : Nat} {X : List Byte} {xs : List Val} :
    Elems w k e m X xs → ∀ acc, Deep fun n => Reads (decElems (decode w n) (decElOf k e) m acc) X (acc ++ xs)
  | .nil, acc => Deep.all fun n => by intro pre post sp; simp [decElems]
  | .cons (x := x) h hs, acc => (elem_complete h).both (elems_complete hs (acc ++ [x])) fun n h1 h2 => reads_elems_cons h1 h2
  | .skip hp hz hs, acc => (elems_complete hs acc).map fun n h2 => reads_elems_skip (by
      intro pre post sp
      have h := toReader_some (readDyn_none hp hz pre post sp)
      simp only [toReader, decElem, decElOf, h, Option.map_none]) h2
theorem elem_complete {w : World} {k : Conv} {e : EWTy} {X : List Byte} {x : Val} :
    Elem w k e X x → Deep fun n => Reads (toReader (decElem (decode w n) (decElOf k e))) X (some (some x))
  | .num n => Deep.all fun _ => by
      intro pre post sp
      have h := toReader_some (reads_num k n pre post sp)
      simp only [toReader, decElem, decElOf, h]
  | .text hl hs => Deep.all fun _ => by
      intro pre post sp
      have h := toReader_some (readFixed_some hl hs pre post sp)
      simp only [toReader, decElem, decElOf, h]
  | .str hp hne => Deep.all fun _ => by
      intro pre post sp
      have h := toReader_some (readDyn_some hp hne pre post sp)
      simp only [toReader, decElem, decElOf, h, Option.map_some]
  | .sub h => (msg_complete h).map fun n hn => by
      intro pre post sp
      simp only [toReader, decElem, decElOf, hn pre post sp]
end

/-- `f` throws `IllegalArgumentException` behind the bytes `X`, wherever they are. -/
def Refuses {α : Type} (f : Reader α) (X : List Byte) : Prop :=
  ∀ pre post sp, (f ⟨pre ++ X ++ post, sp, pre.length⟩).2 = (⟨pre ++ X ++ post, sp, pre.length + X.length⟩, some .illegalArgument)

theorem refuses_elems {call : DecCall} {el : DecElem} {i m : Nat} {acc : List Val} {X Y : List Byte} {xs : List Val} (hi : i < m)
    (h1 : Reads (decElems call el i acc) X xs)
    (h2 : ∀ pre post sp, decElem call el ⟨pre ++ Y ++ post, sp, pre.length⟩ = (⟨pre ++ Y ++ post, sp, pre.length + Y.length⟩, .error .illegalArgument)) :
    Refuses (decElems call el m acc) (X ++ Y) := by
  intro pre post sp
  have e1 := h1 pre (Y ++ post) sp
  have e2 := h2 (pre ++ X) post sp
  simp only [List.append_assoc, List.length_append] at e1 e2 ⊢
  obtain ⟨j, rfl⟩ : ∃ j, m = i + (j + 1) := ⟨m - i - 1, by omega⟩
  have split : ∀ (i : Nat) (acc : List Val) (b : RBuf), decElems call el (i + (j + 1)) acc b =
      match decElems call el i acc b with
      | (ys, b', none) => decElems call el (j + 1) ys b'
      | (ys, b', some e) => (ys, b', some e) := by
    intro i
    induction i with
    | zero => intro acc b; simp [decElems]
    | succ i ih =>
      intro acc b
      rw [show i + 1 + (j + 1) = (i + (j + 1)) + 1 by omega]
      rw [decElems, decElems]
      rcases decElem call el b with ⟨b', e | _ | v⟩
      · rfl
      · exact ih acc b'
      · exact ih (acc ++ [v]) b'
  rw [split, e1]
  dsimp only
  rw [decElems, e2]
  simp only [Nat.add_assoc]

mutual
theorem msg_stuck {w : World} {c : Cls} {olds : List Val} {X : List Byte} :
    MsgStuck w c olds X → Deep fun n => Refuses (decode w n c olds) X
  | .mk (ts := ts) (t := t) (ts' := ts') (old := old) (olds' := olds') (olds'' := olds'') (bytes := Y) (bytes' := Y') (news := news)
      hw ho hlen h hs => by
    have hl := (Fields.length_eq h).1
    have h1 := fields_complete h
    have h2 := field_stuck hs
    refine (h1.both h2 (R := fun n => Refuses (readFields w (decode w n) (conv c.mod) [] (wire c) olds) (Y ++ Y')) ?_).succ ?_
    · intro n h1 h2 pre post sp
      have e1 := h1 pre (Y' ++ post) sp
      have e2 := h2 (pre ++ Y) post sp
      simp only [List.append_assoc, List.length_append, List.nil_append] at e1 e2 ⊢
      rw [hw, ho, readFields_append _ _ _ _ _ _ _ _ _ hl, e1]
      dsimp only
      rw [readFields]
      revert e2
      rcases readField w (decode w n) (conv c.mod) news t old _ with ⟨v, b', _ | e⟩ <;> intro e2
      · simp at e2
      · simp only [Prod.mk.injEq, Option.some.injEq] at e2
        obtain ⟨rfl, rfl⟩ := e2
        simp only [Nat.add_assoc]
    · intro n hn pre post sp
      rw [decode_eq w n c olds _ (by rw [hw, ho]; simp [hl, hlen])]
      exact hn pre post sp
theorem field_stuck {w : World} {k : Conv} {front : List Val} {t : WTy} {old : Val} {X : List Byte} :
    FieldStuck w k front t old X → Deep fun n => Refuses (readField w (decode w n) k front t old) X
  | .ext hk hr => Deep.all fun n => by
      intro pre post sp
      simp only [readField, hk, hr]
      simp
  | .extIn hk hr h => (msg_stuck h).map fun n hn => by
      intro pre post sp
      simp only [readField, hk, hr, hn pre post sp]
  | .subNew h => (msg_stuck h).map fun n hn => by
      intro pre post sp
      simp only [readField, hn pre post sp]
  | .subOld h => (msg_stuck h).map fun n hn => by
      intro pre post sp
      simp only [readField, hn pre post sp]
  | .list (c := c) (p := p) (bytes := Y) (bytes' := Y') (m := m) (i := i) hp hi h hs =>
    (elems_complete h []).both (msg_stuck hs) fun n h1 h2 => by
      have hr : Refuses (decElems (decode w n) (decElOf k (.sub c)) m []) (Y ++ Y') := by
        refine refuses_elems hi h1 ?_
        intro pre post sp
        have e := h2 pre post sp
        simp only [decElem, decElOf]
        revert e
        rcases decode w n c (freshFields c) _ with ⟨v, b', _ | er⟩ <;> intro e
        · simp at e
        · simp only [Prod.mk.injEq, Option.some.injEq] at e
          obtain ⟨rfl, rfl⟩ := e
          rfl
      intro pre post sp
      obtain ⟨x, hn, e1⟩ := countRead hp pre (Y ++ (Y' ++ post)) sp
      have hz : 0 < x.bits.toInt := by omega
      have hnat : x.bits.toNat = m := by have := toNat_of_pos _ hz; omega
      have e2 := hr (pre ++ p) post sp
      simp only [List.append_assoc, List.length_append] at e1 e2 ⊢
      simp only [readField, e1]
      rw [if_pos hz, hnat, e2]
      simp only [Nat.add_assoc]
end

end FinProto
