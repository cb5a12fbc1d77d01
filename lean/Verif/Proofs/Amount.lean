import Verif.Spec.Amount
import Verif.Proofs.Within
/-
Helper lemmas: the size of what decode builds is bounded by what it reads.
-/
namespace FinProto

theorem charsAll_append (a b : List Val) : charsAll (a ++ b) = charsAll a + charsAll b := by
  induction a with
  | nil => simp [charsAll]
  | cons x a ih => simp only [List.cons_append, charsAll, ih]; omega

theorem elementsAll_append (a b : List Val) : elementsAll (a ++ b) = elementsAll a + elementsAll b := by
  induction a with
  | nil => simp [elementsAll]
  | cons x a ih => simp only [List.cons_append, elementsAll, ih]; omega

theorem nodesAll_append (a b : List Val) : nodesAll (a ++ b) = nodesAll a + nodesAll b := by
  induction a with
  | nil => simp [nodesAll]
  | cons x a ih => simp only [List.cons_append, nodesAll, ih]; omega

/-- The value of a field nothing was read into. -/
def Val.bare : Val → Bool
  | .null | .num _ => true
  | _ => false

theorem bare_amount (v : Val) (h : v.bare = true) : v.chars = 0 ∧ v.elements = 0 ∧ v.nodes = 1 := by
  cases v <;> simp_all [Val.bare, Val.chars, Val.elements, Val.nodes]

theorem bareAll_amount (vs : List Val) (h : ∀ v ∈ vs, v.bare = true) : charsAll vs = 0 ∧ elementsAll vs = 0 := by
  induction vs with
  | nil => exact ⟨rfl, rfl⟩
  | cons v vs ih =>
    have h1 := bare_amount v (h v (by simp))
    have h2 := ih fun u hu => h u (by simp [hu])
    simp only [charsAll, elementsAll]
    omega

theorem readNum_moves (b : RBuf) (e : Endian) (t : PTy) :
    match b.readNum e t with
    | (b', .ok _) => b'.rd = b.rd + t.size
    | (b', .error _) => b' = b := by
  unfold RBuf.readNum
  by_cases h : b.rd + t.size ≤ b.data.length
  · rw [if_pos h]
  · rw [if_neg h]

theorem readText_moves (b : RBuf) (n : Nat) :
    match b.readText n with
    | (b', .ok s) => b'.rd = b.rd + n ∧ s.length ≤ n
    | (b', .error _) => b' = b := by
  unfold RBuf.readText
  by_cases h0 : n = 0
  · rw [if_pos h0]
    subst h0
    exact ⟨rfl, by simp⟩
  · rw [if_neg h0]
    by_cases h : b.rd + n ≤ (b.data ++ b.spare).length
    · rw [if_pos h]
      refine ⟨rfl, ?_⟩
      have := utf8Dec_length (((b.data ++ b.spare).drop b.rd).take n)
      rw [List.length_take] at this
      omega
    · rw [if_neg h]

theorem trimStart_length (ch : JChar) (s : JStr) : (trimStart ch s).length ≤ s.length := by
  induction s with
  | nil => simp [trimStart]
  | cons c s ih =>
    simp only [trimStart]
    split
    · simp only [List.length_cons]; omega
    · simp

theorem readFixed_moves (b : RBuf) (n : Nat) (pad : JChar) (left : Bool) :
    match readFixedString b n pad left with
    | (b', .ok s) => b'.rd = b.rd + n ∧ s.length ≤ n
    | (b', .error _) => b' = b := by
  unfold readFixedString
  have h := readText_moves b n
  revert h
  rcases b.readText n with ⟨b', e | s⟩
  · exact id
  · intro h
    cases left
    · refine ⟨h.1, ?_⟩
      simp only [trimByChar, Bool.false_eq_true, if_false, List.length_take]
      have := h.2
      omega
    · refine ⟨h.1, ?_⟩
      simp only [trimByChar, if_true]
      exact Nat.le_trans (trimStart_length pad s) h.2

theorem readDyn_moves (b : RBuf) (t : PTy) (e : Endian) (ht : t.isCount = true) :
    match readDyn b t e with
    | (b', .ok (some s)) => b.rd + 2 + s.length ≤ b'.rd
    | (b', .ok none) => b.rd + 2 ≤ b'.rd
    | (b', .error _) => b.rd ≤ b'.rd := by
  unfold readDyn
  have h2 : 2 ≤ t.size := by cases t <;> simp_all [PTy.isCount, PTy.size]
  have h := readNum_moves b e t
  revert h
  rcases b.readNum e t with ⟨b', er | m⟩
  · intro h
    dsimp only at h ⊢
    rw [h]
    exact Nat.le_refl _
  · intro h
    dsimp only at h ⊢
    by_cases hp : 0 < m.bits.toInt
    · rw [if_pos hp]
      have ht := readText_moves b' m.bits.toNat
      revert ht
      rcases b'.readText m.bits.toNat with ⟨b'', er | s⟩
      · intro ht
        dsimp only at ht ⊢
        rw [ht]; omega
      · intro ht
        dsimp only at ht ⊢
        omega
    · rw [if_neg hp]
      dsimp only
      omega

/-- Number of nested messages, and of other fields. -/
def extras (ts : List WTy) : Nat := (ts.filter fun t => match t with | .sub _ | .ext _ _ => true | _ => false).length
def plains (ts : List WTy) : Nat := (ts.filter fun t => match t with | .sub _ | .ext _ _ => false | _ => true).length

def widthsOk : WTy → Bool
  | .text n _ _ | .list (.text n _ _) => decide (0 < n)
  | .list (.sub d) => decide (extras (wire d) < 2 * plains (wire d)) && decide (0 < plains (wire d))
  | _ => true

theorem widths_table (c : Cls) : (wire c).all widthsOk = true ∧ extras (wire c) ≤ 2 * plains (wire c) := by
  cases c <;> decide

/-- What is known of reading values `vs`: always, and if no exception was thrown. -/
structure Small (b : RBuf) (vs : List Val) (b' : RBuf) : Prop where
  mono : b.rd ≤ b'.rd
  chars : b.rd + charsAll vs ≤ b'.rd
  elements : b.rd + elementsAll vs ≤ b'.rd

structure Dense (b : RBuf) (ts : List WTy) (vs : List Val) (b' : RBuf) : Prop where
  elements : b.rd + elementsAll vs + plains ts ≤ b'.rd
  nodes : 3 * b.rd + nodesAll vs + 2 * plains ts ≤ 3 * b'.rd + extras ts

def CallSmall (call : DecCall) : Prop :=
  ∀ c b, Small b (call c (freshFields c) b).1 (call c (freshFields c) b).2.1
    ∧ ((call c (freshFields c) b).2.2 = none → Dense b (wire c) (call c (freshFields c) b).1 (call c (freshFields c) b).2.1)

theorem small_elem (call : DecCall) (hc : CallSmall call) (k : Conv) (hk : k.strLen.isCount = true) (e : EWTy) (he : widthsOk (.list e) = true) (b : RBuf) :
    match decElem call (decElOf k e) b with
    | (b', .ok (some v)) => b.rd + v.chars ≤ b'.rd ∧ b.rd + v.elements + 1 ≤ b'.rd ∧ 3 * b.rd + v.nodes ≤ 3 * b'.rd
    | (b', .ok none) => b.rd ≤ b'.rd
    | (b', .error _) => b.rd ≤ b'.rd := by
  cases e with
  | num t =>
    simp only [decElOf, decElem]
    have h := readNum_moves b (ordOf k t) t
    have ht : 1 ≤ t.size := by cases t <;> decide
    revert h
    rcases b.readNum (ordOf k t) t with ⟨b', er | m⟩
    · intro h; dsimp only at h ⊢; rw [h]; exact Nat.le_refl _
    · intro h; dsimp only at h ⊢; simp only [Val.chars, Val.elements, Val.nodes]; omega
  | text n pad left =>
    simp only [decElOf, decElem]
    simp only [widthsOk, decide_eq_true_eq] at he
    have h := readFixed_moves b n pad left
    revert h
    rcases readFixedString b n pad left with ⟨b', er | m⟩
    · intro h; dsimp only at h ⊢; rw [h]; exact Nat.le_refl _
    · intro h; dsimp only at h ⊢; simp only [Val.chars, Val.elements, Val.nodes]; omega
  | vstr =>
    simp only [decElOf, decElem]
    have h := readDyn_moves b k.strLen k.order hk
    revert h
    rcases readDyn b k.strLen k.order with ⟨b', er | _ | m⟩
    · exact id
    · intro h; dsimp only [Option.map] at h ⊢; omega
    · intro h; dsimp only [Option.map] at h ⊢; simp only [Val.chars, Val.elements, Val.nodes]; omega
  | sub d =>
    simp only [decElOf, decElem]
    simp only [widthsOk, Bool.and_eq_true, decide_eq_true_eq] at he
    have h := hc d b
    revert h
    rcases call d (freshFields d) b with ⟨fs, b', _ | er⟩
    · intro h
      obtain ⟨h1, h2⟩ := h
      have h2 := h2 rfl
      have ha := h1.chars
      have hb := h2.elements
      have hd := h2.nodes
      dsimp only at ha hb hd ⊢
      simp only [Val.chars, Val.elements, Val.nodes]
      omega
    · intro h
      exact h.1.mono

theorem small_elems (call : DecCall) (hc : CallSmall call) (k : Conv) (hk : k.strLen.isCount = true) (e : EWTy) (he : widthsOk (.list e) = true)
    (n : Nat) : ∀ (acc : List Val) (b : RBuf),
    b.rd ≤ (decElems call (decElOf k e) n acc b).2.1.rd
      ∧ b.rd + charsAll (decElems call (decElOf k e) n acc b).1 ≤ (decElems call (decElOf k e) n acc b).2.1.rd + charsAll acc
      ∧ b.rd + (decElems call (decElOf k e) n acc b).1.length + elementsAll (decElems call (decElOf k e) n acc b).1
          ≤ (decElems call (decElOf k e) n acc b).2.1.rd + acc.length + elementsAll acc
      ∧ 3 * b.rd + nodesAll (decElems call (decElOf k e) n acc b).1 ≤ 3 * (decElems call (decElOf k e) n acc b).2.1.rd + nodesAll acc := by
  induction n with
  | zero => intro acc b; simp only [decElems]; omega
  | succ n ih =>
    intro acc b
    have h := small_elem call hc k hk e he b
    simp only [decElems]
    revert h
    rcases decElem call (decElOf k e) b with ⟨b', er | _ | v⟩
    · intro h; dsimp only at h ⊢; omega
    · intro h
      have := ih acc b'
      dsimp only at h ⊢
      omega
    · intro h
      have := ih (acc ++ [v]) b'
      simp only [charsAll_append, elementsAll_append, nodesAll_append, charsAll, elementsAll, nodesAll, List.length_append, List.length_singleton] at this
      dsimp only at h ⊢
      omega

/-- One field of a new object. -/
theorem small_field (w : World) (hw : FreshSuppliers w) (call : DecCall) (hc : CallSmall call) (k : Conv)
    (hk : k.strLen.isCount = true ∧ k.listLen.isCount = true) (done : List Val) (t : WTy) (ht : widthsOk t = true) (old : Val) (ho : old.bare = true) (b : RBuf) :
    Small b [(readField w call k done t old b).1] (readField w call k done t old b).2.1
      ∧ ((readField w call k done t old b).2.2 = none → Dense b [t] [(readField w call k done t old b).1] (readField w call k done t old b).2.1) := by
  have hold := bare_amount old ho
  have hone : ∀ v : Val, charsAll [v] = v.chars ∧ elementsAll [v] = v.elements ∧ nodesAll [v] = v.nodes := by
    intro v; simp [charsAll, elementsAll, nodesAll]
  have hkeep : ∀ b', b.rd ≤ b'.rd → Small b [old] b' := by
    intro b' h
    have := hone old
    exact ⟨h, by omega, by omega⟩
  have hnum : ∀ p : PTy, (extras [t] = 0 ∧ plains [t] = 1) →
      readField w call k done t old b = (match b.readNum (ordOf k p) p with
        | (b', .ok n) => (.num n, b', none)
        | (b', .error e) => (old, b', some e)) →
      Small b [(readField w call k done t old b).1] (readField w call k done t old b).2.1
      ∧ ((readField w call k done t old b).2.2 = none → Dense b [t] [(readField w call k done t old b).1] (readField w call k done t old b).2.1) := by
    intro p hep heq
    rw [heq]
    have h := readNum_moves b (ordOf k p) p
    have hp : 1 ≤ p.size := by cases p <;> decide
    revert h
    rcases b.readNum (ordOf k p) p with ⟨b', er | m⟩
    · intro h
      dsimp only at h ⊢
      exact ⟨hkeep _ (by rw [h]; exact Nat.le_refl _), by simp⟩
    · intro h
      dsimp only at h ⊢
      have := hone (.num m)
      simp only [Val.chars, Val.elements, Val.nodes] at this
      exact ⟨⟨by omega, by omega, by omega⟩, fun _ => ⟨by omega, by omega⟩⟩
  have hobj : ∀ (c : Cls), (extras [t] = 1 ∧ plains [t] = 0) →
      readField w call k done t old b = (.obj c (call c (freshFields c) b).1, (call c (freshFields c) b).2) →
      Small b [(readField w call k done t old b).1] (readField w call k done t old b).2.1
      ∧ ((readField w call k done t old b).2.2 = none → Dense b [t] [(readField w call k done t old b).1] (readField w call k done t old b).2.1) := by
    intro c hep heq
    rw [heq]
    have h := hc c b
    have hx := (widths_table c).2
    have := hone (.obj c (call c (freshFields c) b).1)
    simp only [Val.chars, Val.elements, Val.nodes] at this
    have h1 := h.1.mono
    have h2 := h.1.chars
    have h3 := h.1.elements
    dsimp only
    refine ⟨⟨h1, by omega, by omega⟩, fun he => ?_⟩
    have h4 := (h.2 he).elements
    have h5 := (h.2 he).nodes
    exact ⟨by omega, by omega⟩
  cases t with
  | num p => exact hnum p ⟨rfl, rfl⟩ rfl
  | len p => exact hnum p ⟨rfl, rfl⟩ rfl
  | cksum p a => exact hnum p ⟨rfl, rfl⟩ rfl
  | text n pad left =>
    simp only [widthsOk, decide_eq_true_eq] at ht
    have hep : extras [WTy.text n pad left] = 0 ∧ plains [WTy.text n pad left] = 1 := ⟨rfl, rfl⟩
    simp only [readField]
    have h := readFixed_moves b n pad left
    revert h
    rcases readFixedString b n pad left with ⟨b', er | m⟩
    · intro h
      dsimp only at h ⊢
      exact ⟨hkeep _ (by rw [h]; exact Nat.le_refl _), by simp⟩
    · intro h
      dsimp only at h ⊢
      have := hone (.str m)
      simp only [Val.chars, Val.elements, Val.nodes] at this
      exact ⟨⟨by omega, by omega, by omega⟩, fun _ => ⟨by omega, by omega⟩⟩
  | vstr =>
    have hep : extras [WTy.vstr] = 0 ∧ plains [WTy.vstr] = 1 := ⟨rfl, rfl⟩
    simp only [readField]
    have h := readDyn_moves b k.strLen k.order hk.1
    revert h
    rcases readDyn b k.strLen k.order with ⟨b', er | _ | m⟩
    · intro h
      dsimp only at h ⊢
      exact ⟨hkeep _ h, by simp⟩
    · intro h
      dsimp only at h ⊢
      have := hone old
      exact ⟨hkeep _ (by omega), fun _ => ⟨by omega, by omega⟩⟩
    · intro h
      dsimp only at h ⊢
      have := hone (.str m)
      simp only [Val.chars, Val.elements, Val.nodes] at this
      exact ⟨⟨by omega, by omega, by omega⟩, fun _ => ⟨by omega, by omega⟩⟩
  | list e =>
    have hep : extras [WTy.list e] = 0 ∧ plains [WTy.list e] = 1 := ⟨rfl, rfl⟩
    simp only [readField]
    have h := readNum_moves b k.order k.listLen
    have h2 : 2 ≤ k.listLen.size := by
      have := hk.2
      revert this
      cases k.listLen <;> simp [PTy.isCount, PTy.size]
    revert h
    rcases b.readNum k.order k.listLen with ⟨b', er | m⟩
    · intro h
      dsimp only at h ⊢
      exact ⟨hkeep _ (by rw [h]; exact Nat.le_refl _), by simp⟩
    · intro h
      dsimp only at h ⊢
      by_cases hp : 0 < m.bits.toInt
      · rw [if_pos hp]
        have hs := small_elems call hc k hk.1 e ht m.bits.toNat [] b'
        have := hone (.list (decElems call (decElOf k e) m.bits.toNat [] b').1)
        simp only [Val.chars, Val.elements, Val.nodes] at this
        simp only [charsAll, elementsAll, nodesAll, List.length_nil] at hs
        dsimp only
        exact ⟨⟨by omega, by omega, by omega⟩, fun _ => ⟨by omega, by omega⟩⟩
      · rw [if_neg hp]
        have := hone old
        dsimp only
        exact ⟨hkeep _ (by omega), fun _ => ⟨by omega, by omega⟩⟩
  | sub c =>
    cases old with
    | null => exact hobj c ⟨rfl, rfl⟩ rfl
    | num n => exact ⟨hkeep _ (Nat.le_refl _), by simp [readField]⟩
    | _ => simp [Val.bare] at ho
  | ext fac key =>
    cases hd : done[key]? with
    | none =>
      simp only [readField, hd]
      exact ⟨hkeep _ (Nat.le_refl _), by simp⟩
    | some kv =>
      cases hf : w.fac fac (keyOf kv) with
      | none =>
        simp only [readField, hd, hf]
        exact ⟨hkeep _ (Nat.le_refl _), by simp⟩
      | some v =>
        obtain ⟨c, rfl⟩ := hw _ _ _ hf
        exact hobj c ⟨rfl, rfl⟩ (by simp only [readField, hd, hf, fresh])

theorem plains_cons (t : WTy) (ts : List WTy) : plains (t :: ts) = plains [t] + plains ts := by
  simp only [plains, List.filter_cons, List.filter_nil]
  split <;> simp <;> omega

theorem extras_cons (t : WTy) (ts : List WTy) : extras (t :: ts) = extras [t] + extras ts := by
  simp only [extras, List.filter_cons, List.filter_nil]
  split <;> simp <;> omega

theorem small_fields (w : World) (hw : FreshSuppliers w) (call : DecCall) (hc : CallSmall call) (k : Conv)
    (hk : k.strLen.isCount = true ∧ k.listLen.isCount = true) (ts : List WTy) (ht : ts.all widthsOk = true) :
    ∀ (done olds : List Val) (b : RBuf), olds.length = ts.length → (∀ v ∈ olds, v.bare = true) →
      ∃ vs, (readFields w call k done ts olds b).1 = done ++ vs ∧ Small b vs (readFields w call k done ts olds b).2.1
        ∧ ((readFields w call k done ts olds b).2.2 = none → Dense b ts vs (readFields w call k done ts olds b).2.1) := by
  induction ts with
  | nil =>
    intro done olds b hl _
    have : olds = [] := List.length_eq_zero_iff.mp hl
    subst this
    exact ⟨[], rfl, ⟨Nat.le_refl _, Nat.le_refl _, Nat.le_refl _⟩, fun _ => ⟨Nat.le_refl _, Nat.le_refl _⟩⟩
  | cons t ts ih =>
    intro done olds b hl ho
    simp only [List.all_cons, Bool.and_eq_true] at ht
    cases olds with
    | nil => simp at hl
    | cons o olds =>
      have h := small_field w hw call hc k hk done t ht.1 o (ho o (by simp)) b
      simp only [readFields]
      revert h
      rcases readField w call k done t o b with ⟨v, b', _ | er⟩
      · intro h
        obtain ⟨vs, e1, e2, e3⟩ := ih ht.2 (done ++ [v]) olds b' (by simpa using hl) (fun u hu => ho u (by simp [hu]))
        refine ⟨v :: vs, by rw [e1]; simp, ?_, fun hn => ?_⟩
        · have h1 := h.1.mono
          have h2 := h.1.chars
          have h3 := h.1.elements
          have h4 := e2.mono
          have h5 := e2.chars
          have h6 := e2.elements
          simp only [charsAll, elementsAll] at h2 h3
          dsimp only at *
          exact ⟨by omega, by simp only [charsAll]; omega, by simp only [elementsAll]; omega⟩
        · have h1 := (h.2 rfl).elements
          have h2 := (h.2 rfl).nodes
          have h3 := (e3 hn).elements
          have h4 := (e3 hn).nodes
          have hp := plains_cons t ts
          have hx := extras_cons t ts
          simp only [elementsAll, nodesAll] at h1 h2
          dsimp only at *
          exact ⟨by simp only [elementsAll]; omega, by simp only [nodesAll]; omega⟩
      · intro h
        have hz := bareAll_amount olds (fun u hu => ho u (by simp [hu]))
        have h1 := h.1.mono
        have h2 := h.1.chars
        have h3 := h.1.elements
        simp only [charsAll, elementsAll] at h2 h3
        dsimp only at *
        exact ⟨v :: olds, rfl, ⟨h1, by simp only [charsAll]; omega, by simp only [elementsAll]; omega⟩, by simp⟩

theorem fresh_bare (c : Cls) : ∀ v ∈ freshFields c, v.bare = true := by
  intro v hv
  simp only [freshFields, List.mem_map] at hv
  obtain ⟨f, _, rfl⟩ := hv
  cases f.2 <;> rfl

theorem decode_small (w : World) (hw : FreshSuppliers w) (n : Nat) : CallSmall (decode w n) := by
  induction n with
  | zero =>
    intro c b
    have h := bareAll_amount _ (fresh_bare c)
    simp only [decode]
    exact ⟨⟨Nat.le_refl _, by omega, by omega⟩, by simp⟩
  | succ n ih =>
    intro c b
    obtain ⟨vs, e1, e2, e3⟩ := small_fields w hw (decode w n) ih (conv c.mod) (conv_counts c.mod) (wire c) (widths_table c).1 [] (freshFields c) b
      (freshFields_length c) (fresh_bare c)
    rw [decode_eq w n c _ b (freshFields_length c)]
    simp only [List.nil_append] at e1
    rw [e1]
    exact ⟨e2, e3⟩

end FinProto
