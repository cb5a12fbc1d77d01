import Verif.Proofs.ToString
import Verif.Proofs.EmptyText
import Verif.Model.Factory
/-
C42–C46, C50, C51: equals, hashCode, toString and the accessors of the message classes.
`a.equals b` is the Java call; `v.hashCode n` and `v.toStr flt n` run with stack depth `n`; `getProp c p`/`setProp c p` call the getter and
setter of property number `p` of class `c`.
-/
namespace FinProto

/-- Examples: a nested message, the same message with another NaN, and one that differs in a list deep inside. -/
def exObj (nan : BitVec 32) (last : BitVec 16) : Val := .obj .sample_NestedPacket
  [.obj .sample_SubPacket [.num ⟨.i32, 5⟩, .null], .list [.obj .sample_SubPacket [.num ⟨.i32, nan⟩, .list [.num ⟨.i16, last⟩]]], .null]
def exFloat (nan : BitVec 32) : Val := .obj .sample_BasicPacket ((freshFields .sample_BasicPacket).set 9 (.num ⟨.f32, nan⟩))
def exHeartbeat : Val := .obj .sse_SseBinary [.num ⟨.i32, 33⟩, .num ⟨.i64, 5⟩, .num ⟨.i32, 0⟩, .obj .sse_Heartbeat [], .num ⟨.i32, 0⟩]

/-! ### C42, C45: equals -/

/-- **C45.** `equals` decides exactly whether two messages are the same: same class and, recursively, the same value in every field. -/
theorem C45_equals_same (a b : Val) (ha : wellTyped a = true) (hb : wellTyped b = true) : a.equals b = true ↔ same a b :=
  equals_same a b (shaped_of_wellTyped a ha) (shaped_of_wellTyped b hb)

/-- **C45.** Two objects of one class are equal iff all their fields are equal. -/
theorem C45_fields (c : Cls) (fs gs : List Val) (ha : wellTyped (.obj c fs) = true) (hb : wellTyped (.obj c gs) = true) :
    (Val.obj c fs).equals (.obj c gs) = true ↔
      ∀ i : Nat, i < (layout c).length → ∃ x y, fs[i]? = some x ∧ gs[i]? = some y ∧ x.equals y = true := by
  have h1 := shaped_of_wellTyped _ ha
  have h2 := shaped_of_wellTyped _ hb
  simp only [shaped, Bool.and_eq_true, decide_eq_true_eq] at h1 h2
  rw [equals_obj c c fs gs h1.1 h2.1, equalsList_iff]
  constructor
  · rintro ⟨_, h3, h4⟩ i hi
    have hf : i < fs.length := by omega
    have hg : i < gs.length := by omega
    exact ⟨fs[i], gs[i], List.getElem?_eq_getElem hf, List.getElem?_eq_getElem hg, h4 i hf hg⟩
  · intro h
    refine ⟨rfl, by omega, fun i hf hg => ?_⟩
    obtain ⟨x, y, hx, hy, hxy⟩ := h i (by omega)
    rw [List.getElem?_eq_getElem hf] at hx
    rw [List.getElem?_eq_getElem hg] at hy
    cases hx; cases hy
    exact hxy

/-- **C45.** Changing one field through its setter keeps the object equal iff the new value is equal to the old one. -/
theorem C45_set (c : Cls) (fs : List Val) (p : Nat) (old new : Val) (ha : wellTyped (.obj c fs) = true)
    (hb : wellTyped (.obj c (setProp c p new fs)) = true) (hp : getProp c p fs = some old) :
    (Val.obj c fs).equals (.obj c (setProp c p new fs)) = true ↔ old.equals new = true := by
  have h1 := shaped_of_wellTyped _ ha
  have hl := h1
  simp only [shaped, Bool.and_eq_true, decide_eq_true_eq] at hl
  have hpl : p < (layout c).length := by
    apply Classical.byContradiction
    intro h
    rw [getProp, acc_none c p (by omega)] at hp
    simp at hp
  rw [getProp_eq c p fs hpl] at hp
  rw [C45_fields c fs _ ha hb, setProp_eq c p new fs hpl]
  constructor
  · intro h
    obtain ⟨x, y, hx, hy, hxy⟩ := h p hpl
    rw [hp] at hx
    rw [List.getElem?_set_self (by omega)] at hy
    cases hx; cases hy
    exact hxy
  · intro h i hi
    have hf : i < fs.length := by omega
    by_cases hip : i = p
    · subst hip
      exact ⟨old, new, hp, List.getElem?_set_self hf, h⟩
    · refine ⟨fs[i], fs[i], List.getElem?_eq_getElem hf, ?_, ?_⟩
      · rw [List.getElem?_set_ne (Ne.symm hip), List.getElem?_eq_getElem hf]
      · have := (shapeds_iff fs).mp hl.2 fs[i] (List.getElem_mem hf)
        exact (equals_same _ _ this this).mpr (same_refl _)

/-- **C42.** `equals` is reflexive. -/
theorem C42_refl (a : Val) (ha : wellTyped a = true) : a.equals a = true :=
  (C45_equals_same a a ha ha).mpr (same_refl a)

/-- **C42.** `equals` is symmetric. -/
theorem C42_symm (a b : Val) (ha : wellTyped a = true) (hb : wellTyped b = true) : a.equals b = b.equals a := by
  rw [Bool.eq_iff_iff, C45_equals_same a b ha hb, C45_equals_same b a hb ha]
  exact ⟨same_symm a b, same_symm b a⟩

/-- **C42.** `equals` is transitive. -/
theorem C42_trans (a b c : Val) (ha : wellTyped a = true) (hb : wellTyped b = true) (hc : wellTyped c = true)
    (h1 : a.equals b = true) (h2 : b.equals c = true) : a.equals c = true :=
  (C45_equals_same a c ha hc).mpr
    (same_trans a b c ((C45_equals_same a b ha hb).mp h1) ((C45_equals_same b c hb hc).mp h2))

/-- **C42.** A message is not equal to null, a number, a string, a list or a message of another class. -/
theorem C42_others (c : Cls) (fs : List Val) :
    (Val.obj c fs).equals .null = false ∧ (∀ n, (Val.obj c fs).equals (.num n) = false)
      ∧ (∀ s, (Val.obj c fs).equals (.str s) = false) ∧ (∀ xs, (Val.obj c fs).equals (.list xs) = false)
      ∧ ∀ d gs, c ≠ d → (Val.obj c fs).equals (.obj d gs) = false := by
  refine ⟨by simp [Val.equals], by simp [Val.equals], by simp [Val.equals], by simp [Val.equals], ?_⟩
  intro d gs h
  simp [Val.equals, h]

example : wellTyped (exObj 1 2) = true ∧ (exObj 1 2).equals (exObj 1 2) = true ∧ (exObj 1 2).equals (exObj 1 3) = false
    ∧ (exObj 3 2).equals (exObj 1 2) = false := by decide +kernel
example : wellTyped (exFloat 0x7FC00000) = true ∧ (exFloat 0x7FC00000).equals (exFloat 0xFFC00001) = true
    ∧ (exFloat 0).equals (exFloat 0x80000000) = false := by decide +kernel

/-! ### C43, C44: hashCode -/

/-- **C43.** Equal messages whose hash codes exist (at whatever stack depths) have the same hash code. -/
theorem C43_equal_hash (a b : Val) (ha : wellTyped a = true) (hb : wellTyped b = true) (h : a.equals b = true) (n m : Nat)
    (x y : BitVec 32) (hx : a.hashCode n = .ok x) (hy : b.hashCode m = .ok y) : x = y := by
  have hs := (C45_equals_same a b ha hb).mp h
  have h1 := hashCode_mono n (max n m) (by omega) a x hx
  have h2 := hashCode_mono m (max n m) (by omega) b y hy
  rw [hashCode_same _ a b (shaped_of_wellTyped a ha) hs, h2] at h1
  cases h1
  rfl

/-- **C43.** At any one stack depth, equal messages have the same `hashCode` outcome, be it a value or an error. -/
theorem C43_equal_outcome (a b : Val) (ha : wellTyped a = true) (hb : wellTyped b = true) (h : a.equals b = true) (n : Nat) :
    a.hashCode n = b.hashCode n :=
  hashCode_same n a b (shaped_of_wellTyped a ha) ((C45_equals_same a b ha hb).mp h)

example : ((exFloat 0x7FC00000).hashCode 3).toOption.isSome = true ∧
    ((exFloat 0xFFC00001).hashCode 4).toOption = ((exFloat 0x7FC00000).hashCode 3).toOption := by decide +kernel

/-- **C44, violated.** On an object of a field-less class `hashCode` overflows every stack. -/
theorem C44_violated (c : Cls) (h : fieldLess c = true) (n : Nat) : (Val.obj c []).hashCode n = .error .stackOverflow := by
  have hl : layout c = [] := by simpa [fieldLess] using h
  exact hashCode_never n _ (by simp [shaped, shapeds, hl]) (by simp [hashable, h])

/-- **C44.** There are 28 such classes. -/
theorem C44_field_less_count : (allCls.filter fieldLess).length = 28 := by decide

/-- **C44.** `hashCode` returns, on a large enough stack, for exactly those messages that contain no object of a field-less class;
for the others it overflows every stack. -/
theorem C44_terminates_iff_partial (v : Val) (hv : wellTyped v = true) :
    ((∃ n x, v.hashCode n = .ok x) ↔ hashable v = true)
      ∧ (hashable v = true → ∃ x, ∀ n, height v ≤ n → v.hashCode n = .ok x)
      ∧ (hashable v = false → ∀ n, v.hashCode n = .error .stackOverflow) := by
  have hs := shaped_of_wellTyped v hv
  refine ⟨⟨?_, ?_⟩, ?_, ?_⟩
  · rintro ⟨n, x, hx⟩
    cases hh : hashable v with
    | true => rfl
    | false => rw [hashCode_never n v hs hh] at hx; cases hx
  · intro hh
    obtain ⟨x, hx⟩ := hashCode_ok _ v hs hh (Nat.le_refl _)
    exact ⟨_, x, hx⟩
  · intro hh
    obtain ⟨x, hx⟩ := hashCode_ok _ v hs hh (Nat.le_refl _)
    exact ⟨x, fun n hn => hashCode_mono _ n hn v x hx⟩
  · intro hh n
    exact hashCode_never n v hs hh

example : wellTyped exHeartbeat = true ∧ hashable exHeartbeat = false ∧ hashable (exObj 1 2) = true ∧ height (exObj 1 2) = 5 := by
  decide +kernel
example : fieldLess .sse_Heartbeat = true ∧ fieldLess .sample_EmptyPacket = true ∧ fieldLess .sse_Logon = false := by decide

/-! ### C46: equal objects have equal encodings -/

/-- **C46.** Equal messages without NaNs are indistinguishable: in every registry state, at every stack depth and into every buffer,
`encode` does the same (same bytes, same exception, same computed fields). -/
theorem C46_equal_encoding (a b : Val) (ha : wellTyped a = true) (hb : wellTyped b = true) (h : a.equals b = true)
    (hn : noNaN a = true) (w : World) (n : Nat) (buf : WBuf) : encode w n a buf = encode w n b buf := by
  rw [same_eq a b hn ((C45_equals_same a b ha hb).mp h)]

/-- **C46.** With NaNs this is false: equal messages with different encodings exist. -/
theorem C46_nan_payload_differs : ∃ a b, wellTyped a = true ∧ wellTyped b = true ∧ a.equals b = true ∧
    (encode World.initial 3 a ⟨[], 0, 1000⟩).2.2 = none ∧ (encode World.initial 3 b ⟨[], 0, 1000⟩).2.2 = none ∧
    (encode World.initial 3 a ⟨[], 0, 1000⟩).2.1.data ≠ (encode World.initial 3 b ⟨[], 0, 1000⟩).2.1.data :=
  ⟨exFloat 0x7FC00000, exFloat 0xFFC00001, by decide +kernel⟩

/-- **C46.** Conversely, without NaNs, equality is identity of the values: unequal objects differ somewhere. -/
theorem C46_equal_iff_identical (a b : Val) (ha : wellTyped a = true) (hb : wellTyped b = true) (hn : noNaN a = true) :
    a.equals b = true ↔ a = b :=
  ⟨fun h => same_eq a b hn ((C45_equals_same a b ha hb).mp h), fun h => h ▸ C42_refl a ha⟩

example : noNaN (exObj 1 2) = true ∧ noNaN (exFloat 0x7FC00000) = false := by decide +kernel

/-! ### C50: toString -/

/-- **C50.** `toString` returns the printed form on every large enough stack; no other error is possible. -/
theorem C50_toString (flt : Num → JStr) (v : Val) (hv : wellTyped v = true) (n : Nat) (hn : height v ≤ n) :
    v.toStr flt n = some (render flt v) :=
  toStr_eq flt n v (shaped_of_wellTyped v hv) hn

/-- **C50.** The printed form of an object is its class name and `name=value` for every field, in declaration order. -/
theorem C50_format (flt : Num → JStr) (c : Cls) (fs : List Val) :
    render flt (.obj c fs) = js (decl c).name ++ js " [" ++
      commaSep (List.zipWith (fun (f : String × FTy) v => js f.1 ++ js "=" ++ render flt v) (decl c).fields fs) ++ js "]" := by
  have key : ∀ (nf : List (String × FTy)) (fs : List Val), renderFields flt (nf.map (·.1)) fs =
      List.zipWith (fun (f : String × FTy) v => js f.1 ++ js "=" ++ render flt v) nf fs := by
    intro nf
    induction nf with
    | nil => intro fs; cases fs <;> rfl
    | cons f nf ih =>
      intro fs
      cases fs with
      | nil => rfl
      | cons v vs => simp [renderFields, ih vs]
  simp only [render, ← name_table, key]

example : wellTyped (exObj 1 2) = true ∧ (exObj 1 2).toStr (fun _ => []) 9 =
    some (js "NestedPacket [subPacket=SubPacket [fieldU32=5, fieldI16List=null], subPacketList=[SubPacket [fieldU32=1, fieldI16List=[2]]], inerPacket=null]") := by
  decide +kernel

/-! ### C51: accessors -/

/-- **C51.** The properties of a class are its fields, in order: `getX`/`setX` exist for each. -/
theorem C51_properties (c : Cls) : (decl c).acc.map (·.1) = (decl c).fields.map fun f => capital f.1 := by
  have h := congrArg (List.map capital) (name_table c)
  simp only [List.map_map] at h
  rw [acc_names]
  exact h.symm

/-- **C51.** After `setX(v)`, `getX()` returns v and every other getter returns what it returned before. -/
theorem C51_get_set (c : Cls) (p : Nat) (v : Val) (fs : List Val) (hf : fieldsHaveType (javaTypes c) fs = true)
    (hp : p < (decl c).acc.length) :
    getProp c p (setProp c p v fs) = some v ∧ ∀ q, q ≠ p → getProp c q (setProp c p v fs) = getProp c q fs := by
  have hl := fields_length c fs hf
  simp only [wire, List.length_map] at hl
  have hp' : p < (layout c).length := by
    have := congrArg List.length (acc_table c)
    simp only [List.length_map, List.length_range] at this
    omega
  rw [setProp_eq c p v fs hp']
  constructor
  · rw [getProp_eq c p _ hp', List.getElem?_set_self (by omega)]
  · intro q hq
    by_cases hq' : q < (layout c).length
    · rw [getProp_eq c q _ hq', getProp_eq c q _ hq', List.getElem?_set_ne (Ne.symm hq)]
    · simp [getProp, acc_none c q (by omega)]

/-- **C51.** A history of setter calls leaves each property at the last value set, or at its old value. -/
theorem C51_history (c : Cls) (p : Nat) (calls : List (Nat × Val)) (fs : List Val) (old : Val)
    (hf : fs.length = (decl c).fields.length) (hc : ∀ q v, (q, v) ∈ calls → q < (decl c).acc.length) (hp : getProp c p fs = some old) :
    getProp c p (calls.foldl (fun fs call => setProp c call.1 call.2 fs) fs) = some (lastSet p old calls) := by
  have hal : (decl c).acc.length = (layout c).length := by
    have := congrArg List.length (acc_table c)
    simpa using this
  have hnl : (decl c).fields.length = (layout c).length := by
    have := congrArg List.length (name_table c)
    simpa using this
  have hpl : p < (layout c).length := by
    apply Classical.byContradiction
    intro h
    rw [getProp, acc_none c p (by omega)] at hp
    simp at hp
  induction calls generalizing fs old with
  | nil => simpa [lastSet] using hp
  | cons qv calls ih =>
    obtain ⟨q, v⟩ := qv
    have hq : q < (layout c).length := by have := hc q v (by simp); omega
    simp only [List.foldl_cons, lastSet]
    refine ih (setProp c q v fs) _ (by rw [setProp_eq c q v fs hq]; simpa using hf) (fun q v h => hc q v (by simp [h])) ?_
    rw [setProp_eq c q v fs hq, getProp_eq c p _ hpl]
    rw [getProp_eq c p fs hpl] at hp
    by_cases h : q = p
    · subst h
      rw [List.getElem?_set_self (by omega), if_pos rfl]
    · rw [List.getElem?_set_ne h, if_neg h, hp]

/-- **C51.** A setter called with a value of the declared type keeps the object well-typed. -/
theorem C51_set_typed (c : Cls) (p : Nat) (v : Val) (fs : List Val) (t : FTy) (hf : fieldsHaveType (javaTypes c) fs = true)
    (ht : (javaTypes c)[p]? = some t) (hv : hasType t v = true) : fieldsHaveType (javaTypes c) (setProp c p v fs) = true := by
  have hp : p < (layout c).length := by
    have h1 := (List.getElem?_eq_some_iff.mp ht).1
    rw [type_table] at h1
    simpa [wire] using h1
  rw [setProp_eq c p v fs hp]
  exact typed_set hf ht hv

example : getProp .sample_SubPacket 0 (setProp .sample_SubPacket 1 (.list []) (setProp .sample_SubPacket 0 (.num ⟨.i32, 9⟩)
    (freshFields .sample_SubPacket))) = some (.num ⟨.i32, 9⟩) := rfl

/-- The theorems on the objects above. -/
example := C45_equals_same (exObj 1 2) (exObj 1 3) (by decide +kernel) (by decide +kernel)
example := C45_fields .sample_SubPacket [.num ⟨.i32, 5⟩, .null] [.num ⟨.i32, 5⟩, .list [.num ⟨.i16, 5⟩]] (by decide +kernel) (by decide +kernel)
example := C45_set .sample_SubPacket [.num ⟨.i32, 5⟩, .null] 0 (.num ⟨.i32, 5⟩) (.num ⟨.i32, 6⟩) (by decide +kernel) (by decide +kernel) rfl
example := C42_refl (exFloat 0x7FC00000) (by decide +kernel)
example := C42_symm (exFloat 0x7FC00000) (exFloat 0xFFC00001) (by decide +kernel) (by decide +kernel)
example := C42_trans (exFloat 0x7FC00000) (exFloat 0xFFC00001) (exFloat 0x7FC00002) (by decide +kernel) (by decide +kernel) (by decide +kernel)
  (by decide +kernel) (by decide +kernel)
example (x y : BitVec 32) := C43_equal_hash (exFloat 0x7FC00000) (exFloat 0xFFC00001) (by decide +kernel) (by decide +kernel) (by decide +kernel) 3 4 x y
example := C46_equal_encoding (exObj 1 2) (exObj 1 2) (by decide +kernel) (by decide +kernel) (by decide +kernel) (by decide +kernel) World.initial 3 ⟨[9], 0, 100⟩
example := C50_toString (fun _ => []) (exObj 1 2) (by decide +kernel) 9 (by decide +kernel)
example := C51_get_set .sample_SubPacket 1 (.list []) (freshFields .sample_SubPacket) (by decide +kernel) (by decide +kernel)
example := C51_history .sample_SubPacket 0 [(1, .null), (0, .num ⟨.i32, 9⟩), (1, .list [])] (freshFields .sample_SubPacket) (.num ⟨.i32, 0⟩) (by decide +kernel)
  (by
    intro q v h
    simp only [List.mem_cons, Prod.mk.injEq, List.not_mem_nil, or_false] at h
    have : (decl .sample_SubPacket).acc.length = 2 := by decide +kernel
    rcases h with ⟨rfl, -⟩ | ⟨rfl, -⟩ | ⟨rfl, -⟩ <;> omega) rfl

end FinProto
