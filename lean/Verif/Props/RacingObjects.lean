import Verif.Proofs.RacingObjects
/-
C110: other threads call the setters of messages while these are compared, hashed or printed.
-/
namespace FinProto

/-- **C110.** While a thread evaluates `a.equals(b)` for two messages, other threads call setters of both, whenever and as often as they like.  Then the answer is
the one for mixtures: each message with each field as it was at some moment during the call.  Later fields are from later moments, a field of `b` is from a moment
between those of the field in `a` and of the next field in `a`.  No field is read twice.  If the answer is "equal", every field was looked at at a moment of its
own, so what was set until then is never missed. -/
theorem C110_equals (oa ob : Others) (c : Cls) (fs : List Val) (d : Cls) (gs : List Val) :
    let r := requals false oa ob c fs d gs
    r.2 ≤ 2 * (layout c).length ∧
    ∃ when when' : Nat → Nat, (∀ f, when f ≤ when' f ∧ when' f ≤ when (f + 1) ∧ when' f ≤ r.2) ∧
      (r.1 = true → ∀ f, f < (layout c).length → 0 < when f ∧ when f < when' f ∧ (f + 1 < (layout c).length → when' f < when (f + 1))) ∧
      r.1 = Val.equals (.obj c (mixture oa fs when)) (.obj d (mixture ob gs when')) := by
  intro r
  by_cases hcd : c = d
  · subst hcd
    have hr : r = reqs oa ob ((List.range' 0 (layout c).length).map fun i => (i, i)) (2 * 0) (fieldsAt oa fs (2 * 0)) (fieldsAt ob gs (2 * 0)) := by
      simp only [r, requals, eqs_table, Nat.mul_zero, fieldsAt_zero, List.range_eq_range', if_true]
      rfl
    have h := reqs_range oa ob fs gs (layout c).length 0
    dsimp only at h
    rw [← hr, Nat.zero_add] at h
    rcases h with ⟨h1, h2, h3⟩ | ⟨h1, s, h2, h3, h4, h5⟩
    · refine ⟨by omega, fun f => min (2 * f + 1) r.2, fun f => min (2 * f + 2) r.2, fun f => by dsimp only; omega, fun _ f hf => by dsimp only; omega, ?_⟩
      rw [h1, eq_comm, equals_obj_fields]
      intro f hf
      have h := h3 f (Nat.zero_le _) hf
      rw [mixture_get, mixture_get]
      rw [show min (2 * f + 1) r.2 = 2 * f + 1 by omega, show min (2 * f + 2) r.2 = 2 * f + 2 by omega]
      unfold sameAt at h
      split at h
      · exact ⟨_, _, ‹_›, ‹_›, h⟩
      · cases h
    · refine ⟨by omega, fun f => min (2 * f + 1) r.2, fun f => min (2 * f + 2) r.2, fun f => by dsimp only; omega, fun h => by simp [h] at h1, ?_⟩
      rw [h1]
      cases he : Val.equals (.obj c (mixture oa fs fun f => min (2 * f + 1) r.2)) (.obj c (mixture ob gs fun f => min (2 * f + 2) r.2)) with
      | false => rfl
      | true =>
        obtain ⟨x, y, e1, e2, e3⟩ := (equals_obj_fields _ _ _).1 he s h3
        rw [mixture_get, show min (2 * s + 1) r.2 = 2 * s + 1 by omega] at e1
        rw [mixture_get, show min (2 * s + 2) r.2 = 2 * s + 2 by omega] at e2
        unfold sameAt at h5
        rw [e1, e2] at h5
        dsimp only at h5
        rw [e3] at h5
        cases h5
  · have hr : r = (false, 0) := by simp [r, requals, hcd]
    refine ⟨by rw [hr]; omega, fun _ => 0, fun _ => 0, fun f => by simp, fun h => by simp [hr] at h, ?_⟩
    rw [hr]
    simp [Val.equals, hcd]

/-- **C110.** A message is equal to itself, also while other threads change it. -/
theorem C110_itself (oa ob : Others) (c : Cls) (fs : List Val) : (requals true oa ob c fs c fs).1 = true := rfl

/-- **C110.** If other threads set one field of `a` only, and none of `b`, the answer is the one for `a` as it really was at some moment during the call. -/
theorem C110_one_field (oa : Others) (c : Cls) (fs : List Val) (d : Cls) (gs : List Val) (f : Nat) (hone : ∀ k, ∀ p ∈ oa k, p.1 = f) :
    ∃ k, k ≤ (requals false oa (fun _ => []) c fs d gs).2 ∧
      (requals false oa (fun _ => []) c fs d gs).1 = Val.equals (.obj c (fieldsAt oa fs k)) (.obj d gs) := by
  obtain ⟨-, when, when', h1, -, h3⟩ := C110_equals oa (fun _ => []) c fs d gs
  refine ⟨when f, Nat.le_trans (h1 f).1 (h1 f).2.2, ?_⟩
  rw [h3, mixture_one oa fs when f hone, mixture_quiet]

/-- **C110.** While a thread evaluates `hashCode()` of a message, other threads call setters of it.  Then the value (or the `StackOverflowError`) is the one for a
mixture: the message with each field as it was at a moment of its own during the call, later fields at later moments. -/
theorem C110_hashCode (o : Others) (n : Nat) (c : Cls) (fs : List Val) :
    ∃ when : Nat → Nat, (∀ f, 0 < when f) ∧ (∀ f g, f < g → when f < when g) ∧ (∀ f, f < (layout c).length → when f ≤ (layout c).length) ∧
      rhashCode o n c fs = Val.hashCode n (.obj c (mixture o fs when)) := by
  refine ⟨(· + 1), fun f => Nat.succ_pos f, fun f g h => Nat.succ_lt_succ h, fun f h => h, ?_⟩
  by_cases hl : fieldLess c = true
  · have hs : (decl c).hash = .self := by rw [hash_table, if_pos hl]
    rw [rself_overflow o c hs, self_overflow c hs]
  · have hs : (decl c).hash = .fields (List.range (layout c).length) := by rw [hash_table, if_neg hl]
    cases n with
    | zero => simp [rhashCode, Val.hashCode]
    | succ n =>
      simp only [rhashCode, Val.hashCode, hs]
      have h := readAll_range o fs (layout c).length 0
      rw [fieldsAt_zero, ← List.range_eq_range'] at h
      rw [h]
      cases pick (mixture o fs (· + 1)) (List.range (layout c).length) <;> rfl

/-- **C110.** … and likewise the text `toString()` returns. -/
theorem C110_toString (o : Others) (flt : Num → JStr) (n : Nat) (c : Cls) (fs : List Val) :
    ∃ when : Nat → Nat, (∀ f, 0 < when f) ∧ (∀ f g, f < g → when f < when g) ∧ (∀ f, f < (layout c).length → when f ≤ (layout c).length) ∧
      rtoStr o flt n c fs = Val.toStr flt n (.obj c (mixture o fs when)) := by
  refine ⟨(· + 1), fun f => Nat.succ_pos f, fun f g h => Nat.succ_lt_succ h, fun f h => h, ?_⟩
  cases n with
  | zero => simp [rtoStr, Val.toStr]
  | succ n =>
    rw [allSome_pieceOf, rtoStr, str_table]
    split
    · rw [rparts_lit o _ _ [] 0 fs (mixture o fs (· + 1)) rfl]
    · have h := rparts_fields o (Val.toStr flt n) fs "]" ((layout c).map (·.1)) 0 true
      rw [fieldsAt_zero] at h
      rw [List.cons_append, rparts_lit o _ _ _ 0 fs (mixture o fs (· + 1)) h]

/-- **C110.** If other threads set one field only, `hashCode()` is that of the message as it really was at some moment during the call. -/
theorem C110_hashCode_one_field (o : Others) (n : Nat) (c : Cls) (fs : List Val) (f : Nat) (hf : f < (layout c).length) (hone : ∀ k, ∀ p ∈ o k, p.1 = f) :
    ∃ k, k ≤ (layout c).length ∧ rhashCode o n c fs = Val.hashCode n (.obj c (fieldsAt o fs k)) := by
  obtain ⟨when, -, -, h3, h4⟩ := C110_hashCode o n c fs
  exact ⟨when f, h3 f hf, by rw [h4, mixture_one o fs when f hone]⟩

/-- **C110.** … and the same for `toString()`. -/
theorem C110_toString_one_field (o : Others) (flt : Num → JStr) (n : Nat) (c : Cls) (fs : List Val) (f : Nat) (hf : f < (layout c).length)
    (hone : ∀ k, ∀ p ∈ o k, p.1 = f) :
    ∃ k, k ≤ (layout c).length ∧ rtoStr o flt n c fs = Val.toStr flt n (.obj c (fieldsAt o fs k)) := by
  obtain ⟨when, -, -, h3, h4⟩ := C110_toString o flt n c fs
  exact ⟨when f, h3 f hf, by rw [h4, mixture_one o fs when f hone]⟩

/-- **C110.** Messages nobody else changes are compared, hashed and printed as alone. -/
theorem C110_quiet (flt : Num → JStr) (n : Nat) (c : Cls) (fs : List Val) (d : Cls) (gs : List Val) :
    (requals false (fun _ => []) (fun _ => []) c fs d gs).1 = Val.equals (.obj c fs) (.obj d gs)
    ∧ rhashCode (fun _ => []) n c fs = Val.hashCode n (.obj c fs)
    ∧ rtoStr (fun _ => []) flt n c fs = Val.toStr flt n (.obj c fs) := by
  obtain ⟨-, _, _, -, -, h1⟩ := C110_equals (fun _ => []) (fun _ => []) c fs d gs
  obtain ⟨_, -, -, -, h2⟩ := C110_hashCode (fun _ => []) n c fs
  obtain ⟨_, -, -, -, h3⟩ := C110_toString (fun _ => []) flt n c fs
  rw [mixture_quiet, mixture_quiet] at h1
  rw [mixture_quiet] at h2 h3
  exact ⟨h1, h2, h3⟩

/-! ### What does not hold -/

/-- A logout message. -/
private def out (st : BitVec 32) (text : JStr) : List Val := [.num ⟨.i32, st⟩, .str text]

/-- `setSessionStatus(9)` before access number `i`, then `setText("b")` before access number `j`. -/
private def firstThen (i j : Nat) : Others := fun k =>
  if k = i then [(0, .num ⟨.i32, 9⟩)] else if k = j then [(1, .str [98])] else []

/-- `setSessionStatus(9)` and then `setText("b")` between the two accesses of a message. -/
private def bothThen : Others := fun k => if k = 1 then [(0, .num ⟨.i32, 9⟩), (1, .str [98])] else []

/-- **C110 violated.** `a.equals(b)` may be true although `b` is never changed and `a` was equal to `b` at no moment, neither before nor during nor after the
call. -/
theorem C110_equals_violated :
    (requals false (firstThen 1 2) (fun _ => []) .sse_Logout (out 1 [97]) .sse_Logout (out 1 [98])).1 = true
    ∧ ∀ k, Val.equals (.obj .sse_Logout (fieldsAt (firstThen 1 2) (out 1 [97]) k)) (.obj .sse_Logout (out 1 [98])) = false := by
  refine ⟨by decide +kernel, fun k => ?_⟩
  have h3 : ∀ k, fieldsAt (firstThen 1 2) (out 1 [97]) (k + 3) = out 9 [98] := by
    intro k
    induction k with
    | zero => rfl
    | succ k ih =>
      rw [show k + 1 + 3 = (k + 3) + 1 by omega, fieldsAt_succ, ih]
      have : firstThen 1 2 (k + 3) = [] := by
        unfold firstThen
        rw [if_neg (by omega), if_neg (by omega)]
      rw [this]
      rfl
  match k with
  | 0 => decide +kernel
  | 1 => decide +kernel
  | 2 => decide +kernel
  | k + 3 => rw [h3]; decide +kernel

/-- **C110 violated.** `hashCode()` and `toString()` may give the value of a message that never existed: here of the status from before the call with the text that
was set after the status had been replaced. -/
theorem C110_torn_violated (flt : Num → JStr) :
    rhashCode bothThen 3 .sse_Logout (out 1 [97]) = .ok 1090
    ∧ rtoStr bothThen flt 3 .sse_Logout (out 1 [97]) = some (js "Logout [sessionStatus=1, text=b]")
    ∧ ∀ k, Val.hashCode 3 (.obj .sse_Logout (fieldsAt bothThen (out 1 [97]) k)) ≠ .ok 1090
      ∧ Val.toStr flt 3 (.obj .sse_Logout (fieldsAt bothThen (out 1 [97]) k)) ≠ some (js "Logout [sessionStatus=1, text=b]") := by
  refine ⟨rfl, rfl, fun k => ?_⟩
  have h2 : ∀ k, fieldsAt bothThen (out 1 [97]) (k + 2) = out 9 [98] := by
    intro k
    induction k with
    | zero => rfl
    | succ k ih =>
      rw [show k + 1 + 2 = (k + 2) + 1 by omega, fieldsAt_succ, ih]
      have : bothThen (k + 2) = [] := by
        unfold bothThen
        rw [if_neg (by omega)]
      rw [this]
      rfl
  match k with
  | 0 => exact ⟨(fun h => by cases h), fun h => by cases h⟩
  | 1 => exact ⟨(fun h => by cases h), fun h => by cases h⟩
  | k + 2 => rw [h2]; exact ⟨(fun h => by cases h), fun h => by cases h⟩

/-! ### Examples -/

-- a field changed in both messages during the call: the answer and the number of accesses
example : requals false (firstThen 0 1) (firstThen 1 2) .sse_Logout (out 1 [97]) .sse_Logout (out 9 [98]) = (true, 4) := by decide +kernel
-- the first difference ends it
example : requals false (firstThen 0 1) (fun _ => []) .sse_Logout (out 1 [97]) .sse_Logout (out 1 [98]) = (false, 2) := by decide +kernel
-- a setter of one field only, so the hypotheses of the one-field theorems are met
example : (∀ k, ∀ p ∈ (fun k => if k = 1 then [(0, Val.num ⟨.i32, 9⟩)] else [] : Others) k, p.1 = 0)
    ∧ (requals false (fun k => if k = 1 then [(0, .num ⟨.i32, 9⟩)] else []) (fun _ => []) .sse_Logout (out 1 [97]) .sse_Logout (out 1 [97])).1 = true := by
  refine ⟨fun k p hp => ?_, by decide +kernel⟩
  dsimp only at hp
  split at hp
  · rw [List.mem_singleton.1 hp]
  · cases hp
-- messages of a class without fields
example (n : Nat) : rhashCode (firstThen 0 1) n .sse_Heartbeat [] = .error .stackOverflow := rself_overflow _ _ rfl n _
-- the mixture that is printed in `C110_torn_violated`
example : mixture bothThen (out 1 [97]) (· + 1) = out 1 [98] := rfl

end FinProto
