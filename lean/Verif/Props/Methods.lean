import Verif.Spec.Methods
import Verif.Proofs.Methods
import Verif.Proofs.HeapDecode
import Verif.Props.HeapObjects
import Verif.Props.Factory
import Verif.Props.Checksum
import Verif.Model.Java
/-
C84: the statements of `equals`, `hashCode`, `toString`, the accessors, the factories and the checksum registry, run one by one, do what the other theorems
say about these methods.

`callMsg flt n r body as st` runs the statements of a method of the message at `r` with arguments `as` in state `st`; `callFac`, `callReg` do so for the methods of a
factory and of the checksum registry.  `n` is the call-stack depth that is left, `flt` prints `float`s and `double`s.  The result is the state and how the method
ended: `.ret v`, `.throw e`, or `.next` (a method without result).
-/
namespace FinProto
open Methods

/-! ### equals, hashCode, toString -/

/-- **C84.** The statements of `equals`: what the model says, with the same exception if it does not return. -/
theorem C84_equals (flt : Num → JStr) (n : Nat) (h : Heap) (r : Nat) (c : Cls) (fs : List HVal) (y : HVal) (hr : h[r]? = some (.msg c fs)) :
    boolResult (callMsg flt n r (equalsBody c) [(.obj, .val y)] (.ofHeap h)) = hequals h (n + 1) (.ref r) y := by
  by_cases hi : identical (.ref r) y = true
  · rcases identical_iff.1 hi with ⟨h1, _⟩ | ⟨q, h1, rfl⟩
    · cases h1
    · cases h1
      have : hequals h (n + 1) (.ref r) (.ref r) = .ok true := by simp [hequals]
      rw [this]
      simp [callMsg, equalsBody, exec, step, eval, Env.at, args, sameRef, identical, boolResult, Except.map]
  · have hi : identical (.ref r) y = false := by simpa using hi
    have h2 := objectsEquals_eq (n + 1) h (.ref r) y
    rw [← h2, objectsEquals, if_neg (by simp [hi])]
    rw [hr]
    dsimp only
    rw [exec_equals (r := r) (y := y) rfl (by simp) hr hi, callMsg, exec_equals (r := r) (y := y) rfl (by simp [args]) hr hi]
    rcases y with _ | _ | _ | _ <;> rfl

/-- **C84.** … that is: it returns on a large enough stack and says whether the two objects show the same values. -/
theorem C84_equals_values (flt : Num → JStr) (n : Nat) (h : Heap) (r : Nat) (c : Cls) (vs : List Val) (u : Val) (y : HVal)
    (hx : Shows h (.obj c vs) (.ref r)) (hy : Shows h u y) (hv : wellTyped (.obj c vs) = true) (hu : wellTyped u = true)
    (hn : height (.obj c vs) ≤ n + 1) :
    ∃ b, boolResult (callMsg flt n r (equalsBody c) [(.obj, .val y)] (.ofHeap h)) = .ok b ∧ (b = true ↔ same (.obj c vs) u) := by
  have hx' := hx
  rw [Shows] at hx'
  obtain ⟨a, ys, e, ha, _⟩ := hx'
  cases e
  rw [C84_equals flt n h r c ys y ha]
  exact C76_equals h (n + 1) _ u _ y hx hy hv hu hn

/-- **C84.** The statement of `hashCode`: what the model says; for a class without fields it does not return. -/
theorem C84_hashCode (flt : Num → JStr) (n : Nat) (h : Heap) (r : Nat) (c : Cls) (fs : List HVal) (hr : h[r]? = some (.msg c fs)) :
    intResult (callMsg flt n r (hashBody (decl c)) [] (.ofHeap h)) = hhash h (n + 1) (.ref r) := by
  have h2 := objectsHashCode_eq (n + 1) h (.ref r)
  rw [← h2, objectsHashCode]
  rw [hr]
  dsimp only
  rw [callMsg]
  unfold hashBody
  rcases (decl c).hash with _ | fs' <;> rfl

/-- **C84.** … that is the hash code of the tree shown: equal messages have equal hash codes, on whatever heaps they are. -/
theorem C84_hashCode_values (flt : Num → JStr) (n : Nat) (h h' : Heap) (r r' : Nat) (c : Cls) (vs us : List Val)
    (hx : Shows h (.obj c vs) (.ref r)) (hy : Shows h' (.obj c us) (.ref r')) (hv : wellTyped (.obj c vs) = true) (hs : same (.obj c vs) (.obj c us)) :
    intResult (callMsg flt n r (hashBody (decl c)) [] (.ofHeap h)) = (Val.obj c vs).hashCode (n + 1)
      ∧ intResult (callMsg flt n r' (hashBody (decl c)) [] (.ofHeap h')) = intResult (callMsg flt n r (hashBody (decl c)) [] (.ofHeap h)) := by
  have hx' := hx
  rw [Shows] at hx'
  obtain ⟨a, ys, e, ha, _⟩ := hx'
  cases e
  have hy' := hy
  rw [Shows] at hy'
  obtain ⟨a', ys', e, ha', _⟩ := hy'
  cases e
  rw [C84_hashCode flt n h r c ys ha, C84_hashCode flt n h' r' c ys' ha']
  have := C76_hash h h' (n + 1) _ _ _ _ hx hy
  exact ⟨this.1, (this.2 hv hs).symm⟩

/-- **C84.** The statement of `toString`: the text the model says, or an exception if there is none. -/
theorem C84_toString (flt : Num → JStr) (n : Nat) (h : Heap) (r : Nat) (c : Cls) (fs : List HVal) (hr : h[r]? = some (.msg c fs)) :
    (strResult (callMsg flt n r (toStringBody (decl c)) [] (.ofHeap h))).toOption = htoStr h flt (n + 1) (.ref r) := by
  have h2 := stringValueOf_eq flt (n + 1) h (.ref r)
  rw [← h2, stringValueOf]
  rw [hr]
  dsimp only
  rw [exec_toString (r := r) rfl hr, callMsg, exec_toString (r := r) rfl hr]
  rfl

/-- **C84.** … that is, on a large enough stack, the printed form of the tree. -/
theorem C84_toString_values (flt : Num → JStr) (n : Nat) (h : Heap) (r : Nat) (c : Cls) (vs : List Val) (hx : Shows h (.obj c vs) (.ref r))
    (hv : wellTyped (.obj c vs) = true) (hn : height (.obj c vs) ≤ n + 1) :
    strResult (callMsg flt n r (toStringBody (decl c)) [] (.ofHeap h)) = .ok (render flt (.obj c vs)) := by
  have hx' := hx
  rw [Shows] at hx'
  obtain ⟨a, ys, e, ha, _⟩ := hx'
  cases e
  have h1 := C84_toString flt n h r c ys ha
  rw [C76_toString h flt (n + 1) _ _ hx hv hn] at h1
  rcases h2 : strResult (callMsg flt n r (toStringBody (decl c)) [] (.ofHeap h)) with e | s
  · rw [h2] at h1; cases h1
  · rw [h2] at h1; cases h1; rfl

/-- The hypotheses are met: the messages 3 and 4 of `exKnots`, which have a list in common, and a cyclic one. -/
example : Shows exKnots exKnotTree (.ref 3) ∧ Shows exKnots exKnotTree (.ref 4) ∧ wellTyped exKnotTree = true ∧ height exKnotTree ≤ 2 + 1 :=
  ⟨(showsB_iff _ _ _).mp (by decide +kernel), (showsB_iff _ _ _).mp (by decide +kernel), by decide +kernel, by decide +kernel⟩
example : (boolResult (callMsg (fun _ => []) 2 3 (equalsBody .sse_ExecRptInfo) [(.obj, .val (.ref 4))] (.ofHeap exKnots))).toOption = some true
    ∧ (boolResult (callMsg (fun _ => []) 2 3 (equalsBody .sse_ExecRptInfo) [(.obj, .val (.ref 2))] (.ofHeap exKnots))).toOption = some false
    ∧ (strResult (callMsg (fun _ => []) 2 3 (toStringBody (decl .sse_ExecRptInfo)) [] (.ofHeap exKnots))).toOption
        = some (js "ExecRptInfo [platformId=7, pbu=[AB, null], setId=null]") := by decide +kernel

/-! ### Accessors -/

theorem acc_index (c : Cls) (p : Nat) (a : String × Nat × Nat) (ha : (decl c).acc[p]? = some a) : a.2.1 = p ∧ a.2.2 = p := by
  by_cases hp : p < (layout c).length
  · obtain ⟨nm, h⟩ := acc_get c p hp
    rw [ha] at h
    cases h
    exact ⟨rfl, rfl⟩
  · rw [acc_none c p (by omega)] at ha
    cases ha

/-- **C84.** The statement of the getter of the property number `p` returns the value of field number `p` and changes nothing. -/
theorem C84_getter (flt : Num → JStr) (n : Nat) (st : St) (r : Nat) (c : Cls) (fs : List HVal) (p : Nat) (a : String × Nat × Nat) (x : HVal)
    (hr : st.h[r]? = some (.msg c fs)) (ha : (decl c).acc[p]? = some a) (hx : fs[p]? = some x) :
    callMsg flt n r (getterBody a) [] st = (st, .ret (.val x)) := by
  have hp := acc_index c p a ha
  simp [callMsg, getterBody, exec, step, eval, Env.at, Heap.field, hr, hp.1, hx]

/-- **C84.** The statement of the setter of the property number `p` stores its argument in field number `p` of this message and changes nothing else. -/
theorem C84_setter (flt : Num → JStr) (n : Nat) (st : St) (r : Nat) (c : Cls) (fs : List HVal) (p : Nat) (a : String × Nat × Nat) (x : HVal)
    (hr : st.h[r]? = some (.msg c fs)) (ha : (decl c).acc[p]? = some a) :
    callMsg flt n r (setterBody a) [(.param, .val x)] st = ({ st with h := st.h.set r (.msg c (fs.set p x)) }, .next) := by
  have hp := acc_index c p a ha
  simp [callMsg, setterBody, exec, step, eval, Env.at, args, Heap.setField, hr, hp.2]

example : ((callMsg (fun _ => []) 2 3 (setterBody ("SetId", 2, 2)) [(.param, .val (.num ⟨.i32, 7⟩))] (.ofHeap exKnots)).1.h)[3]?
    = some (.msg .sse_ExecRptInfo [.num ⟨.i16, 7⟩, .ref 2, .num ⟨.i32, 7⟩]) ∧ (decl .sse_ExecRptInfo).acc[2]? = some ("SetId", 2, 2) := by decide +kernel

/-! ### Factories -/

/-- **C84.** The statements of `create`: `IllegalArgumentException` (with a text that ends with the key) if there is no supplier (or null) under the key,
otherwise what the supplier returns. -/
theorem C84_create (flt : Num → JStr) (n : Nat) (f : Fac) (what : String) (k : Key) (st : St) :
    callFac flt (n + 1) f (createBody what) [(.key, .val (keyVal k))] st =
      match (st.map f k).join with
      | none => (st, .illegal (js ("Unsupported " ++ what ++ ":") ++ keyText k))
      | some (.make v) => ({ st with h := (alloc v st.h).1 }, .ret (.val (alloc v st.h).2))
      | some (.give x) => (st, .ret (.val x)) := by
  have hs := str_leaf flt n st.h k
  rcases hj : (st.map f k).join with _ | v | x <;>
    simp [callFac, createBody, exec, step, eval, Env.at, args, Loc.put, keyIn_keyVal, sameRef, Except.map, hj, hs]

/-- **C84.** … so a created message is a new one that shows what the registered constructor builds; every other object is as before. -/
theorem C84_create_shows (flt : Num → JStr) (n : Nat) (f : Fac) (what : String) (k : Key) (st : St) (F : Factories) (hF : FacAs st F) :
    match F.create f k with
    | .error e => e = .illegalArgument
        ∧ callFac flt (n + 1) f (createBody what) [(.key, .val (keyVal k))] st = (st, .illegal (js ("Unsupported " ++ what ++ ":") ++ keyText k))
    | .ok v => ∃ new x, callFac flt (n + 1) f (createBody what) [(.key, .val (keyVal k))] st = ({ st with h := st.h ++ new }, .ret (.val x))
        ∧ Shows (st.h ++ new) v x := by
  have h1 := C84_create flt n f what k st
  rw [hF.map] at h1
  unfold Factories.create
  rcases hv : F.map f k with _ | v
  · rw [hv] at h1; exact ⟨rfl, h1⟩
  · rw [hv] at h1
    dsimp only [Option.map] at h1 ⊢
    obtain ⟨m, hm, hu, _⟩ := alloc_spec v st.h
    refine ⟨m, (alloc v st.h).2, ?_, ?_⟩
    · rw [h1, hm]
    · rw [← hm]; exact hu.1

/-- **C84.** `Factory.getInstance().create(e)` in `decode` (`Model/Java.lean`) is this method. -/
theorem C84_create_in_decode (flt : Num → JStr) (n : Nat) (fac : Fac) (what : String) (k : Key) (env : Java.Env) (q : Java.St) (e : Java.Expr) (st : St)
    (hk : Java.eval env e q = (q, .ok (.val (keyVal k)))) (hh : q.h = st.h) (hs : ∀ f k, env.sup f k = (st.map f k).join) :
    match callFac flt (n + 1) fac (createBody what) [(.key, .val (keyVal k))] st with
    | (st', .ret (.val x)) => Java.eval env (.create fac e) q = ({ q with h := st'.h }, .ok (.val x))
    | (_, .illegal _) => Java.eval env (.create fac e) q = (q, .error .illegalArgument)
    | _ => False := by
  rw [C84_create]
  have hl : keyOf (keyVal k).leaf = k := keyIn_keyVal k
  rw [Java.eval, hk]
  dsimp only
  rw [hl, hs]
  rcases (st.map fac k).join with _ | v | x
  · rfl
  · dsimp only; rw [hh]
  · dsimp only; rw [← hh]

/-- **C84.** The statement of `register` replaces the entry of this key in this factory and nothing else; null keys and null suppliers are allowed. -/
theorem C84_register (flt : Num → JStr) (n : Nat) (f : Fac) (k : Key) (s : Option Supplier) (st : St) :
    callFac flt n f registerBody [(.key, .val (keyVal k)), (.supplier, .supplier s)] st =
      ({ st with map := fun f' k' => if f' = f ∧ k' = k then some s else st.map f' k' }, .next) := by
  simp [callFac, registerBody, exec, step, eval, Env.at, args, keyIn_keyVal]

/-- **C84.** The statements of the SSE factory's `register` also record the message type of the class; null class and null type are allowed. -/
theorem C84_register_sse (flt : Num → JStr) (n : Nat) (c : Option Kind) (k : Key) (s : Option Supplier) (st : St) :
    callFac flt n .sse_SseBinary registerSseBody [(.clazz, .cls c), (.key, .val (keyVal k)), (.supplier, .supplier s)] st =
      ({ st with map := fun f' k' => if f' = .sse_SseBinary ∧ k' = k then some s else st.map f' k',
                 types := fun c' => if c' = c then some (keyVal k) else st.types c' }, .next) := by
  simp [callFac, registerSseBody, exec, step, eval, Env.at, args, keyIn_keyVal]

/-- **C84.** The statement of `remove` removes the entry of this key in this factory and says whether it held a supplier. -/
theorem C84_remove (flt : Num → JStr) (n : Nat) (f : Fac) (k : Key) (st : St) :
    callFac flt n f removeBody [(.key, .val (keyVal k))] st =
      ({ st with map := fun f' k' => if f' = f ∧ k' = k then none else st.map f' k' }, .ret (.bool (st.map f k).join.isSome)) := by
  rcases h : (st.map f k).join with _ | v <;>
    simp [callFac, removeBody, exec, step, eval, Env.at, args, keyIn_keyVal, sameRef, h, Except.map]

/-- **C84.** The statement of `getMsgType` returns the recorded type, or null. -/
theorem C84_get_msg_type (flt : Num → JStr) (n : Nat) (c : Cls) (st : St) (F : Factories) (hF : FacAs st F) :
    callFac flt n .sse_SseBinary getMsgTypeBody [(.clazz, .cls (some (.msg c)))] st =
      (st, .ret (.val (match F.getMsgType c with | some t => .num (.int t) | none => .null))) := by
  simp [callFac, getMsgTypeBody, exec, step, eval, Env.at, args, hF.types c, Factories.getMsgType]
  rcases F.rev c with _ | _ <;> rfl

/-- **C84.** The statements of `fromValue` find the constant with this value, or throw `IllegalArgumentException`. -/
theorem C84_from_value (flt : Num → JStr) (n : Nat) (v : BitVec 32) (st : St) :
    callFac flt (n + 1) .sse_SseBinary fromValueBody [(.key, .val (.num (.int v)))] st =
      match SseMessageType.fromValue v with
      | .ok m => (st, .ret (.const m))
      | .error _ => (st, .illegal (js "Unknown MessageType value: " ++ keyText (.int v))) := by
  have hbody : ∀ (m : SseMessageType) (st : St), exec (.at flt (n + 1) (.val .null) .sse_SseBinary ⟨[], [], 0⟩)
      [.ite (.same (.constValue (.var .type)) (.var .key)) [.ret (.var .type)]] ((args [(.key, .val (.num (.int v)))]).put .type (.const m)) st =
        (st, if m.getValue = v then .ret (.const m) else .next) := by
    intro m st
    have h1 : ∀ u : BitVec 32, sameRef (.val (.num ⟨.i32, u⟩)) (.val (.num ⟨.i32, v⟩)) = .ok (decide (u = v)) := fun _ => rfl
    by_cases h : m.getValue = v
    · have h2 : decide (m.getValue = v) = true := decide_eq_true h
      simp only [exec, step, eval, args, Loc.put, Num.int, Except.map]
      simp [h1, h]
    · have h2 : decide (m.getValue = v) = false := decide_eq_false h
      simp only [exec, step, eval, args, Loc.put, Num.int, Except.map]
      simp [h1, h]
  have hloop : ∀ ms : List (SseMessageType × BitVec 32), (∀ p ∈ ms, p.1.getValue = p.2) →
      forEach (fun m st => exec (.at flt (n + 1) (.val .null) .sse_SseBinary ⟨[], [], 0⟩)
        [.ite (.same (.constValue (.var .type)) (.var .key)) [.ret (.var .type)]] ((args [(.key, .val (.num (.int v)))]).put .type (.const m)) st)
        (ms.map (·.1)) st = (st, match ms.find? (fun p => p.2 = v) with | some p => .ret (.const p.1) | none => .next) := by
    intro ms
    induction ms with
    | nil => intro _; rfl
    | cons p ms ih =>
      intro hms
      rw [List.map_cons, forEach, hbody, List.find?_cons, hms p (by simp)]
      by_cases h : p.2 = v
      · simp [h]
      · simp only [h, if_false, decide_false]
        exact ih fun q hq => hms q (by simp [hq])
  have ht : ∀ p ∈ sseMessageTypes, p.1.getValue = p.2 := by decide +kernel
  unfold SseMessageType.fromValue callFac fromValueBody
  rw [exec, step, hloop sseMessageTypes ht]
  generalize sseMessageTypes.find? (fun p => decide (p.2 = v)) = o
  rcases o with _ | p
  · have hs : Num.toStr flt (Num.int v) = keyText (.int v) := intStr_eq v.toInt (natAbs_bound .i32 v)
    simp [exec, step, eval, args, Env.at, stringValueOf, Except.map, hs]
  · rfl

/-- **C84.** Each call keeps the maps of the running program those of the model, returns normally, and `remove` answers the same. -/
theorem C84_factory_call (flt : Num → JStr) (n : Nat) (op : FacOp) (st : St) (F : Factories) (hF : FacAs st F) :
    FacAs (callOp flt n st op).1 (runFac F [op]) ∧ (callOp flt n st op).1.h = st.h
      ∧ (callOp flt n st op).2 = match op with
        | .remove f k => .ret (.bool (F.remove f k).2)
        | _ => .next := by
  cases op with
  | register f k s =>
    rw [callOp, C84_register]
    refine ⟨⟨fun f' k' => ?_, hF.types⟩, rfl, rfl⟩
    simp only [runFac, Factories.register, Factories.put]
    by_cases h : f' = f ∧ k' = k
    · rw [if_pos h, if_pos h]; rfl
    · rw [if_neg h, if_neg h]; exact hF.map f' k'
  | registerSse c t s =>
    rw [callOp]
    have := C84_register_sse flt n (some (.msg c)) (.int t) (s.map .make) st
    rw [keyVal] at this
    rw [this]
    refine ⟨⟨fun f' k' => ?_, fun c' => ?_⟩, rfl, rfl⟩
    · simp only [runFac, Factories.registerSse, Factories.put]
      by_cases h : f' = .sse_SseBinary ∧ k' = .int t
      · rw [if_pos h, if_pos h]; rfl
      · rw [if_neg h, if_neg h]; exact hF.map f' k'
    · simp only [runFac, Factories.registerSse, Factories.put]
      by_cases h : c' = c
      · subst h; simp
      · rw [if_neg (by simpa using h), if_neg h]; exact hF.types c'
  | remove f k =>
    rw [callOp, C84_remove]
    refine ⟨⟨fun f' k' => ?_, hF.types⟩, rfl, ?_⟩
    · simp only [runFac, Factories.remove]
      by_cases h : f' = f ∧ k' = k
      · rw [if_pos h, if_pos h]; rfl
      · rw [if_neg h, if_neg h]; exact hF.map f' k'
    · rw [hF.map]
      simp [Factories.remove]

/-- **C84.** After any history of calls the maps are those of the model. -/
theorem C84_factory_history (flt : Num → JStr) (n : Nat) (ops : List FacOp) :
    ∀ (st : St) (F : Factories), FacAs st F → FacAs (callOps flt n st ops) (runFac F ops) := by
  induction ops with
  | nil => intro st F hF; exact hF
  | cons op ops ih =>
    intro st F hF
    have h1 := (C84_factory_call flt n op st F hF).1
    have h2 : runFac F (op :: ops) = runFac (runFac F [op]) ops := by cases op <;> rfl
    rw [h2]
    exact ih _ _ h1

/-! #### Static initialisers -/

/-- The entry of key `k` after `register` for each of `regs`. -/
def entry (k : Key) (regs : List Reg) (old : Option (Option Supplier)) : Option (Option Supplier) :=
  regs.foldl (fun e r => if k = r.key then some (some (.make (fresh r.cls))) else e) old

theorem initFac_map (flt : Num → JStr) (n : Nat) (f : Fac) (regs : List Reg) : ∀ st : St,
    (∀ f' k, (initFac flt n f regs st).map f' k = if f' = f then entry k regs (st.map f' k) else st.map f' k)
      ∧ (initFac flt n f regs st).h = st.h ∧ (initFac flt n f regs st).types = st.types ∧ (initFac flt n f regs st).cache = st.cache := by
  induction regs with
  | nil => intro st; exact ⟨fun f' k => by simp [initFac, entry], rfl, rfl, rfl⟩
  | cons r regs ih =>
    intro st
    have h1 := C84_register flt n f r.key (some (.make (fresh r.cls))) st
    have h2 : initFac flt n f (r :: regs) st = initFac flt n f regs
        { st with map := fun f' k' => if f' = f ∧ k' = r.key then some (some (.make (fresh r.cls))) else st.map f' k' } := by
      show initFac flt n f regs (callFac flt n f registerBody [(.key, .val (keyVal r.key)), (.supplier, ctor r.cls)] st).1 = _
      rw [ctor, h1]
    rw [h2]
    obtain ⟨a, b, c, d⟩ := ih { st with map := fun f' k' => if f' = f ∧ k' = r.key then some (some (.make (fresh r.cls))) else st.map f' k' }
    refine ⟨fun f' k => ?_, b, c, d⟩
    rw [a]
    by_cases hf : f' = f
    · subst hf
      simp [entry]
    · simp [hf]

theorem initFacs_map (flt : Num → JStr) (n : Nat) (regs : Fac → List Reg) (fs : List Fac) (hd : fs.Nodup) : ∀ st : St,
    (∀ f k, (fs.foldl (fun st f => initFac flt n f (regs f) st) st).map f k = if f ∈ fs then entry k (regs f) (st.map f k) else st.map f k)
      ∧ (fs.foldl (fun st f => initFac flt n f (regs f) st) st).h = st.h
      ∧ (fs.foldl (fun st f => initFac flt n f (regs f) st) st).types = st.types
      ∧ (fs.foldl (fun st f => initFac flt n f (regs f) st) st).cache = st.cache := by
  induction fs with
  | nil => intro st; exact ⟨fun f k => by simp, rfl, rfl, rfl⟩
  | cons g fs ih =>
    intro st
    have hg := List.nodup_cons.1 hd
    obtain ⟨a, b, c, d⟩ := ih hg.2 (initFac flt n g (regs g) st)
    obtain ⟨a', b', c', d'⟩ := initFac_map flt n g (regs g) st
    rw [List.foldl_cons]
    refine ⟨fun f k => ?_, b.trans b', c.trans c', d.trans d'⟩
    rw [a, a']
    by_cases hf : f = g
    · subst hf
      simp [hg.1]
    · simp [hf]

theorem defaults_map (f : Fac) (k : Key) (hf : f ≠ .sse_SseBinary) (regs : List Reg) : ∀ (F : Factories) (old : Option (Option Supplier)),
    old.join = (F.map f k).map Supplier.make →
    (entry k (regs.filter (·.fac = f)) old).join =
      ((regs.foldl (fun F r => if r.fac = .sse_SseBinary then F else F.put r.fac r.key (some (fresh r.cls))) F).map f k).map Supplier.make := by
  induction regs with
  | nil => intro F old h; exact h
  | cons r regs ih =>
    intro F old h
    rw [List.foldl_cons]
    by_cases hr : r.fac = f
    · subst hr
      rw [if_neg hf, List.filter_cons, if_pos (by simp)]
      refine ih _ _ ?_
      simp only [Factories.put]
      by_cases hk : k = r.key
      · simp [hk]
      · simp [hk, h]
    · rw [List.filter_cons, if_neg (by simpa using hr)]
      refine ih _ _ ?_
      by_cases hs : r.fac = .sse_SseBinary
      · rw [if_pos hs]; exact h
      · rw [if_neg hs, h]
        simp only [Factories.put]
        rw [if_neg (fun hh => hr hh.1.symm)]

theorem defaults_sse (k : Key) (regs : List Reg) : ∀ F : Factories,
    (regs.foldl (fun F r => if r.fac = .sse_SseBinary then F else F.put r.fac r.key (some (fresh r.cls))) F).map .sse_SseBinary k = F.map .sse_SseBinary k := by
  induction regs with
  | nil => intro F; rfl
  | cons r regs ih =>
    intro F
    rw [List.foldl_cons, ih]
    by_cases hs : r.fac = .sse_SseBinary
    · rw [if_pos hs]
    · rw [if_neg hs]
      simp only [Factories.put]
      rw [if_neg (fun hh => hs hh.1.symm)]

theorem defaults_rev (regs : List Reg) : ∀ F : Factories,
    (regs.foldl (fun F r => if r.fac = .sse_SseBinary then F else F.put r.fac r.key (some (fresh r.cls))) F).rev = F.rev := by
  induction regs with
  | nil => intro F; rfl
  | cons r regs ih =>
    intro F
    rw [List.foldl_cons, ih]
    by_cases hs : r.fac = .sse_SseBinary
    · rw [if_pos hs]
    · rw [if_neg hs]; rfl

theorem initSse_as (flt : Num → JStr) (n : Nat) (regs : List (Cls × SseMessageType × Cls)) : ∀ (st : St) (F : Factories), FacAs st F →
    FacAs (initSse flt n regs st) (regs.foldl (fun F r => F.registerSse r.1 r.2.1.getValue (some (fresh r.2.2))) F) ∧ (initSse flt n regs st).h = st.h := by
  induction regs with
  | nil => intro st F h; exact ⟨h, rfl⟩
  | cons r regs ih =>
    intro st F h
    obtain ⟨h1, h2, _⟩ := C84_factory_call flt n (.registerSse r.1 r.2.1.getValue (some (fresh r.2.2))) st F h
    obtain ⟨h3, h4⟩ := ih _ _ h1
    exact ⟨h3, h4.trans h2⟩

/-- **C84.** Whatever the order in which the factories are initialised, the static initialisers leave the maps the model starts with. -/
theorem C84_static_initialisers (flt : Num → JStr) (n : Nat) (fs : List Fac) (hd : fs.Nodup) (hall : ∀ f, f ∈ fs ↔ f ≠ .sse_SseBinary) (h : Heap) :
    FacAs (initAll flt n fs (.fresh h)) Factories.initial ∧ (initAll flt n fs (.fresh h)).h = h := by
  obtain ⟨a, b, c, _⟩ := initFacs_map flt n (fun f => defaultRegs.filter (·.fac = f)) fs hd (.fresh h)
  have hF : FacAs (fs.foldl (fun st f => initFac flt n f (defaultRegs.filter (·.fac = f)) st) (.fresh h))
      (defaultRegs.foldl (fun F r => if r.fac = .sse_SseBinary then F else F.put r.fac r.key (some (fresh r.cls))) .empty) := by
    refine ⟨fun f k => ?_, fun k => ?_⟩
    · rw [a]
      by_cases hf : f = .sse_SseBinary
      · subst hf
        rw [if_neg (fun hh => (hall _).1 hh rfl), defaults_sse]
        rfl
      · rw [if_pos ((hall f).2 hf)]
        exact defaults_map f k hf defaultRegs .empty none rfl
    · rw [c, defaults_rev]
      rfl
  obtain ⟨h1, h2⟩ := initSse_as flt n sseDefaultRegs _ _ hF
  exact ⟨h1, h2.trans b⟩

example : (allFac.filter (· ≠ .sse_SseBinary)).Nodup ∧ ∀ f, f ∈ allFac.filter (· ≠ .sse_SseBinary) ↔ f ≠ .sse_SseBinary :=
  ⟨by decide +kernel, fun f => by cases f <;> decide +kernel⟩

/-- **C84.** From the start of the program, after any history of calls: `create` finds the supplier of the last call that concerned the key, or the default. -/
theorem C84_create_after (flt : Num → JStr) (n : Nat) (fs : List Fac) (hd : fs.Nodup) (hall : ∀ f, f ∈ fs ↔ f ≠ .sse_SseBinary) (h : Heap)
    (ops : List FacOp) (f : Fac) (what : String) (k : Key) :
    match lastStored f k (Factories.initial.map f k) ops with
    | none => callFac flt (n + 1) f (createBody what) [(.key, .val (keyVal k))] (callOps flt n (initAll flt n fs (.fresh h)) ops)
        = (callOps flt n (initAll flt n fs (.fresh h)) ops, .illegal (js ("Unsupported " ++ what ++ ":") ++ keyText k))
    | some v => ∃ st' x, callFac flt (n + 1) f (createBody what) [(.key, .val (keyVal k))] (callOps flt n (initAll flt n fs (.fresh h)) ops)
        = (st', .ret (.val x)) ∧ Shows st'.h v x := by
  have hF := C84_factory_history flt n ops _ _ (C84_static_initialisers flt n fs hd hall h).1
  have h1 := C84_create_shows flt n f what k _ _ hF
  have h2 : (runFac Factories.initial ops).create f k = match lastStored f k (Factories.initial.map f k) ops with
      | some v => .ok v
      | none => .error .illegalArgument := C38_create Factories.initial ops f k
  rw [h2] at h1
  generalize lastStored f k (Factories.initial.map f k) ops = o at h1 ⊢
  rcases o with _ | v
  · exact h1.2
  · obtain ⟨new, x, h3, h4⟩ := h1
    exact ⟨_, x, h3, h4⟩

/-! ### The checksum registry -/

/-- **C84.** The statements of `registry`: the first service of a name stays; null is a `NullPointerException` and changes nothing. -/
theorem C84_registry (flt : Num → JStr) (n : Nat) (st : St) (reg : Registry) (hs : RegAs st reg) (s : Service) :
    (∃ st', callReg flt n registryBody [(.service, .service (some s))] st = (st', .ret (.bool (reg.registry s).2)) ∧ RegAs st' (reg.registry s).1)
      ∧ callReg flt n registryBody [(.service, .service none)] st = (st, .throw .nullPointer) := by
  refine ⟨?_, by simp [callReg, registryBody, exec, step, eval, Env.at, args]⟩
  have h1 := hs s.algorithm
  unfold Registry.registry
  rcases hr : reg s.algorithm with _ | u
  · rw [hr] at h1
    refine ⟨{ st with cache := fun s' => if s' = some s.algorithm then some (some s) else st.cache s' }, ?_, fun name => ?_⟩
    · simp [callReg, registryBody, exec, step, eval, Env.at, args, h1]
    · by_cases h : name = s.algorithm
      · simp [h]
      · simp [h, hs name]
  · rw [hr] at h1
    refine ⟨st, ?_, ?_⟩
    · simp [callReg, registryBody, exec, step, eval, Env.at, args, h1]
    · simpa using hs

/-- **C84.** The statement of `getChecksumService` returns the registered service, or null. -/
theorem C84_get_service (flt : Num → JStr) (n : Nat) (st : St) (reg : Registry) (hs : RegAs st reg) (name : String) :
    callReg flt n getServiceBody [(.name, .name (some name))] st = (st, .ret (.service (reg.getService name))) := by
  have h1 := hs name
  rcases hr : reg name with _ | u <;> simp [callReg, getServiceBody, exec, step, eval, Env.at, args, h1, hr, Registry.getService]

/-- **C84.** Each call keeps the map of the registry that of the model. -/
theorem C84_registry_call (flt : Num → JStr) (n : Nat) (st : St) (reg : Registry) (hs : RegAs st reg) (call : RegCall) :
    RegAs (callRegCall flt n st call).1 (call.run reg) := by
  cases call with
  | registry s =>
    obtain ⟨⟨st', h1, h2⟩, _⟩ := C84_registry flt n st reg hs s
    rw [callRegCall, h1]
    exact h2
  | remove name =>
    intro s
    simp only [callRegCall, callReg, removeServiceBody, RegCall.run, Registry.remove]
    by_cases h : s = name
    · simp [exec, step, eval, args, h]
    · simp [exec, step, eval, args, h, hs s]
  | clear => intro s; simp [callRegCall, callReg, clearBody, RegCall.run, Registry.clear, exec, step]
  | get name => rw [callRegCall, C84_get_service flt n st reg hs name]; exact hs

/-- **C84.** The constructor registers CRC16 and CRC32; after any history of calls on the registry `getChecksumService` returns the first service offered under
the name since the last call that reset it. -/
theorem C84_registry_after (flt : Num → JStr) (n : Nat) (h : Heap) (calls : List RegCall) (name : String) :
    (callReg flt n getServiceBody [(.name, .name (some name))] (callRegCalls flt n (initReg flt n ctorServices (.fresh h)) calls)).2
      = .ret (.service (registeredAfter (startCalls ++ calls) name)) := by
  have h0 : RegAs (initReg flt n ctorServices (.fresh h)) Registry.initial := by
    have h1 := C84_registry_call flt n (.fresh h) (fun _ => none) (fun _ => rfl) (.registry crc16Service)
    exact C84_registry_call flt n _ _ h1 (.registry crc32Service)
  have hall : ∀ (calls : List RegCall) (st : St) (reg : Registry), RegAs st reg → RegAs (callRegCalls flt n st calls) (runCalls reg calls) := by
    intro calls
    induction calls with
    | nil => intro st reg hs; exact hs
    | cons c cs ih => intro st reg hs; exact ih _ _ (C84_registry_call flt n st reg hs c)
  rw [C84_get_service flt n _ _ (hall calls _ _ h0)]
  exact congrArg (fun s => Flow.ret (.service s)) (C15_lookup calls name)

/-- **C84.** The statement of `verify`: whether the checksum of the readable bytes is the expected one (false for null). -/
theorem C84_verify (flt : Num → JStr) (n : Nat) (s : Service) (b : RBuf) (expected : Option (BitVec 32)) (st : St) :
    exec (.at flt (n + 1) (.service (some s)) .sse_SseBinary b) verifyBody
        (args [(.expected, .val (match expected with | some v => .num (.int v) | none => .null))]) st
      = (st, .ret (.bool (s.verify b expected))) := by
  rcases expected with _ | v
  · simp [verifyBody, exec, step, eval, Env.at, args, objectsEquals, identical, Except.map, Service.verify]
  · simp [verifyBody, exec, step, eval, Env.at, args, objectsEquals, identical, Except.map, Service.verify, Num.eqv, Num.int, Num.canon]
    by_cases h : s.calcOn b.readable = v
    · rw [h]; simp
    · exact (decide_eq_false (fun hh => h (by injection hh with _ hh))).trans (beq_eq_false_iff_ne.2 h).symm

example : (callReg (fun _ => []) 0 getServiceBody [(.name, .name (some "CRC16"))] (callRegCalls (fun _ => []) 0 (initReg (fun _ => []) 0 ctorServices (.fresh []))
    [.registry ⟨"CRC16", fun _ => 7⟩, .remove "CRC32"])).2 = .ret (.service (some crc16Service)) := by
  rw [C84_registry_after]; rfl

/-- The maps after the static initialisers are those of the model (`FacAs`); what `create`, `getMsgType` and `create` inside `decode` do then. -/
def exStarted : St := initAll (fun _ => []) 2 (allFac.filter (· ≠ .sse_SseBinary)) (.fresh [])
theorem exStarted_as : FacAs exStarted Factories.initial :=
  (C84_static_initialisers (fun _ => []) 2 (allFac.filter (· ≠ .sse_SseBinary)) (by decide +kernel) (fun f => by cases f <;> decide +kernel) []).1

example : callFac (fun _ => []) 2 .sse_SseBinary getMsgTypeBody [(.clazz, .cls (some (.msg .sse_Logon)))] exStarted = (exStarted, .ret (.val (.num (.int 40)))) := by
  rw [C84_get_msg_type (fun _ => []) 2 .sse_Logon exStarted Factories.initial exStarted_as]
  rfl

example : ∃ new x, callFac (fun _ => []) 2 .sample_RootPacket (createBody "MsgType") [(.key, .val (keyVal (.short 4)))] exStarted
      = ({ exStarted with h := exStarted.h ++ new }, .ret (.val x)) ∧ Shows (exStarted.h ++ new) (fresh .sample_EmptyPacket) x :=
  C84_create_shows (fun _ => []) 1 .sample_RootPacket "MsgType" (.short 4) exStarted Factories.initial exStarted_as

/-- The key expression of `create` in `RootPacket.decode` is a field of the message that is being decoded; here it holds 9, which no factory knows. -/
def exKeyRead : Java.St := ⟨[.msg .sample_RootPacket [.num ⟨.i16, 9⟩, .num (.int 0), .null, .num (.int 0)]], ⟨[], 0, 0⟩, ⟨[], [], 0⟩, fun _ => none⟩
example (st : St) (hst : FacAs st Factories.initial) (hh : exKeyRead.h = st.h) :
    Java.eval ⟨Registry.initial, fun f k => (st.map f k).join, 0, []⟩ (.create .sample_RootPacket (.field 0)) exKeyRead = (exKeyRead, .error .illegalArgument) := by
  have h := C84_create_in_decode (fun _ => []) 1 .sample_RootPacket "MsgType" (.short 9) ⟨Registry.initial, fun f k => (st.map f k).join, 0, []⟩ exKeyRead
    (.field 0) st rfl hh (fun _ _ => rfl)
  have h2 : (st.map .sample_RootPacket (.short 9)).join = none := by
    rw [hst.map, show Factories.initial.map .sample_RootPacket (.short 9) = none by decide +kernel]; rfl
  rw [C84_create] at h
  rw [h2] at h
  exact h

/-- `C84_equals_values`, `C84_hashCode_values` on two objects that share a list. -/
example := C84_equals_values (fun _ => []) 2 exKnots 3 .sse_ExecRptInfo _ exKnotTree (.ref 4) (by decide +kernel : Shows exKnots exKnotTree (.ref 3))
  (by decide +kernel) (by decide +kernel) (by decide +kernel) (by decide +kernel)
example := C84_hashCode_values (fun _ => []) 2 exKnots exKnots 3 4 .sse_ExecRptInfo _ _ (by decide +kernel : Shows exKnots exKnotTree (.ref 3))
  (by decide +kernel : Shows exKnots exKnotTree (.ref 4)) (by decide +kernel) (same_refl _)

/-- `C84_factory_call`, `C84_factory_history`, `C84_create_after`. -/
example := C84_factory_call (fun _ => []) 2 (.remove .sse_SseBinary (.int 40)) exStarted Factories.initial exStarted_as
example := C84_factory_history (fun _ => []) 2 [.remove .sse_SseBinary (.int 40), .registerSse .sse_Logon 33 none] exStarted Factories.initial exStarted_as
example := C84_create_after (fun _ => []) 2 (allFac.filter (· ≠ .sse_SseBinary)) (by decide +kernel) (fun f => by cases f <;> decide +kernel) []
  [.remove .sse_SseBinary (.int 40)] .sse_SseBinary "MsgType" (.int 40)

/-- The theorems about the registry of services, on one that is empty. -/
example (flt : Num → JStr) := C84_registry flt 1 (.fresh []) (fun _ => none) (fun _ => rfl) crc16Service
example (flt : Num → JStr) := C84_get_service flt 1 (.fresh []) (fun _ => none) (fun _ => rfl) "CRC16"
example (flt : Num → JStr) := C84_registry_call flt 1 (.fresh []) (fun _ => none) (fun _ => rfl) (.remove "CRC16")

end FinProto
