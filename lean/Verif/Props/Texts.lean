import Verif.Props.Methods
import Verif.Proofs.Texts
/-
C100: the exceptions about unknown message types and application ids name them.

`callFac flt n f body arguments st` runs the statements of a method of factory `f`; `.illegal text` is an `IllegalArgumentException` with this text.
`callOps … (initAll …) ops` is the state of the program after its static initialisers and any history of calls on the factories.
-/
namespace FinProto
open Methods

theorem create_unknown (flt : Num → JStr) (n : Nat) (fs : List Fac) (hd : fs.Nodup) (hall : ∀ f, f ∈ fs ↔ f ≠ .sse_SseBinary) (h : Heap) (ops : List FacOp)
    (f : Fac) (k : Key) (hk : lastStored f k (Factories.initial.map f k) ops = none) :
    callFac flt (n + 1) f (createBody (keyWord f)) [(.key, .val (keyVal k))] (callOps flt n (initAll flt n fs (.fresh h)) ops)
      = (callOps flt n (initAll flt n fs (.fresh h)) ops, .illegal (unsupported f k)) := by
  have h1 := C84_create_after flt n fs hd hall h ops f (keyWord f) k
  rw [hk] at h1
  rw [h1]
  cases f <;> rfl

/-- **C100.** Whatever has been registered and removed before: `create` for a key without supplier throws an exception whose text says what kind of key it is, and
the key itself. -/
theorem C100_create (flt : Num → JStr) (n : Nat) (fs : List Fac) (hd : fs.Nodup) (hall : ∀ f, f ∈ fs ↔ f ≠ .sse_SseBinary) (h : Heap) (ops : List FacOp)
    (f : Fac) (k : Key) (hk : lastStored f k (Factories.initial.map f k) ops = none) :
    (callFac flt (n + 1) f (createBody (keyWord f)) [(.key, .val (keyVal k))] (callOps flt n (initAll flt n fs (.fresh h)) ops)).2
      = .illegal (if f ∈ frameFactories then js "Unsupported MsgType:" ++ keyText k else js "Unsupported ApplID:" ++ keyText k) := by
  rw [create_unknown flt n fs hd hall h ops f k hk]
  rfl

/-- **C100.** Conversely, `create` throws such an exception only for keys without supplier. -/
theorem C100_only_unknown (flt : Num → JStr) (n : Nat) (fs : List Fac) (hd : fs.Nodup) (hall : ∀ f, f ∈ fs ↔ f ≠ .sse_SseBinary) (h : Heap) (ops : List FacOp)
    (f : Fac) (k : Key) (text : JStr)
    (ht : (callFac flt (n + 1) f (createBody (keyWord f)) [(.key, .val (keyVal k))] (callOps flt n (initAll flt n fs (.fresh h)) ops)).2 = .illegal text) :
    lastStored f k (Factories.initial.map f k) ops = none := by
  have h1 := C84_create_after flt n fs hd hall h ops f (keyWord f) k
  generalize lastStored f k (Factories.initial.map f k) ops = o at h1 ⊢
  cases o with
  | none => rfl
  | some v =>
    obtain ⟨st', x, h2, _⟩ := h1
    rw [h2] at ht
    cases ht

/-- **C100.** The text tells which key it was: for two keys of one type the texts differ. -/
theorem C100_names_key (f : Fac) (k k' : Key) (ha : k.alike k' = true) (ht : unsupported f k = unsupported f k') : k = k' := by
  unfold unsupported at ht
  refine keyText_inj ha ?_
  by_cases hf : f ∈ frameFactories
  · rw [if_pos hf, if_pos hf] at ht; exact List.append_cancel_left ht
  · rw [if_neg hf, if_neg hf] at ht; exact List.append_cancel_left ht

/-- **C100.** `MessageType.fromValue` finds a constant, or throws an exception whose text gives the value in decimal; the text tells which value it was. -/
theorem C100_from_value (flt : Num → JStr) (n : Nat) (v : BitVec 32) (st : St) :
    (callFac flt (n + 1) .sse_SseBinary fromValueBody [(.key, .val (.num (.int v)))] st).2
        = (match sseMessageTypes.find? (fun p => p.2 = v) with
          | some p => .ret (.const p.1)
          | none => .illegal (js "Unknown MessageType value: " ++ js (toString v.toInt)))
      ∧ ∀ u : BitVec 32, js "Unknown MessageType value: " ++ js (toString u.toInt) = js "Unknown MessageType value: " ++ js (toString v.toInt) → u = v := by
  constructor
  · rw [C84_from_value]
    unfold SseMessageType.fromValue
    cases sseMessageTypes.find? (fun p => decide (p.2 = v)) <;> rfl
  · intro u hu
    exact decimal_inj .i32 u v (List.append_cancel_left hu)

/-! ### Instances -/

/-- After `remove(58)` of the SSE factory nobody knows message type 58 any more; 12345 was never known. -/
example (k : BitVec 32) (hk : k = 58 ∨ k = 12345 ∨ k = -1) :
    (callFac (fun _ => []) 3 .sse_SseBinary (createBody "MsgType") [(.key, .val (keyVal (.int k)))]
      (callOps (fun _ => []) 2 (initAll (fun _ => []) 2 (allFac.filter (· ≠ .sse_SseBinary)) (.fresh [])) [.remove .sse_SseBinary (.int 58)])).2
      = .illegal (js "Unsupported MsgType:" ++ keyText (.int k)) :=
  C100_create (fun _ => []) 2 (allFac.filter (· ≠ .sse_SseBinary)) (by decide +kernel) (fun f => by cases f <;> decide +kernel) [] [.remove .sse_SseBinary (.int 58)]
    .sse_SseBinary (.int k) (by rcases hk with rfl | rfl | rfl <;> decide +kernel)

example : keyText (.int (-1)) = js "-1" ∧ unsupported .sse_SseBinary (.int 12345) = js "Unsupported MsgType:12345"
    ∧ unsupported .szse_NewOrder (.str (js "999")) = js "Unsupported ApplID:999" := by decide +kernel

example := C100_from_value (fun _ => []) 2 77 (.fresh [])
example : sseMessageTypes.find? (fun p => p.2 = 77) = none ∧ (sseMessageTypes.find? (fun p => p.2 = 40)).isSome := by decide +kernel

/-- **C100 fails** for keys of different types: a null application id and the application id `null` give the same text. -/
theorem C100_null_violated : unsupported .szse_NewOrder .null = unsupported .szse_NewOrder (.str (js "null")) ∧ Key.null ≠ .str (js "null") :=
  ⟨rfl, nofun⟩

end FinProto
