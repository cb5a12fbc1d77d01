import Verif.Proofs.EmptyText
import Verif.Model.Factory
/-
C04: null and empty strings are the same on the wire.  C37: `encode` keeps objects well-typed.
-/
namespace FinProto

/-- **C04.** `writeFixedString` treats null and `""` alike, in every position, width, padding and buffer. -/
theorem C04_fixed (b : WBuf) (n : Nat) (pad : JChar) (left : Bool) :
    writeFixedString b none n pad left = writeFixedString b (some []) n pad left := rfl

/-- **C04.** Two messages that differ only in null against empty strings, in any string field or string list at any level, are encoded alike: same
bytes, same exception.  (Hence no receiver can tell them apart.) -/
theorem C04_message (w : World) (n : Nat) (v v' : Val) (b : WBuf) (hv : wellTyped v = true) (hv' : wellTyped v' = true)
    (h : emptyToNull v = emptyToNull v') : (encode w n v b).2 = (encode w n v' b).2 := by
  cases v with
  | obj c fs =>
    cases v' with
    | obj c' fs' =>
      simp only [emptyToNull, emptyToNulls_map, Val.obj.injEq] at h
      obtain ⟨rfl, h⟩ := h
      simp only [wellTyped, hasType, Bool.true_and] at hv hv'
      obtain ⟨gs, gs', b', e, e1, e2, _⟩ := (encode_callSim w n).2 c fs fs' b hv hv' h
      rw [e1, e2]
    | _ => simp [wellTyped] at hv'
  | _ => simp [wellTyped] at hv

/-- **C37.** Whatever the outcome, `encode` leaves the object an object of its class with fields of the declared types. -/
theorem C37_keeps_types (w : World) (n : Nat) (c : Cls) (fs : List Val) (b : WBuf) (hv : wellTyped (.obj c fs) = true) :
    ∃ gs, (encode w n (.obj c fs) b).1 = .obj c gs ∧ wellTyped (.obj c gs) = true := by
  simp only [wellTyped, hasType, Bool.true_and] at hv ⊢
  obtain ⟨gs, gs', b', e, e1, _, t, _⟩ := (encode_callSim w n).2 c fs fs b hv hv rfl
  exact ⟨gs, by rw [e1], t⟩

/-- Two such messages. -/
def exNulls : Val := .obj .sample_StringPacket [.null, .str (js "x"), .str [], .null, .null, .null, .list [.null, .str (js "y")], .null, .null, .null, .null, .null]
def exEmpties : Val := .obj .sample_StringPacket
  [.str [], .str (js "x"), .null, .str [], .str [], .null, .list [.str [], .str (js "y")], .null, .null, .null, .null, .null]

example : emptyToNull exNulls = emptyToNull exEmpties ∧ wellTyped exNulls = true ∧ wellTyped exEmpties = true
    ∧ (encode World.initial 3 exNulls ⟨[], 0, 100⟩).2.1.data =
      [0, 0, 1, 0, 0x78, 0, 0, 0, 0, 0, 0, 0, 0, 0, 0, 2, 0, 0, 0, 1, 0, 0x79, 0, 0, 0, 0, 0, 0, 0, 0, 0, 0] :=
  ⟨rfl, by decide +kernel, by decide +kernel, by decide +kernel⟩

/-- `C04_message`, `C37_keeps_types`. -/
example := C04_message World.initial 3 exNulls exEmpties ⟨[], 0, 100⟩ (by decide +kernel) (by decide +kernel) rfl
example := C37_keeps_types World.initial 3 .sample_SubPacket [.num ⟨.i32, 7⟩, .list [.num ⟨.i16, 5⟩]] ⟨[], 0, 3⟩ (by decide +kernel)

end FinProto
