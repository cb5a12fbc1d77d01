import Verif.Proofs.DecodeErrors
import Verif.Props.Factory
/-
C28: exceptions and termination of `decode`.  `n` is the depth of the call stack; running out of it is `stackOverflow`.
-/
namespace FinProto

/-- **C28.** For any bytes, `decode` into a well-typed object either succeeds or throws `IndexOutOfBoundsException` or
`IllegalArgumentException` (or runs out of stack); in every case the object stays well-typed. -/
theorem C28_errors (w : World) (hw : TypedSuppliers w) (n : Nat) (c : Cls) (fs : List Val) (b : RBuf) (hv : wellTyped (.obj c fs) = true) :
    wellTyped (.obj c (decode w n c fs b).1) = true
      ∧ ((decode w n c fs b).2.2 = none ∨ (decode w n c fs b).2.2 = some .indexOutOfBounds
        ∨ (decode w n c fs b).2.2 = some .illegalArgument ∨ (decode w n c fs b).2.2 = some .stackOverflow) := by
  simp only [wellTyped, hasType, Bool.true_and] at hv ⊢
  exact decode_typed w hw n c fs b hv

/-- **C28.** `decode` always terminates, whatever is registered (even messages that contain themselves): the stack never gets deeper than the
number of bytes in the buffer plus two. -/
theorem C28_terminates (w : World) (hw : TypedSuppliers w) (n : Nat) (c : Cls) (fs : List Val) (b : RBuf)
    (hv : wellTyped (.obj c fs) = true) (hn : b.room + 2 ≤ n) :
    (decode w n c fs b).2.2 = none ∨ (decode w n c fs b).2.2 = some .indexOutOfBounds
      ∨ (decode w n c fs b).2.2 = some .illegalArgument := by
  obtain ⟨_, h⟩ := C28_errors w hw n c fs b hv
  simp only [wellTyped, hasType, Bool.true_and] at hv
  have := decode_noOv_bytes w hw n c b.room (by have := subRank_le c; omega) fs b hv (Nat.le_refl _)
  rcases h with h | h | h | h
  · exact .inl h
  · exact .inr (.inl h)
  · exact .inr (.inr h)
  · exact absurd h this

/-- **C28.** As long as all suppliers give objects of the classes registered by default for their factory, three levels are enough for any bytes. -/
theorem C28_default_depth (w : World) (hw : TypedSuppliers w) (hd : DefaultClasses w) (n : Nat) (c : Cls) (fs : List Val) (b : RBuf)
    (hv : wellTyped (.obj c fs) = true) (hn : 3 ≤ n) :
    (decode w n c fs b).2.2 = none ∨ (decode w n c fs b).2.2 = some .indexOutOfBounds
      ∨ (decode w n c fs b).2.2 = some .illegalArgument := by
  obtain ⟨_, h⟩ := C28_errors w hw n c fs b hv
  simp only [wellTyped, hasType, Bool.true_and] at hv
  have := decode_noOv_default w hw hd n c b.room (by have := levels_le c; omega) fs b hv (Nat.le_refl _)
  rcases h with h | h | h | h
  · exact .inl h
  · exact .inr (.inl h)
  · exact .inr (.inr h)
  · exact absurd h this

/-- **C28.** A freshly started process meets the hypotheses. -/
theorem C28_default_world : TypedSuppliers World.initial ∧ DefaultClasses World.initial := by
  have key : ∀ fac key v, World.initial.fac fac key = some v → ∃ r ∈ defaultRegs, r.fac = fac ∧ r.key = key ∧ v = fresh r.cls := by
    intro fac key v h
    refine (default_create fac key v).mp ?_
    have : Factories.initial.map fac key = some v := h
    simp only [Factories.create, this]
  constructor
  · intro fac k v h
    obtain ⟨r, _, _, _, rfl⟩ := key fac k v h
    simp only [wellTyped, fresh, hasType, Bool.true_and]
    exact typed_fresh r.cls
  · intro fac k c fs h
    obtain ⟨r, hr, h1, _, h2⟩ := key fac k _ h
    exact ⟨r, hr, h1, (Val.obj.inj h2).1.symm⟩

/-- **C28.** The stack depth has no other influence: a call that does not overflow gives the same result with any larger stack. -/
theorem C28_depth_irrelevant (w : World) (n m : Nat) (h : n ≤ m) (c : Cls) (fs : List Val) (b : RBuf)
    (hn : (decode w n c fs b).2.2 ≠ some .stackOverflow) : decode w m c fs b = decode w n c fs b :=
  decode_agree_le w n m h c fs b hn

/-- Three levels are needed: SSE frame, report request, list element. -/
example : (decode World.initial 3 .sse_SseBinary (freshFields .sse_SseBinary) ⟨[0, 0, 0, 206, 0, 0, 0, 0, 0, 0, 0, 5, 0, 0, 0, 0, 0, 1], [], 0⟩).2.2
      = some .indexOutOfBounds
    ∧ (decode World.initial 2 .sse_SseBinary (freshFields .sse_SseBinary) ⟨[0, 0, 0, 206, 0, 0, 0, 0, 0, 0, 0, 5, 0, 0, 0, 0, 0, 1], [], 0⟩).2.2
      = some .stackOverflow
    ∧ wellTyped (fresh .sse_SseBinary) = true := by decide +kernel

/-- A frame registered as its own body: the recursion ends with the bytes. -/
example : (decode ⟨World.initial.svc, fun _ _ => some (fresh .sse_SseBinary)⟩ 40 .sse_SseBinary (freshFields .sse_SseBinary)
    ⟨List.replicate 38 0, [], 0⟩).2.2 = some .indexOutOfBounds := by decide +kernel

/-- `C28_errors`, `C28_terminates`, `C28_default_depth` on a frame that ends in its body. -/
example := C28_errors World.initial C28_default_world.1 2 .sse_SseBinary (freshFields .sse_SseBinary)
  ⟨[0, 0, 0, 206, 0, 0, 0, 0, 0, 0, 0, 5, 0, 0, 0, 0, 0, 1], [], 0⟩ (by decide +kernel)
example := C28_terminates World.initial C28_default_world.1 20 .sse_SseBinary (freshFields .sse_SseBinary)
  ⟨[0, 0, 0, 206, 0, 0, 0, 0, 0, 0, 0, 5, 0, 0, 0, 0, 0, 1], [], 0⟩ (by decide +kernel) (by decide)
example := C28_default_depth World.initial C28_default_world.1 C28_default_world.2 3 .sse_SseBinary (freshFields .sse_SseBinary)
  ⟨[0, 0, 0, 206, 0, 0, 0, 0, 0, 0, 0, 5, 0, 0, 0, 0, 0, 1], [], 0⟩ (by decide +kernel) (by decide)

end FinProto
