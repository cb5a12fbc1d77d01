import Verif.Proofs.Amount
import Verif.Props.Counts
/-
C62: decode builds no more than it has read.
-/
namespace FinProto

/-- **C62.** Whatever the bytes are and however `decode` ends, the object it has built from them contains at most as many characters and at most as
many list elements (over all levels) as bytes were consumed. -/
theorem C62_contents (w : World) (hw : FreshSuppliers w) (n : Nat) (c : Cls) (b b' : RBuf) (fs : List Val) (r : Option JErr)
    (h : decode w n c (freshFields c) b = (fs, b', r)) :
    b.rd ≤ b'.rd ∧ (Val.obj c fs).chars ≤ b'.rd - b.rd ∧ (Val.obj c fs).elements ≤ b'.rd - b.rd := by
  have := (decode_small w hw n c b).1
  rw [h] at this
  have h1 := this.mono
  have h2 := this.chars
  have h3 := this.elements
  simp only [Val.chars, Val.elements] at *
  omega

/-- **C62.** If it succeeds, the object consists of at most three values (objects, lists, fields, elements) per byte consumed, plus itself. -/
theorem C62_size (w : World) (hw : FreshSuppliers w) (n : Nat) (c : Cls) (b b' : RBuf) (fs : List Val)
    (h : decode w n c (freshFields c) b = (fs, b', none)) : (Val.obj c fs).nodes ≤ 3 * (b'.rd - b.rd) + 1 := by
  have hd := decode_small w hw n c b
  rw [h] at hd
  have h1 := hd.1.mono
  have h2 := (hd.2 rfl).nodes
  have h3 := (widths_table c).2
  simp only [Val.nodes] at *
  omega

/-- A message that announces 32767 list elements but has only two of them: decode throws, having built a list of these two from the ten bytes. -/
example : let r := decode World.initial 3 .sample_NestedPacket_InerPacket (freshFields .sample_NestedPacket_InerPacket) ⟨[7, 0, 0, 0, 0xFF, 0x7F, 1, 0, 2, 0], [], 0⟩;
    r.2.2 = some .indexOutOfBounds ∧ r.2.1.rd = 10 ∧ (Val.obj .sample_NestedPacket_InerPacket r.1).elements = 2 := by
  decide +kernel

/-- A complete one: 10 bytes, two elements, five values. -/
example : let r := decode World.initial 3 .sample_NestedPacket_InerPacket (freshFields .sample_NestedPacket_InerPacket) ⟨[7, 0, 0, 0, 2, 0, 1, 0, 2, 0], [], 0⟩;
    r.2.2 = none ∧ r.2.1.rd = 10 ∧ (Val.obj .sample_NestedPacket_InerPacket r.1).nodes = 5 := by
  decide +kernel

example : FreshSuppliers World.initial := C31_default_factories

/-- `C62_contents`: a list of which two elements have arrived. -/
example := C62_contents World.initial C31_default_factories 3 .sample_NestedPacket_InerPacket ⟨[7, 0, 0, 0, 0xFF, 0x7F, 1, 0, 2, 0], [], 0⟩ _ _ _ rfl

end FinProto
