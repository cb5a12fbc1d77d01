import Verif.Proofs.Shape
import Verif.Props.Objects
/-
C87: what the size of an encoding, and whether it succeeds, depends on.
-/
namespace FinProto

theorem sameNum_shape (x y : Num) (h : sameNum x y) : x.ty = y.ty := by
  rcases h with rfl | h
  · rfl
  · exact h.1

mutual
theorem shape_of_same : ∀ a b : Val, same a b → sameShape a b
  | .null, b, h => by rw [same] at h; subst h; simp [sameShape]
  | .num x, b, h => by rw [same] at h; obtain ⟨y, rfl, h⟩ := h; simp [sameShape, sameNum_shape x y h]
  | .str s, b, h => by rw [same] at h; subst h; simp [sameShape]
  | .list xs, b, h => by rw [same] at h; obtain ⟨ys, rfl, h⟩ := h; simpa [sameShape] using shapes_of_same xs ys h
  | .obj c fs, b, h => by rw [same] at h; obtain ⟨gs, rfl, h⟩ := h; simpa [sameShape] using shapes_of_same fs gs h
theorem shapes_of_same : ∀ xs ys : List Val, sameAll xs ys → sameShapes xs ys
  | [], ys, h => by rw [sameAll] at h; subst h; simp [sameShapes]
  | x :: xs, ys, h => by
    rw [sameAll] at h
    obtain ⟨z, zs, rfl, h1, h2⟩ := h
    exact sameShapes_cons (shape_of_same x z h1) (shapes_of_same xs zs h2)
end

/-- **C87.** Two messages of the same shape, encoded into any two buffers with the same room, by programs with any checksum services and factories, with the same
call stack: both calls succeed or both throw the same exception, and both append equally many bytes.  (Shape: the classes, the lengths of lists, the lengths of the
UTF-8 forms of texts, the types of numbers, what is null.  No value of a number has any influence.) -/
theorem C87_size (w1 w2 : World) (n : Nat) (a b : Val) (ha : wellTyped a = true) (hs : sameShape a b) (b1 b2 : WBuf) (h1 : b1.data.length ≤ b1.maxCap)
    (h2 : b2.data.length ≤ b2.maxCap) (hr : b1.room = b2.room) :
    (encode w1 n a b1).2.2 = (encode w2 n b b2).2.2
    ∧ (encode w1 n a b1).2.1.data.length - b1.data.length = (encode w2 n b b2).2.1.data.length - b2.data.length := by
  have hok : intsOk a := by
    cases a <;> simp [wellTyped] at ha
    exact intsOk_of_type .codec _ ha
  unfold WBuf.room at hr
  obtain ⟨_, _, hb, he⟩ := encode_alike b1.data.length b2.data.length w1 w2 n a b b1 b2 hs hok ⟨by omega, by omega⟩
  exact ⟨he, by have := hb.len; omega⟩

/-- **C87.** Registering or removing checksum services changes neither the size of an encoding nor whether it succeeds. -/
theorem C87_services (w : World) (reg : Registry) (n : Nat) (a : Val) (ha : wellTyped a = true) (buf : WBuf) :
    (encode { w with svc := reg } n a buf).2.2 = (encode w n a buf).2.2
    ∧ (encode { w with svc := reg } n a buf).2.1.data.length = (encode w n a buf).2.1.data.length := by
  have hok : intsOk a := by
    cases a <;> simp [wellTyped] at ha
    exact intsOk_of_type .codec _ ha
  obtain ⟨_, _, h, he⟩ := encode_alike 0 0 { w with svc := reg } w n a a buf buf (sameShape_refl a) hok ⟨rfl, rfl⟩
  exact ⟨he, by have := h.len; omega⟩

/-- **C87.** A setter of a numeric field changes neither. -/
theorem C87_number (w : World) (n : Nat) (c : Cls) (fs : List Val) (f : Nat) (old new : Num) (ha : wellTyped (.obj c fs) = true) (hf : fs[f]? = some (.num old))
    (ht : new.ty = old.ty) (buf : WBuf) :
    (encode w n (.obj c (fs.set f (.num new))) buf).2.2 = (encode w n (.obj c fs) buf).2.2
    ∧ (encode w n (.obj c (fs.set f (.num new))) buf).2.1.data.length = (encode w n (.obj c fs) buf).2.1.data.length := by
  have hok : intsOk (.obj c fs) := by
    simp [wellTyped] at ha
    exact intsOk_of_type .codec _ ha
  have hs : sameShape (.obj c fs) (.obj c (fs.set f (.num new))) := by
    simpa [sameShape] using sameShapes_set fs f _ (.num new) hf (by simp [sameShape, ht])
  obtain ⟨_, _, h, he⟩ := encode_alike 0 0 w w n _ _ buf buf hs hok ⟨rfl, rfl⟩
  exact ⟨he.symm, by have := h.len; omega⟩

/-- **C46.** Equal messages, NaNs included, encode with the same number of bytes and the same exception: only the bits of NaNs, and checksums over them, can differ. -/
theorem C46_same_size (a b : Val) (ha : wellTyped a = true) (hb : wellTyped b = true) (h : a.equals b = true) (w : World) (n : Nat) (buf : WBuf) :
    (encode w n a buf).2.2 = (encode w n b buf).2.2 ∧ (encode w n a buf).2.1.data.length = (encode w n b buf).2.1.data.length := by
  have hok : intsOk a := by
    cases a <;> simp [wellTyped] at ha
    exact intsOk_of_type .codec _ ha
  obtain ⟨_, _, h, he⟩ := encode_alike 0 0 w w n a b buf buf (shape_of_same a b ((C45_equals_same a b ha hb).mp h)) hok ⟨rfl, rfl⟩
  exact ⟨he, by have := h.len; omega⟩

/-! ### Instances -/

/-- Frames of the same shape with different numbers. -/
def exShape (x : BitVec 32) : Val :=
  .obj .sample_RootPacket [.num ⟨.i16, x.setWidth 16⟩, .num ⟨.i32, x⟩, .obj .sample_NestedPacket
    [.obj .sample_SubPacket [.num ⟨.i32, x⟩, .list [.num ⟨.i16, x.setWidth 16⟩, .num ⟨.i16, 1⟩]], .null, .null], .num ⟨.i32, x⟩]

theorem sameShapes_cons_iff (x y : Val) (xs ys : List Val) : sameShapes (x :: xs) (y :: ys) ↔ sameShape x y ∧ sameShapes xs ys := by
  constructor
  · intro h
    rw [sameShapes] at h
    obtain ⟨z, zs, he, h1, h2⟩ := h
    injection he with e1 e2
    subst e1; subst e2
    exact ⟨h1, h2⟩
  · exact fun h => sameShapes_cons h.1 h.2

theorem exShape_same (x y : BitVec 32) : sameShape (exShape x) (exShape y) := by
  simp only [exShape, sameShape, Val.obj.injEq, true_and, exists_eq_left', sameShapes_cons_iff, Val.num.injEq, Val.list.injEq]
  simp [sameShapes]

example : wellTyped (exShape 1) = true ∧ sameShape (exShape 1) (exShape 77) := by
  exact ⟨by decide +kernel, exShape_same _ _⟩
example := C87_size World.initial ⟨fun _ => none, fun _ _ => none⟩ 5 (exShape 1) (exShape 77) (by decide +kernel) (exShape_same _ _)
  ⟨[1, 2, 3], 0, 40⟩ ⟨[], 0, 37⟩ (by decide) (by decide) rfl
/-- With this room both fail, after the same number of bytes. -/
example : (encode World.initial 5 (exShape 1) ⟨[1, 2, 3], 0, 20⟩).2.2 = some .indexOutOfBounds
    ∧ (encode World.initial 5 (exShape 1) ⟨[1, 2, 3], 0, 20⟩).2.1.data.length = (encode World.initial 5 (exShape 77) ⟨[], 0, 17⟩).2.1.data.length + 3 := by
  decide +kernel
/-- Texts with different characters whose UTF-8 forms are equally long: "é" and "ab". -/
example : sameShape (.obj .sample_StringPacket [.str [0xE9]]) (.obj .sample_StringPacket [.str [0x61, 0x62]]) := by
  simp only [sameShape, sameShapes]
  exact ⟨_, rfl, _, _, rfl, ⟨_, rfl, by decide +kernel⟩, rfl⟩
example : exFloat 0x7FC00000 ≠ exFloat 0xFFC00001 ∧ (exFloat 0x7FC00000).equals (exFloat 0xFFC00001) = true := by
  refine ⟨fun h => ?_, by decide +kernel⟩
  have := congrArg (fun v => (encode World.initial 3 v ⟨[], 0, 1000⟩).2.1.data) h
  revert this
  decide +kernel
example := C87_number World.initial 5 .sample_SubPacket [.num ⟨.i32, 5⟩, .null] 0 ⟨.i32, 5⟩ ⟨.i32, 0xFFFFFFFF⟩ (by decide +kernel) rfl rfl ⟨[], 0, 5⟩

/-- `C87_services`, `C46_same_size`. -/
example := C87_services World.initial (fun _ => none) 5 (exShape 1) (by decide +kernel) ⟨[1, 2, 3], 0, 40⟩
example := C46_same_size (exFloat 0x7FC00000) (exFloat 0xFFC00001) (by decide +kernel) (by decide +kernel) (by decide +kernel) World.initial 3 ⟨[], 0, 20⟩

end FinProto
