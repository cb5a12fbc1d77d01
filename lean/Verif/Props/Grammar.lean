import Verif.Proofs.GrammarComplete
import Verif.Props.DecodeErrors
/-
C71: `decode` accepts exactly the byte strings of the grammar in `Verif/Spec/Grammar.lean`.
-/
namespace FinProto

open Grammar

/-- **C71 (accepted).** From a buffer that holds `before ++ rest`, with the reader index behind `before`, `decode` succeeds with the field values
`news` and consumes `k` bytes exactly if the first `k` bytes of `rest` are, by the grammar, a message of class `c` that turns `olds` into `news`. -/
theorem C71_accepts (w : World) (hw : TypedSuppliers w) (c : Cls) (olds news : List Val) (hv : wellTyped (.obj c olds) = true)
    (before rest : List Byte) (k : Nat) :
    (∃ n, decode w n c olds ⟨before ++ rest, [], before.length⟩ = (news, ⟨before ++ rest, [], before.length + k⟩, none))
      ↔ ∃ X Y, rest = X ++ Y ∧ X.length = k ∧ Msg w c olds X news := by
  constructor
  · rintro ⟨n, h⟩
    simp only [wellTyped, hasType, Bool.true_and] at hv
    obtain ⟨X, ⟨h1, h2⟩, h3⟩ := (decode_sound w hw n c olds _ hv).1 _ _ h
    rw [List.append_nil, List.drop_left] at h2
    obtain ⟨Y, hY⟩ := h2
    refine ⟨X, Y, hY.symm, ?_, h3⟩
    simp only [RBuf.mk.injEq, true_and] at h1
    omega
  · rintro ⟨X, Y, rfl, rfl, h⟩
    obtain ⟨N, hN⟩ := msg_complete h
    exact ⟨N, by have := hN N (Nat.le_refl _) before Y []; simpa using this⟩

/-- **C71 (unknown keys).** `decode` throws `IllegalArgumentException` after `k` bytes exactly if the first `k` bytes lead, by the grammar, to a
key for which no class is registered. -/
theorem C71_unknown_key (w : World) (hw : TypedSuppliers w) (c : Cls) (olds : List Val) (hv : wellTyped (.obj c olds) = true)
    (before rest : List Byte) (k : Nat) :
    (∃ n, (decode w n c olds ⟨before ++ rest, [], before.length⟩).2 = (⟨before ++ rest, [], before.length + k⟩, some .illegalArgument))
      ↔ ∃ X Y, rest = X ++ Y ∧ X.length = k ∧ MsgStuck w c olds X := by
  constructor
  · rintro ⟨n, h⟩
    simp only [wellTyped, hasType, Bool.true_and] at hv
    obtain ⟨X, ⟨h1, h2⟩, h3⟩ := (decode_sound w hw n c olds _ hv).2 (decode w n c olds ⟨before ++ rest, [], before.length⟩).1 _
      (Prod.ext rfl h)
    rw [List.append_nil, List.drop_left] at h2
    obtain ⟨Y, hY⟩ := h2
    refine ⟨X, Y, hY.symm, ?_, h3⟩
    simp only [RBuf.mk.injEq, true_and] at h1
    omega
  · rintro ⟨X, Y, rfl, rfl, h⟩
    obtain ⟨N, hN⟩ := msg_stuck h
    exact ⟨N, by have := hN N (Nat.le_refl _) before Y []; simpa using this⟩

/-- **C71 (incomplete).** In all other cases, and only then, `decode` throws an index error.  (The stack must hold as many calls as there are bytes,
plus two; C28 shows that three are enough in a default process.) -/
theorem C71_incomplete (w : World) (hw : TypedSuppliers w) (n : Nat) (c : Cls) (olds : List Val) (hv : wellTyped (.obj c olds) = true)
    (before rest : List Byte) (hn : rest.length + 2 ≤ n) :
    (decode w n c olds ⟨before ++ rest, [], before.length⟩).2.2 = some .indexOutOfBounds
      ↔ ¬ ∃ X, X <+: rest ∧ ((∃ news, Msg w c olds X news) ∨ MsgStuck w c olds X) := by
  have hb : RBuf.room ⟨before ++ rest, [], before.length⟩ = rest.length := by simp [RBuf.room]
  have ht := C28_terminates w hw n c olds ⟨before ++ rest, [], before.length⟩ hv (by rw [hb]; exact hn)
  have hno : (decode w n c olds ⟨before ++ rest, [], before.length⟩).2.2 ≠ some .stackOverflow := by
    rcases ht with h | h | h <;> rw [h] <;> simp
  constructor
  · rintro h ⟨X, ⟨Y, rfl⟩, ⟨news, hm⟩ | hs⟩
    · obtain ⟨N, hN⟩ := msg_complete hm
      have h1 := hN (max N n) (by omega) before Y []
      have h2 := C28_depth_irrelevant w n (max N n) (by omega) c olds _ hno
      simp only [List.append_assoc] at h1
      rw [h2] at h1
      rw [h1] at h
      cases h
    · obtain ⟨N, hN⟩ := msg_stuck hs
      have h1 := hN (max N n) (by omega) before Y []
      have h2 := C28_depth_irrelevant w n (max N n) (by omega) c olds _ hno
      simp only [List.append_assoc] at h1
      rw [h2] at h1
      rw [h1] at h
      cases h
  · intro hne
    simp only [wellTyped, hasType, Bool.true_and] at hv
    have hs := decode_sound w hw n c olds ⟨before ++ rest, [], before.length⟩ hv
    revert ht hs
    rcases decode w n c olds ⟨before ++ rest, [], before.length⟩ with ⟨fs, b', r⟩
    intro ht hs
    rcases ht with rfl | rfl | rfl
    · obtain ⟨X, ⟨_, h2⟩, h3⟩ := hs.1 _ _ rfl
      rw [List.append_nil, List.drop_left] at h2
      exact absurd ⟨X, h2, .inl ⟨_, h3⟩⟩ hne
    · rfl
    · obtain ⟨X, ⟨_, h2⟩, h3⟩ := hs.2 _ _ rfl
      rw [List.append_nil, List.drop_left] at h2
      exact absurd ⟨X, h2, .inr h3⟩ hne

/-- **C71 (unambiguous).** No byte string can be read as a message in two ways, and no message is the beginning of another one. -/
theorem C71_unambiguous (w : World) (c : Cls) (olds news news' : List Val) (X X' Y Y' : List Byte)
    (h : Msg w c olds X news) (h' : Msg w c olds X' news') (he : X ++ Y = X' ++ Y') : X = X' ∧ news = news' := by
  obtain ⟨N, hN⟩ := msg_complete h
  obtain ⟨M, hM⟩ := msg_complete h'
  have h1 := hN (max N M) (by omega) [] Y []
  have h2 := hM (max N M) (by omega) [] Y' []
  simp only [List.nil_append] at h1 h2
  rw [he, h2] at h1
  simp only [Prod.mk.injEq, RBuf.mk.injEq, List.length_nil, Nat.zero_add, true_and, and_true] at h1
  refine ⟨?_, h1.1.symm⟩
  exact (List.append_inj he h1.2.symm).1

/-- **C71 (unambiguous).** A message never begins with bytes that lead to an unknown key. -/
theorem C71_unknown_final (w : World) (c : Cls) (olds news : List Val) (X X' Y Y' : List Byte)
    (h : Msg w c olds X news) (h' : MsgStuck w c olds X') : X ++ Y ≠ X' ++ Y' := by
  intro he
  obtain ⟨N, hN⟩ := msg_complete h
  obtain ⟨M, hM⟩ := msg_stuck h'
  have h1 := hN (max N M) (by omega) [] Y []
  have h2 := hM (max N M) (by omega) [] Y' []
  simp only [List.nil_append] at h1 h2
  rw [he] at h1
  rw [h1] at h2
  simp at h2

/-- A string packet of the sample protocol with a negative length: the string stays as it was. -/
theorem exNegative : Field World.initial (conv .sample) [] .vstr (.str (js "old")) [0xFE, 0xFF] (.str (js "old")) :=
  .strNone (z := -2) ⟨⟨.i16, 0xFFFE#16⟩, rfl, by decide, by decide⟩ (by decide)

/-- A string of two bytes. -/
theorem exTwo : Field World.initial (conv .sample) [] .vstr .null ([2, 0] ++ [0x41, 0x42]) (.str (js "AB")) :=
  .str ⟨⟨.i16, 2#16⟩, rfl, by decide, by decide⟩ (by decide)

/-- A whole message: SSE execution report information with one platform. -/
example : Msg World.initial .sse_ExecRptInfo (freshFields .sse_ExecRptInfo)
    ([0, 7] ++ (([0, 0]) ++ (([0, 1] ++ ([1, 2, 3, 4] ++ [])) ++ [])))
    [.num ⟨.i16, 7⟩, .null, .list [.num ⟨.i32, 0x01020304⟩]] :=
  .mk (.cons (.num ⟨.i16, 7⟩)
    (.cons (.listNone (z := 0) ⟨⟨.i16, 0#16⟩, rfl, by decide, by decide⟩ (by decide))
      (.cons (.list (m := 1) ⟨⟨.i16, 1#16⟩, rfl, by decide, by decide⟩ (by decide) (.cons (.num ⟨.i32, 0x01020304⟩) .nil)) .nil)))

/-- An SSE header with a message type nobody registered. -/
example : MsgStuck World.initial .sse_SseBinary (freshFields .sse_SseBinary)
    (([0, 1, 2, 3] ++ ([0, 0, 0, 0, 0, 0, 0, 5] ++ ([0, 0, 0, 9] ++ []))) ++ []) :=
  .mk (ts := [.num .i32, .num .i64, .len .i32]) (olds' := [.num ⟨.i32, 0⟩, .num ⟨.i64, 0⟩, .num ⟨.i32, 0⟩])
    (news := [.num ⟨.i32, 0x010203⟩, .num ⟨.i64, 5⟩, .num ⟨.i32, 9⟩]) rfl rfl rfl
    (.cons (.num ⟨.i32, 0x010203⟩) (.cons (.num ⟨.i64, 5⟩) (.cons (.len ⟨.i32, 9⟩) .nil)))
    (.ext (kv := .num ⟨.i32, 0x010203⟩) rfl (by decide +kernel))

/-- `C71_accepts`, `C71_unknown_key`, `C71_incomplete` on receivers that have just been created. -/
example := C71_accepts World.initial C28_default_world.1 .sse_ExecRptInfo (freshFields .sse_ExecRptInfo)
  [.num ⟨.i16, 7⟩, .null, .list [.num ⟨.i32, 0x01020304⟩]] (by decide +kernel) [9] [0, 7, 0, 0, 0, 1, 1, 2, 3, 4, 5] 10
example := C71_unknown_key World.initial C28_default_world.1 .sse_SseBinary (freshFields .sse_SseBinary) (by decide +kernel)
  [9] [0, 1, 2, 3, 0, 0, 0, 0, 0, 0, 0, 5, 0, 0, 0, 9] 16
example := C71_incomplete World.initial C28_default_world.1 20 .sse_SseBinary (freshFields .sse_SseBinary) (by decide +kernel)
  [9] [0, 1, 2, 3, 0, 0, 0, 0, 0] (by decide)

end FinProto
