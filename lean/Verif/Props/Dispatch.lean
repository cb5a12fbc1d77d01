import Verif.Props.Fixed
import Verif.Model.Factory
/-
C35: polymorphic parts are constructed by the factory from the key that was read.
-/
namespace FinProto

theorem key_before (c : Cls) (i key : Nat) (fac : Fac) (hf : (wire c)[i]? = some (.ext fac key)) : key < i := by
  have hk := keysOk_table c
  have : ∀ (ts all : List WTy) (j i : Nat), keysOk j all ts = true → ts[i]? = some (.ext fac key) → key < j + i := by
    intro ts all
    induction ts with
    | nil => intro j i _ h; simp at h
    | cons t ts ih =>
      intro j i h1 h2
      cases i with
      | zero =>
        simp only [List.getElem?_cons_zero, Option.some.injEq] at h2
        subst h2
        simp only [keysOk, Bool.and_eq_true, decide_eq_true_eq] at h1
        exact h1.1.1
      | succ i =>
        have h3 : keysOk (j + 1) all ts = true := by
          cases t <;> simp only [keysOk, Bool.and_eq_true] at h1
          case ext => exact h1.2
          all_goals exact h1
        have := ih (j + 1) i h3 (by simpa using h2)
        omega
  have := this (wire c) (wire c) 0 i hk hf
  omega

/-- **C35.** A class with a polymorphic field behind a fixed-width header.  When the header is in the buffer: the header fields get the values of
their bytes, and then
* if the factory has no supplier for the key just read: `IllegalArgumentException`, with only the header consumed and all other
  fields left as they were;
* otherwise the field gets the supplied object, decoded from the bytes behind the header; an exception there is passed on. -/
theorem C35_dispatch (w : World) (n : Nat) (c : Cls) (i o key : Nat) (fac : Fac) (olds : List Val) (b : RBuf)
    (hf : (wire c)[i]? = some (.ext fac key)) (ho : offset? (wire c) i = some o) (hl : olds.length = (wire c).length)
    (hb : b.rd + o ≤ b.data.length) :
    ∃ head kv, head = headValues (conv c.mod) ((wire c).take i) (b.data.drop b.rd) ∧ head.length = i ∧ head[key]? = some kv
      ∧ (w.fac fac (keyOf kv) = none →
          decode w (n + 1) c olds b = (head ++ olds.drop i, { b with rd := b.rd + o }, some .illegalArgument))
      ∧ (∀ c' fs', w.fac fac (keyOf kv) = some (.obj c' fs') →
          (decode w (n + 1) c olds b).1[i]? = some (.obj c' (decode w n c' fs' { b with rd := b.rd + o }).1)
            ∧ (decode w (n + 1) c olds b).1.take i = head
            ∧ ∀ e, (decode w n c' fs' { b with rd := b.rd + o }).2.2 = some e →
                decode w (n + 1) c olds b =
                  (head ++ .obj c' (decode w n c' fs' { b with rd := b.rd + o }).1 :: olds.drop (i + 1),
                    (decode w n c' fs' { b with rd := b.rd + o }).2.1, some e)) := by
  have hi : i < (wire c).length := (List.getElem?_eq_some_iff.mp hf).1
  have hhl := headValues_length (conv c.mod) (wire c) i o (b.data.drop b.rd) ho
  have hkey := key_before c i key fac hf
  have hd : decode w (n + 1) c olds b = readFields w (decode w n) (conv c.mod)
      (headValues (conv c.mod) ((wire c).take i) (b.data.drop b.rd)) (.ext fac key :: (wire c).drop (i + 1)) (olds[i]'(by omega) :: olds.drop (i + 1))
      { b with rd := b.rd + o } := by
    rw [decode_eq w n c olds b hl, readFields_head w (decode w n) (conv c.mod) (wire c) i o [] olds b ho hl hb]
    rw [List.drop_eq_getElem_cons hi, List.drop_eq_getElem_cons (by omega : i < olds.length), (List.getElem?_eq_some_iff.mp hf).2]
    simp
  obtain ⟨head, hH⟩ : ∃ head, head = headValues (conv c.mod) ((wire c).take i) (b.data.drop b.rd) := ⟨_, rfl⟩
  rw [← hH] at hd hhl
  have hkv : head[key]? = some (head[key]'(by omega)) := List.getElem?_eq_getElem (by omega)
  refine ⟨head, _, hH, hhl, hkv, ?_, ?_⟩
  · intro hnone
    rw [hd]
    simp only [readFields, readField, hkv, hnone]
    rw [List.drop_eq_getElem_cons (by omega : i < olds.length)]
  · intro c' fs' hsome
    have hr : readField w (decode w n) (conv c.mod) head (.ext fac key) (olds[i]'(by omega)) { b with rd := b.rd + o }
        = (.obj c' (decode w n c' fs' { b with rd := b.rd + o }).1, (decode w n c' fs' { b with rd := b.rd + o }).2) := by
      simp only [readField, hkv, hsome]
    rw [hd]
    simp only [readFields, hr]
    rcases decode w n c' fs' { b with rd := b.rd + o } with ⟨gs, b1, _ | e⟩
    · obtain ⟨s, hs⟩ := readFields_prefix w (decode w n) (conv c.mod) ((wire c).drop (i + 1)) (head ++ [.obj c' gs]) (olds.drop (i + 1)) b1
      dsimp only
      rw [← hs]
      refine ⟨by subst hhl; simp, by subst hhl; simp, ?_⟩
      intro e he; cases he
    · refine ⟨by subst hhl; simp, by subst hhl; simp, ?_⟩
      intro e' he
      cases he
      rfl

/-- **C35.** If the header is not complete (and the backing array ends with the written bytes), an index error is thrown. -/
theorem C35_header_incomplete (w : World) (n : Nat) (c : Cls) (i o : Nat) (olds : List Val) (b : RBuf)
    (ho : offset? (wire c) i = some o) (hl : olds.length = (wire c).length)
    (hrd : b.rd ≤ b.data.length) (hb : b.data.length < b.rd + o) (hs : b.spare = []) :
    (decode w (n + 1) c olds b).2.2 = some .indexOutOfBounds := by
  rw [decode_eq w n c olds b hl]
  exact readFields_head_fail w (decode w n) (conv c.mod) (wire c) i o [] olds b ho hl hrd (by omega) hs

/-- All polymorphic fields are behind a fixed-width header, with one exception (`QuoteResponse` of BJSE, which has a list in front). -/
theorem C35_headers (c : Cls) (i key : Nat) (fac : Fac) (h : (wire c)[i]? = some (.ext fac key)) (hc : c ≠ .bjse_QuoteResponse) :
    (offset? (wire c) i).isSome = true := by
  have htab : ∀ c : Cls, c ≠ .bjse_QuoteResponse →
      (List.range (wire c).length).all (fun i => match (wire c)[i]? with | some (.ext _ _) => (offset? (wire c) i).isSome | _ => true) = true := by
    intro c hc
    cases c <;> first | exact absurd rfl hc | decide
  have := htab c hc
  rw [List.all_eq_true] at this
  have := this i (by rw [List.mem_range]; exact (List.getElem?_eq_some_iff.mp h).1)
  rw [h] at this
  exact this

/-- **C35 (any class with a polymorphic field).** Either an exception is thrown before the field is reached (which is then unchanged, as is everything
behind it), or the fields in front of it have been read, and then a missing supplier for the key just read gives `IllegalArgumentException` with
nothing further consumed or changed, and otherwise the field is the supplied object, decoded from where the header ended. -/
theorem C35_any (w : World) (n : Nat) (c : Cls) (i key : Nat) (fac : Fac) (olds : List Val) (b : RBuf)
    (hf : (wire c)[i]? = some (.ext fac key)) (hl : olds.length = (wire c).length) :
    (∃ gs b' e, decode w (n + 1) c olds b = (gs, b', some e) ∧ gs.drop i = olds.drop i)
    ∨ ∃ head b1 kv, head.length = i ∧ head[key]? = some kv
      ∧ (w.fac fac (keyOf kv) = none → decode w (n + 1) c olds b = (head ++ olds.drop i, b1, some .illegalArgument))
      ∧ (∀ c' fs', w.fac fac (keyOf kv) = some (.obj c' fs') →
          (decode w (n + 1) c olds b).1[i]? = some (.obj c' (decode w n c' fs' b1).1)
            ∧ (decode w (n + 1) c olds b).1.take i = head
            ∧ ∀ e, (decode w n c' fs' b1).2.2 = some e →
                decode w (n + 1) c olds b =
                  (head ++ .obj c' (decode w n c' fs' b1).1 :: olds.drop (i + 1), (decode w n c' fs' b1).2.1, some e)) := by
  have hi : i < (wire c).length := (List.getElem?_eq_some_iff.mp hf).1
  have hkey := key_before c i key fac hf
  have hsplit := readFields_append w (decode w n) (conv c.mod) ((wire c).take i) ((wire c).drop i) [] (olds.take i) (olds.drop i) b
    (by simp; omega)
  have hlen := readFields_length w (decode w n) (conv c.mod) ((wire c).take i) [] (olds.take i) b
  rw [List.take_append_drop, List.take_append_drop] at hsplit
  rw [decode_eq w n c olds b hl, hsplit]
  revert hlen
  rcases readFields w (decode w n) (conv c.mod) [] ((wire c).take i) (olds.take i) b with ⟨head, b1, _ | e⟩
  · intro hlen
    have hhl : head.length = i := by simpa [Nat.min_eq_left (by omega : i ≤ olds.length)] using hlen
    have hkv : head[key]? = some (head[key]'(by omega)) := List.getElem?_eq_getElem (by omega)
    refine .inr ⟨head, b1, _, hhl, hkv, ?_, ?_⟩
    · intro hnone
      dsimp only
      rw [List.drop_eq_getElem_cons hi, List.drop_eq_getElem_cons (by omega : i < olds.length), (List.getElem?_eq_some_iff.mp hf).2]
      simp only [readFields, readField, hkv, hnone]
    · intro c' fs' hsome
      dsimp only
      rw [List.drop_eq_getElem_cons hi, List.drop_eq_getElem_cons (by omega : i < olds.length), (List.getElem?_eq_some_iff.mp hf).2]
      simp only [readFields, readField, hkv, hsome]
      rcases decode w n c' fs' b1 with ⟨gs, b2, _ | e⟩
      · obtain ⟨s, hs⟩ := readFields_prefix w (decode w n) (conv c.mod) ((wire c).drop (i + 1)) (head ++ [.obj c' gs]) (olds.drop (i + 1)) b2
        dsimp only
        rw [← hs]
        refine ⟨by subst hhl; simp, by subst hhl; simp, ?_⟩
        intro e he; cases he
      · refine ⟨by subst hhl; simp, by subst hhl; simp, ?_⟩
        intro e' he
        cases he
        rfl
  · intro hlen
    have hhl : head.length = i := by simpa [Nat.min_eq_left (by omega : i ≤ olds.length)] using hlen
    refine .inl ⟨_, _, _, rfl, ?_⟩
    subst hhl
    simp

/-- The keys: the SSE frame dispatches on the 32-bit message type in its first four bytes. -/
theorem C35_sse (w : World) (n : Nat) (olds : List Val) (b : RBuf) (hl : olds.length = 5) (hb : b.rd + 16 ≤ b.data.length) :
    let t : BitVec 32 := BitVec.ofNat 32 (ofBytes .be ((b.data.drop b.rd).take 4))
    ((w.fac .sse_SseBinary (.int t) = none) →
      (decode w (n + 1) .sse_SseBinary olds b).2 = ({ b with rd := b.rd + 16 }, some .illegalArgument))
    ∧ (∀ c' fs', w.fac .sse_SseBinary (.int t) = some (.obj c' fs') →
        (decode w (n + 1) .sse_SseBinary olds b).1[3]? = some (.obj c' (decode w n c' fs' { b with rd := b.rd + 16 }).1)) := by
  obtain ⟨head, kv, h1, _, h2, h3, h4⟩ := C35_dispatch w n .sse_SseBinary 3 16 0 .sse_SseBinary olds b rfl (by decide +kernel) hl hb
  have hkv : keyOf kv = .int (BitVec.ofNat 32 (ofBytes .be ((b.data.drop b.rd).take 4))) := by
    rw [h1] at h2
    have : kv = .num ⟨.i32, BitVec.ofNat 32 (ofBytes .be ((b.data.drop b.rd).take 4))⟩ := (Option.some.inj h2).symm
    rw [this]; rfl
  rw [hkv] at h3 h4
  exact ⟨fun h => by rw [h3 h], fun c' fs' h => (h4 c' fs' h).1⟩

/-- An unknown and a known message type. -/
example : (decode World.initial 3 .sse_SseBinary (freshFields .sse_SseBinary) ⟨[0, 0, 0, 99, 0, 0, 0, 0, 0, 0, 0, 1, 0, 0, 0, 0], [], 0⟩).2
      = (⟨[0, 0, 0, 99, 0, 0, 0, 0, 0, 0, 0, 1, 0, 0, 0, 0], [], 16⟩, some .illegalArgument)
    ∧ (decode World.initial 3 .sse_SseBinary (freshFields .sse_SseBinary) ⟨[0, 0, 0, 33, 0, 0, 0, 0, 0, 0, 0, 1, 0, 0, 0, 0, 0, 0, 0, 7], [], 0⟩).2
      = (⟨[0, 0, 0, 33, 0, 0, 0, 0, 0, 0, 0, 1, 0, 0, 0, 0, 0, 0, 0, 7], [], 20⟩, none) := by decide +kernel

/-- `C35_dispatch`, `C35_header_incomplete`, `C35_headers`, `C35_any`. -/
example := C35_dispatch World.initial 2 .sse_SseBinary 3 16 0 .sse_SseBinary (freshFields .sse_SseBinary)
  ⟨[0, 0, 0, 33, 0, 0, 0, 0, 0, 0, 0, 1, 0, 0, 0, 0, 0, 0, 0, 7], [], 0⟩ rfl (by decide +kernel) (by decide +kernel) (by decide)
example := C35_header_incomplete World.initial 2 .sse_SseBinary 3 16 (freshFields .sse_SseBinary)
  ⟨[0, 0, 0, 33, 0, 0, 0, 0, 0], [], 0⟩ (by decide +kernel) (by decide +kernel) (by decide) (by decide) rfl
example := C35_headers .sse_SseBinary 3 0 .sse_SseBinary rfl (by decide)
example := C35_any World.initial 2 .sse_SseBinary 3 0 .sse_SseBinary (freshFields .sse_SseBinary)
  ⟨[0, 0, 0, 33, 0, 0, 0, 0, 0, 0, 0, 1, 0, 0, 0, 0, 0, 0, 0, 7], [], 0⟩ rfl (by decide +kernel)

end FinProto
