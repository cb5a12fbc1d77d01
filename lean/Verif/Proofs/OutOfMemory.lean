import Verif.Proofs.Netty
/-
A call that runs out of memory does what it would do on a buffer whose limit is the capacity it had at that point.
-/
namespace FinProto.Netty

def NBuf.limit (b : NBuf) (M : Nat) : NBuf := { b with maxCap := M }

/-- Growing as `grow` does on a buffer with limit `C`, as long as it fits. -/
def capGrow (grow : Grow) (C : Nat) : Grow := fun b n =>
  match grow (b.limit C) n with
  | some m => if b.wr + n ≤ b.mem.length + m.length ∧ b.mem.length + m.length ≤ b.maxCap then some m else some (List.replicate (b.wr + n - b.mem.length) 0)
  | none => some (List.replicate (b.wr + n - b.mem.length) 0)

theorem capGrow_ok (grow : Grow) (C : Nat) : (capGrow grow C).Ok := by
  intro b n h1 h2
  unfold capGrow
  have rest : b.wr + n ≤ b.mem.length + (List.replicate (b.wr + n - b.mem.length) (0 : Byte)).length
      ∧ b.mem.length + (List.replicate (b.wr + n - b.mem.length) (0 : Byte)).length ≤ b.maxCap := by
    rw [List.length_replicate]; omega
  cases grow (b.limit C) n with
  | none => exact ⟨_, rfl, rest⟩
  | some m =>
    dsimp only
    by_cases h : b.wr + n ≤ b.mem.length + m.length ∧ b.mem.length + m.length ≤ b.maxCap
    · rw [if_pos h]; exact ⟨m, rfl, h⟩
    · rw [if_neg h]; exact ⟨_, rfl, rest⟩

def asLimit : NErr → NErr
  | .outOfMemory => .java .indexOutOfBounds
  | e => e

/-- `r`: what an operation does on `b`; `q M`: what it does on the buffer with limit `M`. -/
structure Cap (b : NBuf) (r : NBuf × Option NErr) (q : Nat → NBuf × Option NErr) : Prop where
  mono : b.mem.length ≤ r.1.mem.length
  cap : r.1.maxCap = b.maxCap
  bound : b.mem.length ≤ b.maxCap → r.1.mem.length ≤ b.maxCap
  sim : ∀ M, r.1.mem.length ≤ M → M ≤ b.maxCap → (r.2 = some .outOfMemory → M = r.1.mem.length) → q M = (r.1.limit M, r.2.map asLimit)

def andThen (r : NBuf × Option NErr) (k : NBuf → NBuf × Option NErr) : NBuf × Option NErr :=
  match r with
  | (b, none) => k b
  | (b, some e) => (b, some e)

theorem Cap.stay (b : NBuf) (e : Option NErr) (he : e ≠ some .outOfMemory) : Cap b (b, e) fun M => (b.limit M, e) := by
  refine ⟨Nat.le_refl _, rfl, id, fun M _ _ _ => ?_⟩
  rcases e with _ | _ | _ | _
  · rfl
  · rfl
  · rfl
  · exact absurd rfl he

theorem Cap.andThen {b : NBuf} {r : NBuf × Option NErr} {q : Nat → NBuf × Option NErr} {k k' : NBuf → NBuf × Option NErr} (h : Cap b r q)
    (hk : ∀ b1, b1.maxCap = b.maxCap → Cap b1 (k b1) fun M => k' (b1.limit M)) : Cap b (andThen r k) fun M => Netty.andThen (q M) k' := by
  obtain ⟨b1, _ | e⟩ := r
  · have h2 := hk b1 h.cap
    have hm := h2.mono
    have hc : b1.maxCap = b.maxCap := h.cap
    refine ⟨Nat.le_trans h.mono h2.mono, h2.cap.trans h.cap, (fun hle => by have := h2.bound; rw [hc] at this; exact this (h.bound hle)), fun M h3 h4 h5 => ?_⟩
    change (k b1).1.mem.length ≤ M at h3
    have h6 := h.sim M (Nat.le_trans hm h3) h4 (fun h => by cases h)
    rw [h6]
    exact h2.sim M h3 (by rw [hc]; exact h4) h5
  · refine ⟨h.mono, h.cap, h.bound, fun M h3 h4 h5 => ?_⟩
    rw [h.sim M h3 h4 h5]
    rfl

variable {grow : Grow} (hg : grow.Fair)

include hg in
theorem write_cap {b : NBuf} (bs : List Byte) {C : Nat} (hC : b.maxCap = C) : Cap b (b.write grow bs) fun M => (b.limit M).write (capGrow grow C) bs := by
  subst hC
  obtain ⟨mem, rd, wr, maxCap, _ | _⟩ := b
  · exact Cap.stay _ (some .released) (fun h => by cases h)
  · have run : ∀ (g : Grow) (C : Nat), NBuf.write g ⟨mem, rd, wr, C, true⟩ bs =
        if wr + bs.length ≤ mem.length then (⟨overwrite mem wr bs, rd, wr + bs.length, C, true⟩, none)
        else if C < wr + bs.length then (⟨mem, rd, wr, C, true⟩, some (.java .indexOutOfBounds))
        else match g ⟨mem, rd, wr, C, true⟩ bs.length with
          | some m => (⟨overwrite (mem ++ m) wr bs, rd, wr + bs.length, C, true⟩, none)
          | none => (⟨mem, rd, wr, C, true⟩, some .outOfMemory) := by
      intro g C
      unfold NBuf.write NBuf.ensureWritable
      simp only [Bool.not_true, Bool.false_eq_true, ↓reduceIte]
      by_cases hfit : wr + bs.length ≤ mem.length
      · simp only [if_pos hfit]
      · simp only [if_neg hfit]
        by_cases hmax : C < wr + bs.length
        · simp only [if_pos hmax]
        · simp only [if_neg hmax]
          cases g ⟨mem, rd, wr, C, true⟩ bs.length <;> rfl
    simp only [NBuf.limit, run]
    by_cases hfit : wr + bs.length ≤ mem.length
    · simp only [if_pos hfit]
      exact ⟨by rw [overwrite_length _ _ _ hfit]; exact Nat.le_refl _, rfl, (by intro h; rw [overwrite_length _ _ _ hfit]; exact h), fun M _ _ _ => rfl⟩
    · simp only [if_neg hfit]
      by_cases hmax : maxCap < wr + bs.length
      · simp only [if_pos hmax]
        refine ⟨Nat.le_refl _, rfl, id, fun M _ h _ => ?_⟩
        change M ≤ maxCap at h
        rw [if_pos (by omega : M < wr + bs.length)]
        rfl
      · simp only [if_neg hmax]
        rcases hm : grow ⟨mem, rd, wr, maxCap, true⟩ bs.length with _ | m
        · refine ⟨Nat.le_refl _, rfl, id, fun M h1 h2 h3 => ?_⟩
          have h3 : M = mem.length := h3 rfl
          rw [if_pos (by omega : M < wr + bs.length)]
          rfl
        · obtain ⟨f1, f2⟩ := hg ⟨mem, rd, wr, maxCap, true⟩ bs.length m (by dsimp only; omega) (by dsimp only; omega) hm
          dsimp only at f1 f2
          have hl : wr + bs.length ≤ (mem ++ m).length := by rw [List.length_append]; exact f1
          refine ⟨?_, rfl, ?_, fun M h1 h2 h3 => ?_⟩
          · show mem.length ≤ (overwrite (mem ++ m) wr bs).length
            rw [overwrite_length _ _ _ hl, List.length_append]; omega
          · intro _
            show (overwrite (mem ++ m) wr bs).length ≤ maxCap
            rw [overwrite_length _ _ _ hl, List.length_append]; exact f2
          · change (overwrite (mem ++ m) wr bs).length ≤ M at h1
            rw [overwrite_length _ _ _ hl, List.length_append] at h1
            rw [if_neg (by omega : ¬ M < wr + bs.length)]
            have : capGrow grow maxCap ⟨mem, rd, wr, M, true⟩ bs.length = some m := by
              unfold capGrow
              have : grow (NBuf.limit ⟨mem, rd, wr, M, true⟩ maxCap) bs.length = some m := hm
              rw [this]
              exact if_pos ⟨f1, h1⟩
            rw [this]
            rfl

theorem set_cap {b : NBuf} (i : Nat) (bs : List Byte) : Cap b (b.set i bs) fun M => (b.limit M).set i bs := by
  obtain ⟨mem, rd, wr, maxCap, _ | _⟩ := b
  · exact Cap.stay _ (some .released) (fun h => by cases h)
  · unfold NBuf.set
    simp only [NBuf.limit, Bool.not_true, Bool.false_eq_true, ↓reduceIte]
    by_cases hfit : i + bs.length ≤ mem.length
    · simp only [hfit, ↓reduceIte]
      exact ⟨by rw [overwrite_length _ _ _ hfit]; exact Nat.le_refl _, rfl, (by intro h; rw [overwrite_length _ _ _ hfit]; exact h), fun M _ _ _ => rfl⟩
    · simp only [hfit, ↓reduceIte]
      exact Cap.stay _ (some (.java .indexOutOfBounds)) (fun h => by cases h)

include hg

theorem padChar_cap (n : Nat) (c : JChar) {C : Nat} : ∀ {b : NBuf}, b.maxCap = C → Cap b (padChar grow b n c) fun M => padChar (capGrow grow C) (b.limit M) n c := by
  have un : ∀ (g : Grow) (b : NBuf) n, padChar g b (n + 1) c = andThen (b.write g [c.setWidth 8]) fun b' => padChar g b' n c := by
    intro g b n
    rw [padChar]
    unfold andThen
    generalize b.write g [c.setWidth 8] = r
    obtain ⟨b1, _ | e⟩ := r <;> rfl
  induction n with
  | zero => intro b h; exact Cap.stay b none (fun h => by cases h)
  | succ n ih =>
    intro b h
    simp only [un]
    exact (write_cap hg _ h).andThen fun b1 h1 => ih (h1.trans h)

theorem writeFixedString_cap {b : NBuf} (v : Option JStr) (n : Nat) (pad : JChar) (left : Bool) {C : Nat} (h : b.maxCap = C) :
    Cap b (writeFixedString grow b v n pad left) fun M => writeFixedString (capGrow grow C) (b.limit M) v n pad left := by
  have pad_cap : ∀ (p : Bool) (k : Nat) (b : NBuf), b.maxCap = C → Cap b (if p = true then padChar grow b k pad else (b, none))
      fun M => if p = true then padChar (capGrow grow C) (b.limit M) k pad else (b.limit M, none) := by
    intro p k b hb
    cases p with
    | true => exact padChar_cap hg k pad hb
    | false => exact Cap.stay b none (fun h => by cases h)
  rcases v with _ | _ | ⟨c, cs⟩
  · exact pad_cap (!left && decide (0 < n)) (n - 0) b h
  · exact pad_cap (!left && decide (0 < n)) (n - 0) b h
  · have un : ∀ (g : Grow) (b : NBuf), writeFixedString g b (some (c :: cs)) n pad left =
        andThen (andThen (if (left && decide (min (utf8Enc (c :: cs)).length n < n)) = true then padChar g b (n - min (utf8Enc (c :: cs)).length n) pad else (b, none))
          fun b1 => b1.write g (List.take (min (utf8Enc (c :: cs)).length n) (utf8Enc (c :: cs))))
          fun b2 => if (!left && decide (min (utf8Enc (c :: cs)).length n < n)) = true then padChar g b2 (n - min (utf8Enc (c :: cs)).length n) pad else (b2, none) := by
      intro g b
      unfold writeFixedString
      dsimp only
      generalize (if (left && decide (min (utf8Enc (c :: cs)).length n < n)) = true then padChar g b (n - min (utf8Enc (c :: cs)).length n) pad else (b, none)) = r
      obtain ⟨b1, _ | e⟩ := r
      · dsimp only [andThen]
        generalize b1.write g (List.take (min (utf8Enc (c :: cs)).length n) (utf8Enc (c :: cs))) = r
        obtain ⟨b2, _ | e⟩ := r <;> rfl
      · rfl
    simp only [un]
    exact ((pad_cap _ _ b h).andThen fun b1 h1 => write_cap hg _ (h1.trans h)).andThen fun b2 h2 => pad_cap _ _ b2 (h2.trans h)

theorem writeVal_cap {b : NBuf} (t : PTy) (e : Endian) (v : Val) {C : Nat} (h : b.maxCap = C) :
    Cap b (writeVal grow b t e v) fun M => writeVal (capGrow grow C) (b.limit M) t e v := by
  unfold writeVal
  cases v with
  | num n =>
    dsimp only
    cases n.convert t with
    | none => exact Cap.stay b _ (fun h => by cases h)
    | some m => exact write_cap hg _ h
  | null => exact Cap.stay b _ (fun h => by cases h)
  | _ => exact Cap.stay b _ (fun h => by cases h)

theorem writeInt_cap {b : NBuf} (t : PTy) (e : Endian) (k : Nat) {C : Nat} (h : b.maxCap = C) :
    Cap b (writeInt grow b t e k) fun M => writeInt (capGrow grow C) (b.limit M) t e k :=
  writeVal_cap hg t e _ h

theorem writeDyn_cap {b : NBuf} (zt t : PTy) (e : Endian) (s : Option JStr) {C : Nat} (h : b.maxCap = C) :
    Cap b (writeDyn grow b zt t e s) fun M => writeDyn (capGrow grow C) (b.limit M) zt t e s := by
  rcases s with _ | _ | ⟨c, cs⟩
  · exact writeInt_cap hg _ _ _ h
  · exact writeInt_cap hg _ _ _ h
  · have un : ∀ (g : Grow) (b : NBuf), writeDyn g b zt t e (some (c :: cs)) =
        andThen (writeInt g b t e (utf8Enc (c :: cs)).length) fun b' => b'.write g (utf8Enc (c :: cs)) := by
      intro g b
      unfold writeDyn
      dsimp only
      generalize writeInt g b t e (utf8Enc (c :: cs)).length = r
      obtain ⟨b1, _ | e⟩ := r <;> rfl
    simp only [un]
    exact (writeInt_cap hg t e _ h).andThen fun b1 h1 => write_cap hg _ (h1.trans h)

theorem writeFixedVal_cap {b : NBuf} (v : Val) (n : Nat) (pad : JChar) (left : Bool) {C : Nat} (h : b.maxCap = C) :
    Cap b (writeFixedVal grow b v n pad left) fun M => writeFixedVal (capGrow grow C) (b.limit M) v n pad left := by
  unfold writeFixedVal
  cases v.asStr with
  | none => exact Cap.stay b _ (fun h => by cases h)
  | some s => exact writeFixedString_cap hg s n pad left h

theorem writeDynVal_cap {b : NBuf} (v : Val) (zt t : PTy) (e : Endian) {C : Nat} (h : b.maxCap = C) :
    Cap b (writeDynVal grow b v zt t e) fun M => writeDynVal (capGrow grow C) (b.limit M) v zt t e := by
  unfold writeDynVal
  cases v.asStr with
  | none => exact Cap.stay b _ (fun h => by cases h)
  | some s => exact writeDyn_cap hg zt t e s h

omit hg in
/-- The same for calls with a result. -/
structure CapV {α : Type} (b : NBuf) (r : α × NBuf × Option NErr) (q : Nat → α × NBuf × Option NErr) : Prop where
  mono : b.mem.length ≤ r.2.1.mem.length
  cap : r.2.1.maxCap = b.maxCap
  bound : b.mem.length ≤ b.maxCap → r.2.1.mem.length ≤ b.maxCap
  sim : ∀ M, r.2.1.mem.length ≤ M → M ≤ b.maxCap → (r.2.2 = some .outOfMemory → M = r.2.1.mem.length) → q M = (r.1, r.2.1.limit M, r.2.2.map asLimit)

omit hg in
theorem Cap.val {α : Type} {b : NBuf} {r : NBuf × Option NErr} {q : Nat → NBuf × Option NErr} (h : Cap b r q) (a : α) : CapV b (a, r) fun M => (a, q M) :=
  ⟨h.mono, h.cap, h.bound, fun M h1 h2 h3 => by rw [h.sim M h1 h2 h3]⟩

omit hg in
def CallCap (C : Nat) (f g : NCall) : Prop := ∀ (v : Val) (b : NBuf), b.maxCap = C → CapV b (f v b) fun M => g v (b.limit M)

theorem encElem_cap {f g : NCall} {C : Nat} (hc : CallCap C f g) (el : EncElem) (v : Val) {b : NBuf} (h : b.maxCap = C) :
    CapV b (encElem grow f el v b) fun M => encElem (capGrow grow C) g el v (b.limit M) := by
  cases el with
  | num t e => exact (writeVal_cap hg t e v h).val v
  | fixed n pad left => exact (writeFixedVal_cap hg v n pad left h).val v
  | dyn zt t e => exact (writeDynVal_cap hg v zt t e h).val v
  | obj => exact hc v b h

theorem encElems_cap {f g : NCall} {C : Nat} (hc : CallCap C f g) (el : EncElem) (vs : List Val) : ∀ {b : NBuf}, b.maxCap = C →
    CapV b (encElems grow f el vs b) fun M => encElems (capGrow grow C) g el vs (b.limit M) := by
  induction vs with
  | nil => intro b h; exact (Cap.stay b none (fun h => by cases h)).val []
  | cons v vs ih =>
    intro b h
    have h1 := encElem_cap hg hc el v h
    rcases hr : encElem grow f el v b with ⟨v1, b1, _ | e1⟩
    · rw [hr] at h1
      have hb1 : b1.maxCap = C := h1.cap.trans h
      have h2 := ih hb1
      have hrun : encElems grow f el (v :: vs) b = (v1 :: (encElems grow f el vs b1).1, (encElems grow f el vs b1).2) := by rw [encElems, hr]
      rw [hrun]
      have hm := h2.mono
      refine ⟨Nat.le_trans h1.mono h2.mono, h2.cap.trans h1.cap, (fun hle => by have := h2.bound; rw [hb1, ← h] at this; exact this (h1.bound hle)), fun M h3 h4 h5 => ?_⟩
      change (encElems grow f el vs b1).2.1.mem.length ≤ M at h3
      have h6 := h1.sim M (Nat.le_trans hm h3) h4 (fun h => by cases h)
      have h7 := h2.sim M h3 (by rw [hb1, ← h]; exact h4) h5
      dsimp only at h6 h7 ⊢
      rw [encElems, h6]
      dsimp only [Option.map_none]
      rw [h7]
    · rw [hr] at h1
      have hrun : encElems grow f el (v :: vs) b = (v1 :: vs, b1, some e1) := by rw [encElems, hr]
      rw [hrun]
      refine ⟨h1.mono, h1.cap, h1.bound, fun M h3 h4 h5 => ?_⟩
      have h6 := h1.sim M h3 h4 h5
      dsimp only at h6 ⊢
      rw [encElems, h6]
      rfl

omit hg in
structure CapSt (st : NSt) (r : NSt × Option NErr) (q : Nat → NSt × Option NErr) : Prop where
  mono : st.buf.mem.length ≤ r.1.buf.mem.length
  cap : r.1.buf.maxCap = st.buf.maxCap
  bound : st.buf.mem.length ≤ st.buf.maxCap → r.1.buf.mem.length ≤ st.buf.maxCap
  sim : ∀ M, r.1.buf.mem.length ≤ M → M ≤ st.buf.maxCap → (r.2 = some .outOfMemory → M = r.1.buf.mem.length) →
    q M = ({ r.1 with buf := r.1.buf.limit M }, r.2.map asLimit)

theorem encStmt_cap (w : World) {f g : NCall} {C : Nat} (hc : CallCap C f g) (s : EncStmt) {st : NSt} (h : st.buf.maxCap = C) :
    CapSt st (encStmt grow w f s st) fun M => encStmt (capGrow grow C) w g s { st with buf := st.buf.limit M } := by
  obtain ⟨fs, b, loc⟩ := st
  dsimp only at h ⊢
  have op : ∀ {r : NBuf × Option NErr} {q : Nat → NBuf × Option NErr} (_ : Cap b r q) (fs' : List Val) (loc' : Nat → Option Nat),
      CapSt ⟨fs, b, loc⟩ (⟨fs', r.1, loc'⟩, r.2) fun M => (⟨fs', (q M).1, loc'⟩, (q M).2) :=
    fun hr fs' loc' => ⟨hr.mono, hr.cap, hr.bound, fun M h1 h2 h3 => by dsimp only; rw [hr.sim M h1 h2 h3]⟩
  have keep : ∀ (e : Option NErr), e ≠ some .outOfMemory → ∀ (fs' : List Val) (loc' : Nat → Option Nat),
      CapSt ⟨fs, b, loc⟩ (⟨fs', b, loc'⟩, e) fun M => (⟨fs', b.limit M, loc'⟩, e) := fun e he fs' loc' => op (Cap.stay b e he) fs' loc'
  have bad : CapSt ⟨fs, b, loc⟩ (⟨fs, b, loc⟩, some (.java .illTyped)) fun M => (⟨fs, b.limit M, loc⟩, some (.java .illTyped)) :=
    keep _ (fun h => by cases h) fs loc
  have call : ∀ (f' : Nat) (v : Val), CapSt ⟨fs, b, loc⟩ (⟨fs.set f' (f v b).1, (f v b).2.1, loc⟩, (f v b).2.2)
      fun M => (⟨fs.set f' (g v (b.limit M)).1, (g v (b.limit M)).2.1, loc⟩, (g v (b.limit M)).2.2) := by
    intro f' v
    have := hc v b h
    exact ⟨this.mono, this.cap, this.bound, fun M h1 h2 h3 => by have := this.sim M h1 h2 h3; dsimp only at this ⊢; rw [this]⟩
  cases s with
  | num f' t en =>
    simp only [encStmt]
    rcases fs[f']? with _ | v
    · exact bad
    · cases v with
      | num n => exact op (writeVal_cap hg t en _ h) fs loc
      | _ => exact bad
  | fixed f' n pad left =>
    simp only [encStmt]
    rcases fs[f']? with _ | v
    · exact bad
    · exact op (writeFixedVal_cap hg v n pad left h) fs loc
  | dyn f' zt t en =>
    simp only [encStmt]
    rcases fs[f']? with _ | v
    · exact bad
    · exact op (writeDynVal_cap hg v zt t en h) fs loc
  | list f' zt t en el =>
    simp only [encStmt]
    rcases fs[f']? with _ | v
    · exact bad
    · cases v with
      | null => exact op (writeInt_cap hg zt .be 0 h) fs loc
      | list xs =>
        cases xs with
        | nil => exact op (writeInt_cap hg zt .be 0 h) fs loc
        | cons x xs =>
          dsimp only
          have h1 := writeInt_cap hg t en (x :: xs).length h
          rcases hr : writeInt grow b t en (x :: xs).length with ⟨b1, _ | e1⟩
          · rw [hr] at h1
            dsimp only
            have hb1 : b1.maxCap = C := h1.cap.trans h
            have h2 := encElems_cap hg hc el (x :: xs) hb1
            have hm := h2.mono
            refine ⟨Nat.le_trans h1.mono h2.mono, h2.cap.trans h1.cap, (fun hle => by have := h2.bound; rw [hb1, ← h] at this; exact this (h1.bound hle)), fun M h3 h4 h5 => ?_⟩
            change (encElems grow f el (x :: xs) b1).2.1.mem.length ≤ M at h3
            have h6 := h1.sim M (Nat.le_trans hm h3) h4 (fun h => by cases h)
            have h7 := h2.sim M h3 (by rw [hb1, ← h]; exact h4) h5
            dsimp only at h6 h7 ⊢
            rw [h6]
            dsimp only [Option.map_none]
            rw [h7]
          · rw [hr] at h1
            refine ⟨h1.mono, h1.cap, h1.bound, fun M h3 h4 h5 => ?_⟩
            have h6 := h1.sim M h3 h4 h5
            dsimp only at h6 ⊢
            rw [h6]
            rfl
      | _ => exact bad
  | obj f' =>
    simp only [encStmt]
    rcases fs[f']? with _ | v
    · exact bad
    · exact call f' v
  | objOpt f' =>
    simp only [encStmt]
    rcases fs[f']? with _ | v
    · exact bad
    · cases v with
      | null => exact keep none (fun h => by cases h) fs loc
      | _ => exact call f' _
  | save x =>
    simp only [encStmt]
    exact keep none (fun h => by cases h) fs (setLoc loc x b.wr)
  | zero t en =>
    simp only [encStmt]
    exact op (writeInt_cap hg t en 0 h) fs loc
  | setLen f' x y =>
    simp only [encStmt]
    rcases loc x with _ | a
    · exact bad
    · rcases loc y with _ | c
      · exact bad
      · exact keep none (fun h => by cases h) _ loc
  | patch x f' t en =>
    simp only [encStmt]
    rcases loc x with _ | p
    · exact bad
    · rcases fs[f']? with _ | v
      · exact bad
      · cases v with
        | num n =>
          dsimp only
          cases n.convert t with
          | none => exact bad
          | some m => exact op (set_cap p (m.bytes en)) fs loc
        | _ => exact bad
  | checksum f' alg =>
    simp only [encStmt]
    cases Registry.getService w.svc alg with
    | none => exact keep none (fun h => by cases h) fs loc
    | some s => exact keep none (fun h => by cases h) _ loc

theorem encStmts_cap (w : World) {f g : NCall} {C : Nat} (hc : CallCap C f g) (ss : List EncStmt) : ∀ {st : NSt}, st.buf.maxCap = C →
    CapSt st (encStmts grow w f ss st) fun M => encStmts (capGrow grow C) w g ss { st with buf := st.buf.limit M } := by
  induction ss with
  | nil => intro st h; exact ⟨Nat.le_refl _, rfl, id, fun M _ _ _ => rfl⟩
  | cons s ss ih =>
    intro st h
    have h1 := encStmt_cap hg w hc s h
    rcases hr : encStmt grow w f s st with ⟨st1, _ | e1⟩
    · rw [hr] at h1
      have hb1 : st1.buf.maxCap = C := h1.cap.trans h
      have h2 := ih hb1
      have hrun : encStmts grow w f (s :: ss) st = encStmts grow w f ss st1 := by rw [encStmts, hr]
      rw [hrun]
      have hm := h2.mono
      refine ⟨Nat.le_trans h1.mono h2.mono, h2.cap.trans h1.cap, (fun hle => by have := h2.bound; rw [hb1, ← h] at this; exact this (h1.bound hle)), fun M h3 h4 h5 => ?_⟩
      have h6 := h1.sim M (Nat.le_trans hm h3) h4 (fun h => by cases h)
      have h7 := h2.sim M h3 (by rw [hb1, ← h]; exact h4) h5
      dsimp only at h6 h7 ⊢
      rw [encStmts, h6]
      dsimp only [Option.map_none]
      rw [h7]
    · rw [hr] at h1
      have hrun : encStmts grow w f (s :: ss) st = (st1, some e1) := by rw [encStmts, hr]
      rw [hrun]
      refine ⟨h1.mono, h1.cap, h1.bound, fun M h3 h4 h5 => ?_⟩
      have h6 := h1.sim M h3 h4 h5
      dsimp only at h6 ⊢
      rw [encStmts, h6]
      rfl

theorem encode_cap (w : World) (C : Nat) (n : Nat) : CallCap C (encode grow w n) (encode (capGrow grow C) w n) := by
  induction n with
  | zero =>
    intro v b h
    cases v with
    | null => simp only [encode]; exact (Cap.stay b (some (.java .nullPointer)) (fun h => by cases h)).val _
    | _ => simp only [encode]; exact (Cap.stay b (some (.java .stackOverflow)) (fun h => by cases h)).val _
  | succ n ih =>
    intro v b h
    cases v with
    | null => simp only [encode]; exact (Cap.stay b (some (.java .nullPointer)) (fun h => by cases h)).val _
    | obj c fs =>
      have h1 := encStmts_cap hg w ih (decl c).enc (st := ⟨fs, b, fun _ => none⟩) h
      simp only [encode]
      exact ⟨h1.mono, h1.cap, h1.bound, fun M h2 h3 h4 => by have := h1.sim M h2 h3 h4; dsimp only at this ⊢; rw [this]⟩
    | _ => simp only [encode]; exact (Cap.stay b (some (.java .illTyped)) (fun h => by cases h)).val _

omit hg in
/-- The call, seen as one with enough memory and a limit. -/
theorem encode_limited {grow : Grow} (hg : grow.Fair) (w : World) (n : Nat) (v : Val) (b : NBuf) (hb : b.Valid) (ha : b.alive = true) :
    let r := encode grow w n v b
    ∃ g : Grow, g.Ok ∧ ∃ M, b.mem.length ≤ M ∧ M ≤ b.maxCap ∧ (r.2.2 ≠ some .outOfMemory → M = b.maxCap) ∧ (r.2.2 = some .outOfMemory → M = r.2.1.mem.length)
      ∧ r.2.1.maxCap = b.maxCap ∧ r.2.1.mem.length ≤ M
      ∧ encode g w n v (b.limit M) = (r.1, r.2.1.limit M, r.2.2.map asLimit) ∧ (b.limit M).Valid ∧ (b.limit M).alive = true := by
  intro r
  have h := encode_cap hg w b.maxCap n v b rfl
  have hle : r.2.1.mem.length ≤ b.maxCap := h.bound hb.2.2
  by_cases ho : r.2.2 = some .outOfMemory
  · exact ⟨_, capGrow_ok grow b.maxCap, r.2.1.mem.length, h.mono, hle, fun hn => absurd ho hn, fun _ => rfl, h.cap, Nat.le_refl _,
      h.sim _ (Nat.le_refl _) hle (fun _ => rfl), ⟨hb.1, hb.2.1, h.mono⟩, ha⟩
  · exact ⟨_, capGrow_ok grow b.maxCap, b.maxCap, hb.2.2, Nat.le_refl _, fun _ => rfl, fun h => absurd h ho, h.cap, hle,
      h.sim _ hle (Nat.le_refl _) (fun h => absurd h ho), hb, ha⟩

end FinProto.Netty
