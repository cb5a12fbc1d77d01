import Verif.Model.ConcurrentEncode
import Verif.Proofs.EncodeGen
import Verif.Proofs.Compile
import Verif.Proofs.ConcurrentRegistry
/-
Helper lemmas on threads encoding the same object.
-/
namespace FinProto

/-! ### What a statement reads and writes -/

/-- The field a statement reads. -/
def EncStmt.reads : EncStmt → Option Nat
  | .num f _ _ | .fixed f _ _ _ | .dyn f _ _ _ | .list f _ _ _ _ | .obj f | .objOpt f | .patch _ f _ _ => some f
  | _ => none

/-- The field a statement computes. -/
def EncStmt.frame : EncStmt → Option Nat
  | .setLen f _ _ | .checksum f _ => some f
  | _ => none

/-- Every field is computed at most once, and not after it was read. -/
def progOk : List EncStmt → Bool
  | [] => true
  | s :: ss => (match s.reads with | some f => ss.all fun s' => s'.frame != some f | none => true)
      && (match s.frame with | some f => ss.all fun s' => s'.frame != some f | none => true) && progOk ss

theorem progOk_table (c : Cls) : progOk (decl c).enc = true := by
  cases c <;> decide +kernel

theorem frame_table (c : Cls) : hasComputed c = (decl c).enc.any fun s => s.frame.isSome := by
  cases c <;> decide +kernel

/-- Only these statements occur in classes without computed fields. -/
def EncStmt.isPlain : EncStmt → Bool
  | .num .. | .fixed .. | .dyn .. | .list .. | .obj .. | .objOpt .. => true
  | _ => false

theorem plain_table (c : Cls) : hasComputed c = true ∨ (decl c).enc.all EncStmt.isPlain = true := by
  cases c <;> decide +kernel

/-! ### Writing that does not look at the buffer -/

/-- When it succeeds, it appends the same bytes whatever the buffer. -/
def Uniform (f : WBuf → WBuf × Option JErr) : Prop := ∃ bs, ∀ b, (f b).2 = none → (f b).1 = b.app bs

theorem Uniform.skip : Uniform fun b => (b, none) := ⟨[], fun b _ => by simp⟩
theorem Uniform.fail (e : JErr) : Uniform fun b => (b, some e) := ⟨[], fun b h => by cases h⟩

theorem Uniform.write (bs : List Byte) : Uniform fun b => b.write bs := by
  refine ⟨bs, fun b => ?_⟩
  simp only [WBuf.write]
  split
  · intro _; rfl
  · intro h; cases h

theorem Uniform.seq {f g : WBuf → WBuf × Option JErr} (hf : Uniform f) (hg : Uniform g) : Uniform (seqW f g) := by
  obtain ⟨x, hx⟩ := hf
  obtain ⟨y, hy⟩ := hg
  refine ⟨x ++ y, fun b => ?_⟩
  have h1 := hx b
  simp only [seqW]
  revert h1
  rcases f b with ⟨b', _ | e⟩
  · intro h1 h2
    simp only at h1 h2 ⊢
    rw [hy b' h2, h1 trivial, WBuf.app_app]
  · intro _ h; cases h

theorem Uniform.padChar (n : Nat) (c : JChar) : Uniform fun b => padChar b n c := by
  induction n with
  | zero => exact Uniform.skip
  | succ n ih => exact Uniform.seq (Uniform.write [c.setWidth 8]) ih

theorem Uniform.ite {p : Prop} [Decidable p] {f g : WBuf → WBuf × Option JErr} (hf : Uniform f) (hg : Uniform g) :
    Uniform fun b => if p then f b else g b := by
  by_cases h : p
  · simpa only [h, if_true] using hf
  · simpa only [h, if_false] using hg

theorem Uniform.writeFixedString (v : Option JStr) (n : Nat) (pad : JChar) (left : Bool) :
    Uniform fun b => writeFixedString b v n pad left := by
  match v with
  | some (c :: cs) =>
    have := funext fun b => writeFixedString_seq b c cs n pad left
    rw [this]
    exact Uniform.seq (Uniform.ite (Uniform.padChar _ _) Uniform.skip)
      (Uniform.seq (Uniform.write _) (Uniform.ite (Uniform.padChar _ _) Uniform.skip))
  | some [] => exact Uniform.ite (Uniform.padChar _ _) Uniform.skip
  | none => exact Uniform.ite (Uniform.padChar _ _) Uniform.skip

theorem Uniform.writeVal (t : PTy) (e : Endian) (v : Val) : Uniform fun b => writeVal b t e v := by
  cases v with
  | num n =>
    simp only [FinProto.writeVal]
    cases n.convert t with
    | none => exact Uniform.fail _
    | some m => exact Uniform.write _
  | null => exact Uniform.fail _
  | str | list | obj => exact Uniform.fail _

theorem Uniform.writeInt (t : PTy) (e : Endian) (k : Nat) : Uniform fun b => writeInt b t e k := Uniform.writeVal _ _ _

theorem Uniform.writeDyn (zt t : PTy) (e : Endian) (s : Option JStr) : Uniform fun b => writeDyn b zt t e s := by
  match s with
  | some (c :: cs) =>
    have : (fun b => FinProto.writeDyn b zt t e (some (c :: cs))) =
        seqW (fun b => FinProto.writeInt b t e (utf8Enc (c :: cs)).length) (fun b => b.write (utf8Enc (c :: cs))) := by
      funext b
      simp only [FinProto.writeDyn, seqW]
      cases FinProto.writeInt b t e (utf8Enc (c :: cs)).length with
      | mk b' r => cases r <;> rfl
    rw [this]
    exact Uniform.seq (Uniform.writeInt _ _ _) (Uniform.write _)
  | some [] => exact Uniform.writeInt _ _ _
  | none => exact Uniform.writeInt _ _ _

theorem Uniform.writeFixedVal (v : Val) (n : Nat) (pad : JChar) (left : Bool) : Uniform fun b => writeFixedVal b v n pad left := by
  simp only [FinProto.writeFixedVal]
  cases v.asStr with
  | none => exact Uniform.fail _
  | some s => exact Uniform.writeFixedString _ _ _ _

theorem Uniform.writeDynVal (v : Val) (zt t : PTy) (e : Endian) : Uniform fun b => writeDynVal b v zt t e := by
  simp only [FinProto.writeDynVal]
  cases v.asStr with
  | none => exact Uniform.fail _
  | some s => exact Uniform.writeDyn _ _ _ _

/-! ### Encoding that does not change the object -/

/-- Encoding `v` leaves it as it is, and appends bytes that do not depend on the buffer. -/
def Still (call : EncCall) (v : Val) : Prop := (∀ b, (call v b).1 = v) ∧ Uniform fun b => (call v b).2

theorem encElem_still (call : EncCall) (el : EncElem) (v : Val) (h : Still call v) :
    (∀ b, (encElem call el v b).1 = v) ∧ Uniform fun b => (encElem call el v b).2 := by
  cases el with
  | num t e => exact ⟨fun _ => rfl, Uniform.writeVal _ _ _⟩
  | fixed n pad left => exact ⟨fun _ => rfl, Uniform.writeFixedVal _ _ _ _⟩
  | dyn zt t e => exact ⟨fun _ => rfl, Uniform.writeDynVal _ _ _ _⟩
  | obj => exact h

theorem encElems_still (call : EncCall) (el : EncElem) (vs : List Val) (h : ∀ v ∈ vs, Still call v) :
    (∀ b, (encElems call el vs b).1 = vs) ∧ Uniform fun b => (encElems call el vs b).2 := by
  induction vs with
  | nil => exact ⟨fun _ => rfl, Uniform.skip⟩
  | cons v vs ih =>
    have h1 := encElem_still call el v (h v List.mem_cons_self)
    have h2 := ih fun x hx => h x (List.mem_cons_of_mem _ hx)
    have e : ∀ b, encElems call el (v :: vs) b =
        (v :: vs, seqW (fun b => (encElem call el v b).2) (fun b => (encElems call el vs b).2) b) := by
      intro b
      have h1' := h1.1 b
      simp only [encElems, seqW]
      revert h1'
      rcases encElem call el v b with ⟨v', b', _ | er⟩
      · intro h1'
        simp only at h1' ⊢
        have h2' := h2.1 b'
        revert h2'
        rcases encElems call el vs b' with ⟨vs', b'', r⟩
        intro h2'
        simp only at h2' ⊢
        rw [h1', h2']
      · intro h1'
        simp only at h1' ⊢
        rw [h1']
    refine ⟨fun b => by rw [e], ?_⟩
    have : (fun b => (encElems call el (v :: vs) b).2) =
        seqW (fun b => (encElem call el v b).2) (fun b => (encElems call el vs b).2) := by
      funext b; rw [e]
    rw [this]
    exact Uniform.seq h1.2 h2.2

/-- Every value, and every element of a list, is left alone. -/
def AllStill (call : EncCall) (fs : List Val) : Prop := ∀ v ∈ fs, Still call v ∧ ∀ xs, v = .list xs → ∀ x ∈ xs, Still call x

theorem set_self {fs : List Val} {f : Nat} {v : Val} (h : fs[f]? = some v) : fs.set f v = fs := by
  apply List.ext_getElem?
  intro i
  rw [List.getElem?_set]
  split
  · rename_i he; subst he
    split
    · exact h.symm
    · rename_i hl; rw [List.getElem?_eq_none (by omega)]
  · rfl

/-- The buffer part of a plain statement. -/
theorem plain_stmt (w : World) (call : EncCall) (s : EncStmt) (hs : s.isPlain = true) (fs : List Val) (h : AllStill call fs) :
    ∃ f : WBuf → WBuf × Option JErr, Uniform f ∧ ∀ b loc, encStmt w call s ⟨fs, b, loc⟩ = (⟨fs, (f b).1, loc⟩, (f b).2) := by
  cases s with
  | num f t e =>
    simp only [encStmt]
    cases hf : fs[f]? with
    | none => exact ⟨_, Uniform.fail .illTyped, fun b loc => rfl⟩
    | some v =>
      cases v with
      | num n => exact ⟨_, Uniform.writeVal t e (.num n), fun b loc => rfl⟩
      | _ => exact ⟨_, Uniform.fail .illTyped, fun b loc => rfl⟩
  | fixed f n pad left =>
    simp only [encStmt]
    cases hf : fs[f]? with
    | none => exact ⟨_, Uniform.fail .illTyped, fun b loc => rfl⟩
    | some v => exact ⟨_, Uniform.writeFixedVal v n pad left, fun b loc => rfl⟩
  | dyn f zt t e =>
    simp only [encStmt]
    cases hf : fs[f]? with
    | none => exact ⟨_, Uniform.fail .illTyped, fun b loc => rfl⟩
    | some v => exact ⟨_, Uniform.writeDynVal v zt t e, fun b loc => rfl⟩
  | list f zt t e el =>
    simp only [encStmt]
    cases hf : fs[f]? with
    | none => exact ⟨_, Uniform.fail .illTyped, fun b loc => rfl⟩
    | some v =>
      cases v with
      | null => exact ⟨_, Uniform.writeInt zt .be 0, fun b loc => rfl⟩
      | list xs =>
        cases xs with
        | nil => exact ⟨_, Uniform.writeInt zt .be 0, fun b loc => rfl⟩
        | cons x xs =>
          have hx := (h _ (List.mem_of_getElem? hf)).2 _ rfl
          have he := encElems_still call el (x :: xs) hx
          refine ⟨seqW (fun b => writeInt b t e (x :: xs).length) (fun b => (encElems call el (x :: xs) b).2),
            Uniform.seq (Uniform.writeInt _ _ _) he.2, ?_⟩
          intro b loc
          simp only [seqW]
          rcases writeInt b t e (x :: xs).length with ⟨b', _ | er⟩
          · simp only [he.1, set_self hf]
          · rfl
      | _ => exact ⟨_, Uniform.fail .illTyped, fun b loc => rfl⟩
  | obj f =>
    simp only [encStmt]
    cases hf : fs[f]? with
    | none => exact ⟨_, Uniform.fail .illTyped, fun b loc => rfl⟩
    | some v =>
      have hv := (h _ (List.mem_of_getElem? hf)).1
      exact ⟨_, hv.2, fun b loc => by simp only [hv.1, set_self hf]⟩
  | objOpt f =>
    simp only [encStmt]
    cases hf : fs[f]? with
    | none => exact ⟨_, Uniform.fail .illTyped, fun b loc => rfl⟩
    | some v =>
      have hv := (h _ (List.mem_of_getElem? hf)).1
      cases v with
      | null => exact ⟨_, Uniform.skip, fun b loc => rfl⟩
      | _ => exact ⟨_, hv.2, fun b loc => by simp only [hv.1, set_self hf]⟩
  | save | zero | setLen | patch | checksum => cases hs

theorem plain_stmts (w : World) (call : EncCall) (ss : List EncStmt) (hs : ss.all EncStmt.isPlain = true) (fs : List Val)
    (h : AllStill call fs) :
    ∃ f : WBuf → WBuf × Option JErr, Uniform f ∧ ∀ b loc, encStmts w call ss ⟨fs, b, loc⟩ = (⟨fs, (f b).1, loc⟩, (f b).2) := by
  induction ss with
  | nil => exact ⟨_, Uniform.skip, fun b loc => rfl⟩
  | cons s ss ih =>
    simp only [List.all_cons, Bool.and_eq_true] at hs
    obtain ⟨f, hf, e1⟩ := plain_stmt w call s hs.1 fs h
    obtain ⟨g, hg, e2⟩ := ih hs.2
    refine ⟨seqW f g, Uniform.seq hf hg, fun b loc => ?_⟩
    simp only [encStmts, e1, seqW]
    rcases f b with ⟨b', _ | er⟩
    · simp only [e2]
    · rfl

theorem framelessList_mem {fs : List Val} (h : framelessList fs = true) : ∀ v ∈ fs, frameless v = true := by
  induction fs with
  | nil => intro v hv; cases hv
  | cons x xs ih =>
    simp only [framelessList, Bool.and_eq_true] at h
    intro v hv
    rcases List.mem_cons.1 hv with rfl | hv
    · exact h.1
    · exact ih h.2 v hv

theorem allStill_of {call : EncCall} (hc : ∀ v, frameless v = true → Still call v) {fs : List Val} (h : framelessList fs = true) :
    AllStill call fs := by
  intro v hv
  have hv' := framelessList_mem h v hv
  refine ⟨hc v hv', ?_⟩
  rintro xs rfl x hx
  simp only [frameless] at hv'
  exact hc x (framelessList_mem hv' x hx)

theorem encode_still (w : World) (n : Nat) (v : Val) (h : frameless v = true) : Still (encode w n) v := by
  induction n generalizing v with
  | zero => cases v <;> exact ⟨fun b => by simp [encode], by simp only [encode]; exact Uniform.fail _⟩
  | succ n ih =>
    cases v with
    | obj c fs =>
      simp only [frameless, Bool.and_eq_true, Bool.not_eq_true'] at h
      have hp : (decl c).enc.all EncStmt.isPlain = true := by
        rcases plain_table c with h' | h'
        · rw [h.1] at h'; cases h'
        · exact h'
      obtain ⟨f, hf, e⟩ := plain_stmts w (encode w n) _ hp fs (allStill_of ih h.2)
      refine ⟨fun b => ?_, ?_⟩
      · simp only [encode, e]
      · have : (fun b => (encode w (n + 1) (.obj c fs) b).2) = f := by
          funext b; simp only [encode, e]
        rw [this]; exact hf
    | _ => exact ⟨fun b => by simp [encode], by simp only [encode]; exact Uniform.fail _⟩

/-! ### A statement sees only the field it reads -/

/-- `fs` with field `f` replaced, if there is a new value. -/
def setOpt (fs : List Val) (f : Nat) : Option Val → List Val
  | some v => fs.set f v
  | none => fs

/-- The effect of a statement on the shared fields, its buffer, locals and exception depends only on the field it reads. -/
theorem stmt_reads (w : World) (call : EncCall) (s : EncStmt) (fs fs' : List Val) (b : WBuf) (loc : Nat → Option Nat)
    (h : AllStill call fs) (h' : AllStill call fs') (hr : ∀ f, s.reads = some f → fs'[f]? = fs[f]?) :
    (encStmt w call s ⟨fs', b, loc⟩).1.buf = (encStmt w call s ⟨fs, b, loc⟩).1.buf
      ∧ (encStmt w call s ⟨fs', b, loc⟩).1.loc = (encStmt w call s ⟨fs, b, loc⟩).1.loc
      ∧ (encStmt w call s ⟨fs', b, loc⟩).2 = (encStmt w call s ⟨fs, b, loc⟩).2
      ∧ match s.frame with
        | none => (encStmt w call s ⟨fs, b, loc⟩).1.fs = fs ∧ (encStmt w call s ⟨fs', b, loc⟩).1.fs = fs'
        | some f => ∃ x, (encStmt w call s ⟨fs, b, loc⟩).1.fs = setOpt fs f x ∧ (encStmt w call s ⟨fs', b, loc⟩).1.fs = setOpt fs' f x
            ∧ ((encStmt w call s ⟨fs, b, loc⟩).2 ≠ none → x = none) := by
  by_cases hp : s.isPlain = true
  · obtain ⟨f, hf, e⟩ := plain_stmt w call s hp fs h
    obtain ⟨f', hf', e'⟩ := plain_stmt w call s hp fs' h'
    have hframe : s.frame = none := by cases s <;> first | rfl | cases hp
    have hsame : (encStmt w call s ⟨fs', b, loc⟩).1.buf = (encStmt w call s ⟨fs, b, loc⟩).1.buf
        ∧ (encStmt w call s ⟨fs', b, loc⟩).2 = (encStmt w call s ⟨fs, b, loc⟩).2 := by
      cases s with
      | save | zero | setLen | patch | checksum => cases hp
      | list g zt t en el =>
        have hg := hr g rfl
        simp only [encStmt, hg]
        cases fs[g]? with
        | none => exact ⟨rfl, rfl⟩
        | some v =>
          cases v with
          | list xs =>
            cases xs with
            | nil => exact ⟨rfl, rfl⟩
            | cons x xs => simp only; rcases writeInt b t en (x :: xs).length with ⟨b', _ | er⟩ <;> exact ⟨rfl, rfl⟩
          | _ => exact ⟨rfl, rfl⟩
      | objOpt g =>
        have hg := hr g rfl
        simp only [encStmt, hg]
        cases fs[g]? with
        | none => exact ⟨rfl, rfl⟩
        | some v => cases v <;> exact ⟨rfl, rfl⟩
      | num g | fixed g | dyn g | obj g =>
        have hg := hr g rfl
        simp only [encStmt, hg]
        cases fs[g]? with
        | none => exact ⟨rfl, rfl⟩
        | some v => cases v <;> exact ⟨rfl, rfl⟩
    rw [hframe]
    refine ⟨hsame.1, ?_, hsame.2, ?_, ?_⟩
    · rw [e, e']
    · rw [e]
    · rw [e']
  · cases s with
    | num | fixed | dyn | list | obj | objOpt => exact absurd rfl hp
    | save x => exact ⟨rfl, rfl, rfl, rfl, rfl⟩
    | zero t e => exact ⟨rfl, rfl, rfl, rfl, rfl⟩
    | setLen f x y =>
      simp only [encStmt, EncStmt.frame]
      cases loc x with
      | none => exact ⟨rfl, rfl, rfl, none, rfl, rfl, fun _ => rfl⟩
      | some p =>
        cases loc y with
        | none => exact ⟨rfl, rfl, rfl, none, rfl, rfl, fun _ => rfl⟩
        | some q => exact ⟨rfl, rfl, rfl, some _, rfl, rfl, fun h => absurd rfl h⟩
    | patch x f t e =>
      have hg := hr f rfl
      simp only [encStmt, hg, EncStmt.frame]
      cases loc x with
      | none => exact ⟨rfl, rfl, rfl, rfl, rfl⟩
      | some p =>
        cases fs[f]? with
        | none => exact ⟨rfl, rfl, rfl, rfl, rfl⟩
        | some v =>
          cases v with
          | num m =>
            simp only
            cases m.convert t with
            | none => exact ⟨rfl, rfl, rfl, rfl, rfl⟩
            | some k => exact ⟨rfl, rfl, rfl, rfl, rfl⟩
          | _ => exact ⟨rfl, rfl, rfl, rfl, rfl⟩
    | checksum f alg =>
      simp only [encStmt, EncStmt.frame]
      cases hs : Registry.getService w.svc alg with
      | none => exact ⟨rfl, rfl, rfl, none, rfl, rfl, fun _ => rfl⟩
      | some s => exact ⟨rfl, rfl, rfl, some _, rfl, rfl, fun h => absurd rfl h⟩

/-! ### The same statements in two threads -/

/-- Two threads at the same point of their `encode`: same fields, same bytes written, same positions. -/
def Twin (b b' : WBuf) (st st' : EncSt) : Prop :=
  st.fs = st'.fs ∧ ∃ x, st.buf = b.app x ∧ st'.buf = b'.app x
    ∧ ∀ l, (st.loc l = none ∧ st'.loc l = none)
      ∨ ∃ a, a ≤ x.length ∧ st.loc l = some (b.data.length + a) ∧ st'.loc l = some (b'.data.length + a)

theorem sub_shift (p a c : Nat) : BitVec.ofNat 32 (p + a) - BitVec.ofNat 32 (p + c) = BitVec.ofNat 32 a - BitVec.ofNat 32 c := by
  apply BitVec.eq_of_toNat_eq
  simp only [BitVec.toNat_sub, BitVec.toNat_ofNat]
  omega

theorem overwrite_app (d x : List Byte) (a : Nat) (bs : List Byte) (h : a ≤ x.length) :
    overwrite (d ++ x) (d.length + a) bs = d ++ overwrite x a bs := by
  unfold overwrite
  rw [List.take_append, List.drop_append]
  have h1 : d.take (d.length + a) = d := List.take_of_length_le (by omega)
  have h2 : d.drop (d.length + a + bs.length) = [] := List.drop_eq_nil_of_le (by omega)
  rw [h1, h2]
  have e1 : d.length + a - d.length = a := by omega
  have e2 : d.length + a + bs.length - d.length = a + bs.length := by omega
  rw [e1, e2]
  simp

theorem twin_loc {x y : List Byte} {b b' : WBuf} {loc loc' : Nat → Option Nat} (h : ∀ l, (loc l = none ∧ loc' l = none)
      ∨ ∃ a, a ≤ x.length ∧ loc l = some (b.data.length + a) ∧ loc' l = some (b'.data.length + a)) (hxy : x.length ≤ y.length) :
    ∀ l, (loc l = none ∧ loc' l = none)
      ∨ ∃ a, a ≤ y.length ∧ loc l = some (b.data.length + a) ∧ loc' l = some (b'.data.length + a) := by
  intro l
  rcases h l with h | ⟨a, h1, h2⟩
  · exact Or.inl h
  · exact Or.inr ⟨a, by omega, h2⟩

theorem twin_stmt (w : World) (call : EncCall) (s : EncStmt) (b b' : WBuf) (st st' : EncSt) (h : Twin b b' st st')
    (hall : AllStill call st.fs) (hrd : b.rd ≤ b.data.length) (hrd' : b'.rd ≤ b'.data.length) (hread : b.readable = b'.readable)
    (h1 : (encStmt w call s st).2 = none) (h2 : (encStmt w call s st').2 = none) :
    Twin b b' (encStmt w call s st).1 (encStmt w call s st').1 := by
  obtain ⟨fs, bu, loc⟩ := st
  obtain ⟨fs', bu', loc'⟩ := st'
  obtain ⟨rfl, x, rfl, rfl, hloc⟩ := h
  simp only at hall hloc
  by_cases hp : s.isPlain = true
  · obtain ⟨f, ⟨bs, hbs⟩, e⟩ := plain_stmt w call s hp fs hall
    rw [e] at h1 h2 ⊢
    rw [e]
    refine ⟨rfl, x ++ bs, ?_, ?_, ?_⟩
    · simp only [hbs _ h1, WBuf.app_app]
    · simp only [hbs _ h2, WBuf.app_app]
    · exact twin_loc hloc (by simp)
  · cases s with
    | num | fixed | dyn | list | obj | objOpt => exact absurd rfl hp
    | save l =>
      refine ⟨rfl, x, rfl, rfl, ?_⟩
      intro l'
      simp only [encStmt, setLoc]
      split
      · exact Or.inr ⟨x.length, Nat.le_refl _, by simp [WBuf.wr, WBuf.app], by simp [WBuf.wr, WBuf.app]⟩
      · exact hloc l'
    | zero t e =>
      obtain ⟨bs, hbs⟩ := Uniform.writeInt t e 0
      simp only [encStmt] at h1 h2 ⊢
      refine ⟨rfl, x ++ bs, ?_, ?_, ?_⟩
      · simp only [hbs _ h1, WBuf.app_app]
      · simp only [hbs _ h2, WBuf.app_app]
      · exact twin_loc hloc (by simp)
    | setLen f l m =>
      simp only [encStmt] at h1 h2 ⊢
      rcases hloc l with ⟨hl, hl'⟩ | ⟨a, ha, hl, hl'⟩
      · rw [hl] at h1; cases h1
      · rcases hloc m with ⟨hm, hm'⟩ | ⟨c, hc, hm, hm'⟩
        · rw [hl, hm] at h1; cases h1
        · rw [hl, hm, hl', hm']
          simp only
          rw [sub_shift, sub_shift]
          exact ⟨rfl, x, rfl, rfl, hloc⟩
    | patch l f t e =>
      simp only [encStmt] at h1 h2 ⊢
      rcases hloc l with ⟨hl, hl'⟩ | ⟨a, ha, hl, hl'⟩
      · rw [hl] at h1; cases h1
      · rw [hl] at h1 ⊢
        rw [hl'] at h2 ⊢
        revert h1 h2
        cases fs[f]? with
        | none => intro h1; cases h1
        | some v =>
          cases v with
          | num m =>
            simp only
            cases m.convert t with
            | none => intro h1; cases h1
            | some k =>
              simp only [WBuf.set]
              split
              · split
                · rename_i hs _
                  intro _ _
                  refine ⟨rfl, overwrite x a (k.bytes e), ?_, ?_, ?_⟩
                  · simp only [WBuf.app, overwrite_app _ _ _ _ ha]
                  · simp only [WBuf.app, overwrite_app _ _ _ _ ha]
                  · refine twin_loc hloc ?_
                    rw [overwrite_length]
                    · exact Nat.le_refl _
                    · simp only [WBuf.app, List.length_append] at hs; omega
                · intro _ h2; cases h2
              · intro h1; cases h1
          | _ => intro h1; cases h1
    | checksum f alg =>
      simp only [encStmt] at h1 h2 ⊢
      cases Registry.getService w.svc alg with
      | none => exact ⟨rfl, x, rfl, rfl, hloc⟩
      | some s =>
        have hr : (b.app x).readable = (b'.app x).readable := by
          simp only [WBuf.readable, WBuf.app] at hread ⊢
          rw [List.drop_append_of_le_length hrd, List.drop_append_of_le_length hrd', hread]
        simp only [hr]
        exact ⟨rfl, x, rfl, rfl, hloc⟩

/-! ### The system -/

section System
variable (w : World) (n : Nat) (c : Cls) (fs0 : List Val) (bufs : Nat → WBuf)

/-- Thread `i` alone, after its first `k` statements. -/
def alone (i k : Nat) : EncSt × Option JErr :=
  encStmts w (encode w n) ((decl c).enc.take k) ⟨fs0, bufs i, fun _ => none⟩

/-- Field `f` is computed by one of the first `k` statements. -/
def framed (k f : Nat) : Prop := ∃ m s, m < k ∧ (decl c).enc[m]? = some s ∧ s.frame = some f

theorem alone_succ (i k : Nat) (s : EncStmt) (hs : (decl c).enc[k]? = some s) (st : EncSt)
    (h : alone w n c fs0 bufs i k = (st, none)) : alone w n c fs0 bufs i (k + 1) = encStmt w (encode w n) s st := by
  unfold alone at h ⊢
  rw [List.take_add_one, hs, Option.toList_some, encStmts_append, h]
  exact encStmts_single ..

theorem alone_pred (i k : Nat) (st : EncSt) (h : alone w n c fs0 bufs i (k + 1) = (st, none)) :
    ∃ st', alone w n c fs0 bufs i k = (st', none) := by
  unfold alone at h ⊢
  rw [List.take_add_one, encStmts_append] at h
  revert h
  rcases encStmts w (encode w n) ((decl c).enc.take k) ⟨fs0, bufs i, fun _ => none⟩ with ⟨st', _ | e⟩
  · intro _; exact ⟨st', rfl⟩
  · intro h; cases h

theorem alone_le (i k k' : Nat) (hk : k ≤ k') (st : EncSt) (h : alone w n c fs0 bufs i k' = (st, none)) :
    ∃ st', alone w n c fs0 bufs i k = (st', none) := by
  induction hk generalizing st with
  | refl => exact ⟨st, h⟩
  | step _ ih =>
    obtain ⟨st', h'⟩ := alone_pred w n c fs0 bufs i _ st h
    exact ih st' h'

theorem progOk_at {P : List EncStmt} (h : progOk P = true) (k m : Nat) (s s' : EncStmt) (f : Nat) (hk : P[k]? = some s)
    (hm : P[m]? = some s') (hkm : k < m) (hs : s.reads = some f ∨ s.frame = some f) : s'.frame ≠ some f := by
  induction P generalizing k m with
  | nil => simp at hk
  | cons p ps ih =>
    simp only [progOk, Bool.and_eq_true] at h
    cases m with
    | zero => omega
    | succ m =>
      simp only [List.getElem?_cons_succ] at hm
      cases k with
      | succ k => exact ih h.2 k m (by simpa using hk) hm (by omega)
      | zero =>
        simp only [List.getElem?_cons_zero, Option.some.injEq] at hk
        subst hk
        have hmem := List.mem_of_getElem? hm
        rcases hs with hs | hs
        · have := h.1.1
          rw [hs] at this
          simpa using List.all_eq_true.1 this s' hmem
        · have := h.1.2
          rw [hs] at this
          simpa using List.all_eq_true.1 this s' hmem

theorem reads_frame (s : EncStmt) (f : Nat) (h : s.reads = some f) : s.frame = none := by
  cases s <;> first | rfl | cases h

theorem getElem?_setOpt (fs : List Val) (f g : Nat) (x : Option Val) (h : f ≠ g) : (setOpt fs f x)[g]? = fs[g]? := by
  cases x with
  | none => rfl
  | some v => simp only [setOpt]; rw [List.getElem?_set, if_neg h]

/-- The fields a thread alone has after `k` statements: `framed` ones computed, the others as at the start. -/
theorem alone_fields (hall : framelessList fs0 = true) (i k : Nat) (st : EncSt) (h : alone w n c fs0 bufs i k = (st, none)) :
    st.fs.length = fs0.length ∧ AllStill (encode w n) st.fs ∧ ∀ f, ¬ framed c k f → st.fs[f]? = fs0[f]? := by
  have h0 : AllStill (encode w n) fs0 := allStill_of (encode_still w n) hall
  induction k generalizing st with
  | zero =>
    unfold alone at h
    simp only [List.take_zero, encStmts] at h
    cases h
    exact ⟨rfl, h0, fun f _ => rfl⟩
  | succ k ih =>
    obtain ⟨st1, h1⟩ := alone_pred w n c fs0 bufs i k st h
    have ih := ih st1 h1
    cases hs : (decl c).enc[k]? with
    | none =>
      have hk : (decl c).enc.length ≤ k := by simpa using hs
      have : alone w n c fs0 bufs i (k + 1) = alone w n c fs0 bufs i k := by
        unfold alone; rw [List.take_of_length_le (by omega), List.take_of_length_le hk]
      rw [this, h1] at h
      cases h
      refine ⟨ih.1, ih.2.1, fun f hf => ih.2.2 f fun ⟨m, s, hm, h⟩ => hf ⟨m, s, by omega, h⟩⟩
    | some s =>
      rw [alone_succ w n c fs0 bufs i k s hs st1 h1] at h
      have hr := (stmt_reads w (encode w n) s st1.fs st1.fs st1.buf st1.loc ih.2.1 ih.2.1 (fun _ _ => rfl)).2.2.2
      rw [h] at hr
      have hmono : ∀ f, ¬ framed c (k + 1) f → ¬ framed c k f :=
        fun f hf ⟨m, s, hm, h⟩ => hf ⟨m, s, by omega, h⟩
      cases hfr : s.frame with
      | none =>
        rw [hfr] at hr
        simp only at hr
        rw [hr.1]
        exact ⟨ih.1, ih.2.1, fun f hf => ih.2.2 f (hmono f hf)⟩
      | some g =>
        rw [hfr] at hr
        obtain ⟨x, hx, -, -⟩ := hr
        simp only at hx
        refine ⟨?_, ?_, ?_⟩
        · rw [hx]; cases x <;> simp [setOpt, ih.1]
        · intro v hv
          cases s with
          | setLen f l m =>
            simp only [encStmt] at h
            revert h
            cases st1.loc l with
            | none => intro h; cases h
            | some p =>
              cases st1.loc m with
              | none => intro h; cases h
              | some q =>
                intro h
                cases h
                rcases List.mem_or_eq_of_mem_set hv with hv | rfl
                · exact ih.2.1 v hv
                · exact ⟨encode_still w n _ rfl, by rintro xs h; cases h⟩
          | checksum f alg =>
            simp only [encStmt] at h
            revert h
            cases Registry.getService w.svc alg with
            | none => intro h; cases h; exact ih.2.1 v hv
            | some s =>
              intro h
              cases h
              rcases List.mem_or_eq_of_mem_set hv with hv | rfl
              · exact ih.2.1 v hv
              · exact ⟨encode_still w n _ rfl, by rintro xs h; cases h⟩
          | _ => cases hfr
        · intro f hf
          rw [hx, getElem?_setOpt _ _ _ _ (fun e => hf ⟨k, s, by omega, hs, by rw [hfr, e]⟩)]
          exact ih.2.2 f (hmono f hf)

/-- A computed field keeps its value. -/
theorem alone_once (hall : framelessList fs0 = true) (i k k' : Nat) (hk : k ≤ k') (st st' : EncSt)
    (h : alone w n c fs0 bufs i k = (st, none)) (h' : alone w n c fs0 bufs i k' = (st', none)) (f : Nat) (hf : framed c k f) :
    st'.fs[f]? = st.fs[f]? := by
  induction hk generalizing st' with
  | refl => rw [h] at h'; cases h'; rfl
  | @step m hm ih =>
    obtain ⟨st1, h1⟩ := alone_pred w n c fs0 bufs i m st' h'
    rw [← ih st1 h1]
    have ha := alone_fields w n c fs0 bufs hall i m st1 h1
    cases hs : (decl c).enc[m]? with
    | none =>
      have hl : (decl c).enc.length ≤ m := by simpa using hs
      have : alone w n c fs0 bufs i (m + 1) = alone w n c fs0 bufs i m := by
        unfold alone; rw [List.take_of_length_le (by omega), List.take_of_length_le hl]
      rw [this, h1] at h'
      cases h'
      rfl
    | some s =>
      rw [alone_succ w n c fs0 bufs i m s hs st1 h1] at h'
      have hr := (stmt_reads w (encode w n) s st1.fs st1.fs st1.buf st1.loc ha.2.1 ha.2.1 (fun _ _ => rfl)).2.2.2
      rw [h'] at hr
      cases hfr : s.frame with
      | none =>
        rw [hfr] at hr
        simp only at hr
        rw [hr.1]
      | some g =>
        rw [hfr] at hr
        obtain ⟨x, hx, -, -⟩ := hr
        simp only at hx
        rw [hx]
        refine getElem?_setOpt _ _ _ _ ?_
        rintro rfl
        obtain ⟨q, s', hq, hs', hf'⟩ := hf
        exact progOk_at (progOk_table c) q m s' s g hs' hs (Nat.lt_of_lt_of_le hq hm) (Or.inr hf') hfr

/-- At the same point two threads alone have the same fields. -/
theorem alone_twin (hall : framelessList fs0 = true) (i j k : Nat) (hi : (bufs i).rd ≤ (bufs i).data.length)
    (hj : (bufs j).rd ≤ (bufs j).data.length) (hread : (bufs i).readable = (bufs j).readable) (st st' : EncSt)
    (h : alone w n c fs0 bufs i k = (st, none)) (h' : alone w n c fs0 bufs j k = (st', none)) :
    Twin (bufs i) (bufs j) st st' := by
  induction k generalizing st st' with
  | zero =>
    unfold alone at h h'
    simp only [List.take_zero, encStmts] at h h'
    cases h; cases h'
    exact ⟨rfl, [], by simp, by simp, fun l => Or.inl ⟨rfl, rfl⟩⟩
  | succ k ih =>
    obtain ⟨st1, h1⟩ := alone_pred w n c fs0 bufs i k st h
    obtain ⟨st1', h1'⟩ := alone_pred w n c fs0 bufs j k st' h'
    have ih := ih st1 st1' h1 h1'
    have ha := alone_fields w n c fs0 bufs hall i k st1 h1
    cases hs : (decl c).enc[k]? with
    | none =>
      have hl : (decl c).enc.length ≤ k := by simpa using hs
      have : ∀ i, alone w n c fs0 bufs i (k + 1) = alone w n c fs0 bufs i k := by
        intro i; unfold alone; rw [List.take_of_length_le (by omega), List.take_of_length_le hl]
      rw [this, h1] at h
      rw [this, h1'] at h'
      cases h; cases h'
      exact ih
    | some s =>
      rw [alone_succ w n c fs0 bufs i k s hs st1 h1] at h
      rw [alone_succ w n c fs0 bufs j k s hs st1' h1'] at h'
      have := twin_stmt w (encode w n) s (bufs i) (bufs j) st1 st1' ih ha.2.1 hi hj hread (by rw [h]) (by rw [h'])
      rw [h, h'] at this
      exact this

/-- Where a thread is: at statement `k` with the buffer it would have alone, or failed there as it would alone. -/
def At (k : Nat) (i : Nat) (t : EncThread) : Prop :=
  ∃ st, alone w n c fs0 bufs i k = (st, none) ∧
    ((t.err = none ∧ t.todo = (decl c).enc.drop k ∧ t.buf = st.buf ∧ t.loc = st.loc)
      ∨ ∃ e s, t.err = some e ∧ (decl c).enc[k]? = some s ∧ (encStmt w (encode w n) s st).2 = some e
          ∧ t.buf = (encStmt w (encode w n) s st).1.buf)

/-- Invariant of the system: `ks i` is where thread `i` is. -/
structure EncInv (ks : Nat → Nat) (sys : EncSys) : Prop where
  at_ : ∀ i, At w n c fs0 bufs (ks i) i (sys.thr i)
  still : AllStill (encode w n) sys.fs
  len : sys.fs.length = fs0.length
  old : ∀ f, (∀ i, ¬ framed c (ks i) f) → sys.fs[f]? = fs0[f]?
  new : ∀ i f, framed c (ks i) f → ∀ st, alone w n c fs0 bufs i (ks i) = (st, none) → sys.fs[f]? = st.fs[f]?

theorem setOpt_length (fs : List Val) (f : Nat) (x : Option Val) : (setOpt fs f x).length = fs.length := by
  cases x <;> simp [setOpt]

theorem frame_isSome (s : EncStmt) (k f : Nat) (hs : (decl c).enc[k]? = some s) (hf : s.frame = some f) : hasComputed c = true := by
  rw [frame_table, List.any_eq_true]
  exact ⟨s, List.mem_of_getElem? hs, by rw [hf]; rfl⟩

/-- A computing statement keeps the other fields and stores a number. -/
theorem frame_still (s : EncStmt) (f : Nat) (hf : s.frame = some f) (st : EncSt) (h : AllStill (encode w n) st.fs) :
    AllStill (encode w n) (encStmt w (encode w n) s st).1.fs := by
  have hset : ∀ m : Num, AllStill (encode w n) (st.fs.set f (.num m)) := by
    intro m v hv
    rcases List.mem_or_eq_of_mem_set hv with hv | rfl
    · exact h v hv
    · exact ⟨encode_still w n _ rfl, by rintro xs h; cases h⟩
  cases s with
  | setLen g l m =>
    cases hf
    simp only [encStmt]
    cases st.loc l with
    | none => exact h
    | some p =>
      cases st.loc m with
      | none => exact h
      | some q => exact hset _
  | checksum g alg =>
    cases hf
    simp only [encStmt]
    cases Registry.getService w.svc alg with
    | none => exact h
    | some s => exact hset _
  | _ => cases hf

theorem encSys_step (hall : framelessList fs0 = true) (hrd : ∀ i, (bufs i).rd ≤ (bufs i).data.length)
    (hsame : hasComputed c = false ∨ ∀ i j, (bufs i).readable = (bufs j).readable)
    (ks : Nat → Nat) (sys : EncSys) (h : EncInv w n c fs0 bufs ks sys) (i : Nat) :
    ∃ ks', EncInv w n c fs0 bufs ks' (sys.step w n i) ∧ (∀ j, j ≠ i → ks' j = ks j) := by
  obtain ⟨st, hst, hthr⟩ := h.at_ i
  rcases hthr with ⟨herr, htodo, hbuf, hloc⟩ | ⟨e, s, herr, hs, he, hbuf⟩
  · cases hs : (decl c).enc[ks i]? with
    | none =>
      have hl : (decl c).enc.length ≤ ks i := by simpa using hs
      have : sys.step w n i = sys := by
        unfold EncSys.step
        rw [herr, htodo, List.drop_of_length_le hl]
      rw [this]
      exact ⟨ks, h, fun _ _ => rfl⟩
    | some s =>
      have hdrop : (decl c).enc.drop (ks i) = s :: (decl c).enc.drop (ks i + 1) := by
        obtain ⟨hlt, hg⟩ := List.getElem?_eq_some_iff.1 hs
        rw [List.drop_eq_getElem_cons hlt, hg]
      obtain ⟨sys', esys⟩ : ∃ sys', sys' = sys.step w n i := ⟨_, rfl⟩
      have hstep : sys' = ⟨(encStmt w (encode w n) s ⟨sys.fs, st.buf, st.loc⟩).1.fs, fun j => if j = i then
          ⟨(decl c).enc.drop (ks i + 1), (encStmt w (encode w n) s ⟨sys.fs, st.buf, st.loc⟩).1.buf,
            (encStmt w (encode w n) s ⟨sys.fs, st.buf, st.loc⟩).1.loc, (encStmt w (encode w n) s ⟨sys.fs, st.buf, st.loc⟩).2⟩
          else sys.thr j⟩ := by
        rw [esys]
        unfold EncSys.step
        rw [herr, htodo, hdrop, hbuf, hloc]
      rw [← esys]
      have ha := alone_fields w n c fs0 bufs hall i (ks i) st hst
      have hreads : ∀ f, s.reads = some f → sys.fs[f]? = st.fs[f]? := by
        intro f hf
        by_cases hfr : framed c (ks i) f
        · exact h.new i f hfr st hst
        · rw [ha.2.2 f hfr]
          refine h.old f ?_
          rintro j ⟨m, s', hm, hs', hf'⟩
          rcases Nat.lt_trichotomy m (ks i) with h1 | h1 | h1
          · exact hfr ⟨m, s', h1, hs', hf'⟩
          · subst h1
            rw [hs] at hs'; cases hs'
            rw [reads_frame s f hf] at hf'; cases hf'
          · exact progOk_at (progOk_table c) (ks i) m s s' f hs hs' h1 (Or.inl hf) hf'
      have hr := stmt_reads w (encode w n) s st.fs sys.fs st.buf st.loc ha.2.1 h.still hreads
      have hest : (⟨st.fs, st.buf, st.loc⟩ : EncSt) = st := rfl
      rw [hest] at hr
      obtain ⟨r1, r2, r3, r4⟩ := hr
      have hnext := alone_succ w n c fs0 bufs i (ks i) s hs st hst
      -- the other threads are where they were
      have hothers : ∀ j, j ≠ i → sys'.thr j = sys.thr j := by
        intro j hj; rw [hstep]; simp only [if_neg hj]
      cases hres : (encStmt w (encode w n) s st).2 with
      | some e =>
        refine ⟨ks, ?_, fun _ _ => rfl⟩
        have hfs : sys'.fs = sys.fs := by
          rw [hstep]
          cases hfr : s.frame with
          | none => rw [hfr] at r4; exact r4.2
          | some f =>
            rw [hfr] at r4
            obtain ⟨x, -, hx, hnone⟩ := r4
            have hxn := hnone (by rw [hres]; simp)
            subst hxn
            exact hx
        refine ⟨?_, ?_, ?_, ?_, ?_⟩
        · intro j
          by_cases hj : j = i
          · subst hj
            refine ⟨st, hst, Or.inr ⟨e, s, ?_, hs, hres, ?_⟩⟩
            · rw [hstep]; simp only [if_true]; rw [r3, hres]
            · rw [hstep]; simp only [if_true]; rw [r1]
          · rw [hothers j hj]; exact h.at_ j
        · rw [hfs]; exact h.still
        · rw [hfs]; exact h.len
        · rw [hfs]; exact h.old
        · rw [hfs]; exact h.new
      | none =>
        have hst' : alone w n c fs0 bufs i (ks i + 1) = ((encStmt w (encode w n) s st).1, none) := by
          rw [hnext]; exact Prod.ext rfl hres
        obtain ⟨ks', eks⟩ : ∃ ks' : Nat → Nat, ks' = fun j => if j = i then ks i + 1 else ks j := ⟨_, rfl⟩
        have hki : ks' i = ks i + 1 := by rw [eks]; simp
        have hkj : ∀ j, j ≠ i → ks' j = ks j := by intro j hj; rw [eks]; simp [hj]
        have hat : ∀ j, At w n c fs0 bufs (ks' j) j (sys'.thr j) := by
          intro j
          by_cases hj : j = i
          · subst hj
            rw [hki]
            refine ⟨_, hst', Or.inl ⟨?_, ?_, ?_, ?_⟩⟩
            · rw [hstep]; simp only [if_true]; rw [r3, hres]
            · rw [hstep]; simp only [if_true]
            · rw [hstep]; simp only [if_true]; rw [r1]
            · rw [hstep]; simp only [if_true]; rw [r2]
          · rw [hothers j hj, hkj j hj]; exact h.at_ j
        refine ⟨ks', ?_, hkj⟩
        cases hfr : s.frame with
        | none =>
          rw [hfr] at r4
          have hfs : sys'.fs = sys.fs := by rw [hstep]; exact r4.2
          have hframed : ∀ j f, framed c (ks' j) f ↔ framed c (ks j) f := by
            intro j f
            by_cases hj : j = i
            · subst hj
              rw [hki]
              constructor
              · rintro ⟨m, s', hm, hs', hf'⟩
                refine ⟨m, s', ?_, hs', hf'⟩
                rcases Nat.lt_or_ge m (ks j) with h1 | h1
                · exact h1
                · have : m = ks j := by omega
                  subst this
                  rw [hs] at hs'; cases hs'
                  rw [hfr] at hf'; cases hf'
              · rintro ⟨m, s', hm, h⟩; exact ⟨m, s', by omega, h⟩
            · rw [hkj j hj]
          refine ⟨hat, ?_, ?_, ?_, ?_⟩
          · rw [hfs]; exact h.still
          · rw [hfs]; exact h.len
          · intro f hf; rw [hfs]; exact h.old f fun j hj => hf j ((hframed j f).2 hj)
          · intro j f hf st1 hst1
            rw [hfs]
            rw [hframed] at hf
            by_cases hj : j = i
            · subst hj
              rw [hki, hst'] at hst1
              cases hst1
              rw [r4.1]
              exact h.new j f hf st hst
            · rw [hkj j hj] at hst1; exact h.new j f hf st1 hst1
        | some g =>
          rw [hfr] at r4
          obtain ⟨x, hx1, hx2, -⟩ := r4
          have hfs : sys'.fs = setOpt sys.fs g x := by rw [hstep]; exact hx2
          have hcomp := frame_isSome c s (ks i) g hs hfr
          have hrd2 : ∀ i j, (bufs i).readable = (bufs j).readable := by
            rcases hsame with h' | h'
            · rw [hcomp] at h'; cases h'
            · exact h'
          -- any thread beyond this statement has computed the same value
          have hval : ∀ j st1, framed c (ks j) g → alone w n c fs0 bufs j (ks j) = (st1, none) →
              st1.fs[g]? = (encStmt w (encode w n) s st).1.fs[g]? := by
            intro j st1 hf hst1
            obtain ⟨m, s', hm, hs', hf'⟩ := hf
            have hmk : m = ks i := by
              rcases Nat.lt_trichotomy m (ks i) with h1 | h1 | h1
              · exact absurd hfr (progOk_at (progOk_table c) m (ks i) s' s g hs' hs h1 (Or.inr hf'))
              · exact h1
              · exact absurd hf' (progOk_at (progOk_table c) (ks i) m s s' g hs hs' h1 (Or.inr hfr))
            subst hmk
            obtain ⟨st2, hst2⟩ := alone_le w n c fs0 bufs j (ks i + 1) (ks j) (by omega) st1 hst1
            rw [alone_once w n c fs0 bufs hall j (ks i + 1) (ks j) (by omega) st2 st1 hst2 hst1 g ⟨ks i, s, by omega, hs, hfr⟩]
            have := alone_twin w n c fs0 bufs hall j i (ks i + 1) (hrd j) (hrd i) (hrd2 j i) _ _ hst2 hst'
            rw [this.1]
          have hg : sys'.fs[g]? = (encStmt w (encode w n) s st).1.fs[g]? := by
            cases x with
            | some v =>
              rw [hfs, hx1]
              simp only [setOpt, List.getElem?_set, if_true, h.len, ha.1]
            | none =>
              rw [hfs]
              simp only [setOpt] at hx1 ⊢
              by_cases hj : ∃ j, framed c (ks j) g
              · obtain ⟨j, hj⟩ := hj
                obtain ⟨st1, hst1, -⟩ := h.at_ j
                rw [h.new j g hj st1 hst1]
                exact hval j st1 hj hst1
              · rw [h.old g (fun j hf => hj ⟨j, hf⟩), hx1, ha.2.2 g (fun hf => hj ⟨i, hf⟩)]
          have hne : ∀ f, f ≠ g → sys'.fs[f]? = sys.fs[f]? := by
            intro f hf; rw [hfs]; exact getElem?_setOpt _ _ _ _ (fun e => hf e.symm)
          have hni : ∀ f, f ≠ g → (encStmt w (encode w n) s st).1.fs[f]? = st.fs[f]? := by
            intro f hf; rw [hx1]; exact getElem?_setOpt _ _ _ _ (fun e => hf e.symm)
          have hdown : ∀ f, f ≠ g → framed c (ks i + 1) f → framed c (ks i) f := by
            rintro f hf ⟨m, s', hm, hs', hf'⟩
            refine ⟨m, s', ?_, hs', hf'⟩
            rcases Nat.lt_or_ge m (ks i) with h1 | h1
            · exact h1
            · have : m = ks i := by omega
              subst this
              rw [hs] at hs'; cases hs'
              rw [hfr] at hf'
              exact absurd (Option.some.inj hf').symm hf
          refine ⟨hat, ?_, ?_, ?_, ?_⟩
          · rw [hstep]
            exact frame_still w n s g hfr ⟨sys.fs, st.buf, st.loc⟩ h.still
          · rw [hfs, setOpt_length]; exact h.len
          · intro f hf
            have hfg : f ≠ g := by
              rintro rfl
              exact hf i (by rw [hki]; exact ⟨ks i, s, by omega, hs, hfr⟩)
            rw [hne f hfg]
            refine h.old f ?_
            intro j hj
            by_cases hji : j = i
            · subst hji
              obtain ⟨m, s', hm, h'⟩ := hj
              exact hf j (by rw [hki]; exact ⟨m, s', by omega, h'⟩)
            · exact hf j (by rw [hkj j hji]; exact hj)
          · intro j f hf st1 hst1
            by_cases hfg : f = g
            · subst hfg
              rw [hg]
              by_cases hji : j = i
              · subst hji
                rw [hki, hst'] at hst1
                cases hst1; rfl
              · rw [hkj j hji] at hf hst1
                exact (hval j st1 hf hst1).symm
            · rw [hne f hfg]
              by_cases hji : j = i
              · subst hji
                rw [hki, hst'] at hst1
                cases hst1
                rw [hni f hfg]
                rw [hki] at hf
                exact h.new j f (hdown f hfg hf) st hst
              · rw [hkj j hji] at hf hst1
                exact h.new j f hf st1 hst1
  · have : sys.step w n i = sys := by
      unfold EncSys.step
      rw [herr]
    rw [this]
    exact ⟨ks, h, fun _ _ => rfl⟩

theorem encSys_run (hall : framelessList fs0 = true) (hrd : ∀ i, (bufs i).rd ≤ (bufs i).data.length)
    (hsame : hasComputed c = false ∨ ∀ i j, (bufs i).readable = (bufs j).readable) (sched : List Nat) :
    ∃ ks, EncInv w n c fs0 bufs ks ((EncSys.start c fs0 bufs).run w n sched) := by
  suffices H : ∀ sys, (∃ ks, EncInv w n c fs0 bufs ks sys) → ∃ ks, EncInv w n c fs0 bufs ks (sys.run w n sched) by
    refine H _ ⟨fun _ => 0, ?_, allStill_of (encode_still w n) hall, rfl, fun _ _ => rfl, ?_⟩
    · intro i
      exact ⟨⟨fs0, bufs i, fun _ => none⟩, rfl, Or.inl ⟨rfl, rfl, rfl, rfl⟩⟩
    · rintro i f ⟨m, s, hm, -⟩; omega
  induction sched with
  | nil => intro sys h; exact h
  | cons i is ih =>
    rintro sys ⟨ks, h⟩
    obtain ⟨ks', h', -⟩ := encSys_step w n c fs0 bufs hall hrd hsame ks sys h i
    exact ih _ ⟨ks', h'⟩

end System

end FinProto
