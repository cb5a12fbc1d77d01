import Verif.Proofs.TypedHeap
import Verif.Proofs.DecodeErrors
import Verif.Model.ConcurrentDecode
/-
Helper lemmas: every step of a thread keeps the heap typed and throws only the documented exceptions.
-/
namespace FinProto

/-! ### The statements fit the declared types -/

def convOk (p t : PTy) : Bool := decide (p = t) || (p.isInt && t.isInt)

theorem convert_ok {n : Num} {p t : PTy} (hn : n.ty = p) (h : convOk p t = true) : ∃ m, n.convert t = some m := by
  subst hn
  unfold Num.convert
  split
  · exact ⟨_, rfl⟩
  · rename_i hne
    simp only [convOk, Bool.or_eq_true, decide_eq_true_eq, hne, false_or] at h
    rw [if_pos h]
    exact ⟨_, rfl⟩

def elFits : ElTy → EncElem → Bool
  | .prim p, .num t _ => convOk p t
  | .str, .fixed _ _ _ => true
  | .str, .dyn zt t _ => zt.isInt && t.isInt
  | .obj _, .obj => true
  | _, _ => false

/-- The statement fits the field types and uses only local variables in `A`. -/
def encFits (tys : List FTy) (A : List Nat) : EncStmt → Bool
  | .num f t _ => match tys[f]? with | some (.prim p) => convOk p t | _ => false
  | .fixed f _ _ _ => decide (tys[f]? = some .str)
  | .dyn f zt t _ => decide (tys[f]? = some .str) && zt.isInt && t.isInt
  | .list f zt t _ el => match tys[f]? with | some (.list e) => elFits e el && zt.isInt && t.isInt | _ => false
  | .obj f => match tys[f]? with | some t => objTy t | _ => false
  | .objOpt f => match tys[f]? with | some t => objTy t | _ => false
  | .save _ => true
  | .zero t _ => t.isInt
  | .setLen f x y => decide (tys[f]? = some (.prim .i32)) && A.contains x && A.contains y
  | .patch x f t _ => A.contains x && match tys[f]? with | some (.prim p) => convOk p t | _ => false
  | .checksum f _ => decide (tys[f]? = some (.prim .i32))

def EncStmt.saves : EncStmt → List Nat
  | .save x => [x]
  | _ => []

def encFitsAll (tys : List FTy) : List Nat → List EncStmt → Bool
  | _, [] => true
  | A, s :: ss => encFits tys A s && encFitsAll tys (s.saves ++ A) ss

theorem encFits_table (c : Cls) : encFitsAll (javaTypes c) [] (decl c).enc = true := by
  cases c <;> decide +kernel

def delFits : ElTy → DecElem → Bool
  | .prim p, .num t _ => decide (t = p)
  | .str, .fixed _ _ _ => true
  | .str, .dyn _ _ => true
  | .obj c, .obj d => decide (c = d)
  | _, _ => false

def decFits (tys : List FTy) : DecStmt → Bool
  | .num f t _ => match tys[f]? with | some (.prim p) => decide (t = p) || (t.isInt && p.isInt && decide (t.size ≤ p.size)) | _ => false
  | .fixed f _ _ _ => decide (tys[f]? = some .str)
  | .dyn f _ _ => decide (tys[f]? = some .str)
  | .list f _ _ el => match tys[f]? with | some (.list e) => delFits e el | _ => false
  | .obj f c => decide (tys[f]? = some (.obj c))
  | .create f _ key => decide (tys[f]? = some .codec) && decide (key < tys.length)
  | .call f => match tys[f]? with | some t => objTy t | _ => false

theorem decFits_table (c : Cls) : (decl c).dec.all (decFits (javaTypes c)) = true := by
  cases c <;> decide +kernel

/-! ### Writes -/

/-- A write that does not run out of space succeeds. -/
def WritesOk (e : Option JErr) : Prop := e = none ∨ e = some .indexOutOfBounds

theorem WritesOk.enc {e : Option JErr} (h : WritesOk e) : EncThrows e := by
  rcases h with h | h
  · exact .inl h
  · exact .inr (.inl h)

theorem write_ok (b : WBuf) (bs : List Byte) : WritesOk (b.write bs).2 := by
  unfold WBuf.write
  split
  · exact .inl rfl
  · exact .inr rfl

theorem set_ok (b : WBuf) (i : Nat) (bs : List Byte) : WritesOk (b.set i bs).2 := by
  unfold WBuf.set
  split
  · exact .inl rfl
  · exact .inr rfl

theorem writeVal_ok (b : WBuf) (e : Endian) {n : Num} {p t : PTy} (hn : n.ty = p) (h : convOk p t = true) : WritesOk (writeVal b t e (.num n)).2 := by
  obtain ⟨m, hm⟩ := convert_ok hn h
  simp only [writeVal, hm]
  exact write_ok _ _

theorem writeInt_ok (b : WBuf) (e : Endian) {t : PTy} (k : Nat) (h : t.isInt = true) : WritesOk (writeInt b t e k).2 := by
  unfold writeInt
  refine writeVal_ok b e (p := .i32) rfl ?_
  have h32 : PTy.i32.isInt = true := rfl
  simp only [convOk, h32, h, Bool.and_self, Bool.or_true]

theorem padChar_ok (c : JChar) : ∀ (n : Nat) (b : WBuf), WritesOk (padChar b n c).2
  | 0, _ => .inl rfl
  | n + 1, b => by
    unfold padChar
    have := write_ok b [c.setWidth 8]
    revert this
    rcases b.write [c.setWidth 8] with ⟨b', _ | e⟩ <;> intro this
    · exact padChar_ok c n b'
    · exact this

theorem writeFixed_ok (b : WBuf) (s : Option JStr) (n : Nat) (pad : JChar) (left : Bool) : WritesOk (writeFixedString b s n pad left).2 := by
  unfold writeFixedString
  split
  · rename_i c cs
    dsimp only
    have h1 : WritesOk (if left && min (utf8Enc (c :: cs)).length n < n then padChar b (n - min (utf8Enc (c :: cs)).length n) pad else (b, none)).2 := by
      split
      · exact padChar_ok _ _ _
      · exact .inl rfl
    revert h1
    generalize (if left && min (utf8Enc (c :: cs)).length n < n then padChar b (n - min (utf8Enc (c :: cs)).length n) pad else (b, none)) = r1
    intro h1
    rcases r1 with ⟨b1, _ | e⟩
    · dsimp only
      have h2 := write_ok b1 ((utf8Enc (c :: cs)).take (min (utf8Enc (c :: cs)).length n))
      revert h2
      rcases b1.write ((utf8Enc (c :: cs)).take (min (utf8Enc (c :: cs)).length n)) with ⟨b2, _ | e⟩ <;> intro h2
      · dsimp only
        split
        · exact padChar_ok _ _ _
        · exact .inl rfl
      · exact h2
    · exact h1
  · split
    · exact padChar_ok _ _ _
    · exact .inl rfl

theorem writeDyn_ok (b : WBuf) {zt t : PTy} (e : Endian) (s : Option JStr) (hz : zt.isInt = true) (ht : t.isInt = true) :
    WritesOk (writeDyn b zt t e s).2 := by
  unfold writeDyn
  split
  · rename_i c cs
    have := writeInt_ok b e (utf8Enc (c :: cs)).length ht
    revert this
    rcases writeInt b t e (utf8Enc (c :: cs)).length with ⟨b', _ | e⟩ <;> intro this
    · exact write_ok _ _
    · exact this
  · exact writeInt_ok _ _ _ hz

theorem str_leaf {h : Heap} {x : HVal} (hx : ValOf h .str x) : ∃ s, x.leaf.asStr = some s := by
  cases hx <;> exact ⟨_, rfl⟩

theorem elStr_leaf {h : Heap} {x : HVal} (hx : ElOf h .str x) : ∃ s, x.leaf.asStr = some s := by
  cases hx <;> exact ⟨_, rfl⟩

theorem fixedVal_ok (b : WBuf) {v : Val} (hv : ∃ s, v.asStr = some s) (n : Nat) (pad : JChar) (left : Bool) :
    WritesOk (writeFixedVal b v n pad left).2 := by
  obtain ⟨s, hs⟩ := hv
  simp only [writeFixedVal, hs]
  exact writeFixed_ok _ _ _ _ _

theorem dynVal_ok (b : WBuf) {v : Val} (hv : ∃ s, v.asStr = some s) {zt t : PTy} (e : Endian) (hz : zt.isInt = true) (ht : t.isInt = true) :
    WritesOk (writeDynVal b v zt t e).2 := by
  obtain ⟨s, hs⟩ := hv
  simp only [writeDynVal, hs]
  exact writeDyn_ok _ _ _ hz ht

/-! ### Threads that encode -/

/-- The call in progress belongs to a message of the class whose statements it executes. -/
structure ActOk (h : Heap) (a : Activation) : Prop where
  ok : ∃ c ys A, h[a.this]? = some (.msg c ys) ∧ encFitsAll (javaTypes c) A a.todo = true ∧ (∀ x ∈ A, ∃ k, a.loc x = some k)
    ∧ ∀ f el i, a.loop = some (f, el, i) → ∃ e, (javaTypes c)[f]? = some (.list e) ∧ elFits e el = true

structure HOk (h : Heap) (t : HThread) : Prop where
  acts : ∀ a ∈ t.stack, ActOk h a
  err : EncThrows t.err

theorem ActOk.keep {h h' : Heap} (hk : Keeps h h') {a : Activation} (ha : ActOk h a) : ActOk h' a := by
  obtain ⟨c, ys, A, h1, h2⟩ := ha.ok
  obtain ⟨ys', h3⟩ := hk _ _ _ h1
  exact ⟨c, ys', A, h3, h2⟩

theorem HOk.keep {h h' : Heap} (hk : Keeps h h') {t : HThread} (ht : HOk h t) : HOk h' t := ⟨fun a ha => (ht.acts a ha).keep hk, ht.err⟩

theorem henter_ok {h : Heap} (n : Nat) {x : HVal} (hx : ValOf h .codec x) {t : HThread} (ht : HOk h t) : HOk h (HThread.enter n x h t) := by
  cases hx with
  | null _ => exact ⟨ht.acts, .inr (.inr (.inl rfl))⟩
  | @codec r c ys hr =>
    simp only [HThread.enter, hr]
    split
    · refine ⟨fun a ha => ?_, ht.err⟩
      rcases List.mem_cons.mp ha with rfl | ha
      · exact ⟨c, ys, [], hr, encFits_table c, by simp, by simp⟩
      · exact ht.acts a ha
    · exact ⟨ht.acts, .inr (.inr (.inr rfl))⟩

theorem objTy_codec {h : Heap} {t : FTy} (ht : objTy t = true) {x : HVal} (hx : ValOf h t x) : ValOf h .codec x := by
  cases t <;> simp [objTy] at ht
  · cases hx with
    | null _ => exact .null (by simp)
    | obj hr => exact .codec hr
  · exact hx

theorem listAt_of {h : Heap} {r f a : Nat} {xs : List HVal} (hf : h.field r f = some (.ref a)) (ha : h[a]? = some (.arr xs)) : h.listAt r f = some xs := by
  unfold Heap.listAt
  rw [hf]
  dsimp only
  rw [ha]

theorem listAt_null {h : Heap} {r f : Nat} (hf : h.field r f = some .null) : h.listAt r f = none := by
  unfold Heap.listAt
  rw [hf]

theorem hiterate_ok {h : Heap} (hh : TypedHeap h) (n : Nat) {t : HThread} {a : Activation} {as : List Activation}
    (hst : t.stack = a :: as) (ht : HOk h t) {f : Nat} {el : EncElem} {i : Nat} (hl : a.loop = some (f, el, i)) :
    HOk h (t.iterate n h a as f el i) := by
  obtain ⟨c, ys, A, h1, h2, h3, h4⟩ := (ht.acts a (by rw [hst]; simp)).ok
  obtain ⟨e, h5, h6⟩ := h4 f el i hl
  obtain ⟨y, h7, -, h9⟩ := hh.field h1 h5
  have top : ∀ (l : Option (Nat × EncElem × Nat)), (∀ f el i, l = some (f, el, i) → ∃ e, (javaTypes c)[f]? = some (.list e) ∧ elFits e el = true) →
      ∀ b er, EncThrows er → HOk h ⟨{ a with loop := l } :: as, b, er⟩ := by
    intro l hl b er her
    refine ⟨fun a' ha' => ?_, her⟩
    rcases List.mem_cons.mp ha' with rfl | ha'
    · exact ⟨c, ys, A, h1, h2, h3, hl⟩
    · exact ht.acts a' (by rw [hst]; exact List.mem_cons_of_mem _ ha')
  unfold HThread.iterate
  cases h9 with
  | null _ =>
    rw [listAt_null h7, if_pos h7]
    exact ⟨ht.acts, .inr (.inr (.inl rfl))⟩
  | @list b _ xs hb hx =>
    rw [listAt_of h7 hb]
    dsimp only
    rcases hi : xs[i]? with _ | x
    · dsimp only
      exact top _ (by simp) _ _ ht.err
    · have hxo := hx x (List.mem_of_getElem? hi)
      have hlp : ∀ f' el' i', some (f, el, i + 1) = some (f', el', i') → ∃ e, (javaTypes c)[f']? = some (.list e) ∧ elFits e el' = true := by
        intro f' el' i' hs
        simp only [Option.some.injEq, Prod.mk.injEq] at hs
        rw [← hs.1, ← hs.2.1]
        exact ⟨e, h5, h6⟩
      dsimp only
      cases el with
      | num p en =>
        refine top _ hlp _ _ ?_
        cases hxo with
        | null _ => exact .inr (.inr (.inl rfl))
        | num hn => exact (writeVal_ok _ _ hn h6).enc
        | str s => simp [elFits] at h6
        | obj hr => simp [elFits] at h6
      | fixed k pad left =>
        refine top _ hlp _ _ (fixedVal_ok _ ?_ _ _ _).enc
        cases e <;> simp [elFits] at h6
        exact elStr_leaf hxo
      | dyn zt p en =>
        cases e <;> simp [elFits] at h6
        exact top _ hlp _ _ (dynVal_ok _ (elStr_leaf hxo) _ h6.1 h6.2).enc
      | obj =>
        refine henter_ok n ?_ (top _ hlp _ _ ht.err)
        cases e <;> simp [elFits] at h6
        cases hxo with
        | null _ => exact .null (by simp)
        | obj hr => exact .codec hr

theorem hexec_ok {h : Heap} (hh : TypedHeap h) (w : World) (n : Nat) {t : HThread} {a : Activation} {as : List Activation}
    (hst : t.stack = a :: as) (ht : HOk h t) {s : EncStmt} {ss : List EncStmt} (htd : a.todo = s :: ss) (hlo : a.loop = none) :
    TypedHeap (t.exec w n h s { a with todo := ss } as).1 ∧ Keeps h (t.exec w n h s { a with todo := ss } as).1
      ∧ HOk (t.exec w n h s { a with todo := ss } as).1 (t.exec w n h s { a with todo := ss } as).2 := by
  obtain ⟨c, ys, A, h1, h2, h3, -⟩ := (ht.acts a (by rw [hst]; simp)).ok
  rw [htd, encFitsAll, Bool.and_eq_true] at h2
  obtain ⟨h2, h4⟩ := h2
  have hw : ∀ {e}, WritesOk e → EncThrows e := fun h => h.enc
  have rest : ∀ {h' : Heap}, Keeps h h' → ∀ a' ∈ as, ActOk h' a' := fun hk a' ha' => (ht.acts a' (by rw [hst]; exact List.mem_cons_of_mem _ ha')).keep hk
  have top : ∀ {h' : Heap}, Keeps h h' → ∀ (l : Option (Nat × EncElem × Nat)),
      (∀ f el i, l = some (f, el, i) → ∃ e, (javaTypes c)[f]? = some (.list e) ∧ elFits e el = true) →
      ∀ loc, (∀ x ∈ s.saves ++ A, ∃ k, loc x = some k) → ∀ b er, EncThrows er → HOk h' ⟨⟨a.this, ss, loc, l⟩ :: as, b, er⟩ := by
    intro h' hk l hl loc hloc b er her
    refine ⟨fun a' ha' => ?_, her⟩
    rcases List.mem_cons.mp ha' with rfl | ha'
    · obtain ⟨ys', h1'⟩ := hk _ _ _ h1
      exact ⟨c, ys', s.saves ++ A, h1', h4, hloc, hl⟩
    · exact rest hk a' ha'
  have kr := Keeps.refl h
  obtain ⟨this, todo, loc, loop⟩ := a
  dsimp only at h1 h3 hlo top ⊢
  subst hlo
  cases s with
  | num f p e =>
    simp only [HThread.exec, hencStmt]
    simp only [encFits] at h2
    rcases hf : (javaTypes c)[f]? with _ | ty
    · rw [hf] at h2; simp at h2
    · rw [hf] at h2
      obtain ⟨y, h7, -, h9⟩ := hh.field h1 hf
      cases ty <;> simp at h2
      cases h9 with
      | null hp => exact absurd rfl (hp _)
      | num hn =>
        rw [h7]
        exact ⟨hh, kr, top kr _ (by simp) _ h3 _ _ (writeVal_ok _ _ hn h2).enc⟩
  | fixed f k pad left =>
    simp only [HThread.exec, hencStmt]
    simp only [encFits, decide_eq_true_eq] at h2
    obtain ⟨y, h7, -, h9⟩ := hh.field h1 h2
    rw [h7]
    exact ⟨hh, kr, top kr _ (by simp) _ h3 _ _ (fixedVal_ok _ (str_leaf h9) _ _ _).enc⟩
  | dyn f zt p e =>
    simp only [HThread.exec, hencStmt]
    simp only [encFits, Bool.and_eq_true, decide_eq_true_eq] at h2
    obtain ⟨y, h7, -, h9⟩ := hh.field h1 h2.1.1
    rw [h7]
    exact ⟨hh, kr, top kr _ (by simp) _ h3 _ _ (dynVal_ok _ (str_leaf h9) _ h2.1.2 h2.2).enc⟩
  | list f zt p e el =>
    simp only [HThread.exec]
    simp only [encFits] at h2
    rcases hf : (javaTypes c)[f]? with _ | ty
    · rw [hf] at h2; simp at h2
    · rw [hf] at h2
      obtain ⟨y, h7, -, h9⟩ := hh.field h1 hf
      cases ty <;> simp only [Bool.false_eq_true] at h2
      simp only [Bool.and_eq_true] at h2
      cases h9 with
      | null _ =>
        rw [h7]
        exact ⟨hh, kr, top kr _ (by simp) _ h3 _ _ (writeInt_ok _ _ _ h2.1.2).enc⟩
      | @list b e' xs hb hx =>
        simp only [h7]
        rw [listAt_of h7 hb]
        cases xs with
        | nil => exact ⟨hh, kr, top kr _ (by simp) _ h3 _ _ (writeInt_ok _ _ _ h2.1.2).enc⟩
        | cons x xs =>
          refine ⟨hh, kr, top kr _ ?_ _ h3 _ _ (writeInt_ok _ _ _ h2.2).enc⟩
          intro f' el' i' hs
          simp only [Option.some.injEq, Prod.mk.injEq] at hs
          rw [← hs.1, ← hs.2.1]
          exact ⟨_, hf, h2.1.1⟩
  | obj f =>
    simp only [HThread.exec]
    simp only [encFits] at h2
    rcases hf : (javaTypes c)[f]? with _ | ty
    · rw [hf] at h2; simp at h2
    · rw [hf] at h2
      obtain ⟨y, h7, -, h9⟩ := hh.field h1 hf
      rw [h7]
      exact ⟨hh, kr, henter_ok n (objTy_codec h2 h9) (top kr _ (by simp) _ h3 _ _ ht.err)⟩
  | objOpt f =>
    simp only [HThread.exec]
    simp only [encFits] at h2
    rcases hf : (javaTypes c)[f]? with _ | ty
    · rw [hf] at h2; simp at h2
    · rw [hf] at h2
      obtain ⟨y, h7, -, h9⟩ := hh.field h1 hf
      rw [h7]
      have hgo := henter_ok n (objTy_codec h2 h9) (top kr none (by simp) loc h3 t.buf _ ht.err)
      cases y with
      | null => exact ⟨hh, kr, top kr _ (by simp) _ h3 _ _ ht.err⟩
      | _ => exact ⟨hh, kr, hgo⟩
  | save x =>
    refine ⟨hh, kr, top kr _ (by simp) _ ?_ _ _ (.inl rfl)⟩
    intro y hy
    show ∃ k, setLoc loc x t.buf.wr y = some k
    unfold setLoc
    split
    · exact ⟨_, rfl⟩
    · rename_i hne
      rcases List.mem_append.mp hy with hy | hy
      · exact absurd (List.mem_singleton.mp hy) hne
      · exact h3 y hy
  | zero p e => exact ⟨hh, kr, top kr _ (by simp) _ h3 _ _ (writeInt_ok _ _ _ h2).enc⟩
  | setLen f x y =>
    simp only [encFits, Bool.and_eq_true, decide_eq_true_eq, List.contains_iff_mem] at h2
    obtain ⟨k1, hx⟩ := h3 x h2.1.2
    obtain ⟨k2, hy⟩ := h3 y h2.2
    simp only [HThread.exec, hencStmt, hx, hy]
    exact ⟨typed_assign hh h1 h2.1.1 (.num rfl) (by simp), keeps_setField _ _ _ _, top (keeps_setField _ _ _ _) _ (by simp) _ h3 _ _ (.inl rfl)⟩
  | patch x f p e =>
    simp only [encFits, Bool.and_eq_true, List.contains_iff_mem] at h2
    obtain ⟨k1, hx⟩ := h3 x h2.1
    simp only [HThread.exec, hencStmt, hx]
    rcases hf : (javaTypes c)[f]? with _ | ty
    · rw [hf] at h2; simp at h2
    · rw [hf] at h2
      obtain ⟨y, h7, -, h9⟩ := hh.field h1 hf
      cases ty <;> simp at h2
      cases h9 with
      | null hp => exact absurd rfl (hp _)
      | num hn =>
        obtain ⟨m, hm⟩ := convert_ok hn h2.2
        simp only [h7, hm]
        exact ⟨hh, kr, top kr _ (by simp) _ h3 _ _ (set_ok _ _ _).enc⟩
  | checksum f alg =>
    simp only [encFits, decide_eq_true_eq] at h2
    simp only [HThread.exec, hencStmt]
    rcases Registry.getService w.svc alg with _ | sv
    · exact ⟨hh, kr, top kr _ (by simp) _ h3 _ _ (.inl rfl)⟩
    · exact ⟨typed_assign hh h1 h2 (.num rfl) (by simp), keeps_setField _ _ _ _, top (keeps_setField _ _ _ _) _ (by simp) _ h3 _ _ (.inl rfl)⟩

theorem hstep_ok {h : Heap} (hh : TypedHeap h) (w : World) (n : Nat) {t : HThread} (ht : HOk h t) :
    TypedHeap (t.step w n h).1 ∧ Keeps h (t.step w n h).1 ∧ HOk (t.step w n h).1 (t.step w n h).2 := by
  rcases he : t.err with _ | er
  · rcases hst : t.stack with _ | ⟨a, as⟩
    · simp only [HThread.step, he, hst]
      exact ⟨hh, .refl h, ht⟩
    · rcases hlo : a.loop with _ | ⟨f, el, i⟩
      · rcases htd : a.todo with _ | ⟨s, ss⟩
        · simp only [HThread.step, he, hst, hlo, htd]
          exact ⟨hh, .refl h, fun a' ha' => ht.acts a' (by rw [hst]; exact List.mem_cons_of_mem _ ha'), .inl rfl⟩
        · simp only [HThread.step, he, hst, hlo, htd]
          have := hexec_ok hh w n hst ht htd hlo
          rw [hlo] at this
          exact this
      · simp only [HThread.step, he, hst, hlo]
        exact ⟨hh, .refl h, hiterate_ok hh n hst ht hlo⟩
  · simp only [HThread.step, he]
    exact ⟨hh, .refl h, ht⟩

/-! ### Threads that decode -/

structure DActOk (h : Heap) (a : DActivation) : Prop where
  ok : ∃ ys, h[a.this]? = some (.msg a.cls ys) ∧ a.todo.all (decFits (javaTypes a.cls)) = true
    ∧ ∀ f el k q, a.loop = some (f, el, k, q) → ∃ e, (javaTypes a.cls)[f]? = some (.list e) ∧ delFits e el = true
      ∧ ∀ r, q = some r → ElOf h e (.ref r)

structure DOk (h : Heap) (t : DThread) : Prop where
  acts : ∀ a ∈ t.stack, DActOk h a
  err : DecThrows t.err

theorem DActOk.keep {h h' : Heap} (hk : Keeps h h') {a : DActivation} (ha : DActOk h a) : DActOk h' a := by
  obtain ⟨ys, h1, h2, h3⟩ := ha.ok
  obtain ⟨ys', h4⟩ := hk _ _ _ h1
  refine ⟨ys', h4, h2, fun f el k q hl => ?_⟩
  obtain ⟨e, h5, h6, h7⟩ := h3 f el k q hl
  exact ⟨e, h5, h6, fun r hr => (h7 r hr).keep hk⟩

theorem DOk.keep {h h' : Heap} (hk : Keeps h h') {t : DThread} (ht : DOk h t) : DOk h' t := ⟨fun a ha => (ht.acts a ha).keep hk, ht.err⟩

theorem denter_ok {h : Heap} (n : Nat) {r : Nat} {c : Cls} {ys : List HVal} (hr : h[r]? = some (.msg c ys)) {t : DThread} (ht : DOk h t) :
    DOk h (DThread.enter n r h t) := by
  simp only [DThread.enter, hr]
  split
  · refine ⟨fun a ha => ?_, ht.err⟩
    rcases List.mem_cons.mp ha with rfl | ha
    · exact ⟨ys, hr, decFits_table c, by simp⟩
    · exact ht.acts a ha
  · exact ⟨ht.acts, .inr (.inr (.inr (.inr rfl)))⟩

theorem DecThrows.io : DecThrows (some .indexOutOfBounds) := .inr (.inl rfl)
theorem DecThrows.np : DecThrows (some .nullPointer) := .inr (.inr (.inr (.inl rfl)))

theorem DecThrows.add {e : Option JErr} (h : e = none ∨ e = some .nullPointer) : DecThrows e := by
  rcases h with rfl | rfl
  · exact .inl rfl
  · exact .np

theorem diterate_ok {h : Heap} (hh : TypedHeap h) (n : Nat) {t : DThread} {a : DActivation} {as : List DActivation}
    (hst : t.stack = a :: as) (ht : DOk h t) {f : Nat} {el : DecElem} {k : Nat} {q : Option Nat} (hl : a.loop = some (f, el, k, q)) :
    TypedHeap (t.iterate n h a as f el k q).1 ∧ Keeps h (t.iterate n h a as f el k q).1
      ∧ DOk (t.iterate n h a as f el k q).1 (t.iterate n h a as f el k q).2 := by
  obtain ⟨ys, h1, h2, h3⟩ := (ht.acts a (by rw [hst]; simp)).ok
  obtain ⟨e, h5, h6, h7⟩ := h3 f el k q hl
  have top : ∀ {h' : Heap}, Keeps h h' → ∀ (l : Option (Nat × DecElem × Nat × Option Nat)),
      (∀ f el k q, l = some (f, el, k, q) → ∃ e, (javaTypes a.cls)[f]? = some (.list e) ∧ delFits e el = true ∧ ∀ r, q = some r → ElOf h' e (.ref r)) →
      ∀ b er, DecThrows er → DOk h' ⟨{ a with loop := l } :: as, b, er⟩ := by
    intro h' hk l hl b er her
    refine ⟨fun a' ha' => ?_, her⟩
    rcases List.mem_cons.mp ha' with rfl | ha'
    · obtain ⟨ys', h1'⟩ := hk _ _ _ h1
      exact ⟨ys', h1', h2, hl⟩
    · exact (ht.acts a' (by rw [hst]; exact List.mem_cons_of_mem _ ha')).keep hk
  have kr := Keeps.refl h
  have same : ∀ (h' : Heap) (k' : Nat) f' el' k1 q', some (f, el, k', (none : Option Nat)) = some (f', el', k1, q') →
      ∃ e, (javaTypes a.cls)[f']? = some (.list e) ∧ delFits e el' = true ∧ ∀ r, q' = some r → ElOf h' e (.ref r) := by
    intro h' k' f' el' k1 q' hs
    simp only [Option.some.injEq, Prod.mk.injEq] at hs
    obtain ⟨rfl, rfl, -, rfl⟩ := hs
    exact ⟨e, h5, h6, by simp⟩
  rcases q with _ | q
  · rcases k with _ | k
    · exact ⟨hh, kr, top kr _ (by simp) _ _ ht.err⟩
    · cases el with
      | obj c =>
        cases e <;> simp [delFits] at h6
        have h6 := h6.symm
        subst h6
        have hk := keeps_append h [newMsg c]
        refine ⟨typed_new hh c, hk, denter_ok n (append_last h _) (top hk _ ?_ _ _ ht.err)⟩
        intro f' el' k' q' hs
        simp only [Option.some.injEq, Prod.mk.injEq] at hs
        obtain ⟨rfl, rfl, -, rfl⟩ := hs
        refine ⟨_, h5, by simp [delFits], fun r hr => ?_⟩
        simp only [Option.some.injEq] at hr
        subst hr
        exact .obj (append_last h _)
      | num p en =>
        cases e <;> simp [delFits] at h6
        subst h6
        simp only [DThread.iterate, hdecElem]
        rcases hr : t.buf.readNum en p with ⟨b', er | m⟩
        · dsimp only
          rw [readNum_err hr]
          exact ⟨hh, kr, top kr _ (same _ _) _ _ .io⟩
        · obtain ⟨g1, g2, g3⟩ := typed_hadd hh h1 h5 (.num (readNum_ty hr))
          exact ⟨g1, g2, top g2 _ (same _ _) _ _ (.add g3)⟩
      | fixed m pad left =>
        cases e <;> simp [delFits] at h6
        simp only [DThread.iterate, hdecElem]
        rcases hr : readFixedString t.buf m pad left with ⟨b', er | s⟩
        · dsimp only
          rw [readFixed_err hr]
          exact ⟨hh, kr, top kr _ (same _ _) _ _ .io⟩
        · obtain ⟨g1, g2, g3⟩ := typed_hadd hh h1 h5 (.str s)
          exact ⟨g1, g2, top g2 _ (same _ _) _ _ (.add g3)⟩
      | dyn p en =>
        cases e <;> simp [delFits] at h6
        simp only [DThread.iterate, hdecElem]
        rcases hr : readDyn t.buf p en with ⟨b', er | _ | s⟩
        · dsimp only
          rw [readDyn_err hr]
          exact ⟨hh, kr, top kr _ (same _ _) _ _ .io⟩
        · exact ⟨hh, kr, top kr _ (same _ _) _ _ (.inl rfl)⟩
        · obtain ⟨g1, g2, g3⟩ := typed_hadd hh h1 h5 (.str s)
          exact ⟨g1, g2, top g2 _ (same _ _) _ _ (.add g3)⟩
  · obtain ⟨g1, g2, g3⟩ := typed_hadd hh h1 h5 (h7 q rfl)
    exact ⟨g1, g2, top g2 _ (same _ _) _ _ (.add g3)⟩

theorem dexec_ok {h : Heap} (hh : TypedHeap h) {sup : Suppliers} (hs : TypedSups h sup) (n : Nat) {t : DThread} {a : DActivation}
    {as : List DActivation} (hst : t.stack = a :: as) (ht : DOk h t) {s : DecStmt} {ss : List DecStmt} (htd : a.todo = s :: ss) (hlo : a.loop = none) :
    TypedHeap (t.exec sup n h s { a with todo := ss } as).1 ∧ Keeps h (t.exec sup n h s { a with todo := ss } as).1
      ∧ DOk (t.exec sup n h s { a with todo := ss } as).1 (t.exec sup n h s { a with todo := ss } as).2 := by
  obtain ⟨ys, h1, h2, -⟩ := (ht.acts a (by rw [hst]; simp)).ok
  rw [htd, List.all_cons, Bool.and_eq_true] at h2
  obtain ⟨h2, h4⟩ := h2
  have top : ∀ {h' : Heap}, Keeps h h' → ∀ (td : List DecStmt), td.all (decFits (javaTypes a.cls)) = true →
      ∀ (l : Option (Nat × DecElem × Nat × Option Nat)),
      (∀ f el k q, l = some (f, el, k, q) → ∃ e, (javaTypes a.cls)[f]? = some (.list e) ∧ delFits e el = true ∧ ∀ r, q = some r → ElOf h' e (.ref r)) →
      ∀ b er, DecThrows er → DOk h' ⟨⟨a.this, a.cls, td, l⟩ :: as, b, er⟩ := by
    intro h' hk td htd l hl b er her
    refine ⟨fun a' ha' => ?_, her⟩
    rcases List.mem_cons.mp ha' with rfl | ha'
    · obtain ⟨ys', h1'⟩ := hk _ _ _ h1
      exact ⟨ys', h1', htd, hl⟩
    · exact (ht.acts a' (by rw [hst]; exact List.mem_cons_of_mem _ ha')).keep hk
  have kr := Keeps.refl h
  obtain ⟨this, cls, todo, loop⟩ := a
  dsimp only at h1 h2 h4 hlo top ⊢
  subst hlo
  have htys : (decl cls).fields.map (·.2) = javaTypes cls := rfl
  cases s with
  | num f p e =>
    simp only [DThread.exec, hdecStmt, htys]
    simp only [decFits] at h2
    rcases hf : (javaTypes cls)[f]? with _ | ty
    · rw [hf] at h2; simp at h2
    · rw [hf] at h2
      cases ty <;> simp only [Bool.false_eq_true] at h2
      rename_i p'
      rcases hr : t.buf.readNum e p with ⟨b', er | m⟩
      · dsimp only
        rw [readNum_err hr]
        exact ⟨hh, kr, top kr _ h4 _ (by simp) _ _ .io⟩
      · have hm := readNum_ty hr
        have hc : m.ty = p' ∨ (m.ty.isInt ∧ p'.isInt ∧ m.ty.size ≤ p'.size) := by
          rw [hm]
          simpa [and_assoc] using h2
        have hcv : convOk m.ty p' = true := by
          rcases hc with h | ⟨h, h', -⟩
          · simp [convOk, h]
          · simp [convOk, h, h']
        obtain ⟨v, hv⟩ := convert_ok rfl hcv
        have hvt : v.ty = p' := by
          unfold Num.convert at hv
          split at hv
          · simp only [Option.some.injEq] at hv; rw [← hv]
          · split at hv
            · simp only [Option.some.injEq] at hv; rw [← hv]
            · cases hv
        have ha : (some (FTy.prim p')).bind (assignNum · m) = some (.num v) := by
          simp only [Option.bind_some, assignNum]
          rw [if_pos hc, hv]
          rfl
        simp only [ha]
        exact ⟨typed_assign hh h1 hf (.num hvt) (by simp), keeps_setField _ _ _ _, top (keeps_setField _ _ _ _) _ h4 _ (by simp) _ _ (.inl rfl)⟩
  | fixed f k pad left =>
    simp only [DThread.exec, hdecStmt]
    simp only [decFits, decide_eq_true_eq] at h2
    rcases hr : readFixedString t.buf k pad left with ⟨b', er | s⟩
    · dsimp only
      rw [readFixed_err hr]
      exact ⟨hh, kr, top kr _ h4 _ (by simp) _ _ .io⟩
    · exact ⟨typed_assign hh h1 h2 (.str s) (by simp), keeps_setField _ _ _ _, top (keeps_setField _ _ _ _) _ h4 _ (by simp) _ _ (.inl rfl)⟩
  | dyn f p e =>
    simp only [DThread.exec, hdecStmt]
    simp only [decFits, decide_eq_true_eq] at h2
    rcases hr : readDyn t.buf p e with ⟨b', er | _ | s⟩
    · dsimp only
      rw [readDyn_err hr]
      exact ⟨hh, kr, top kr _ h4 _ (by simp) _ _ .io⟩
    · exact ⟨hh, kr, top kr _ h4 _ (by simp) _ _ (.inl rfl)⟩
    · exact ⟨typed_assign hh h1 h2 (.str s) (by simp), keeps_setField _ _ _ _, top (keeps_setField _ _ _ _) _ h4 _ (by simp) _ _ (.inl rfl)⟩
  | list f p e el =>
    simp only [DThread.exec]
    simp only [decFits] at h2
    rcases hf : (javaTypes cls)[f]? with _ | ty
    · rw [hf] at h2; simp at h2
    · rw [hf] at h2
      cases ty <;> simp only [Bool.false_eq_true] at h2
      rename_i e'
      rcases hr : t.buf.readNum e p with ⟨b', er | m⟩
      · dsimp only
        rw [readNum_err hr]
        exact ⟨hh, kr, top kr _ h4 _ (by simp) _ _ .io⟩
      · dsimp only
        split
        · have hk : Keeps h (Heap.setField (h ++ [.arr []]) this f (.ref h.length)) := (keeps_append _ _).trans (keeps_setField _ _ _ _)
          refine ⟨typed_newList hh h1 hf, hk, top hk _ h4 _ ?_ _ _ (.inl rfl)⟩
          intro f' el' k' q' hs
          simp only [Option.some.injEq, Prod.mk.injEq] at hs
          obtain ⟨rfl, rfl, -, rfl⟩ := hs
          exact ⟨e', hf, h2, by simp⟩
        · exact ⟨hh, kr, top kr _ h4 _ (by simp) _ _ (.inl rfl)⟩
  | obj f c =>
    simp only [decFits, decide_eq_true_eq] at h2
    have hcall : (DecStmt.call f :: ss).all (decFits (javaTypes cls)) = true := by
      rw [List.all_cons, h4]
      simp [decFits, h2, objTy]
    simp only [DThread.exec]
    split
    · have hk : Keeps h (Heap.setField (h ++ [newMsg c]) this f (.ref h.length)) := (keeps_append _ _).trans (keeps_setField _ _ _ _)
      exact ⟨typed_newObj hh h1 h2, hk, top hk _ hcall _ (by simp) _ _ ht.err⟩
    · exact ⟨hh, kr, top kr _ hcall _ (by simp) _ _ ht.err⟩
  | call f =>
    simp only [DThread.exec]
    simp only [decFits] at h2
    rcases hf : (javaTypes cls)[f]? with _ | ty
    · rw [hf] at h2; simp at h2
    · rw [hf] at h2
      obtain ⟨y, h7, -, h9⟩ := hh.field h1 hf
      have h9 := objTy_codec h2 h9
      have ht0 := top kr ss h4 none (by simp) t.buf _ ht.err
      refine ⟨hh, kr, ?_⟩
      unfold DThread.enterField
      rw [h7]
      cases h9 with
      | null _ => exact ⟨ht0.acts, .np⟩
      | codec hr =>
        simp only [hr]
        exact denter_ok n hr ht0
  | create f fac key =>
    simp only [decFits, Bool.and_eq_true, decide_eq_true_eq] at h2
    simp only [DThread.exec, hdecStmt]
    obtain ⟨y, h7, -, h9⟩ := hh.field h1 (List.getElem?_eq_getElem h2.2)
    rw [h7]
    dsimp only
    rcases hsp : sup fac (keyOf y.leaf) with _ | s
    · exact ⟨hh, kr, top kr _ h4 _ (by simp) _ _ (.inr (.inr (.inl rfl)))⟩
    · obtain ⟨g1, g2⟩ := typed_create hh h1 h2.1 (hs _ _ _ hsp)
      exact ⟨g1, g2, top g2 _ h4 _ (by simp) _ _ (.inl rfl)⟩

theorem dstep_ok {h : Heap} (hh : TypedHeap h) {sup : Suppliers} (hs : TypedSups h sup) (n : Nat) {t : DThread} (ht : DOk h t) :
    TypedHeap (t.step sup n h).1 ∧ Keeps h (t.step sup n h).1 ∧ DOk (t.step sup n h).1 (t.step sup n h).2 := by
  rcases he : t.err with _ | er
  · rcases hst : t.stack with _ | ⟨a, as⟩
    · simp only [DThread.step, he, hst]
      exact ⟨hh, .refl h, ht⟩
    · rcases hlo : a.loop with _ | ⟨f, el, i, q⟩
      · rcases htd : a.todo with _ | ⟨s, ss⟩
        · simp only [DThread.step, he, hst, hlo, htd]
          exact ⟨hh, .refl h, fun a' ha' => ht.acts a' (by rw [hst]; exact List.mem_cons_of_mem _ ha'), .inl rfl⟩
        · simp only [DThread.step, he, hst, hlo, htd]
          have := dexec_ok hh hs n hst ht htd hlo
          rw [hlo] at this
          exact this
      · simp only [DThread.step, he, hst, hlo]
        exact diterate_ok hh n hst ht hlo
  · simp only [DThread.step, he]
    exact ⟨hh, .refl h, ht⟩

end FinProto
