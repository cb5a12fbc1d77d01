import Verif.Proofs.OpenClosed
import Verif.Proofs.DecodeErrors
/-
Helper lemmas: the messages that end in an extension.
-/
namespace FinProto

variable {U : Type}

/-- Statements that do not involve the application. -/
def EncStmt.plain : EncStmt → Bool
  | .objOpt _ | .checksum _ _ => false
  | _ => true

def DecStmt.plain : DecStmt → Bool
  | .create _ _ _ | .call _ => false
  | _ => true

theorem oencStmts_plain (w : OWorld U) (n : Nat) (part : Option U) : ∀ (ss : List EncStmt), ss.all EncStmt.plain = true → ∀ (fs : List Val)
    (b : WBuf) (loc : Nat → Option Nat),
    let r := encStmts w.base (encode w.base n) ss ⟨fs, b, loc⟩;
    oencStmts w n ss ⟨fs, part, b, loc⟩ = (⟨r.1.fs, part, r.1.buf, r.1.loc⟩, r.2.map .java)
  | [], _, _, _, _ => rfl
  | s :: ss, h, fs, b, loc => by
    simp only [List.all_cons, Bool.and_eq_true] at h
    have h1 : oencStmt w n s ⟨fs, part, b, loc⟩ =
        (⟨(encStmt w.base (encode w.base n) s ⟨fs, b, loc⟩).1.fs, part, (encStmt w.base (encode w.base n) s ⟨fs, b, loc⟩).1.buf,
          (encStmt w.base (encode w.base n) s ⟨fs, b, loc⟩).1.loc⟩, (encStmt w.base (encode w.base n) s ⟨fs, b, loc⟩).2.map .java) := by
      cases s <;> first | rfl | cases h.1
    simp only [oencStmts, encStmts, h1]
    obtain ⟨⟨fs1, b1, loc1⟩, _ | e⟩ := encStmt w.base (encode w.base n) s ⟨fs, b, loc⟩
    · exact oencStmts_plain w n part ss h.2 fs1 b1 loc1
    · rfl

theorem odecStmts_plain (w : OWorld U) (n : Nat) (tys : List FTy) (part : Option U) : ∀ (ss : List DecStmt),
    ss.all DecStmt.plain = true → ∀ (fs : List Val) (b : RBuf),
    let r := decStmts w.base (decode w.base n) tys ss ⟨fs, b⟩;
    odecStmts w n tys ss ⟨fs, part, b⟩ = (⟨r.1.fs, part, r.1.buf⟩, r.2.map .java)
  | [], _, _, _ => rfl
  | s :: ss, h, fs, b => by
    simp only [List.all_cons, Bool.and_eq_true] at h
    have h1 : odecStmt w n tys s ⟨fs, part, b⟩ =
        (⟨(decStmt w.base (decode w.base n) tys s ⟨fs, b⟩).1.fs, part, (decStmt w.base (decode w.base n) tys s ⟨fs, b⟩).1.buf⟩,
          (decStmt w.base (decode w.base n) tys s ⟨fs, b⟩).2.map .java) := by
      cases s <;> first | rfl | cases h.1
    simp only [odecStmts, decStmts, h1]
    obtain ⟨⟨fs1, b1⟩, _ | e⟩ := decStmt w.base (decode w.base n) tys s ⟨fs, b⟩
    · exact odecStmts_plain w n tys part ss h.2 fs1 b1
    · rfl

/-- Statements whose meaning depends neither on the registries nor on nested messages other than of the classes `ok`. -/
def DecStmt.local (ok : Cls → Bool) : DecStmt → Bool
  | .create _ _ _ | .call _ | .obj _ _ => false
  | .list _ _ _ (.obj c) => ok c
  | _ => true

theorem decElems_congr (c1 c2 : DecCall) (el : DecElem) (h : ∀ b, decElem c1 el b = decElem c2 el b) : ∀ (k : Nat) (acc : List Val) (b : RBuf),
    decElems c1 el k acc b = decElems c2 el k acc b
  | 0, _, _ => rfl
  | k + 1, acc, b => by
    simp only [decElems, h b]
    rcases decElem c2 el b with ⟨b', _ | _ | v⟩
    · rfl
    · exact decElems_congr c1 c2 el h k acc b'
    · exact decElems_congr c1 c2 el h k _ b'

theorem decStmt_local (w1 w2 : World) (c1 c2 : DecCall) (ok : Cls → Bool) (hok : ∀ c, ok c = true → c1 c = c2 c) (tys : List FTy)
    (s : DecStmt) (hs : s.local ok = true) (st : DecSt) : decStmt w1 c1 tys s st = decStmt w2 c2 tys s st := by
  cases s with
  | list f t e el =>
    have hel : ∀ b, decElem c1 el b = decElem c2 el b := by
      intro b
      cases el with
      | obj c => simp only [decElem, hok c hs]
      | _ => rfl
    simp only [decStmt, decElems_congr c1 c2 el hel]
  | obj f c => simp [DecStmt.local] at hs
  | create f fac key => simp [DecStmt.local] at hs
  | call f => simp [DecStmt.local] at hs
  | _ => rfl

theorem decStmts_local (w1 w2 : World) (c1 c2 : DecCall) (ok : Cls → Bool) (hok : ∀ c, ok c = true → c1 c = c2 c) (tys : List FTy) :
    ∀ (ss : List DecStmt), ss.all (DecStmt.local ok) = true → ∀ st, decStmts w1 c1 tys ss st = decStmts w2 c2 tys ss st
  | [], _, _ => rfl
  | s :: ss, h, st => by
    simp only [List.all_cons, Bool.and_eq_true] at h
    simp only [decStmts, decStmt_local w1 w2 c1 c2 ok hok tys s h.1 st]
    rcases decStmt w2 c2 tys s st with ⟨st', _ | e⟩
    · exact decStmts_local w1 w2 c1 c2 ok hok tys ss h.2 st'
    · rfl

/-- Messages that contain no other message. -/
def leaf (c : Cls) : Bool := (decl c).dec.all (DecStmt.local fun _ => false)

theorem decode_leaf (w1 w2 : World) (n : Nat) (c : Cls) (h : leaf c = true) : decode w1 n c = decode w2 n c := by
  cases n with
  | zero => rfl
  | succ n =>
    funext fs b
    simp only [decode, decStmts_local w1 w2 (decode w1 n) (decode w2 n) (fun _ => false) (fun _ h => by cases h) _ _ h]

/-- The table behind the extension theorems. -/
theorem ext_table : extensible.all (fun c =>
    match partField c, extensionOf c with
    | some p, some (fac, key) =>
      decide ((decl c).enc = (decl c).enc.dropLast ++ [.objOpt p]) && (decl c).enc.dropLast.all EncStmt.plain &&
      decide ((decl c).dec = (decl c).dec.dropLast.dropLast ++ [.create p fac key, .call p]) &&
      (decl c).dec.dropLast.dropLast.all DecStmt.plain && (decl c).dec.dropLast.dropLast.all (DecStmt.local leaf) &&
      (decl c).dec.dropLast.dropLast.all (decPartOk p) && decide (key ≠ p)
    | _, _ => false) = true := by decide +kernel

/-- `encode` up to the extension. -/
def extPre (c : Cls) : List EncStmt := (decl c).enc.dropLast
/-- `decode` up to the extension. -/
def extDecPre (c : Cls) : List DecStmt := (decl c).dec.dropLast.dropLast

theorem ext_facts (c : Cls) (hc : c ∈ extensible) : ∃ p fac key, partField c = some p ∧ extensionOf c = some (fac, key) ∧
    (decl c).enc = extPre c ++ [.objOpt p] ∧ (extPre c).all EncStmt.plain = true ∧
    (decl c).dec = extDecPre c ++ [.create p fac key, .call p] ∧ (extDecPre c).all DecStmt.plain = true ∧
    (extDecPre c).all (DecStmt.local leaf) = true ∧ (extDecPre c).all (decPartOk p) = true ∧ key ≠ p := by
  have h := List.all_eq_true.mp ext_table c hc
  revert h
  cases partField c with
  | none => intro h; cases h
  | some p =>
    cases extensionOf c with
    | none => intro h; cases h
    | some q =>
      obtain ⟨fac, key⟩ := q
      intro h
      simp only [Bool.and_eq_true, decide_eq_true_eq] at h
      exact ⟨p, fac, key, rfl, rfl, h.1.1.1.1.1.1, h.1.1.1.1.1.2, h.1.1.1.1.2, h.1.1.1.2, h.1.1.2, h.1.2, h.2⟩

/-- Statements that avoid field `p` leave it as it is. -/
theorem decStmts_keep (w : World) (call : DecCall) (tys : List FTy) (p : Nat) : ∀ (ss : List DecStmt), ss.all (decPartOk p) = true →
    ss.all DecStmt.plain = true → ∀ (st : DecSt), (decStmts w call tys ss st).1.fs[p]? = st.fs[p]?
  | [], _, _, _ => rfl
  | s :: ss, h, hq, st => by
    simp only [List.all_cons, Bool.and_eq_true] at h hq
    have h1 : (decStmt w call tys s st).1.fs[p]? = st.fs[p]? := by
      have h0 := h.1
      have hq0 := hq.1
      cases s <;> simp only [decPartOk, bne_iff_ne, ne_eq] at h0 <;> (try cases hq0) <;> simp only [decStmt] <;> (repeat' split) <;>
        simp [List.getElem?_set_ne h0]
    simp only [decStmts]
    revert h1
    rcases decStmt w call tys s st with ⟨st', _ | e⟩
    · intro h1
      exact (decStmts_keep w call tys p ss h.2 hq.2 st').trans h1
    · exact fun h1 => h1

theorem encStmts_keep (w : World) (call : EncCall) (p : Nat) : ∀ (ss : List EncStmt), ss.all (EncStmt.avoids p) = true →
    ∀ (st : EncSt), (encStmts w call ss st).1.fs[p]? = st.fs[p]?
  | [], _, _ => rfl
  | s :: ss, h, st => by
    simp only [List.all_cons, Bool.and_eq_true] at h
    have h1 : (encStmt w call s st).1.fs[p]? = st.fs[p]? := by
      have h0 := h.1
      cases s <;> simp only [EncStmt.avoids, bne_iff_ne, ne_eq, Bool.false_eq_true] at h0 <;> simp only [encStmt] <;> (repeat' split) <;>
        simp_all [List.getElem?_set_ne]
    simp only [encStmts]
    revert h1
    rcases encStmt w call s st with ⟨st', _ | e⟩
    · intro h1
      exact (encStmts_keep w call p ss h.2 st').trans h1
    · exact fun h1 => h1

theorem ext_avoids_table : extensible.all (fun c => match partField c with
    | some p => (extPre c).all (EncStmt.avoids p)
    | none => false) = true := by decide +kernel

theorem ext_avoids (c : Cls) (hc : c ∈ extensible) (p : Nat) (hp : partField c = some p) : (extPre c).all (EncStmt.avoids p) = true := by
  have h := List.all_eq_true.mp ext_avoids_table c hc
  simpa only [hp] using h

end FinProto
