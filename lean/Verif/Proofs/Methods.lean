import Verif.Model.Methods
import Verif.Proofs.DecodeErrors
import Verif.Proofs.ToString
import Verif.Spec.Texts
/-
Helper lemmas for C84: running the statements of the methods of `Model/Methods.lean`.
-/
namespace FinProto.Methods

/-! ### equals -/

theorem eval_own {env : Env} {loc : Loc} {st : St} {r : Nat} {c : Cls} {ys : List HVal} (hr : env.this = .val (.ref r))
    (h1 : st.h[r]? = some (.msg c ys)) (dot : Bool) (f : Nat) :
    eval env loc (.own dot f) st = (st, match ys[f]? with | some x => .ok (.val x) | none => .error .illTyped) := by
  simp only [eval, hr, Heap.field, h1]
  rcases ys[f]? with _ | x <;> rfl

theorem eval_of {env : Env} {loc : Loc} {st : St} {x : Name} {r : Nat} {c : Cls} {ys : List HVal} (hr : loc x = some (.val (.ref r)))
    (h1 : st.h[r]? = some (.msg c ys)) (f : Nat) :
    eval env loc (.of x f) st = (st, match ys[f]? with | some x => .ok (.val x) | none => .error .illTyped) := by
  simp only [eval, hr, Heap.field, h1]
  rcases ys[f]? with _ | x <;> rfl

theorem eval_fieldsEqual {env : Env} {loc : Loc} {st : St} {r q : Nat} {c d : Cls} {ys zs : List HVal} (hr : env.this = .val (.ref r))
    (hq : loc .other = some (.val (.ref q))) (h1 : st.h[r]? = some (.msg c ys)) (h2 : st.h[q]? = some (.msg d zs)) (p : Nat × Nat) :
    eval env loc (fieldsEqual p) st = (st, (hequalsFields (env.equals st.h) ys zs [p]).map .bool) := by
  unfold fieldsEqual
  rw [eval, eval_own hr h1]
  simp only [hequalsFields]
  rcases ys[p.1]? with _ | a
  · rfl
  · dsimp only
    rw [eval_of hq h2]
    rcases zs[p.2]? with _ | b
    · rfl
    · dsimp only
      rcases env.equals st.h a b with e | _ | _ <;> rfl

theorem eval_conj {env : Env} {loc : Loc} {st : St} {r q : Nat} {c d : Cls} {ys zs : List HVal} (hr : env.this = .val (.ref r))
    (hq : loc .other = some (.val (.ref q))) (h1 : st.h[r]? = some (.msg c ys)) (h2 : st.h[q]? = some (.msg d zs)) (ps : List (Nat × Nat)) :
    ∀ (e : Expr) (o : Except JErr Bool), eval env loc e st = (st, o.map .bool) →
      eval env loc (ps.foldl (fun e q => .and e (fieldsEqual q)) e) st =
        (st, (match o with | .ok true => hequalsFields (env.equals st.h) ys zs ps | o => o).map .bool) := by
  induction ps with
  | nil =>
    intro e o he
    rw [List.foldl_nil, he]
    rcases o with _ | _ | _ <;> rfl
  | cons p ps ih =>
    intro e o he
    rw [List.foldl_cons]
    have h3 : eval env loc (.and e (fieldsEqual p)) st =
        (st, (match o with | .ok true => hequalsFields (env.equals st.h) ys zs [p] | o => o).map .bool) := by
      simp only [eval, he]
      rcases o with _ | _ | _
      · rfl
      · rfl
      · exact eval_fieldsEqual hr hq h1 h2 p
    rw [ih _ _ h3]
    rcases o with _ | _ | _
    · rfl
    · rfl
    · dsimp only
      congr 2
      simp only [hequalsFields]
      rcases ys[p.1]? with _ | a
      · rfl
      · rcases zs[p.2]? with _ | b
        · rfl
        · dsimp only
          rcases env.equals st.h a b with e | _ | _ <;> rfl

theorem identical_iff {x y : HVal} : identical x y = true ↔ (x = .null ∧ y = .null) ∨ ∃ r, x = .ref r ∧ y = .ref r := by
  rcases x with _ | _ | _ | a <;> rcases y with _ | _ | _ | b <;> simp [identical, eq_comm]

theorem exec_equals {env : Env} {loc : Loc} {h : Heap} {r : Nat} {y : HVal} {c : Cls} {ys : List HVal} (hr : env.this = .val (.ref r))
    (hl : loc .obj = some (.val y)) (h1 : h[r]? = some (.msg c ys)) (hne : identical (.ref r) y = false) :
    boolResult (exec env (equalsBody c) loc (.ofHeap h)) =
      (match y with
      | .ref q =>
        match h[q]? with
        | some (.msg d zs) => if c = d then hequalsFields (env.equals h) ys zs (decl c).eqs else .ok false
        | some _ => .ok false
        | none => .error .illTyped
      | _ => .ok false) := by
  unfold equalsBody
  have e1 : eval env loc (.same .this (.var .obj)) (.ofHeap h) = (.ofHeap h, .ok (.bool false)) := by
    simp only [eval, hr, hl, sameRef]
    rw [hne]
    rfl
  rw [List.cons_append, exec, step, e1]
  dsimp only
  rw [List.cons_append, List.nil_append, exec, step]
  have e2 : eval env loc (.same .null (.var .obj)) (.ofHeap h) = (.ofHeap h, .ok (.bool (identical .null y))) := by
    simp only [eval, hl, sameRef]; rfl
  have ek : kindOf h (.ref r) = .ok (.msg c) := by simp only [kindOf, h1]
  have e3 : eval env loc .getClass (.ofHeap h) = (.ofHeap h, .ok (.cls (some (.msg c)))) := by
    simp only [eval, hr, St.ofHeap, ek]; rfl
  have e4 : eval env loc (.getClassOf (.var .obj)) (.ofHeap h) = (.ofHeap h, (kindOf h y).map fun k => .cls (some k)) := by
    simp only [eval, hl, St.ofHeap]
  have e5 : eval env loc (.differ .getClass (.getClassOf (.var .obj))) (.ofHeap h) =
      (.ofHeap h, (kindOf h y).map fun k => .bool (!decide (k = .msg c))) := by
    simp only [eval] at e3 e4 ⊢
    simp only [e3, e4]
    rcases kindOf h y with e | k
    · rfl
    · simp only [Except.map, sameRef, Option.some.injEq]
      simp only [eq_comm]
  have e6 : eval env loc (.or (.same .null (.var .obj)) (.differ .getClass (.getClassOf (.var .obj)))) (.ofHeap h) =
      if identical .null y = true then (.ofHeap h, .ok (.bool true)) else (.ofHeap h, (kindOf h y).map fun k => .bool (!decide (k = .msg c))) := by
    rw [eval, e2]
    cases identical .null y
    · exact e5
    · rfl
  rw [e6]
  rcases y with _ | m | s | q
  · rfl
  · simp [identical, kindOf, Except.map, exec, step, eval, boolResult]
  · simp [identical, kindOf, Except.map, exec, step, eval, boolResult]
  · simp only [identical, kindOf, Bool.false_eq_true, if_false]
    rcases hq : (h[q]? : Option HObj) with _ | ⟨d, zs⟩ | zs
    · simp [Except.map, boolResult]
    · dsimp only
      by_cases hcd : c = d
      · subst hcd
        simp only [Except.map, decide_true, Bool.not_true, if_true]
        rcases he : (decl c).eqs with _ | ⟨p, ps⟩
        · simp [exec, step, eval, boolResult, hequalsFields]
        · have e7 : eval env loc (.cast c (.var .obj)) (.ofHeap h) = (.ofHeap h, .ok (.val (.ref q))) := by
            simp only [eval, hl, St.ofHeap, kindOf, hq, if_true]
          rw [exec, step, e7]
          dsimp only
          have hq' : (loc.put .other (.val (.ref q))) .other = some (.val (.ref q)) := by simp [Loc.put]
          rw [exec, step, eval_conj (st := .ofHeap h) hr hq' h1 hq ps _ _ (eval_fieldsEqual (st := .ofHeap h) hr hq' h1 hq p)]
          simp only [hequalsFields, St.ofHeap]
          rcases ys[p.1]? with _ | a
          · rfl
          · rcases zs[p.2]? with _ | b
            · rfl
            · dsimp only
              rcases env.equals h a b with e | _ | _
              · rfl
              · rfl
              · dsimp only
                rcases hequalsFields (env.equals h) ys zs ps with e | v <;> rfl
      · have hdc : ¬ (Kind.msg d = Kind.msg c) := by intro e; injection e with e; exact hcd e.symm
        simp [Except.map, hdc, hcd, exec, step, eval, boolResult]
    · simp [Except.map, exec, step, eval, boolResult]

/-- `Objects.equals`, with the statements of `equals`, is `hequals`. -/
theorem objectsEquals_eq (n : Nat) : ∀ (h : Heap) (x y : HVal), objectsEquals n h x y = hequals h n x y := by
  induction n with
  | zero => intro h x y; simp [objectsEquals, hequals]
  | succ n ih =>
    intro h x y
    have ihf : objectsEquals n h = hequals h n := by funext a b; exact ih h a b
    rw [objectsEquals.eq_def]
    dsimp only
    rcases x with _ | a | s | r
    · rcases y <;> rfl
    · rcases y <;> rfl
    · rcases y <;> rfl
    · by_cases hid : identical (.ref r) y = true
      · rw [if_pos hid]
        rcases identical_iff.1 hid with ⟨h1, -⟩ | ⟨q, h1, h2⟩
        · cases h1
        · cases h1; subst h2
          simp [hequals]
      · rw [if_neg hid]
        have hid' : identical (.ref r) y = false := by simpa using hid
        dsimp only
        rcases hr : (h[r]? : Option HObj) with _ | ⟨c, ys⟩ | xs
        · rcases y with _ | _ | _ | q <;> simp [hequals, hr]
          intro e; subst e; simp [identical] at hid'
        · dsimp only
          rw [exec_equals (env := ⟨.val (.ref r), .sse_SseBinary, ⟨[], [], 0⟩, objectsEquals n, fun _ _ => unused, fun _ _ => unused⟩) (r := r) (y := y) rfl
            (by simp) hr hid']
          rcases y with _ | _ | _ | q
          · simp [hequals, hr]
          · simp [hequals, hr]
          · simp [hequals, hr]
          · have hrq : r ≠ q := by intro e; subst e; simp [identical] at hid'
            simp only [hequals, hr, if_neg hrq, ihf]
            rcases (h[q]? : Option HObj) with _ | ⟨d, zs⟩ | zs <;> rfl
        · dsimp only
          rcases y with _ | _ | _ | q
          · simp [listEquals, hequals, hr]
          · simp [listEquals, hequals, hr]
          · simp [listEquals, hequals, hr]
          · have hrq : r ≠ q := by intro e; subst e; simp [identical] at hid'
            simp only [listEquals, hequals, hr, if_neg hrq, ihf]
            rcases (h[q]? : Option HObj) with _ | ⟨d, zs⟩ | zs <;> rfl

/-! ### hashCode -/

/-- `Objects.hashCode`, with the statements of `hashCode`, is `hhash`. -/
theorem objectsHashCode_eq (n : Nat) : ∀ (h : Heap) (x : HVal), objectsHashCode n h x = hhash h n x := by
  induction n with
  | zero => intro h x; simp [objectsHashCode, hhash]
  | succ n ih =>
    intro h x
    have ihf : objectsHashCode n h = hhash h n := by funext a; exact ih h a
    rw [objectsHashCode.eq_def]
    dsimp only
    rcases x with _ | a | s | r
    · rfl
    · rfl
    · rfl
    · dsimp only
      rcases hr : (h[r]? : Option HObj) with _ | ⟨c, ys⟩ | xs
      · simp [hhash, hr]
      · simp only [hhash, hr]
        unfold hashBody
        rcases (decl c).hash with _ | fs
        · dsimp only
          simp only [exec, step, eval, St.ofHeap, ihf]
          rcases hhash h n (.ref r) with e | v <;> rfl
        · dsimp only
          simp only [exec, step, eval, St.ofHeap, hr, ihf, hashArgs]
          rcases hpick ys fs with _ | xs
          · rfl
          · dsimp only
            rcases hhashSeq (hhash h n) 1 xs with e | v <;> rfl
      · simp only [hhash, hr, ihf]

/-! ### toString -/

/-- What one piece of the concatenation contributes. -/
def partStr (f : HVal → Except JErr JStr) (ys : List HVal) : StrPart → Except JErr JStr
  | .lit s => .ok (js s)
  | .field i => match ys[i]? with | some v => f v | none => .error .illTyped

/-- The pieces, one after the other, behind `acc`. -/
def partStrs (f : HVal → Except JErr JStr) (ys : List HVal) : JStr → List StrPart → Except JErr JStr
  | acc, [] => .ok acc
  | acc, p :: ps => match partStr f ys p with | .ok s => partStrs f ys (acc ++ s) ps | .error e => .error e

theorem eval_concat {env : Env} {loc : Loc} {st : St} {r : Nat} {c : Cls} {ys : List HVal} (hr : env.this = .val (.ref r))
    (h1 : st.h[r]? = some (.msg c ys)) (ps : List StrPart) :
    ∀ (e : Expr) (o : Except JErr JStr), eval env loc e st = (st, o.map fun s => .val (.str s)) →
      eval env loc (ps.foldl (fun e q => .plus e (strExpr q)) e) st =
        (st, (match o with | .ok s => partStrs (env.str st.h) ys s ps | .error x => .error x).map fun s => .val (.str s)) := by
  induction ps with
  | nil =>
    intro e o he
    rw [List.foldl_nil, he]
    rcases o with _ | _ <;> rfl
  | cons p ps ih =>
    intro e o he
    rw [List.foldl_cons]
    have h3 : eval env loc (.plus e (strExpr p)) st =
        (st, (match o with | .ok s => (partStr (env.str st.h) ys p).map (s ++ ·) | .error x => .error x).map fun s => .val (.str s)) := by
      rcases o with x | s
      · cases p <;> simp only [strExpr, eval, he] <;> rfl
      · cases p with
        | lit t => simp only [strExpr, eval, he]; rfl
        | field i =>
          simp only [strExpr, eval, he, hr, Heap.field, h1, Except.map, partStr]
          rcases ys[i]? with _ | v
          · rfl
          · dsimp only
            rcases env.str st.h v with e | t <;> rfl
    rw [ih _ _ h3]
    rcases o with _ | s
    · rfl
    · simp only [partStrs]
      rcases partStr (env.str st.h) ys p with e | t <;> rfl

/-- A class prints its name first, as a literal. -/
def startsWithText (c : Cls) : Bool := match (decl c).str with | .lit _ :: _ => true | _ => false

theorem startsWithText_table : allCls.all startsWithText = true := by decide +kernel

theorem exec_toString {env : Env} {loc : Loc} {h : Heap} {r : Nat} {c : Cls} {ys : List HVal} (hr : env.this = .val (.ref r))
    (h1 : h[r]? = some (.msg c ys)) :
    strResult (exec env (toStringBody (decl c)) loc (.ofHeap h)) = partStrs (env.str h) ys [] (decl c).str := by
  have ht := List.all_eq_true.1 startsWithText_table c (mem_allCls c)
  unfold startsWithText at ht
  unfold toStringBody
  generalize (decl c).str = ps at ht ⊢
  rcases ps with _ | ⟨p, ps⟩
  · cases ht
  · cases p with
    | field i => cases ht
    | lit s =>
      dsimp only
      have h2 : eval env loc (strExpr (.lit s)) (.ofHeap h) = (.ofHeap h, (Except.ok (js s)).map fun s => .val (.str s)) := rfl
      rw [exec, step, eval_concat (st := .ofHeap h) hr h1 ps _ _ h2]
      simp only [partStrs, partStr, List.nil_append, St.ofHeap]
      rcases partStrs (env.str h) ys (js s) ps with e | t <;> rfl

theorem partStrs_option (f : HVal → Except JErr JStr) (g : HVal → Option JStr) (hfg : ∀ x, (f x).toOption = g x) (ys : List HVal) (ps : List StrPart) :
    ∀ acc, (partStrs f ys acc ps).toOption =
      ((allSome (fun p => match p with
        | StrPart.lit s => some (js s)
        | .field i => match ys[i]? with | some v => g v | none => none) ps).map List.flatten).map (acc ++ ·) := by
  induction ps with
  | nil => intro acc; simp [partStrs, allSome, Except.toOption]
  | cons p ps ih =>
    intro acc
    cases p with
    | lit s =>
      simp only [partStrs, partStr, ih, allSome]
      rcases allSome _ ps with _ | ss <;> simp
    | field i =>
      simp only [partStrs, partStr, allSome]
      rcases ys[i]? with _ | v
      · rfl
      · dsimp only
        rw [← hfg v]
        rcases f v with e | s
        · rfl
        · dsimp only
          rw [ih]
          simp only [Except.toOption]
          rcases allSome _ ps with _ | ss <;> simp

theorem elemStrs_option (f : HVal → Except JErr JStr) (g : HVal → Option JStr) (hfg : ∀ x, (f x).toOption = g x) (self : HVal) (xs : List HVal) :
    (elemStrs f self xs).toOption = allSome (fun x => if x = self then some (js "(this Collection)") else g x) xs := by
  induction xs with
  | nil => rfl
  | cons x xs ih =>
    simp only [elemStrs, allSome, ← ih]
    by_cases hx : x = self
    · rw [if_pos hx, if_pos hx]
      dsimp only
      rcases elemStrs f self xs with e | ss <;> rfl
    · rw [if_neg hx, if_neg hx, ← hfg x]
      rcases f x with e | s
      · rfl
      · dsimp only
        rcases elemStrs f self xs with e | ss <;> rfl

/-- `String.valueOf`, with the statements of `toString`, is `htoStr` (which does not tell one error from another). -/
theorem stringValueOf_eq (flt : Num → JStr) (n : Nat) : ∀ (h : Heap) (x : HVal), (stringValueOf flt n h x).toOption = htoStr h flt n x := by
  induction n with
  | zero => intro h x; simp [stringValueOf, htoStr, Except.toOption]
  | succ n ih =>
    intro h x
    rw [stringValueOf.eq_def]
    dsimp only
    rcases x with _ | a | s | r
    · rfl
    · rfl
    · rfl
    · dsimp only
      rcases hr : (h[r]? : Option HObj) with _ | ⟨c, ys⟩ | xs
      · simp [htoStr, hr, Except.toOption]
      · simp only [htoStr, hr]
        rw [exec_toString (env := ⟨.val (.ref r), .sse_SseBinary, ⟨[], [], 0⟩, fun _ _ _ => unused, fun _ _ => unused, stringValueOf flt n⟩) (r := r) rfl hr,
          partStrs_option _ (htoStr h flt n) (ih h)]
        rcases allSome _ (decl c).str with _ | ss <;> simp
      · simp only [htoStr, hr]
        rw [← elemStrs_option _ (htoStr h flt n) (ih h) (.ref r) xs]
        rcases elemStrs _ (.ref r) xs with e | ss <;> rfl

/-! ### factories -/

theorem keyIn_keyVal (k : Key) : keyIn (keyVal k) = k := by cases k <;> rfl

theorem str_leaf (flt : Num → JStr) (n : Nat) (h : Heap) (k : Key) : stringValueOf flt (n + 1) h (keyVal k) = .ok (keyText k) := by
  cases k with
  | null => rfl
  | str s => rfl
  | int v => exact congrArg Except.ok (intStr_eq v.toInt (natAbs_bound .i32 v))
  | short v => exact congrArg Except.ok (intStr_eq v.toInt (natAbs_bound .i16 v))

end FinProto.Methods
