import Verif.Proofs.Java
/-
Helper lemmas: running the Java statements of `decode` is `hdecode`.
-/
namespace FinProto.Java

variable {svc : Registry} {sup : Suppliers} {n r : Nat} {tys : List FTy}

/-- The outcome of a call as the state after the statement, then the rest. -/
def dafter (o : Heap × RBuf × Option JErr) (st : St) (k : St → Option (St × Option JErr)) : Option (St × Option JErr) :=
  next ({ st with h := o.1, inp := o.2.1 }, o.2.2) k

/-- Running `e.decode(byteBuf)` is `call`. -/
def DCallRuns (svc : Registry) (sup : Suppliers) (n : Nat) (call : HDecCall) : Prop :=
  ∀ (r : Nat) (tys : List FTy) (e : Expr) (rest : List Stmt) (st : St) (a : Nat) (c : Cls) (ys : List HVal),
    eval ⟨svc, sup, r, tys⟩ e st = (st, .ok (.val (.ref a))) → st.h[a]? = some (.msg c ys) → (call a st.h st.inp).2.2 ≠ some .illTyped →
    run svc sup n r tys (.decode e :: rest) st = dafter (call a st.h st.inp) st (run svc sup n r tys rest)

/-- `this.F.decode(byteBuf)`. -/
theorem run_callField {call : HDecCall} (hc : DCallRuns svc sup n call) (f : Nat) (rest : List Stmt) (st : St)
    (hok : (hcallField call r f ⟨st.h, st.inp⟩).2 ≠ some .illTyped) :
    run svc sup n r tys (.decode (.field f) :: rest) st
      = next ({ st with h := (hcallField call r f ⟨st.h, st.inp⟩).1.h, inp := (hcallField call r f ⟨st.h, st.inp⟩).1.buf },
          (hcallField call r f ⟨st.h, st.inp⟩).2) (run svc sup n r tys rest) := by
  simp only [hcallField] at hok ⊢
  cases hf : st.h.field r f with
  | none => rw [hf] at hok; exact absurd rfl hok
  | some x =>
    rw [hf] at hok
    cases x with
    | null => exact run_decode_null (by simp only [eval, hf])
    | num m => exact absurd rfl hok
    | str m => exact absurd rfl hok
    | ref a =>
      dsimp only at hok ⊢
      cases ha : st.h[a]? with
      | none => rw [ha] at hok; exact absurd rfl hok
      | some o =>
        rw [ha] at hok
        cases o with
        | arr xs => exact absurd rfl hok
        | msg c ys => exact hc r tys (.field f) rest st a c ys (by simp only [eval, hf]) ha hok

/-- One round of the loop that reads a list. -/
theorem run_decElem {call : HDecCall} (hc : DCallRuns svc sup n call) (f : Nat) (el : DecElem) (st : St)
    (hok : (hdecElem call r f el st.h st.inp).2.2 ≠ some .illTyped) :
    ∃ loc, run svc sup n r tys (decElem f el) st
      = some (⟨(hdecElem call r f el st.h st.inp).1, st.out, (hdecElem call r f el st.h st.inp).2.1, loc⟩, (hdecElem call r f el st.h st.inp).2.2) := by
  cases el with
  | num t e =>
    refine ⟨st.loc, ?_⟩
    simp only [hdecElem, decElem]
    cases hr : st.inp.readNum e t with
    | mk b' res =>
      cases res with
      | error err =>
        rw [run_simple (by simp only [simple, eval, hr]; rfl)]; rfl
      | ok m =>
        dsimp only
        rw [run_simple (by simp only [simple, eval, hr]; rfl)]
        rcases hadd st.h r f (.num m) with ⟨h', _ | err⟩
        · simp only [next, run_nil]
        · simp only [next]
  | fixed k pad left =>
    refine ⟨st.loc, ?_⟩
    simp only [hdecElem, decElem]
    cases hr : readFixedString st.inp k pad left with
    | mk b' res =>
      cases res with
      | error err =>
        rw [run_simple (by simp only [simple, eval, hr]; rfl)]; rfl
      | ok m =>
        dsimp only
        rw [run_simple (by simp only [simple, eval, hr]; rfl)]
        rcases hadd st.h r f (.str m) with ⟨h', _ | err⟩
        · simp only [next, run_nil]
        · simp only [next]
  | dyn t e =>
    simp only [hdecElem, decElem, readDyn]
    cases hr : st.inp.readNum e t with
    | mk b' res =>
      cases res with
      | error err =>
        refine ⟨st.loc, ?_⟩
        rw [run_simple (by simp only [simple, eval, hr]; rfl)]; rfl
      | ok m =>
        refine ⟨(st.setLoc (.len f) (.val (.num m))).loc, ?_⟩
        rw [run_simple (o := ({ st with inp := b' }.setLoc (.len f) (.val (.num m)), none)) (by simp only [simple, eval, hr])]
        simp only [next]
        have hloc : ({ st with inp := b' }.setLoc (.len f) (.val (.num m))).loc (.len f) = some (.val (.num m)) := by simp [St.setLoc]
        rw [run_ite (st' := { st with inp := b' }.setLoc (.len f) (.val (.num m))) (v := decide (0 < m.bits.toInt)) (by simp only [test, eval, hloc])]
        by_cases hp : 0 < m.bits.toInt
        · simp only [hp, decide_true, if_true]
          cases ht : b'.readText m.bits.toNat with
          | mk b'' res =>
            have ht' : ({ st with inp := b' }.setLoc (.len f) (.val (.num m))).inp.readText m.bits.toNat = (b'', res) := ht
            cases res with
            | error err =>
              rw [run_simple (by simp only [simple, eval, hloc, if_neg (show ¬ m.bits.toInt < 0 by omega), ht']; rfl)]
              rfl
            | ok s =>
              dsimp only
              rw [run_simple (by simp only [simple, eval, hloc, if_neg (show ¬ m.bits.toInt < 0 by omega), ht']; rfl)]
              simp only [St.setLoc]
              rcases hadd st.h r f (.str s) with ⟨h', _ | err⟩
              · simp only [next, run_nil, andThen]
              · simp only [next, andThen]
        · simp only [hp, decide_false, if_false, Bool.false_eq_true, run_nil, andThen]
          rfl
  | obj c =>
    simp only [hdecElem, decElem] at hok ⊢
    rw [run_simple (o := ({ st with h := st.h ++ [newMsg c] }.setLoc (.elem f) (.val (.ref st.h.length)), none)) (by simp only [simple, eval])]
    simp only [next]
    have hS : ∃ S : St, S = { st with h := st.h ++ [newMsg c] }.setLoc (.elem f) (.val (.ref st.h.length)) := ⟨_, rfl⟩
    obtain ⟨S, hS⟩ := hS
    have s1 : S.h = st.h ++ [newMsg c] := by rw [hS]; rfl
    have s2 : S.inp = st.inp := by rw [hS]; rfl
    have s3 : S.out = st.out := by rw [hS]; rfl
    have s4 : S.loc (.elem f) = some (.val (.ref st.h.length)) := by rw [hS]; simp [St.setLoc]
    rw [← hS]
    have hcall : (call st.h.length S.h S.inp).2.2 ≠ some .illTyped := by
      rw [s1, s2]
      revert hok
      rcases call st.h.length (st.h ++ [newMsg c]) st.inp with ⟨h', b', _ | err⟩ <;> intro hok
      · simp
      · exact hok
    rw [hc r tys (.var (.elem f)) [.add f (.var (.elem f))] S st.h.length c ((decl c).fields.map fun f => f.2.hdefault)
      (by simp only [eval, s4]) (by rw [s1]; simp [newMsg]) hcall, s1, s2]
    rcases call st.h.length (st.h ++ [newMsg c]) st.inp with ⟨h', b', _ | err⟩
    · refine ⟨S.loc, ?_⟩
      simp only [dafter, next]
      rw [run_simple (by simp only [simple, eval, s4]; rfl)]
      rcases hadd h' r f (.ref st.h.length) with ⟨h'', _ | err⟩
      · simp only [next, run_nil, s3]
      · simp only [next, s3]
    · exact ⟨S.loc, by simp only [dafter, next, s3]⟩

/-- The loop that reads a list. -/
theorem run_decLoop {call : HDecCall} (hc : DCallRuns svc sup n call) (f : Nat) (el : DecElem) (m : Num) (hm : m.bits.toInt < 2 ^ 31) (rest : List Stmt) :
    ∀ (k j : Nat) (st : St), st.loc (.size f) = some (.val (.num m)) → (j : Int) + k = m.bits.toInt →
      (hdecElems call r f el k st.h st.inp).2.2 ≠ some .illTyped →
      run svc sup n r tys (.loop .i (BitVec.ofNat 32 j) (.var (.size f)) (decElem f el) :: rest) st
        = dafter (hdecElems call r f el k st.h st.inp) st (run svc sup n r tys rest)
  | k, j, st, hloc, hj, hok => by
    rw [run_loop (st' := st) (m := m) (by simp only [eval, hloc]), ofNat_toInt _ (by omega)]
    cases k with
    | zero => rw [if_neg (by omega)]; rfl
    | succ k =>
      rw [if_pos (by omega)]
      simp only [hdecElems] at hok ⊢
      have h1 := run_decElem (r := r) (tys := tys) hc f el (st.setLoc .i (.val (.num (.int (BitVec.ofNat 32 j)))))
      simp only [St.setLoc] at h1 ⊢
      revert h1 hok
      rcases hdecElem call r f el st.h st.inp with ⟨h', b', _ | err⟩ <;> intro hok h1
      · obtain ⟨loc, h1⟩ := h1 (by simp)
        rw [h1]
        simp only [andThen]
        have := run_decLoop hc f el m hm rest k (j + 1) { st with h := h', inp := b' } hloc (by omega) hok
        rw [show BitVec.ofNat 32 (j + 1) = BitVec.ofNat 32 j + 1 from BitVec.ofNat_add _ _] at this
        exact this
      · obtain ⟨loc, h1⟩ := h1 hok
        rw [h1]
        simp only [andThen, dafter, next]

/-- Suppliers return messages or null. -/
def RefSups (sup : Suppliers) : Prop := ∀ fac key s, sup fac key = some s →
  match s with
  | .make .null | .make (.obj _ _) | .give .null | .give (.ref _) => True
  | _ => False

/-- Length and count fields are of integer types, so they are at most `int`s. -/
def okDec : DecStmt → Bool
  | .list _ t _ _ => t == .i8 || t == .i16 || t == .i32
  | _ => true

theorem okDec_table (c : Cls) : (decl c).dec.all okDec = true := by
  cases c <;> rfl

theorem toInt_small (m : Num) (h : m.ty = .i8 ∨ m.ty = .i16 ∨ m.ty = .i32) : m.bits.toInt < 2 ^ 31 := by
  obtain ⟨t, v⟩ := m
  have := BitVec.toInt_lt (x := v)
  rcases h with h | h | h <;> (subst h; simp only [PTy.bits, PTy.size] at this ⊢; omega)

theorem readNum_ty (b b' : RBuf) (e : Endian) (t : PTy) (m : Num) (h : b.readNum e t = (b', .ok m)) : m.ty = t := by
  simp only [RBuf.readNum] at h
  split at h
  · injection h with _ h; injection h with h; subst h
    cases e <;> rfl
  · injection h with _ h; cases h

theorem run_decStmt {call : HDecCall} (hs : RefSups sup) (hc : DCallRuns svc sup n call) (s : DecStmt) (hmem : okDec s = true) (rest : List Stmt) (st : St)
    (hok : (hdecStmt sup call r tys s ⟨st.h, st.inp⟩).2 ≠ some .illTyped) :
    ∃ st', st'.h = (hdecStmt sup call r tys s ⟨st.h, st.inp⟩).1.h ∧ st'.inp = (hdecStmt sup call r tys s ⟨st.h, st.inp⟩).1.buf ∧ st'.out = st.out
      ∧ run svc sup n r tys (decStmt s ++ rest) st = next (st', (hdecStmt sup call r tys s ⟨st.h, st.inp⟩).2) (run svc sup n r tys rest) := by
  cases s with
  | num f t e =>
    simp only [hdecStmt, decStmt, List.cons_append, List.nil_append] at hok ⊢
    cases hr : st.inp.readNum e t with
    | mk b' res =>
      rw [hr] at hok
      cases res with
      | error err =>
        refine ⟨{ st with inp := b' }, rfl, rfl, rfl, ?_⟩
        exact run_simple (by simp only [simple, eval, hr])
      | ok m =>
        dsimp only at hok ⊢
        cases ha : (tys[f]?.bind fun x => assignNum x m) with
        | none => rw [ha] at hok; exact absurd rfl hok
        | some v =>
          rw [ha] at hok
          cases v with
          | num k =>
            refine ⟨{ st with h := st.h.setField r f (.num k), inp := b' }, rfl, rfl, rfl, ?_⟩
            exact run_simple (by simp only [simple, eval, hr, ha])
          | _ => exact absurd rfl hok
  | fixed f k pad left =>
    simp only [hdecStmt, decStmt, List.cons_append, List.nil_append] at hok ⊢
    cases hr : readFixedString st.inp k pad left with
    | mk b' res =>
      cases res with
      | error err =>
        refine ⟨{ st with inp := b' }, rfl, rfl, rfl, ?_⟩
        exact run_simple (by simp only [simple, eval, hr])
      | ok m =>
        refine ⟨{ st with h := st.h.setField r f (.str m), inp := b' }, rfl, rfl, rfl, ?_⟩
        exact run_simple (by simp only [simple, eval, hr])
  | dyn f t e =>
    simp only [hdecStmt, decStmt, List.cons_append, List.nil_append, readDyn] at hok ⊢
    cases hr : st.inp.readNum e t with
    | mk b' res =>
      cases res with
      | error err =>
        refine ⟨{ st with inp := b' }, rfl, rfl, rfl, ?_⟩
        rw [run_simple (by simp only [simple, eval, hr]; rfl)]
        rfl
      | ok m =>
        rw [run_simple (o := ({ st with inp := b' }.setLoc (.len f) (.val (.num m)), none)) (by simp only [simple, eval, hr])]
        simp only [next]
        have hloc : ({ st with inp := b' }.setLoc (.len f) (.val (.num m))).loc (.len f) = some (.val (.num m)) := by simp [St.setLoc]
        rw [run_ite (st' := { st with inp := b' }.setLoc (.len f) (.val (.num m))) (v := decide (0 < m.bits.toInt)) (by simp only [test, eval, hloc])]
        by_cases hp : 0 < m.bits.toInt
        · simp only [hp, decide_true, if_true]
          cases ht : b'.readText m.bits.toNat with
          | mk b'' res =>
            have ht' : ({ st with inp := b' }.setLoc (.len f) (.val (.num m))).inp.readText m.bits.toNat = (b'', res) := ht
            cases res with
            | error err =>
              rw [run_simple (by simp only [simple, eval, hloc, if_neg (show ¬ m.bits.toInt < 0 by omega), ht']; rfl)]
              exact ⟨{ st with inp := b'' }.setLoc (.len f) (.val (.num m)), rfl, rfl, rfl, rfl⟩
            | ok s =>
              dsimp only
              rw [run_simple (by simp only [simple, eval, hloc, if_neg (show ¬ m.bits.toInt < 0 by omega), ht']; rfl)]
              refine ⟨{ st with h := st.h.setField r f (.str s), inp := b'' }.setLoc (.len f) (.val (.num m)), rfl, rfl, rfl, ?_⟩
              simp only [next, run_nil, andThen, St.setLoc]
        · simp only [hp, decide_false, if_false, Bool.false_eq_true, run_nil, andThen]
          exact ⟨{ st with inp := b' }.setLoc (.len f) (.val (.num m)), rfl, rfl, rfl, rfl⟩
  | list f t e el =>
    simp only [hdecStmt, decStmt, List.cons_append, List.nil_append] at hok ⊢
    cases hr : st.inp.readNum e t with
    | mk b' res =>
      rw [hr] at hok
      cases res with
      | error err =>
        refine ⟨{ st with inp := b' }, rfl, rfl, rfl, ?_⟩
        rw [run_simple (by simp only [simple, eval, hr]; rfl)]
        rfl
      | ok m =>
        dsimp only at hok ⊢
        rw [run_simple (o := ({ st with inp := b' }.setLoc (.size f) (.val (.num m)), none)) (by simp only [simple, eval, hr])]
        simp only [next]
        have hloc : ({ st with inp := b' }.setLoc (.size f) (.val (.num m))).loc (.size f) = some (.val (.num m)) := by simp [St.setLoc]
        rw [run_ite (st' := { st with inp := b' }.setLoc (.size f) (.val (.num m))) (v := decide (0 < m.bits.toInt)) (by simp only [test, eval, hloc])]
        by_cases hp : 0 < m.bits.toInt
        · have hty := readNum_ty _ _ _ _ _ hr
          have hsmall : m.bits.toInt < 2 ^ 31 := by
            refine toInt_small m ?_
            simp only [okDec, Bool.or_eq_true, beq_iff_eq] at hmem
            rw [hty]
            rcases hmem with (h | h) | h
            · exact .inl h
            · exact .inr (.inl h)
            · exact .inr (.inr h)
          have hnat : (0 : Int) + m.bits.toNat = m.bits.toInt := by
            rw [BitVec.toInt_eq_toNat_cond]
            rw [BitVec.toInt_eq_toNat_cond] at hp
            by_cases h2 : 2 * m.bits.toNat < 2 ^ m.ty.bits
            · rw [if_pos h2]; omega
            · rw [if_neg h2] at hp
              have := m.bits.isLt
              omega
          rw [if_pos hp] at hok
          simp only [hp, decide_true, if_true]
          dsimp only at hok
          rw [run_simple (o := ({ st with h := Heap.setField (st.h ++ [HObj.arr []]) r f (.ref st.h.length), inp := b' }.setLoc (.size f) (.val (.num m)), none))
            (by simp only [simple, eval, St.setLoc])]
          simp only [next]
          rw [show (0 : BitVec 32) = BitVec.ofNat 32 0 from rfl]
          have hl := run_decLoop (r := r) (tys := tys) hc f el m hsmall [] m.bits.toNat 0
            ({ st with h := Heap.setField (st.h ++ [HObj.arr []]) r f (.ref st.h.length), inp := b' }.setLoc (.size f) (.val (.num m)))
            (by simp [St.setLoc]) hnat hok
          rw [hl]
          refine ⟨{ st with
            h := (hdecElems call r f el m.bits.toNat (Heap.setField (st.h ++ [HObj.arr []]) r f (.ref st.h.length)) b').1
            inp := (hdecElems call r f el m.bits.toNat (Heap.setField (st.h ++ [HObj.arr []]) r f (.ref st.h.length)) b').2.1 }.setLoc (.size f) (.val (.num m)),
            rfl, rfl, rfl, ?_⟩
          simp only [dafter, St.setLoc]
          rcases hdecElems call r f el m.bits.toNat (Heap.setField (st.h ++ [HObj.arr []]) r f (.ref st.h.length)) b' with ⟨h', b'', _ | err⟩
          · simp only [next, run_nil, andThen]
          · simp only [next, andThen]
        · simp only [hp, decide_false, if_false, Bool.false_eq_true, run_nil, andThen]
          exact ⟨{ st with inp := b' }.setLoc (.size f) (.val (.num m)), rfl, rfl, rfl, rfl⟩
  | obj f c =>
    simp only [hdecStmt, decStmt, List.cons_append, List.nil_append] at hok ⊢
    cases hf : st.h.field r f with
    | none => rw [hf] at hok; simp [hcallField, hf] at hok
    | some x =>
      rw [hf] at hok
      have key : x ≠ .null → (hcallField call r f ⟨st.h, st.inp⟩).2 ≠ some .illTyped →
          run svc sup n r tys (.ite (.isNull true (.field f)) [.assign f (.newObj c)] [] :: .decode (.field f) :: rest) st
            = next ({ st with h := (hcallField call r f ⟨st.h, st.inp⟩).1.h, inp := (hcallField call r f ⟨st.h, st.inp⟩).1.buf },
                (hcallField call r f ⟨st.h, st.inp⟩).2) (run svc sup n r tys rest) := by
        intro hx hok
        rw [run_ite (st' := st) (v := false) (by simp only [test, eval, hf]; cases x <;> first | exact absurd rfl hx | rfl), if_neg (by simp), run_nil]
        simp only [andThen]
        exact run_callField hc f rest st hok
      cases x with
      | num m => exact ⟨{ st with h := _, inp := _ }, rfl, rfl, rfl, key (by simp) hok⟩
      | str m => exact ⟨{ st with h := _, inp := _ }, rfl, rfl, rfl, key (by simp) hok⟩
      | ref m => exact ⟨{ st with h := _, inp := _ }, rfl, rfl, rfl, key (by simp) hok⟩
      | null =>
        dsimp only at hok ⊢
        refine ⟨{ st with h := _, inp := _ }, rfl, rfl, rfl, ?_⟩
        rw [run_ite (st' := st) (v := true) (by simp only [test, eval, hf]), if_pos rfl]
        rw [run_simple (o := ({ st with h := Heap.setField (st.h ++ [newMsg c]) r f (.ref st.h.length) }, none)) (by simp only [simple, eval])]
        simp only [next, run_nil, andThen]
        exact run_callField hc f rest { st with h := Heap.setField (st.h ++ [newMsg c]) r f (.ref st.h.length) } hok
  | create f fac key =>
    simp only [hdecStmt, decStmt, List.cons_append, List.nil_append] at hok ⊢
    cases hf : st.h.field r key with
    | none => rw [hf] at hok; exact absurd rfl hok
    | some k =>
      dsimp only
      cases hk : sup fac (keyOf k.leaf) with
      | none => exact ⟨st, rfl, rfl, rfl, run_simple (by simp only [simple, eval, hf, hk])⟩
      | some s =>
        have h1 := hs fac _ s hk
        refine ⟨{ st with h := hcreate st.h r f s }, rfl, rfl, rfl, ?_⟩
        refine run_simple ?_
        cases s with
        | make v =>
          cases v with
          | null => simp only [simple, eval, hf, hk, alloc, hcreate]
          | obj c fs => simp only [simple, eval, hf, hk, alloc, hcreate]
          | _ => exact h1.elim
        | give x =>
          cases x with
          | null => simp only [simple, eval, hf, hk, hcreate]
          | ref a => simp only [simple, eval, hf, hk, hcreate]
          | _ => exact h1.elim
  | call f =>
    simp only [hdecStmt] at hok ⊢
    exact ⟨{ st with h := _, inp := _ }, rfl, rfl, rfl, run_callField hc f rest st hok⟩

theorem run_decStmts {call : HDecCall} (hs : RefSups sup) (hc : DCallRuns svc sup n call) : ∀ (ss : List DecStmt) (st : St), (ss.all okDec = true) →
      (hdecStmts sup call r tys ss ⟨st.h, st.inp⟩).2 ≠ some .illTyped →
      ∃ st', st'.h = (hdecStmts sup call r tys ss ⟨st.h, st.inp⟩).1.h ∧ st'.inp = (hdecStmts sup call r tys ss ⟨st.h, st.inp⟩).1.buf ∧ st'.out = st.out
        ∧ run svc sup n r tys (ss.flatMap decStmt) st = some (st', (hdecStmts sup call r tys ss ⟨st.h, st.inp⟩).2)
  | [], st, _, _ => ⟨st, rfl, rfl, rfl, run_nil st⟩
  | s :: ss, st, hmem, hok => by
    simp only [List.all_cons, Bool.and_eq_true] at hmem
    have h1 := run_decStmt (r := r) (tys := tys) hs hc s hmem.1 (ss.flatMap decStmt) st
    rw [List.flatMap_cons]
    simp only [hdecStmts] at hok ⊢
    revert h1 hok
    rcases hdecStmt sup call r tys s ⟨st.h, st.inp⟩ with ⟨⟨h', b'⟩, _ | err⟩ <;> intro hok h1
    · dsimp only at *
      obtain ⟨⟨ih, iout, iinp, iloc⟩, e1, e2, e3, e4⟩ := h1 (by simp)
      dsimp only at e1 e2 e3
      subst e1 e2 e3
      obtain ⟨st', g1, g2, g3, g4⟩ := run_decStmts hs hc ss ⟨ih, st.out, iinp, iloc⟩ hmem.2 hok
      exact ⟨st', g1, g2, g3, by rw [e4]; exact g4⟩
    · dsimp only at *
      obtain ⟨st', e1, e2, e3, e4⟩ := h1 hok
      exact ⟨st', e1, e2, e3, e4⟩

theorem run_hdecode (hs : RefSups sup) : ∀ n, DCallRuns svc sup n (hdecode sup n)
  | 0 => fun r tys e rest st a c ys hx ha hok => run_decode_zero hx (by simp)
  | n + 1 => fun r tys e rest st a c ys hx ha hok => by
    simp only [hdecode, ha] at hok ⊢
    rw [run_decode (a := a) (c := c) hx (by simp only [callee, ha])]
    obtain ⟨⟨ih, iout, iinp, iloc⟩, g1, g2, g3, g4⟩ := run_decStmts (r := a) (tys := fieldTys c) (svc := svc) hs (run_hdecode hs n) (decl c).dec
      { st with loc := fun _ => none } (okDec_table c) hok
    dsimp only at g1 g2 g3 g4
    rw [decBody, g4]
    subst g1 g2 g3
    simp only [dafter, next]
    show andThen (some (_, (hdecStmts sup (hdecode sup n) a (fieldTys c) (decl c).dec ⟨st.h, st.inp⟩).2)) _ _ = _
    rw [show ((decl c).fields.map (·.2)) = fieldTys c from rfl]
    rcases (hdecStmts sup (hdecode sup n) a (fieldTys c) (decl c).dec ⟨st.h, st.inp⟩).2 with _ | err
    · simp only [andThen]
    · simp only [andThen]

end FinProto.Java
