import Verif.Proofs.Mini
/-
Helper lemmas: running the static initialisers and the `calc` methods of the checksum services.
-/
namespace FinProto.Mini

variable {ms : Methods}

theorem assign_int {x : String} {e : Expr} {st : St} {u w : BitVec 32} (h : st.loc x = some (.int u)) (he : eval e st = (st, .ok (.int w))) :
    simple (.assign x e) st = some (st.setLoc x (.int w), .next) := by
  simp only [simple, he]
  rw [assignVar_loc (t := .int) (w := .int w) h rfl rfl]

theorem loc_setLoc_ne {st : St} {x y : String} {v : V} (h : y ≠ x) : (st.setLoc x v).loc y = st.loc y := by simp [St.setLoc, h]

theorem loc_setLoc_same {st : St} {x : String} {v : V} : (st.setLoc x v).loc x = some v := by simp [St.setLoc]

theorem setLoc_fld (st : St) (x : String) (v : V) : (st.setLoc x v).fld = st.fld ∧ (st.setLoc x v).out = st.out ∧ (st.setLoc x v).inp = st.inp :=
  ⟨rfl, rfl, rfl⟩

/-! ### The tables -/

/-- The inner loop. -/
theorem exec_tabInner (v : String) (hv : v ≠ "j" ∧ v ≠ "i" ∧ v ≠ "CRC_TABLE") (upd : Stmt) (step : BitVec 32 → BitVec 32)
    (hupd : ∀ (st : St) (c : BitVec 32) (rest : List Stmt), st.loc v = some (.int c) → exec ms (upd :: rest) st = exec ms rest (st.setLoc v (.int (step c))))
    (c0 : BitVec 32) (rest : List Stmt) : ∀ (k j : Nat) (st : St), 8 - j = k → j ≤ 8 → st.loc "j" = some (.int (BitVec.ofNat 32 j)) →
    st.loc v = some (.int ((List.range j).foldl (fun c _ => step c) c0)) →
    ∃ st', st'.loc v = some (.int ((List.range 8).foldl (fun c _ => step c) c0)) ∧ (∀ x, x ≠ "j" → x ≠ v → st'.loc x = st.loc x) ∧
      st'.fld = st.fld ∧ st'.out = st.out ∧ st'.inp = st.inp ∧
      exec ms (.while (.bin .lt (.var "j") (.dec 8)) ([upd] ++ [.incr "j"]) :: rest) st = exec ms rest st'
  | 0, j, st, hk, hj, h1, h2 => by
    have : j = 8 := by omega
    subst this
    refine ⟨st, h2, fun _ _ _ => rfl, rfl, rfl, rfl, ?_⟩
    rw [exec_while (st' := st) (v := false) (by simp [eval, get_of_loc h1, binary, V.int?, Op.int])]
    rfl
  | k + 1, j, st, hk, hj, h1, h2 => by
    have hlt : (BitVec.ofNat 32 j).toInt < 8 := by rw [toInt_ofNat32 (by omega)]; omega
    have hc : eval (.bin .lt (.var "j") (.dec 8)) st = (st, .ok (.bool true)) := by
      simp only [eval, get_of_loc h1, binary, V.int?, Op.int, show (BitVec.ofNat 32 8).toInt = 8 from rfl, hlt, decide_true]
    rw [exec_while hc, if_pos rfl]
    have e1 := hupd st _ [.incr "j"] h2
    simp only [List.cons_append, List.nil_append]
    rw [e1, exec_step (simple_incr (x := "j") (v := BitVec.ofNat 32 j) (by rw [loc_setLoc_ne (Ne.symm hv.1)]; exact h1)), exec_nil, ofNat_add_one]
    simp only [andThen]
    obtain ⟨st', a1, a2, a3, a4, a5, a6⟩ := exec_tabInner v hv upd step hupd c0 rest k (j + 1)
      ((st.setLoc v (.int (step ((List.range j).foldl (fun c _ => step c) c0)))).setLoc "j" (.int (BitVec.ofNat 32 (j + 1))))
      (by omega) (by omega) loc_setLoc_same
      (by rw [loc_setLoc_ne hv.1, loc_setLoc_same, List.range_succ, List.foldl_append]; rfl)
    refine ⟨st', a1, ?_, a3, a4, a5, ?_⟩
    · intro x h1 h2
      rw [a2 x h1 h2, loc_setLoc_ne h1, loc_setLoc_ne h2]
    · simp only [List.cons_append, List.nil_append] at a6
      exact a6

/-- The table as far as it is filled. -/
def tabUpTo (entry : Nat → BitVec 32) (i : Nat) : List (BitVec 32) := (List.range i).map entry ++ List.replicate (256 - i) 0

theorem tabUpTo_length (entry : Nat → BitVec 32) {i : Nat} (h : i ≤ 256) : (tabUpTo entry i).length = 256 := by
  simp [tabUpTo]; omega

theorem tabUpTo_set (entry : Nat → BitVec 32) {i : Nat} (h : i < 256) : (tabUpTo entry i).set i (entry i) = tabUpTo entry (i + 1) := by
  unfold tabUpTo
  rw [List.set_append_right _ _ (by simp), show 256 - i = (256 - (i + 1)) + 1 by omega, List.replicate_succ]
  simp [List.range_succ]

/-- The outer loop. -/
theorem exec_tabOuter (v : String) (hv : v ≠ "j" ∧ v ≠ "i" ∧ v ≠ "CRC_TABLE") (upd : Stmt) (step : BitVec 32 → BitVec 32)
    (hupd : ∀ (st : St) (c : BitVec 32) (rest : List Stmt), st.loc v = some (.int c) → exec ms (upd :: rest) st = exec ms rest (st.setLoc v (.int (step c)))) :
    ∀ (k i : Nat) (st : St), 256 - i = k → i ≤ 256 → st.loc "i" = some (.int (BitVec.ofNat 32 i)) → st.loc "CRC_TABLE" = none →
    st.fld "CRC_TABLE" = some (.ints (tabUpTo (fun i => (List.range 8).foldl (fun c _ => step c) (BitVec.ofNat 32 i)) i)) →
    ∃ st', st'.fld "CRC_TABLE" = some (.ints ((List.range 256).map (fun i => (List.range 8).foldl (fun c _ => step c) (BitVec.ofNat 32 i)))) ∧
      (∀ x, x ≠ "CRC_TABLE" → st'.fld x = st.fld x) ∧ st'.out = st.out ∧ st'.inp = st.inp ∧
      exec ms [.while (.bin .lt (.var "i") (.dec 256))
        ([.decl .int v (some (.var "i")), .for "j" (.dec 0) (.bin .lt (.var "j") (.dec 8)) [upd], .store "CRC_TABLE" (.var "i") (.var v)] ++ [.incr "i"])] st =
        some (st', .next)
  | 0, i, st, hk, hi, h1, h2, h3 => by
    have : i = 256 := by omega
    subst this
    refine ⟨st, by simpa [tabUpTo] using h3, fun _ _ => rfl, rfl, rfl, ?_⟩
    rw [exec_while (st' := st) (v := false) (by simp [eval, get_of_loc h1, binary, V.int?, Op.int])]
    exact exec_nil st
  | k + 1, i, st, hk, hi, h1, h2, h3 => by
    have hlt : (BitVec.ofNat 32 i).toInt < 256 := by rw [toInt_ofNat32 (by omega)]; omega
    have hc : eval (.bin .lt (.var "i") (.dec 256)) st = (st, .ok (.bool true)) := by
      simp only [eval, get_of_loc h1, binary, V.int?, Op.int, show (BitVec.ofNat 32 256).toInt = 256 from rfl, hlt, decide_true]
    rw [exec_while hc, if_pos rfl]
    simp only [List.cons_append, List.nil_append]
    rw [exec_step (st' := st.setLoc v (.int (BitVec.ofNat 32 i))) (by simp only [simple, eval, get_of_loc h1, assignTo, V.int?])]
    rw [exec_for, exec_step (st' := (st.setLoc v (.int (BitVec.ofNat 32 i))).setLoc "j" (.int (BitVec.ofNat 32 0)))
      (by simp only [simple, eval, assignTo, V.int?])]
    obtain ⟨q, a1, a2, a3, a4, a5, a6⟩ := exec_tabInner (ms := ms) v hv upd step hupd (BitVec.ofNat 32 i)
      [.store "CRC_TABLE" (.var "i") (.var v), .incr "i"] 8 0
      ((st.setLoc v (.int (BitVec.ofNat 32 i))).setLoc "j" (.int (BitVec.ofNat 32 0))) rfl (by omega) loc_setLoc_same
      (by rw [loc_setLoc_ne hv.1, loc_setLoc_same]; rfl)
    simp only [List.cons_append, List.nil_append] at a6
    simp only [List.cons_append, List.nil_append]
    rw [a6]
    have qi : q.loc "i" = some (.int (BitVec.ofNat 32 i)) := by
      rw [a2 "i" (by decide) (Ne.symm hv.2.1), loc_setLoc_ne (by decide), loc_setLoc_ne (Ne.symm hv.2.1), h1]
    have qt : q.loc "CRC_TABLE" = none := by
      rw [a2 _ (by decide) (Ne.symm hv.2.2), loc_setLoc_ne (by decide), loc_setLoc_ne (Ne.symm hv.2.2), h2]
    have qg : q.get "CRC_TABLE" = st.fld "CRC_TABLE" := by
      simp only [St.get, qt, a3]
      rfl
    let entry : Nat → BitVec 32 := fun i => (List.range 8).foldl (fun c _ => step c) (BitVec.ofNat 32 i)
    rw [exec_step (st' := { q with fld := fun y => if y = "CRC_TABLE" then some (.ints (tabUpTo entry (i + 1))) else q.fld y }) (by
      simp only [simple, qg, h3, eval, get_of_loc qi, get_of_loc a1, V.int?]
      rw [tabUpTo_length _ (by omega), if_pos (by rw [toInt_ofNat32 (by omega)]; omega), toNat_ofNat32 (by omega)]
      rw [← tabUpTo_set entry (show i < 256 by omega)]
      simp only [St.set, qt]
      rfl)]
    have hst : ∀ q' : St, q'.loc = q.loc → simple (.incr "i") q' = some (q'.setLoc "i" (.int (BitVec.ofNat 32 i + 1)), .next) :=
      fun q' h => simple_incr (by rw [h]; exact qi)
    rw [exec_step (hst { q with fld := fun y => if y = "CRC_TABLE" then some (.ints (tabUpTo entry (i + 1))) else q.fld y } rfl), exec_nil, ofNat_add_one]
    simp only [andThen]
    obtain ⟨st', b1, b2, b3, b4, b5⟩ := exec_tabOuter v hv upd step hupd k (i + 1)
      (({ q with fld := fun y => if y = "CRC_TABLE" then some (.ints (tabUpTo entry (i + 1))) else q.fld y } : St).setLoc "i" (.int (BitVec.ofNat 32 (i + 1))))
      (by omega) (by omega) loc_setLoc_same (by rw [loc_setLoc_ne (by decide)]; exact qt) (by simp [St.setLoc, entry])
    refine ⟨st', b1, ?_, ?_, ?_, b5⟩
    · intro x hx
      rw [b2 x hx]
      simp only [St.setLoc, hx, if_false, a3]
    · rw [b3]; exact a4
    · rw [b4]; exact a5

theorem exec_crc16Upd (st : St) (c : BitVec 32) (rest : List Stmt) (h : st.loc "crc" = some (.int c)) :
    exec ms (.ite (.bin .ne (.paren (.bin .and (.var "crc") (.dec 1))) (.dec 0))
         [.assign "crc" (.bin .xor (.paren (.bin .ushr (.var "crc") (.dec 1))) (.hex 0xA001))]
         [.opAssign "crc" .ushr (.dec 1)] :: rest) st = exec ms rest (st.setLoc "crc" (.int (crc16TabStep c))) := by
  have hc : eval (.bin .ne (.paren (.bin .and (.var "crc") (.dec 1))) (.dec 0)) st = (st, .ok (.bool (c &&& 1#32 != 0#32))) := by
    simp only [eval, get_of_loc h, binary, V.int?, Op.int]
  rw [exec_ite hc]
  unfold crc16TabStep
  by_cases hb : c &&& 1#32 = 0#32
  · rw [if_neg (by simpa using hb), if_neg (by simpa using hb)]
    rw [exec_step (st' := st.setLoc "crc" (.int (c >>> 1))) (by
      simp only [simple, get_of_loc h, eval, binary, V.int?, Op.int]
      rw [assignVar_loc (t := .int) h rfl (castTo_int _)]
      rfl), exec_nil]
    rfl
  · rw [if_pos (by simpa using hb), if_pos (by simpa using hb)]
    rw [exec_step (assign_int (w := (c >>> 1) ^^^ 0xA001#32) h (by simp only [eval, get_of_loc h, binary, V.int?, Op.int]; rfl)), exec_nil]
    rfl

theorem exec_crc32Upd (st : St) (c : BitVec 32) (rest : List Stmt) (h : st.loc "c" = some (.int c)) :
    exec ms (.ite (.bin .ne (.paren (.bin .and (.var "c") (.dec 1))) (.dec 0))
         [.assign "c" (.bin .xor (.hex 0xEDB88320) (.paren (.bin .ushr (.var "c") (.dec 1))))]
         [.opAssign "c" .ushr (.dec 1)] :: rest) st = exec ms rest (st.setLoc "c" (.int (crc32TabStep c))) := by
  have hc : eval (.bin .ne (.paren (.bin .and (.var "c") (.dec 1))) (.dec 0)) st = (st, .ok (.bool (c &&& 1#32 != 0#32))) := by
    simp only [eval, get_of_loc h, binary, V.int?, Op.int]
  rw [exec_ite hc]
  unfold crc32TabStep
  by_cases hb : c &&& 1#32 = 0#32
  · rw [if_neg (by simpa using hb), if_neg (by simpa using hb)]
    rw [exec_step (st' := st.setLoc "c" (.int (c >>> 1))) (by
      simp only [simple, get_of_loc h, eval, binary, V.int?, Op.int]
      rw [assignVar_loc (t := .int) h rfl (castTo_int _)]
      rfl), exec_nil]
    rfl
  · rw [if_pos (by simpa using hb), if_pos (by simpa using hb)]
    rw [exec_step (assign_int (w := 0xEDB88320#32 ^^^ (c >>> 1)) h (by simp only [eval, get_of_loc h, binary, V.int?, Op.int]; rfl)), exec_nil]
    rfl

theorem exec_crc16Init (st : St) (h : st.loc "CRC_TABLE" = none) (hf : st.fld "CRC_TABLE" = some (.ints (List.replicate 256 0))) :
    ∃ st', exec ms Crc16.init st = some (st', .next) ∧ st'.fld "CRC_TABLE" = some (.ints crc16Table) ∧
      (∀ x, x ≠ "CRC_TABLE" → st'.fld x = st.fld x) ∧ st'.out = st.out ∧ st'.inp = st.inp := by
  simp only [Crc16.init]
  rw [exec_for, exec_step (st' := st.setLoc "i" (.int (BitVec.ofNat 32 0))) (by simp only [simple, eval, assignTo, V.int?])]
  obtain ⟨st', a1, a2, a3, a4, a5⟩ := exec_tabOuter (ms := ms) "crc" (by decide) _ crc16TabStep exec_crc16Upd 256 0 (st.setLoc "i" (.int (BitVec.ofNat 32 0)))
    rfl (by omega) loc_setLoc_same (by rw [loc_setLoc_ne (by decide)]; exact h) (by exact hf)
  exact ⟨st', a5, a1, a2, a3, a4⟩

theorem exec_crc32Init (st : St) (h : st.loc "CRC_TABLE" = none) (hf : st.fld "CRC_TABLE" = some (.ints (List.replicate 256 0))) :
    ∃ st', exec ms Crc32.init st = some (st', .next) ∧ st'.fld "CRC_TABLE" = some (.ints crc32Table) ∧
      (∀ x, x ≠ "CRC_TABLE" → st'.fld x = st.fld x) ∧ st'.out = st.out ∧ st'.inp = st.inp := by
  simp only [Crc32.init]
  rw [exec_for, exec_step (st' := st.setLoc "i" (.int (BitVec.ofNat 32 0))) (by simp only [simple, eval, assignTo, V.int?])]
  obtain ⟨st', a1, a2, a3, a4, a5⟩ := exec_tabOuter (ms := ms) "c" (by decide) _ crc32TabStep exec_crc32Upd 256 0 (st.setLoc "i" (.int (BitVec.ofNat 32 0)))
    rfl (by omega) loc_setLoc_same (by rw [loc_setLoc_ne (by decide)]; exact h) (by exact hf)
  exact ⟨st', a5, a1, a2, a3, a4⟩

/-! ### The loops over the readable bytes -/

theorem ushort (x : Byte) : (x.setWidth 16).signExtend 32 = x.setWidth 32 := by
  revert x; decide +kernel

theorem ushort_long (x : Byte) : (x.setWidth 32).signExtend 64 = x.setWidth 64 := by
  revert x; decide +kernel

/-- The state at the head of the loop. -/
structure CalcSt {α : Type} (acc : String) (enc : α → V) (b : RBuf) (fld : String → Option V) (out : WBuf) (st : St) (i : Nat) (a : α) : Prop where
  buf : st.loc "buf" = some .buf
  rd : st.loc "readerIndex" = some (.int (BitVec.ofNat 32 b.rd))
  n : st.loc "readableBytes" = some (.int (BitVec.ofNat 32 (b.data.length - b.rd)))
  i : st.loc "i" = some (.int (BitVec.ofNat 32 i))
  acc : st.loc acc = some (enc a)
  tab : st.loc "CRC_TABLE" = none
  inp : st.inp = b
  fld : st.fld = fld
  out : st.out = out

theorem exec_calcLoop {α : Type} {acc : String} {enc : α → V} {b : RBuf} {fld : String → Option V} {out : WBuf} (ha : acc ≠ "i")
    (hrd : b.rd ≤ b.data.length) (hlen : b.data.length < 2 ^ 31) (step : α → Byte → α) (body : List Stmt)
    (hbody : ∀ st i a x, CalcSt acc enc b fld out st i a → b.rd + i < b.data.length → b.getUnsignedByte (b.rd + i) = .ok x →
      ∃ st', exec ms (body ++ [.incr "i"]) st = exec ms [.incr "i"] st' ∧ CalcSt acc enc b fld out st' i (step a x))
    (rest : List Stmt) : ∀ (k i : Nat) (st : St) (a : α), b.data.length - b.rd - i = k → i ≤ b.data.length - b.rd → CalcSt acc enc b fld out st i a →
    ∃ st' r, calcLoop step b k i a = .ok r ∧ CalcSt acc enc b fld out st' (b.data.length - b.rd) r ∧
      exec ms (.while (.bin .lt (.var "i") (.var "readableBytes")) (body ++ [.incr "i"]) :: rest) st = exec ms rest st'
  | 0, i, st, a, hk, hi, h => by
    have : i = b.data.length - b.rd := by omega
    subst this
    refine ⟨st, a, rfl, h, ?_⟩
    rw [exec_while (st' := st) (v := false) (by simp [eval, get_of_loc h.i, get_of_loc h.n, binary, V.int?, Op.int])]
    rfl
  | k + 1, i, st, a, hk, hi, h => by
    have hlt : (BitVec.ofNat 32 i).toInt < (BitVec.ofNat 32 (b.data.length - b.rd)).toInt := by
      rw [toInt_ofNat32 (by omega), toInt_ofNat32 (by omega)]; omega
    have hc : eval (.bin .lt (.var "i") (.var "readableBytes")) st = (st, .ok (.bool true)) := by
      simp only [eval, get_of_loc h.i, get_of_loc h.n, binary, V.int?, Op.int, hlt, decide_true]
    have hi' : b.rd + i < b.data.length := by omega
    have hx : b.getUnsignedByte (b.rd + i) = .ok b.data[b.rd + i] := by
      unfold RBuf.getUnsignedByte
      rw [List.getElem?_append_left hi', List.getElem?_eq_getElem hi']
    obtain ⟨q, q1, q2⟩ := hbody st i a _ h hi' hx
    rw [exec_while hc, if_pos rfl, q1, exec_step (simple_incr q2.i), exec_nil, ofNat_add_one]
    simp only [andThen]
    obtain ⟨st', r, a1, a2, a3⟩ := exec_calcLoop ha hrd hlen step body hbody rest k (i + 1) (q.setLoc "i" (.int (BitVec.ofNat 32 (i + 1)))) (step a b.data[b.rd + i])
      (by omega) (by omega)
      ⟨by rw [loc_setLoc_ne (by decide)]; exact q2.buf, by rw [loc_setLoc_ne (by decide)]; exact q2.rd, by rw [loc_setLoc_ne (by decide)]; exact q2.n,
        loc_setLoc_same, by rw [loc_setLoc_ne ha]; exact q2.acc, by rw [loc_setLoc_ne (by decide)]; exact q2.tab, q2.inp, q2.fld, q2.out⟩
    refine ⟨st', r, ?_, a2, a3⟩
    rw [calcLoop, hx]
    exact a1

/-- The byte that an iteration reads. -/
theorem eval_byte {α : Type} {acc : String} {enc : α → V} {b : RBuf} {fld : String → Option V} {out : WBuf} {st : St} {i : Nat} {a : α} {x : Byte}
    (hlen : b.data.length < 2 ^ 31) (h : CalcSt acc enc b fld out st i a) (hi : b.rd + i < b.data.length) (hx : b.getUnsignedByte (b.rd + i) = .ok x) :
    eval (.getUnsignedByte (.var "buf") (.bin .add (.var "readerIndex") (.var "i"))) st = (st, .ok (.short (x.setWidth 16))) := by
  have hadd : BitVec.ofNat 32 b.rd + BitVec.ofNat 32 i = BitVec.ofNat 32 (b.rd + i) := by
    apply BitVec.eq_of_toNat_eq; simp
  simp only [eval, get_of_loc h.buf, get_of_loc h.rd, get_of_loc h.i, binary, V.int?, Op.int, hadd]
  rw [toInt_ofNat32 (by omega), if_neg (by omega), toNat_ofNat32 (by omega), h.inp, hx]

theorem getD_lt (xs : List (BitVec 32)) (hxs : xs.length = 256) (v : BitVec 32) :
    xs[(v &&& 0xFF#32).toNat]? = some (xs.getD (v &&& 0xFF#32).toNat 0) := by
  have hl : (v &&& 0xFF#32).toNat < xs.length := by
    rw [hxs, BitVec.toNat_and]
    exact Nat.lt_of_le_of_lt Nat.and_le_right (by decide)
  rw [List.getElem?_eq_getElem hl, List.getD_eq_getElem?_getD, List.getElem?_eq_getElem hl]
  rfl

theorem mask_nonneg (v : BitVec 32) : ¬ (v &&& 0xFF#32).toInt < 0 := by
  rw [BitVec.toInt_eq_toNat_of_lt]
  · omega
  · rw [BitVec.toNat_and]
    have : v.toNat &&& (0xFF#32).toNat ≤ (0xFF#32).toNat := Nat.and_le_right
    have : (0xFF#32).toNat = 255 := rfl
    omega

theorem crc16Table_length : crc16Table.length = 256 := by simp [crc16Table]

theorem crc32Table_length : crc32Table.length = 256 := by simp [crc32Table]

/-- The two declarations before the loop and the head of the loop, from a state where `acc` is declared already. -/
theorem exec_calcHead {α : Type} {acc : String} {enc : α → V} {b : RBuf} {fld : String → Option V} {out : WBuf} (ha : acc ≠ "i")
    (ha' : acc ≠ "readerIndex" ∧ acc ≠ "readableBytes")
    (hrd : b.rd ≤ b.data.length) (hlen : b.data.length < 2 ^ 31) (step : α → Byte → α) (body : List Stmt)
    (hbody : ∀ st i a x, CalcSt acc enc b fld out st i a → b.rd + i < b.data.length → b.getUnsignedByte (b.rd + i) = .ok x →
      ∃ st', exec ms (body ++ [.incr "i"]) st = exec ms [.incr "i"] st' ∧ CalcSt acc enc b fld out st' i (step a x))
    (rest : List Stmt) (st : St) (a : α) (h1 : st.loc "buf" = some .buf) (h2 : st.loc acc = some (enc a)) (h3 : st.loc "CRC_TABLE" = none)
    (h4 : st.inp = b) (h5 : st.fld = fld) (h6 : st.out = out) :
    ∃ st' r, calcLoop step b (b.data.length - b.rd) 0 a = .ok r ∧ CalcSt acc enc b fld out st' (b.data.length - b.rd) r ∧
      exec ms (.decl .int "readerIndex" (some (.readerIndex (.var "buf"))) :: .decl .int "readableBytes" (some (.readableBytes (.var "buf"))) ::
        .for "i" (.dec 0) (.bin .lt (.var "i") (.var "readableBytes")) body :: rest) st = exec ms rest st' := by
  subst h4
  have g1 : (st.setLoc "readerIndex" (.int (BitVec.ofNat 32 st.inp.rd))).loc "buf" = some .buf := by rw [loc_setLoc_ne (by decide)]; exact h1
  rw [exec_step (st' := st.setLoc "readerIndex" (.int (BitVec.ofNat 32 st.inp.rd))) (by simp only [simple, eval, get_of_loc h1, assignTo, V.int?]),
    exec_step (st' := (st.setLoc "readerIndex" (.int (BitVec.ofNat 32 st.inp.rd))).setLoc "readableBytes" (.int (BitVec.ofNat 32 (st.inp.data.length - st.inp.rd))))
      (by simp only [simple, eval, get_of_loc g1, assignTo, V.int?]; rfl),
    exec_for,
    exec_step (st' := ((st.setLoc "readerIndex" (.int (BitVec.ofNat 32 st.inp.rd))).setLoc "readableBytes"
      (.int (BitVec.ofNat 32 (st.inp.data.length - st.inp.rd)))).setLoc "i" (.int (BitVec.ofNat 32 0))) (by simp only [simple, eval, assignTo, V.int?])]
  refine exec_calcLoop ha hrd hlen step body hbody rest _ 0 _ a rfl (Nat.zero_le _) ⟨?_, ?_, ?_, loc_setLoc_same, ?_, ?_, rfl, h5, h6⟩
  · rw [loc_setLoc_ne (by decide), loc_setLoc_ne (by decide)]; exact g1
  · rw [loc_setLoc_ne (by decide), loc_setLoc_ne (by decide), loc_setLoc_same]
  · rw [loc_setLoc_ne (by decide), loc_setLoc_same]
  · rw [loc_setLoc_ne ha, loc_setLoc_ne ha'.2, loc_setLoc_ne ha'.1]; exact h2
  · rw [loc_setLoc_ne (by decide), loc_setLoc_ne (by decide), loc_setLoc_ne (by decide)]; exact h3

theorem call_calc (m : Method) (hp : m.params = [(.buf, "buf")]) (fld : String → Option V) (out : WBuf) (b : RBuf) :
    call ms m [.buf] fld out b = exec ms m.body ⟨fld, fun y => if y = "buf" then some .buf else none, out, b⟩ := by
  simp only [call, hp, bindParams, assignTo]

/-- Keep what the loop needs when another local variable changes. -/
theorem CalcSt.setOther {α : Type} {acc : String} {enc : α → V} {b : RBuf} {fld : String → Option V} {out : WBuf} {st : St} {i : Nat} {a : α}
    (h : CalcSt acc enc b fld out st i a) (x : String) (v : V) (hx : x ≠ "buf" ∧ x ≠ "readerIndex" ∧ x ≠ "readableBytes" ∧ x ≠ "i" ∧ x ≠ "CRC_TABLE")
    (hacc : x ≠ acc) : CalcSt acc enc b fld out (st.setLoc x v) i a :=
  ⟨by rw [loc_setLoc_ne (Ne.symm hx.1)]; exact h.buf, by rw [loc_setLoc_ne (Ne.symm hx.2.1)]; exact h.rd, by rw [loc_setLoc_ne (Ne.symm hx.2.2.1)]; exact h.n,
    by rw [loc_setLoc_ne (Ne.symm hx.2.2.2.1)]; exact h.i, by rw [loc_setLoc_ne (Ne.symm hacc)]; exact h.acc,
    by rw [loc_setLoc_ne (Ne.symm hx.2.2.2.2)]; exact h.tab, h.inp, h.fld, h.out⟩

theorem CalcSt.setAcc {α : Type} {acc : String} {enc : α → V} {b : RBuf} {fld : String → Option V} {out : WBuf} {st : St} {i : Nat} {a a' : α}
    (h : CalcSt acc enc b fld out st i a) (hx : acc ≠ "buf" ∧ acc ≠ "readerIndex" ∧ acc ≠ "readableBytes" ∧ acc ≠ "i" ∧ acc ≠ "CRC_TABLE") :
    CalcSt acc enc b fld out (st.setLoc acc (enc a')) i a' :=
  ⟨by rw [loc_setLoc_ne (Ne.symm hx.1)]; exact h.buf, by rw [loc_setLoc_ne (Ne.symm hx.2.1)]; exact h.rd, by rw [loc_setLoc_ne (Ne.symm hx.2.2.1)]; exact h.n,
    by rw [loc_setLoc_ne (Ne.symm hx.2.2.2.1)]; exact h.i, loc_setLoc_same, by rw [loc_setLoc_ne (Ne.symm hx.2.2.2.2)]; exact h.tab, h.inp, h.fld, h.out⟩

theorem exec_crc16Calc (fld : String → Option V) (out : WBuf) (b : RBuf) (ht : fld "CRC_TABLE" = some (.ints crc16Table)) (hrd : b.rd ≤ b.data.length)
    (hlen : b.data.length < 2 ^ 31) :
    ∃ st', call ms Crc16.calcMethod [.buf] fld out b = some (st', ofCalc (crc16Calc b)) ∧ st'.fld = fld ∧ st'.out = out ∧ st'.inp = b := by
  rw [call_calc _ rfl]
  simp only [Crc16.calcMethod]
  rw [exec_step (st' := (⟨fld, fun y => if y = "buf" then some .buf else none, out, b⟩ : St).setLoc "crc" (.int 0xFFFF#32))
    (by simp only [simple, eval, assignTo, V.int?])]
  obtain ⟨st', r, a1, a2, a3⟩ := exec_calcHead (ms := ms) (acc := "crc") (enc := V.int) (b := b) (fld := fld) (out := out) (by decide) (by decide) hrd hlen crc16Step
    [.decl .int "b" (some (.getUnsignedByte (.var "buf") (.bin .add (.var "readerIndex") (.var "i")))),
       .assign "crc" (.bin .xor (.paren (.bin .ushr (.var "crc") (.dec 8)))
         (.index (.var "CRC_TABLE") (.bin .and (.paren (.bin .xor (.var "crc") (.var "b"))) (.hex 0xFF))))]
    (by
      intro st i a x h hi hx
      simp only [List.cons_append, List.nil_append]
      rw [exec_step (st' := st.setLoc "b" (.int (x.setWidth 32))) (by simp only [simple, eval_byte hlen h hi hx, assignTo, V.int?, ushort])]
      have h' := h.setOther "b" (.int (x.setWidth 32)) (by decide) (by decide)
      have hb : (st.setLoc "b" (.int (x.setWidth 32))).loc "b" = some (.int (x.setWidth 32)) := loc_setLoc_same
      have hg : (st.setLoc "b" (.int (x.setWidth 32))).get "CRC_TABLE" = some (.ints crc16Table) := by
        simp only [St.get, h'.tab, h'.fld, ht]
      rw [exec_step (assign_int (w := crc16Step a x) h'.acc (by
        simp only [eval, get_of_loc h'.acc, get_of_loc hb, hg, binary, V.int?, Op.int]
        rw [show BitVec.ofNat 32 255 = 0xFF#32 from rfl, getD_lt _ crc16Table_length]
        dsimp only
        rw [if_neg (mask_nonneg _)]
        rfl))]
      exact ⟨_, rfl, h'.setAcc (by decide)⟩)
    [.ret (.bin .and (.var "crc") (.hex 0xFFFF))]
    ((⟨fld, fun y => if y = "buf" then some .buf else none, out, b⟩ : St).setLoc "crc" (.int 0xFFFF#32)) 0xFFFF#32
    (by simp [St.setLoc]) loc_setLoc_same (by simp [St.setLoc]) rfl rfl rfl
  rw [a3, exec_ret (st' := st') (v := .int (r &&& 0xFFFF#32)) (by simp only [eval, get_of_loc a2.acc, binary, V.int?, Op.int])]
  refine ⟨st', ?_, a2.fld, a2.out, a2.inp⟩
  rw [crc16Calc, a1]
  rfl

theorem exec_crc32Calc (fld : String → Option V) (out : WBuf) (b : RBuf) (ht : fld "CRC_TABLE" = some (.ints crc32Table)) (hrd : b.rd ≤ b.data.length)
    (hlen : b.data.length < 2 ^ 31) :
    ∃ st', call ms Crc32.calcMethod [.buf] fld out b = some (st', ofCalc (crc32Calc b)) ∧ st'.fld = fld ∧ st'.out = out ∧ st'.inp = b := by
  rw [call_calc _ rfl]
  simp only [Crc32.calcMethod]
  rw [exec_step (st' := (⟨fld, fun y => if y = "buf" then some .buf else none, out, b⟩ : St).setLoc "crc" (.int 0xFFFFFFFF#32))
    (by simp only [simple, eval, assignTo, V.int?])]
  obtain ⟨st', r, a1, a2, a3⟩ := exec_calcHead (ms := ms) (acc := "crc") (enc := V.int) (b := b) (fld := fld) (out := out) (by decide) (by decide) hrd hlen crc32Step
    [.decl .int "b" (some (.getUnsignedByte (.var "buf") (.bin .add (.var "readerIndex") (.var "i")))),
       .assign "crc" (.bin .xor (.index (.var "CRC_TABLE") (.bin .and (.paren (.bin .xor (.var "crc") (.var "b"))) (.hex 0xFF)))
         (.paren (.bin .ushr (.var "crc") (.dec 8))))]
    (by
      intro st i a x h hi hx
      simp only [List.cons_append, List.nil_append]
      rw [exec_step (st' := st.setLoc "b" (.int (x.setWidth 32))) (by simp only [simple, eval_byte hlen h hi hx, assignTo, V.int?, ushort])]
      have h' := h.setOther "b" (.int (x.setWidth 32)) (by decide) (by decide)
      have hb : (st.setLoc "b" (.int (x.setWidth 32))).loc "b" = some (.int (x.setWidth 32)) := loc_setLoc_same
      have hg : (st.setLoc "b" (.int (x.setWidth 32))).get "CRC_TABLE" = some (.ints crc32Table) := by
        simp only [St.get, h'.tab, h'.fld, ht]
      rw [exec_step (assign_int (w := crc32Step a x) h'.acc (by
        simp only [eval, get_of_loc h'.acc, get_of_loc hb, hg, binary, V.int?, Op.int]
        rw [show BitVec.ofNat 32 255 = 0xFF#32 from rfl, getD_lt _ crc32Table_length]
        dsimp only
        rw [if_neg (mask_nonneg _)]
        simp only [get_of_loc h'.acc]
        rfl))]
      exact ⟨_, rfl, h'.setAcc (by decide)⟩)
    [.ret (.bin .xor (.var "crc") (.hex 0xFFFFFFFF))]
    ((⟨fld, fun y => if y = "buf" then some .buf else none, out, b⟩ : St).setLoc "crc" (.int 0xFFFFFFFF#32)) 0xFFFFFFFF#32
    (by simp [St.setLoc]) loc_setLoc_same (by simp [St.setLoc]) rfl rfl rfl
  rw [a3, exec_ret (st' := st') (v := .int (r ^^^ 0xFFFFFFFF#32)) (by simp only [eval, get_of_loc a2.acc, binary, V.int?, Op.int])]
  refine ⟨st', ?_, a2.fld, a2.out, a2.inp⟩
  rw [crc32Calc, a1]
  rfl

/-- The two byte sums declare the accumulator after the two indices. -/
theorem exec_calcHead' {α : Type} {acc : String} {enc : α → V} {b : RBuf} {fld : String → Option V} {out : WBuf} (ha : acc ≠ "i")
    (ha' : acc ≠ "readerIndex" ∧ acc ≠ "readableBytes" ∧ acc ≠ "buf" ∧ acc ≠ "CRC_TABLE")
    (hrd : b.rd ≤ b.data.length) (hlen : b.data.length < 2 ^ 31) (step : α → Byte → α) (body : List Stmt)
    (hbody : ∀ st i a x, CalcSt acc enc b fld out st i a → b.rd + i < b.data.length → b.getUnsignedByte (b.rd + i) = .ok x →
      ∃ st', exec ms (body ++ [.incr "i"]) st = exec ms [.incr "i"] st' ∧ CalcSt acc enc b fld out st' i (step a x))
    (rest : List Stmt) (st : St) (t : Ty) (a : α) (hz : assignTo t (.int 0#32) = .ok (enc a)) (h1 : st.loc "buf" = some .buf) (h3 : st.loc "CRC_TABLE" = none)
    (h4 : st.inp = b) (h5 : st.fld = fld) (h6 : st.out = out) :
    ∃ st' r, calcLoop step b (b.data.length - b.rd) 0 a = .ok r ∧ CalcSt acc enc b fld out st' (b.data.length - b.rd) r ∧
      exec ms (.decl .int "readerIndex" (some (.readerIndex (.var "buf"))) :: .decl .int "readableBytes" (some (.readableBytes (.var "buf"))) ::
        .decl t acc (some (.dec 0)) :: .for "i" (.dec 0) (.bin .lt (.var "i") (.var "readableBytes")) body :: rest) st = exec ms rest st' := by
  subst h4
  have g1 : (st.setLoc "readerIndex" (.int (BitVec.ofNat 32 st.inp.rd))).loc "buf" = some .buf := by rw [loc_setLoc_ne (by decide)]; exact h1
  rw [exec_step (st' := st.setLoc "readerIndex" (.int (BitVec.ofNat 32 st.inp.rd))) (by simp only [simple, eval, get_of_loc h1, assignTo, V.int?]),
    exec_step (st' := (st.setLoc "readerIndex" (.int (BitVec.ofNat 32 st.inp.rd))).setLoc "readableBytes" (.int (BitVec.ofNat 32 (st.inp.data.length - st.inp.rd))))
      (by simp only [simple, eval, get_of_loc g1, assignTo, V.int?]; rfl),
    exec_step (st' := ((st.setLoc "readerIndex" (.int (BitVec.ofNat 32 st.inp.rd))).setLoc "readableBytes"
      (.int (BitVec.ofNat 32 (st.inp.data.length - st.inp.rd)))).setLoc acc (enc a)) (by simp only [simple, eval]; rw [hz]),
    exec_for,
    exec_step (st' := (((st.setLoc "readerIndex" (.int (BitVec.ofNat 32 st.inp.rd))).setLoc "readableBytes"
      (.int (BitVec.ofNat 32 (st.inp.data.length - st.inp.rd)))).setLoc acc (enc a)).setLoc "i" (.int (BitVec.ofNat 32 0)))
      (by simp only [simple, eval, assignTo, V.int?])]
  refine exec_calcLoop ha hrd hlen step body hbody rest _ 0 _ a rfl (Nat.zero_le _) ⟨?_, ?_, ?_, loc_setLoc_same, ?_, ?_, rfl, h5, h6⟩
  · rw [loc_setLoc_ne (by decide), loc_setLoc_ne (Ne.symm ha'.2.2.1), loc_setLoc_ne (by decide)]; exact g1
  · rw [loc_setLoc_ne (by decide), loc_setLoc_ne (Ne.symm ha'.1), loc_setLoc_ne (by decide), loc_setLoc_same]
  · rw [loc_setLoc_ne (by decide), loc_setLoc_ne (Ne.symm ha'.2.1), loc_setLoc_same]
  · rw [loc_setLoc_ne ha, loc_setLoc_same]
  · rw [loc_setLoc_ne (by decide), loc_setLoc_ne (Ne.symm ha'.2.2.2), loc_setLoc_ne (by decide), loc_setLoc_ne (by decide)]; exact h3

theorem exec_sseBinCalc (fld : String → Option V) (out : WBuf) (b : RBuf) (hrd : b.rd ≤ b.data.length) (hlen : b.data.length < 2 ^ 31) :
    ∃ st', call ms SseBin.calcMethod [.buf] fld out b = some (st', ofCalc (sseBinCalc b)) ∧ st'.fld = fld ∧ st'.out = out ∧ st'.inp = b := by
  rw [call_calc _ rfl]
  simp only [SseBin.calcMethod]
  obtain ⟨st', r, a1, a2, a3⟩ := exec_calcHead' (ms := ms) (acc := "checksum") (enc := V.int) (b := b) (fld := fld) (out := out) (by decide) (by decide) hrd hlen
    (fun (checksum : BitVec 32) (x : Byte) => (checksum + x.setWidth 32) &&& 0xFF#32)
    [.decl .int "b" (some (.getUnsignedByte (.var "buf") (.bin .add (.var "readerIndex") (.var "i")))),
       .assign "checksum" (.bin .and (.paren (.bin .add (.var "checksum") (.var "b"))) (.hex 0xFF))]
    (by
      intro st i a x h hi hx
      simp only [List.cons_append, List.nil_append]
      rw [exec_step (st' := st.setLoc "b" (.int (x.setWidth 32))) (by simp only [simple, eval_byte hlen h hi hx, assignTo, V.int?, ushort])]
      have h' := h.setOther "b" (.int (x.setWidth 32)) (by decide) (by decide)
      have hb : (st.setLoc "b" (.int (x.setWidth 32))).loc "b" = some (.int (x.setWidth 32)) := loc_setLoc_same
      rw [exec_step (assign_int (w := (a + x.setWidth 32) &&& 0xFF#32) h'.acc (by
        simp only [eval, get_of_loc h'.acc, get_of_loc hb, binary, V.int?, Op.int]))]
      exact ⟨_, rfl, h'.setAcc (by decide)⟩)
    [.ret (.var "checksum")]
    ⟨fld, fun y => if y = "buf" then some .buf else none, out, b⟩ .int 0#32 rfl
    (by simp) (by simp) rfl rfl rfl
  rw [a3, exec_ret (st' := st') (v := .int r) (by simp only [eval, get_of_loc a2.acc])]
  refine ⟨st', ?_, a2.fld, a2.out, a2.inp⟩
  rw [sseBinCalc]
  rw [show (0 : BitVec 32) = 0#32 from rfl, a1]
  rfl

theorem exec_szseBinCalc (fld : String → Option V) (out : WBuf) (b : RBuf) (hrd : b.rd ≤ b.data.length) (hlen : b.data.length < 2 ^ 31) :
    ∃ st', call ms SzseBin.calcMethod [.buf] fld out b = some (st', ofCalc (szseBinCalc b)) ∧ st'.fld = fld ∧ st'.out = out ∧ st'.inp = b := by
  rw [call_calc _ rfl]
  simp only [SzseBin.calcMethod]
  obtain ⟨st', r, a1, a2, a3⟩ := exec_calcHead' (ms := ms) (acc := "sum") (enc := V.long) (b := b) (fld := fld) (out := out) (by decide) (by decide) hrd hlen
    (fun (sum : BitVec 64) (x : Byte) => sum + x.setWidth 64)
    [.opAssign "sum" .add (.getUnsignedByte (.var "buf") (.bin .add (.var "readerIndex") (.var "i")))]
    (by
      intro st i a x h hi hx
      simp only [List.cons_append, List.nil_append]
      rw [exec_step (st' := st.setLoc "sum" (.long (a + x.setWidth 64))) (by
        simp only [simple, get_of_loc h.acc, eval_byte hlen h hi hx, binary, V.int?, V.long?, Op.isShift, Op.long, Option.map_some, ushort, ushort_long]
        rw [if_neg (by decide)]
        dsimp only
        rw [assignVar_loc (t := .long) (w := .long (a + x.setWidth 64)) h.acc rfl rfl])]
      exact ⟨_, rfl, h.setAcc (by decide)⟩)
    [.ret (.cast .int (.paren (.bin .rem (.var "sum") (.dec 256))))]
    ⟨fld, fun y => if y = "buf" then some .buf else none, out, b⟩ .long 0#64 rfl
    (by simp) (by simp) rfl rfl rfl
  rw [a3, exec_ret (st' := st') (v := .int ((r.srem 256#64).setWidth 32)) (by
    simp only [eval, get_of_loc a2.acc, binary, V.int?, V.long?, Option.map_some, Op.isShift, Op.long, castTo]
    rw [show (BitVec.signExtend 64 (BitVec.ofNat 32 256)) = 256#64 from by decide, if_neg (by decide)]
    rfl)]
  refine ⟨st', ?_, a2.fld, a2.out, a2.inp⟩
  rw [szseBinCalc]
  rw [show (0 : BitVec 64) = 0#64 from rfl, a1]
  rfl

end FinProto.Mini
