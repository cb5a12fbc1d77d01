import Verif.Spec.Codec
import Verif.Model.FixedInt
import Verif.Proofs.BinaryCodec
/-
Helper lemmas: running the methods of BinaryCodec.java statement by statement.
-/
namespace FinProto.Mini

variable {ms : Methods}

/-- Go on with `k` unless there was an exception or a `return`. -/
def andThen (o : Option (St × Out)) (k : St → Option (St × Out)) : Option (St × Out) :=
  match o with
  | none => none
  | some (st, .next) => k st
  | some (st, .ret v) => some (st, .ret v)
  | some (st, .thrown e) => some (st, .thrown e)

theorem exec_nil (st : St) : exec ms [] st = some (st, .next) := by rw [exec]

theorem exec_ite {c : Expr} {a b rest : List Stmt} {st st' : St} {v : Bool} (h : eval c st = (st', .ok (.bool v))) :
    exec ms (.ite c a b :: rest) st = andThen (exec ms (if v then a else b) st') (exec ms rest) := by
  rw [exec, h]
  dsimp only
  rcases exec ms (if v then a else b) st' with _ | ⟨s, _ | _ | _⟩ <;> rfl

theorem exec_ite_err {c : Expr} {a b rest : List Stmt} {st st' : St} {e : Exn} (h : eval c st = (st', .error e)) :
    exec ms (.ite c a b :: rest) st = some (st', .thrown e) := by
  rw [exec, h]

theorem exec_when {c : Expr} {s : Stmt} {rest : List Stmt} {st : St} : exec ms (.when c s :: rest) st = exec ms (.ite c [s] [] :: rest) st := by
  conv => lhs; unfold exec

theorem exec_while {c : Expr} {body rest : List Stmt} {st st' : St} {v : Bool} (h : eval c st = (st', .ok (.bool v))) :
    exec ms (.while c body :: rest) st =
      if v then andThen (exec ms body st') (exec ms (.while c body :: rest)) else exec ms rest st' := by
  rw [exec, h]
  cases v
  · rfl
  · dsimp only
    rcases exec ms body st' with _ | ⟨s, _ | _ | _⟩ <;> rfl

theorem exec_doWhile {c : Expr} {body rest : List Stmt} {st : St} :
    exec ms (.doWhile body c :: rest) st = andThen (exec ms body st) (exec ms (.ite c [.doWhile body c] [] :: rest)) := by
  rw [exec]
  rcases exec ms body st with _ | ⟨s, _ | _ | _⟩ <;> rfl

theorem exec_for {x : String} {e c : Expr} {body rest : List Stmt} {st : St} :
    exec ms (.for x e c body :: rest) st = exec ms (.decl .int x (some e) :: .while c (body ++ [.incr x]) :: rest) st := by
  rw [exec]

/-- What a call gives back to its caller: the locals of the caller, and no result. -/
def leave (o : Option (St × Out)) (loc : String → Option V) (k : St → Option (St × Out)) : Option (St × Out) :=
  match o with
  | none => none
  | some (st, .thrown e) => some ({ st with loc := loc }, .thrown e)
  | some (st, _) => k { st with loc := loc }

theorem exec_call {m : String} {args : List Expr} {rest : List Stmt} {st st' : St} {vs : List V} {d : Method} {loc : String → Option V}
    (h : evals args st = (st', .ok vs)) (hd : ms m vs.length = some d) (hp : bindParams d.params vs (fun _ => none) = .ok loc) :
    exec ms (.call m args :: rest) st = leave (exec ms d.body { st' with loc := loc }) st'.loc (exec ms rest) := by
  rw [exec, h]
  dsimp only
  rw [hd]
  dsimp only
  rw [hp]
  dsimp only
  rcases exec ms d.body { st' with loc := loc } with _ | ⟨s, _ | _ | _⟩ <;> rfl

theorem exec_retCall {m : String} {args : List Expr} {rest : List Stmt} {st st' st'' : St} {vs : List V} {d : Method} {loc : String → Option V} {v : V}
    (h : evals args st = (st', .ok vs)) (hd : ms m vs.length = some d) (hp : bindParams d.params vs (fun _ => none) = .ok loc)
    (hb : exec ms d.body { st' with loc := loc } = some (st'', .ret v)) :
    exec ms (.retCall m args :: rest) st = some ({ st'' with loc := st'.loc }, .ret v) := by
  rw [exec, h]
  dsimp only
  rw [hd]
  dsimp only
  rw [hp]
  dsimp only
  rw [hb]
  rfl

theorem exec_retCall_err {m : String} {args : List Expr} {rest : List Stmt} {st st' st'' : St} {vs : List V} {d : Method} {loc : String → Option V} {e : Exn}
    (h : evals args st = (st', .ok vs)) (hd : ms m vs.length = some d) (hp : bindParams d.params vs (fun _ => none) = .ok loc)
    (hb : exec ms d.body { st' with loc := loc } = some (st'', .thrown e)) :
    exec ms (.retCall m args :: rest) st = some ({ st'' with loc := st'.loc }, .thrown e) := by
  rw [exec, h]
  dsimp only
  rw [hd]
  dsimp only
  rw [hp]
  dsimp only
  rw [hb]
  rfl

theorem exec_simple {s : Stmt} {rest : List Stmt} {st : St} {o : St × Out} (h : simple s st = some o) :
    exec ms (s :: rest) st = andThen (some o) (exec ms rest) := by
  rw [exec]
  · rw [h]
    rcases o with ⟨s, _ | _ | _⟩ <;> rfl
  all_goals (intros; rename_i hs; subst hs; simp [simple] at h)

theorem exec_step {s : Stmt} {rest : List Stmt} {st st' : St} (h : simple s st = some (st', .next)) :
    exec ms (s :: rest) st = exec ms rest st' := exec_simple h

theorem exec_throw {s : Stmt} {rest : List Stmt} {st st' : St} {e : Exn} (h : simple s st = some (st', .thrown e)) :
    exec ms (s :: rest) st = some (st', .thrown e) := exec_simple h

theorem exec_ret {e : Expr} {rest : List Stmt} {st st' : St} {v : V} (h : eval e st = (st', .ok v)) :
    exec ms (.ret e :: rest) st = some (st', .ret v) := by
  rw [exec_simple (o := (st', .ret v)) (by simp only [simple, h])]
  rfl

@[simp] theorem get_setLoc_same (st : St) (x : String) (v : V) : (st.setLoc x v).get x = some v := by simp [St.get, St.setLoc]

theorem get_of_loc {st : St} {x : String} {v : V} (h : st.loc x = some v) : st.get x = some v := by simp [St.get, h]

theorem set_of_loc {st : St} {x : String} {v w : V} (h : st.loc x = some v) : st.set x w = st.setLoc x w := by simp [St.set, h]

theorem assignVar_loc {conv : Ty → V → Except Exn V} {x : String} {v u w : V} {t : Ty} {st : St} (h : st.loc x = some u) (ht : u.ty = some t)
    (hc : conv t v = .ok w) : assignVar conv x v st = (st.setLoc x w, .next) := by
  simp [assignVar, get_of_loc h, ht, hc, set_of_loc h]

theorem narrow (v : BitVec 32) : (v.signExtend 64).setWidth 32 = v := by
  apply BitVec.eq_of_getLsbD_eq
  intro i hi
  rw [BitVec.getLsbD_setWidth, BitVec.getLsbD_signExtend]
  simp [hi, show i < 64 by omega]

theorem castTo_int (v : BitVec 32) : castTo .int (.int v) = .ok (.int v) := by
  simp [castTo, V.long?, V.int?, narrow]

/-! ### padChar -/

theorem toInt_lt (v : BitVec 32) : v.toInt < 2 ^ 31 := by
  have := @BitVec.toInt_lt 32 v
  simpa using this

theorem toInt_ge (v : BitVec 32) : -2 ^ 31 ≤ v.toInt := by
  have := @BitVec.le_toInt 32 v
  simpa using this

theorem toInt_sub_one (v : BitVec 32) (h : 0 < v.toInt) : (v - 1).toInt = v.toInt - 1 := by
  rw [BitVec.toInt_sub]
  have := toInt_lt v
  rw [show (1 : BitVec 32).toInt = 1 from rfl]
  exact Int.bmod_eq_of_le (by omega) (by omega)

theorem exec_padLoop (c : JChar) (rest : List Stmt) : ∀ (k : Nat) (v : BitVec 32) (st : St), v.toInt.toNat = k →
    st.loc "byteBuf" = some .buf → st.loc "padChar" = some (.char c) → st.loc "len" = some (.int v) →
    ∃ st', st'.out = (padChar st.out k c).1 ∧ st'.inp = st.inp ∧ st'.fld = st.fld ∧
      exec ms (BinaryCodec.padChar.body ++ rest) st =
        match (padChar st.out k c).2 with
        | none => exec ms rest st'
        | some e => some (st', .thrown (ofJErr e))
  | 0, v, st, hk, h1, h2, h3 => by
    have hv : ¬ 0 < v.toInt := by omega
    refine ⟨st, rfl, rfl, rfl, ?_⟩
    simp only [BinaryCodec.padChar, List.cons_append, List.nil_append, FinProto.padChar]
    rw [exec_while (st' := st) (v := false)]
    · rfl
    · simp [eval, get_of_loc h3, binary, V.int?, Op.int, hv]
  | k + 1, v, st, hk, h1, h2, h3 => by
    have hv : 0 < v.toInt := by omega
    have hw : eval (.bin .gt (.var "len") (.dec 0)) st = (st, .ok (.bool true)) := by simp [eval, get_of_loc h3, binary, V.int?, Op.int, hv]
    have hbyte : (c.setWidth 32).setWidth 8 = c.setWidth 8 := by
      apply BitVec.eq_of_toNat_eq; simp
    simp only [FinProto.padChar]
    rcases hwr : st.out.write [c.setWidth 8] with ⟨b', _ | e⟩
    · have s1 : simple (.writeByte (.var "byteBuf") (.var "padChar")) st = some ({ st with out := b' }, .next) := by
        simp [simple, eval, get_of_loc h1, get_of_loc h2, V.int?, hbyte, hwr]
      have s2 : simple (.decr "len") { st with out := b' } = some (({ st with out := b' } : St).setLoc "len" (.int (v - 1)), .next) := by
        have : (({ st with out := b' } : St)).loc "len" = some (.int v) := h3
        simp only [simple, get_of_loc this, binary, V.int?, Op.int]
        rw [assignVar_loc (t := .int) (w := .int (v - 1)) this rfl (castTo_int _)]
      obtain ⟨st', a1, a2, a3, a4⟩ := exec_padLoop c rest k (v - 1) (({ st with out := b' } : St).setLoc "len" (.int (v - 1)))
        (by rw [toInt_sub_one v hv]; omega) (by simpa [St.setLoc] using h1) (by simpa [St.setLoc] using h2) (by simp [St.setLoc])
      refine ⟨st', a1, a2, a3, ?_⟩
      simp only [BinaryCodec.padChar, List.cons_append, List.nil_append] at a4 ⊢
      rw [exec_while hw, if_pos rfl, exec_step s1, exec_step s2, exec_nil]
      exact a4
    · have s1 : simple (.writeByte (.var "byteBuf") (.var "padChar")) st = some ({ st with out := b' }, .thrown (ofJErr e)) := by
        simp [simple, eval, get_of_loc h1, get_of_loc h2, V.int?, hbyte, hwr]
      refine ⟨{ st with out := b' }, rfl, rfl, rfl, ?_⟩
      simp only [BinaryCodec.padChar, List.cons_append, List.nil_append]
      rw [exec_while hw, if_pos rfl, exec_throw s1]
      rfl

/-- A call of `padChar`. -/
theorem exec_callPad (c : JChar) (v : BitVec 32) (st : St) (args : List Expr) (rest : List Stmt)
    (ha : evals args st = (st, .ok [.buf, .int v, .char c])) :
    exec BinaryCodec.methods (.call "padChar" args :: rest) st =
      andThen (some ({ st with out := (padCharInt st.out v.toInt c).1 }, ofErr (padCharInt st.out v.toInt c).2)) (exec BinaryCodec.methods rest) := by
  have hpad : padCharInt st.out v.toInt c = padChar st.out v.toInt.toNat c := by
    unfold padCharInt
    split
    · rfl
    · rw [show v.toInt.toNat = 0 by omega]; rfl
  rw [hpad]
  obtain ⟨st', a1, a2, a3, a4⟩ := exec_padLoop (ms := BinaryCodec.methods) c [] v.toInt.toNat v
    { st with loc := fun y => if y = "padChar" then some (.char c) else if y = "len" then some (.int v) else if y = "byteBuf" then some .buf else none }
    rfl (by simp) (by simp) (by simp)
  rw [List.append_nil] at a4
  rw [exec_call ha rfl rfl]
  dsimp only at a1 a2 a3 a4 ⊢
  rw [a4]
  have hst : ({ st' with loc := st.loc } : St) = { st with out := (padChar st.out v.toInt.toNat c).1 } := by
    cases st'; simp_all
  rw [← hst]
  rcases (padChar st.out v.toInt.toNat c).2 with _ | e
  · dsimp only; rw [exec_nil]; rfl
  · rfl

theorem toInt_sub_of_lt {a b : BitVec 32} (h0 : 0 ≤ b.toInt) (h : b.toInt < a.toInt) : (a - b).toInt = a.toInt - b.toInt := by
  rw [BitVec.toInt_sub]
  have := toInt_lt a
  exact Int.bmod_eq_of_le (by omega) (by omega)

theorem toInt_ofNat32 {n : Nat} (h : n < 2 ^ 31) : (BitVec.ofNat 32 n).toInt = n := by
  rw [BitVec.toInt_eq_toNat_of_lt (by simp; omega)]
  simp; omega

theorem writeBytes_eq (b : WBuf) (bs : List Byte) (n : Int) (h : n ≤ bs.length) :
    writeBytes b bs 0 n = ((b.writeBytesInt bs n).1, (b.writeBytesInt bs n).2.map ofJErr) := by
  unfold writeBytes WBuf.writeBytesInt
  by_cases h0 : n < 0
  · simp [h0, ofJErr]
  · simp only [h0, ↓reduceIte, WBuf.write]
    have hl : (bs.take n.toNat).length = n.toNat := by rw [List.length_take]; omega
    rw [hl]
    by_cases hc : b.maxCap < b.data.length + n.toNat
    · rw [if_pos hc, if_neg (by omega)]; rfl
    · rw [if_neg hc, if_pos (show b.data.length + n.toNat ≤ b.maxCap by omega),
        if_neg (show ¬ ((0 : Int) < 0 ∨ (bs.length : Int) < 0 + n) by omega)]
      simp

open BinaryCodec in
theorem call_write5 (fld : String → Option V) (out : WBuf) (inp : RBuf) (value : Option JStr) (len : BitVec 32) (pad : JChar) (padLeft : Bool)
    (hv : ∀ s, value = some s → (utf8Enc s).length < 2 ^ 31) :
    ∃ st', call methods writeFixedString5 [.buf, .str value, .int len, .char pad, .bool padLeft] fld out inp =
        some (st', ofErr (writeFixedStringInt out value len pad padLeft).2) ∧
      st'.out = (writeFixedStringInt out value len pad padLeft).1 ∧ st'.inp = inp ∧ st'.fld = fld := by
  have hcall : call methods writeFixedString5 [.buf, .str value, .int len, .char pad, .bool padLeft] fld out inp =
    exec methods writeFixedString5.body ⟨fld, fun y => if y = "padLeft" then some (.bool padLeft) else if y = "padChar" then some (.char pad) else
      if y = "len" then some (.int len) else if y = "value" then some (.str value) else if y = "byteBuf" then some .buf else none, out, inp⟩ := rfl
  rw [hcall]
  generalize hst : (⟨fld, fun y => if y = "padLeft" then some (.bool padLeft) else if y = "padChar" then some (.char pad) else
      if y = "len" then some (.int len) else if y = "value" then some (.str value) else if y = "byteBuf" then some .buf else none, out, inp⟩ : St) = st
  have h1 : st.loc "padLeft" = some (.bool padLeft) := by rw [← hst]; simp
  have h2 : st.loc "padChar" = some (.char pad) := by rw [← hst]; simp
  have h3 : st.loc "len" = some (.int len) := by rw [← hst]; simp
  have h4 : st.loc "value" = some (.str value) := by rw [← hst]; simp
  have h5 : st.loc "byteBuf" = some .buf := by rw [← hst]; simp
  have h6 : st.out = out := by rw [← hst]
  have h7 : st.inp = inp := by rw [← hst]
  have h8 : st.fld = fld := by rw [← hst]
  clear hst hcall
  subst h6 h7 h8
  -- the last statement, from a state where `writedLen` is `wl`
  have last : ∀ (s : St) (wl : BitVec 32), s.loc "padLeft" = some (.bool padLeft) → s.loc "padChar" = some (.char pad) → s.loc "len" = some (.int len) →
      s.loc "byteBuf" = some .buf → s.loc "writedLen" = some (.int wl) → (wl.toInt < len.toInt → 0 ≤ wl.toInt) →
      exec methods [.ite (.land (.not (.var "padLeft")) (.bin .lt (.var "writedLen") (.var "len")))
        [.call "padChar" [.var "byteBuf", .bin .sub (.var "len") (.var "writedLen"), .var "padChar"]] []] s =
      some ({ s with out := (if !padLeft && decide (wl.toInt < len.toInt) then padCharInt s.out (len.toInt - wl.toInt) pad else (s.out, none)).1 },
        ofErr (if !padLeft && decide (wl.toInt < len.toInt) then padCharInt s.out (len.toInt - wl.toInt) pad else (s.out, none)).2) := by
    intro s wl g1 g2 g3 g5 g9 hwl
    have hc : eval (.land (.not (.var "padLeft")) (.bin .lt (.var "writedLen") (.var "len"))) s =
        (s, .ok (.bool (!padLeft && decide (wl.toInt < len.toInt)))) := by
      cases padLeft <;> simp [eval, get_of_loc g1, get_of_loc g3, get_of_loc g9, binary, V.int?, Op.int]
    rw [exec_ite hc]
    by_cases hb : (!padLeft && decide (wl.toInt < len.toInt)) = true
    · rw [if_pos hb, if_pos hb]
      have hlt : wl.toInt < len.toInt := by simp_all
      rw [exec_callPad pad (len - wl) s _ _ (by simp [evals, eval, get_of_loc g5, get_of_loc g3, get_of_loc g9, get_of_loc g2, binary, V.int?, Op.int])]
      rw [toInt_sub_of_lt (hwl hlt) hlt]
      rcases (padCharInt s.out (len.toInt - wl.toInt) pad) with ⟨_, _ | e⟩ <;> simp [andThen, ofErr, exec_nil]
    · rw [if_neg hb, if_neg hb, exec_nil]
      simp [andThen, ofErr, exec_nil]
  simp only [writeFixedString5]
  rw [exec_step (st' := st.setLoc "writedLen" (.int 0)) (by simp [simple, eval, assignTo, V.int?])]
  generalize hs0 : st.setLoc "writedLen" (.int 0) = s0
  have e1 : s0.loc "padLeft" = some (.bool padLeft) := by rw [← hs0]; simpa [St.setLoc] using h1
  have e2 : s0.loc "padChar" = some (.char pad) := by rw [← hs0]; simpa [St.setLoc] using h2
  have e3 : s0.loc "len" = some (.int len) := by rw [← hs0]; simpa [St.setLoc] using h3
  have e4 : s0.loc "value" = some (.str value) := by rw [← hs0]; simpa [St.setLoc] using h4
  have e5 : s0.loc "byteBuf" = some .buf := by rw [← hs0]; simpa [St.setLoc] using h5
  have e9 : s0.loc "writedLen" = some (.int 0) := by rw [← hs0]; simp [St.setLoc]
  have e6 : s0.out = st.out := by rw [← hs0]; rfl
  have e7 : s0.inp = st.inp := by rw [← hs0]; rfl
  have e8 : s0.fld = st.fld := by rw [← hs0]; rfl
  clear hs0 h1 h2 h3 h4 h5
  rw [← e6, ← e7, ← e8]
  clear e6 e7 e8
  by_cases hval : ∃ c cs, value = some (c :: cs)
  · obtain ⟨c, cs, rfl⟩ := hval
    have hbl := hv _ rfl
    clear hv
    simp only [writeFixedStringInt]
    generalize hbs : utf8Enc (c :: cs) = bs at hbl ⊢
    rw [exec_ite (st' := s0) (v := true) (by simp [eval, get_of_loc e4])]
    rw [if_pos rfl]
    rw [exec_step (st' := s0.setLoc "bytes" (.bytes bs)) (by simp [simple, eval, get_of_loc e4, assignTo, hbs])]
    generalize hwl : (if (BitVec.ofNat 32 bs.length).toInt ≤ len.toInt then BitVec.ofNat 32 bs.length else len) = wl
    have hwi : wl.toInt = min (bs.length : Int) len.toInt := by
      rw [← hwl]
      split <;> rename_i h <;> rw [toInt_ofNat32 hbl] at h
      · rw [toInt_ofNat32 hbl]; omega
      · omega
    rw [exec_step (st' := (s0.setLoc "bytes" (.bytes bs)).setLoc "writedLen" (.int wl))
      (by
        have k3 : (s0.setLoc "bytes" (.bytes bs)).loc "len" = some (.int len) := by simpa [St.setLoc] using e3
        have k9 : (s0.setLoc "bytes" (.bytes bs)).loc "writedLen" = some (.int 0) := by simpa [St.setLoc] using e9
        simp only [simple, eval, get_of_loc k3, get_setLoc_same, V.int?]
        rw [hwl, assignVar_loc (t := .int) (w := .int wl) k9 rfl rfl])]
    generalize hs1 : (s0.setLoc "bytes" (.bytes bs)).setLoc "writedLen" (.int wl) = s1
    have f1 : s1.loc "padLeft" = some (.bool padLeft) := by rw [← hs1]; simpa [St.setLoc] using e1
    have f2 : s1.loc "padChar" = some (.char pad) := by rw [← hs1]; simpa [St.setLoc] using e2
    have f3 : s1.loc "len" = some (.int len) := by rw [← hs1]; simpa [St.setLoc] using e3
    have f5 : s1.loc "byteBuf" = some .buf := by rw [← hs1]; simpa [St.setLoc] using e5
    have f9 : s1.loc "writedLen" = some (.int wl) := by rw [← hs1]; simp [St.setLoc]
    have f0 : s1.loc "bytes" = some (.bytes bs) := by rw [← hs1]; simp [St.setLoc]
    have f6 : s1.out = s0.out := by rw [← hs1]; rfl
    have f7 : s1.inp = s0.inp := by rw [← hs1]; rfl
    have f8 : s1.fld = s0.fld := by rw [← hs1]; rfl
    clear hs1 e1 e2 e3 e4 e5 e9
    rw [← f6, ← f7, ← f8, ← hwi]
    clear f6 f7 f8
    have hle : wl.toInt < len.toInt → 0 ≤ wl.toInt := by omega
    have hc : eval (.land (.var "padLeft") (.bin .lt (.var "writedLen") (.var "len"))) s1 =
        (s1, .ok (.bool (padLeft && decide (wl.toInt < len.toInt)))) := by
      cases padLeft <;> simp [eval, get_of_loc f1, get_of_loc f3, get_of_loc f9, binary, V.int?, Op.int]
    rw [exec_ite hc]
    -- what follows the first padding
    have tail : ∀ b1 : WBuf, ∃ st', andThen (exec methods [.writeBytes (.var "byteBuf") (.var "bytes") (.dec 0) (.var "writedLen")] { s1 with out := b1 })
          (exec methods [.ite (.land (.not (.var "padLeft")) (.bin .lt (.var "writedLen") (.var "len")))
            [.call "padChar" [.var "byteBuf", .bin .sub (.var "len") (.var "writedLen"), .var "padChar"]] []]) =
        some (st', ofErr (match b1.writeBytesInt bs wl.toInt with
          | (b2, some e) => (b2, some e)
          | (b2, none) => if !padLeft && decide (wl.toInt < len.toInt) then padCharInt b2 (len.toInt - wl.toInt) pad else (b2, none)).2) ∧
        st'.out = (match b1.writeBytesInt bs wl.toInt with
          | (b2, some e) => (b2, some e)
          | (b2, none) => if !padLeft && decide (wl.toInt < len.toInt) then padCharInt b2 (len.toInt - wl.toInt) pad else (b2, none)).1 ∧
        st'.inp = s1.inp ∧ st'.fld = s1.fld := by
      intro b1
      have hw := writeBytes_eq b1 bs wl.toInt (by omega)
      have k0 : ({ s1 with out := b1 } : St).loc "bytes" = some (.bytes bs) := f0
      have k5 : ({ s1 with out := b1 } : St).loc "byteBuf" = some .buf := f5
      have k9 : ({ s1 with out := b1 } : St).loc "writedLen" = some (.int wl) := f9
      rcases hwr : b1.writeBytesInt bs wl.toInt with ⟨b2, _ | e⟩
      · rw [hwr] at hw
        rw [exec_step (st' := { s1 with out := b2 }) (by
          simp only [simple, eval, get_of_loc k0, get_of_loc k5, get_of_loc k9, V.int?]
          rw [show (BitVec.ofNat 32 0).toInt = 0 from rfl, hw]
          rfl), exec_nil]
        simp only [andThen]
        rw [last { s1 with out := b2 } wl f1 f2 f3 f5 f9 hle]
        exact ⟨_, rfl, rfl, rfl, rfl⟩
      · rw [hwr] at hw
        rw [exec_throw (st' := { s1 with out := b2 }) (e := ofJErr e) (by
          simp only [simple, eval, get_of_loc k0, get_of_loc k5, get_of_loc k9, V.int?]
          rw [show (BitVec.ofNat 32 0).toInt = 0 from rfl, hw]
          rfl)]
        exact ⟨_, rfl, rfl, rfl, rfl⟩
    by_cases hb : (padLeft && decide (wl.toInt < len.toInt)) = true
    · rw [if_pos hb, if_pos hb]
      have hlt : wl.toInt < len.toInt := by simp_all
      rw [exec_callPad pad (len - wl) s1 _ _ (by simp [evals, eval, get_of_loc f5, get_of_loc f3, get_of_loc f9, get_of_loc f2, binary, V.int?, Op.int])]
      rw [toInt_sub_of_lt (hle hlt) hlt]
      rcases (padCharInt s1.out (len.toInt - wl.toInt) pad) with ⟨b1, _ | e⟩
      · simp only [andThen, ofErr, exec_nil]
        exact tail b1
      · exact ⟨_, rfl, rfl, rfl, rfl⟩
    · rw [if_neg hb, if_neg hb, exec_nil]
      exact tail s1.out
  · have hn : writeFixedStringInt s0.out value len pad padLeft =
        if !padLeft && decide (0 < len.toInt) then padCharInt s0.out len.toInt pad else (s0.out, none) := by
      rcases value with _ | _ | ⟨c, cs⟩
      · rfl
      · rfl
      · exact absurd ⟨c, cs, rfl⟩ hval
    have hc : eval (.not (.isNullOrEmpty (.var "value"))) s0 = (s0, .ok (.bool false)) := by
      rcases value with _ | _ | ⟨c, cs⟩
      · simp [eval, get_of_loc e4]
      · simp [eval, get_of_loc e4]
      · exact absurd ⟨c, cs, rfl⟩ hval
    rw [exec_ite hc, if_neg (by simp), exec_nil]
    simp only [andThen]
    rw [last s0 0 e1 e2 e3 e5 e9 (by simp), hn]
    simp only [show (0 : BitVec 32).toInt = 0 from rfl, Int.sub_zero]
    exact ⟨_, rfl, rfl, rfl, rfl⟩

open BinaryCodec in
theorem call_write3 (fld : String → Option V) (out : WBuf) (inp : RBuf) (value : Option JStr) (len : BitVec 32)
    (hv : ∀ s, value = some s → (utf8Enc s).length < 2 ^ 31) :
    ∃ st', call methods BinaryCodec.writeFixedString3 [.buf, .str value, .int len] fld out inp = some (st', ofErr (writeFixedStringInt3 out value len).2) ∧
      st'.out = (writeFixedStringInt3 out value len).1 ∧ st'.inp = inp ∧ st'.fld = fld := by
  obtain ⟨st', h1, h2, h3, h4⟩ := call_write5 fld out inp value len 0x20 false hv
  have hcall : call methods BinaryCodec.writeFixedString3 [.buf, .str value, .int len] fld out inp =
    exec methods BinaryCodec.writeFixedString3.body ⟨fld, fun y => if y = "len" then some (.int len) else if y = "value" then some (.str value) else
      if y = "byteBuf" then some .buf else none, out, inp⟩ := rfl
  rw [hcall]
  simp only [BinaryCodec.writeFixedString3]
  rw [exec_call (vs := [.buf, .str value, .int len, .char 0x20, .bool false]) (d := writeFixedString5) (by simp [evals, eval, St.get]; rfl) rfl rfl]
  have hb := h1
  simp only [call, writeFixedString5, bindParams, assignTo, V.int?] at hb
  simp only [writeFixedString5]
  rw [hb]
  simp only [writeFixedStringInt3]
  rcases hr : (writeFixedStringInt out value len 0x20 false) with ⟨b, _ | e⟩ <;> rw [hr] at h2
  · simp only [ofErr, leave, exec_nil]
    exact ⟨_, rfl, h2, h3, h4⟩
  · exact ⟨_, rfl, h2, h3, h4⟩

/-! ### trimByChar and readFixedString -/

theorem toInt_add_one (v : BitVec 32) (h0 : 0 ≤ v.toInt) (h : v.toInt + 1 < 2 ^ 31) : (v + 1).toInt = v.toInt + 1 := by
  rw [BitVec.toInt_add, show (1 : BitVec 32).toInt = 1 from rfl]
  exact Int.bmod_eq_of_le (by omega) (by omega)

theorem ofNat_add_one (n : Nat) : BitVec.ofNat 32 n + 1 = BitVec.ofNat 32 (n + 1) := by
  apply BitVec.eq_of_toNat_eq; simp

theorem ofNat_sub_one (n : Nat) : BitVec.ofNat 32 (n + 1) - 1 = BitVec.ofNat 32 n := by
  rw [← ofNat_add_one, BitVec.add_sub_cancel]

theorem toNat_ofNat32 {n : Nat} (h : n < 2 ^ 31) : (BitVec.ofNat 32 n).toNat = n := by
  simp; omega

theorem simple_incr {x : String} {v : BitVec 32} {st : St} (h : st.loc x = some (.int v)) :
    simple (.incr x) st = some (st.setLoc x (.int (v + 1)), .next) := by
  simp only [simple, get_of_loc h, binary, V.int?, Op.int]
  rw [assignVar_loc (t := .int) (w := .int (v + 1)) h rfl (castTo_int _)]

theorem simple_decr {x : String} {v : BitVec 32} {st : St} (h : st.loc x = some (.int v)) :
    simple (.decr x) st = some (st.setLoc x (.int (v - 1)), .next) := by
  simp only [simple, get_of_loc h, binary, V.int?, Op.int]
  rw [assignVar_loc (t := .int) (w := .int (v - 1)) h rfl (castTo_int _)]

/-- The state of `trimByChar` before its loop. -/
structure TrimSt (st : St) (s : JStr) (ch : JChar) (i j : Nat) : Prop where
  str : st.loc "s" = some (.str (some s))
  ch : st.loc "ch" = some (.char ch)
  len : st.loc "len" = some (.int (BitVec.ofNat 32 s.length))
  start : st.loc "start" = some (.int (BitVec.ofNat 32 i))
  stop : st.loc "end" = some (.int (BitVec.ofNat 32 j))

theorem char_beq (a b : JChar) : (BitVec.setWidth 32 a == BitVec.setWidth 32 b) = (a == b) := by
  rw [Bool.eq_iff_iff, beq_iff_eq, beq_iff_eq]
  constructor
  · intro h
    have := congrArg BitVec.toNat h
    simp at this
    exact BitVec.eq_of_toNat_eq (by omega)
  · intro h; rw [h]

theorem exec_trimLeft (s : JStr) (ch : JChar) (hs : s.length < 2 ^ 31) (rest : List Stmt) : ∀ (k i : Nat) (st : St), s.length - i = k → i ≤ s.length →
    TrimSt st s ch i s.length →
    ∃ st' i', i ≤ i' ∧ i' ≤ s.length ∧ s.drop i' = trimStart ch (s.drop i) ∧ TrimSt st' s ch i' s.length ∧
      st'.out = st.out ∧ st'.inp = st.inp ∧ st'.fld = st.fld ∧
      exec ms (.while (.land (.bin .lt (.var "start") (.var "len")) (.bin .eq (.charAt (.var "s") (.var "start")) (.var "ch"))) [.incr "start"] :: rest) st =
        exec ms rest st'
  | 0, i, st, hk, hi, h => by
    have hi' : i = s.length := by omega
    subst hi'
    refine ⟨st, s.length, Nat.le_refl _, Nat.le_refl _, by simp [trimStart], h, rfl, rfl, rfl, ?_⟩
    rw [exec_while (st' := st) (v := false)]
    · rfl
    · simp [eval, get_of_loc h.start, get_of_loc h.len, binary, V.int?, Op.int]
  | k + 1, i, st, hk, hi, h => by
    have hlt : i < s.length := by omega
    have hc : eval (.land (.bin .lt (.var "start") (.var "len")) (.bin .eq (.charAt (.var "s") (.var "start")) (.var "ch"))) st =
        (st, .ok (.bool (s[i] == ch))) := by
      have hget : s[i % 4294967296]? = some s[i] := by rw [Nat.mod_eq_of_lt (by omega)]; exact List.getElem?_eq_getElem hlt
      have hneg : ¬ (BitVec.ofNat 32 i).toInt < 0 := by rw [toInt_ofNat32 (by omega)]; omega
      have hless : (BitVec.ofNat 32 i).toInt < (BitVec.ofNat 32 s.length).toInt := by rw [toInt_ofNat32 (by omega), toInt_ofNat32 hs]; omega
      simp [eval, get_of_loc h.start, get_of_loc h.len, get_of_loc h.str, get_of_loc h.ch, binary, V.int?, Op.int, hless, hget, hneg, char_beq]
    have hd : s.drop i = s[i] :: s.drop (i + 1) := List.drop_eq_getElem_cons hlt
    rw [exec_while hc]
    by_cases he : s[i] = ch
    · rw [if_pos (by simpa using he), exec_step (simple_incr h.start), exec_nil, ofNat_add_one]
      obtain ⟨st', i', a1, a2, a3, a4, a5, a6, a7, a8⟩ := exec_trimLeft s ch hs rest k (i + 1) (st.setLoc "start" (.int (BitVec.ofNat 32 (i + 1))))
        (by omega) (by omega)
        ⟨by simpa [St.setLoc] using h.str, by simpa [St.setLoc] using h.ch, by simpa [St.setLoc] using h.len, by simp [St.setLoc],
          by simpa [St.setLoc] using h.stop⟩
      refine ⟨st', i', by omega, a2, ?_, a4, a5, a6, a7, a8⟩
      rw [a3, hd, trimStart, if_pos he]
    · rw [if_neg (by simpa using he)]
      refine ⟨st, i, Nat.le_refl _, by omega, ?_, h, rfl, rfl, rfl, rfl⟩
      rw [hd, trimStart, if_neg he]

theorem exec_trimRight (s : JStr) (ch : JChar) (hs : s.length < 2 ^ 31) (rest : List Stmt) : ∀ (j : Nat) (st : St), j ≤ s.length → TrimSt st s ch 0 j →
    ∃ st', TrimSt st' s ch 0 (trimEndIdx s ch j) ∧ st'.out = st.out ∧ st'.inp = st.inp ∧ st'.fld = st.fld ∧
      exec ms (.while (.land (.bin .gt (.var "end") (.dec 0)) (.bin .eq (.charAt (.var "s") (.bin .sub (.var "end") (.dec 1))) (.var "ch"))) [.decr "end"] :: rest) st =
        exec ms rest st'
  | 0, st, _, h => by
    refine ⟨st, h, rfl, rfl, rfl, ?_⟩
    rw [exec_while (st' := st) (v := false)]
    · rfl
    · simp [eval, get_of_loc h.stop, binary, V.int?, Op.int]
  | j + 1, st, hj, h => by
    have hlt : j < s.length := by omega
    have hc : eval (.land (.bin .gt (.var "end") (.dec 0)) (.bin .eq (.charAt (.var "s") (.bin .sub (.var "end") (.dec 1))) (.var "ch"))) st =
        (st, .ok (.bool (s[j] == ch))) := by
      have hget : s[j % 4294967296]? = some s[j] := by rw [Nat.mod_eq_of_lt (by omega)]; exact List.getElem?_eq_getElem hlt
      have hneg : ¬ (BitVec.ofNat 32 j).toInt < 0 := by rw [toInt_ofNat32 (by omega)]; omega
      have hpos : 0 < (BitVec.ofNat 32 (j + 1)).toInt := by rw [toInt_ofNat32 (by omega)]; omega
      have hsub := ofNat_sub_one j
      simp only [eval, get_of_loc h.stop, get_of_loc h.str, binary, V.int?, Op.int, hpos, show (BitVec.ofNat 32 0).toInt = 0 from rfl,
        decide_true]
      rw [show BitVec.ofNat 32 1 = (1 : BitVec 32) from rfl, hsub]
      simp [hget, hneg, get_of_loc h.ch, char_beq]
    rw [exec_while hc]
    by_cases he : s[j] = ch
    · rw [if_pos (by simpa using he), exec_step (simple_decr h.stop), exec_nil, ofNat_sub_one]
      obtain ⟨st', a4, a5, a6, a7, a8⟩ := exec_trimRight s ch hs rest j (st.setLoc "end" (.int (BitVec.ofNat 32 j))) (by omega)
        ⟨by simpa [St.setLoc] using h.str, by simpa [St.setLoc] using h.ch, by simpa [St.setLoc] using h.len, by simpa [St.setLoc] using h.start,
          by simp [St.setLoc]⟩
      refine ⟨st', ?_, a5, a6, a7, a8⟩
      rw [trimEndIdx, if_pos (by rw [List.getElem?_eq_getElem hlt, he])]
      exact a4
    · rw [if_neg (by simpa using he)]
      refine ⟨st, ?_, rfl, rfl, rfl, rfl⟩
      rw [trimEndIdx, if_neg (by rw [List.getElem?_eq_getElem hlt]; simpa using he)]
      exact h

open BinaryCodec in
theorem exec_trim (s : JStr) (ch : JChar) (padLeft : Bool) (hs : s.length < 2 ^ 31) (st : St) (h1 : st.loc "s" = some (.str (some s)))
    (h2 : st.loc "ch" = some (.char ch)) (h3 : st.loc "padLeft" = some (.bool padLeft)) :
    ∃ st', exec ms BinaryCodec.trimByChar.body st = some (st', .ret (.str (some (FinProto.trimByChar s ch padLeft)))) ∧
      st'.out = st.out ∧ st'.inp = st.inp ∧ st'.fld = st.fld := by
  simp only [BinaryCodec.trimByChar]
  rw [exec_step (st' := st.setLoc "len" (.int (BitVec.ofNat 32 s.length))) (by simp [simple, eval, get_of_loc h1, assignTo, V.int?]),
    exec_step (st' := (st.setLoc "len" (.int (BitVec.ofNat 32 s.length))).setLoc "start" (.int (BitVec.ofNat 32 0)))
      (by simp [simple, eval, assignTo, V.int?]),
    exec_step (st' := ((st.setLoc "len" (.int (BitVec.ofNat 32 s.length))).setLoc "start" (.int (BitVec.ofNat 32 0))).setLoc "end" (.int (BitVec.ofNat 32 s.length)))
      (by simp [simple, eval, St.get, St.setLoc, assignTo, V.int?])]
  generalize hq : ((st.setLoc "len" (.int (BitVec.ofNat 32 s.length))).setLoc "start" (.int (BitVec.ofNat 32 0))).setLoc "end"
    (.int (BitVec.ofNat 32 s.length)) = q
  have ht : TrimSt q s ch 0 s.length := by
    rw [← hq]
    exact ⟨by simpa [St.setLoc] using h1, by simpa [St.setLoc] using h2, by simp [St.setLoc], by simp [St.setLoc], by simp [St.setLoc]⟩
  have hp : q.loc "padLeft" = some (.bool padLeft) := by rw [← hq]; simpa [St.setLoc] using h3
  have hout : q.out = st.out ∧ q.inp = st.inp ∧ q.fld = st.fld := by rw [← hq]; exact ⟨rfl, rfl, rfl⟩
  clear hq
  rw [exec_ite (st' := q) (v := padLeft) (by simp [eval, get_of_loc hp])]
  -- the last statement
  have fin : ∀ (q' : St) (i j : Nat), TrimSt q' s ch i j → i ≤ j → j ≤ s.length →
      exec ms [.ret (.substring (.var "s") (.var "start") (.var "end"))] q' = some (q', .ret (.str (some ((s.take j).drop i)))) := by
    intro q' i j h hij hj
    refine exec_ret ?_
    simp [eval, get_of_loc h.str, get_of_loc h.start, get_of_loc h.stop, V.int?, toInt_ofNat32 (show i < 2 ^ 31 by omega), toInt_ofNat32 (show j < 2 ^ 31 by omega),
      hij, hj]
  cases padLeft
  · rw [if_neg (by simp)]
    obtain ⟨st', a4, a5, a6, a7, a8⟩ := exec_trimRight (ms := ms) s ch hs [] s.length q (Nat.le_refl _) ht
    rw [a8, exec_nil]
    simp only [andThen]
    rw [fin st' 0 _ a4 (Nat.zero_le _) (trimEndIdx_le s ch _)]
    exact ⟨st', by simp [FinProto.trimByChar], by rw [a5, hout.1], by rw [a6, hout.2.1], by rw [a7, hout.2.2]⟩
  · rw [if_pos rfl]
    obtain ⟨st', i', a1, a2, a3, a4, a5, a6, a7, a8⟩ := exec_trimLeft (ms := ms) s ch hs [] (s.length - 0) 0 q rfl (Nat.zero_le _) ht
    rw [a8, exec_nil]
    simp only [andThen]
    rw [fin st' _ _ a4 a2 (Nat.le_refl _)]
    refine ⟨st', ?_, by rw [a5, hout.1], by rw [a6, hout.2.1], by rw [a7, hout.2.2]⟩
    simp [FinProto.trimByChar, a3]

open BinaryCodec in
theorem call_read4 (fld : String → Option V) (out : WBuf) (inp : RBuf) (len : BitVec 32) (pad : JChar) (padLeft : Bool) :
    ∃ st', call methods readFixedString4 [.buf, .int len, .char pad, .bool padLeft] fld out inp =
        some (st', match (readFixedStringInt inp len pad padLeft).2 with | .ok s => .ret (.str (some s)) | .error e => .thrown (ofJErr e)) ∧
      st'.out = out ∧ st'.inp = (readFixedStringInt inp len pad padLeft).1 ∧ st'.fld = fld := by
  have hcall : call methods readFixedString4 [.buf, .int len, .char pad, .bool padLeft] fld out inp =
    exec methods readFixedString4.body ⟨fld, fun y => if y = "padLeft" then some (.bool padLeft) else if y = "trimPadChar" then some (.char pad) else
      if y = "len" then some (.int len) else if y = "byteBuf" then some .buf else none, out, inp⟩ := rfl
  rw [hcall]
  simp only [readFixedString4]
  generalize hst : (⟨fld, fun y => if y = "padLeft" then some (.bool padLeft) else if y = "trimPadChar" then some (.char pad) else
      if y = "len" then some (.int len) else if y = "byteBuf" then some .buf else none, out, inp⟩ : St) = st
  have h1 : st.loc "padLeft" = some (.bool padLeft) := by rw [← hst]; simp
  have h2 : st.loc "trimPadChar" = some (.char pad) := by rw [← hst]; simp
  have h3 : st.loc "len" = some (.int len) := by rw [← hst]; simp
  have h5 : st.loc "byteBuf" = some .buf := by rw [← hst]; simp
  have h6 : st.out = out := by rw [← hst]
  have h7 : st.inp = inp := by rw [← hst]
  have h8 : st.fld = fld := by rw [← hst]
  clear hst hcall
  subst h6 h7 h8
  have hev : eval (.readText (.var "byteBuf") (.var "len")) st =
      ({ st with inp := (st.inp.readTextInt len).1 }, match (st.inp.readTextInt len).2 with | .ok s => .ok (.str (some s)) | .error e => .error (ofJErr e)) := by
    simp only [eval, get_of_loc h5, get_of_loc h3, V.int?, RBuf.readTextInt]
    split
    · simp [ofJErr]
    · rcases st.inp.readText len.toInt.toNat with ⟨b, e | s⟩ <;> simp
  have hlen : ∀ b s, st.inp.readTextInt len = (b, .ok s) → s.length < 2 ^ 31 := by
    intro b s h
    unfold RBuf.readTextInt at h
    split at h
    · simp at h
    · unfold RBuf.readText at h
      split at h
      · simp only [Prod.mk.injEq, Except.ok.injEq] at h
        obtain ⟨_, rfl⟩ := h
        simp
      split at h
      · simp only [Prod.mk.injEq, Except.ok.injEq] at h
        obtain ⟨_, rfl⟩ := h
        refine Nat.lt_of_le_of_lt (utf8Dec_length _) ?_
        rw [List.length_take]
        have := toInt_lt len
        omega
      · simp at h
  simp only [readFixedStringInt]
  rcases hr : st.inp.readTextInt len with ⟨b', e | s⟩
  · rw [hr] at hev
    rw [exec_throw (st' := { st with inp := b' }) (e := ofJErr e) (by simp only [simple, hev])]
    exact ⟨_, rfl, rfl, rfl, rfl⟩
  · rw [hr] at hev
    have hs := hlen _ _ hr
    rw [exec_step (st' := ({ st with inp := b' } : St).setLoc "value" (.str (some s))) (by simp only [simple, hev, assignTo])]
    generalize hq : ({ st with inp := b' } : St).setLoc "value" (.str (some s)) = q
    have q1 : q.loc "padLeft" = some (.bool padLeft) := by rw [← hq]; simpa [St.setLoc] using h1
    have q2 : q.loc "trimPadChar" = some (.char pad) := by rw [← hq]; simpa [St.setLoc] using h2
    have q3 : q.loc "value" = some (.str (some s)) := by rw [← hq]; simp [St.setLoc]
    have q4 : q.out = st.out ∧ q.inp = b' ∧ q.fld = st.fld := by rw [← hq]; exact ⟨rfl, rfl, rfl⟩
    clear hq
    rw [exec_ite (st' := q) (v := padLeft) (by simp [eval, get_of_loc q1])]
    obtain ⟨r, r1, r2, r3, r4⟩ := exec_trim (ms := methods) s pad padLeft hs
      { q with loc := fun y => if y = "padLeft" then some (.bool padLeft) else if y = "ch" then some (.char pad) else if y = "s" then some (.str (some s)) else none }
      (by simp) (by simp) (by simp)
    cases padLeft
    · rw [if_neg (by simp), exec_retCall (vs := [.str (some s), .char pad, .bool false]) (d := BinaryCodec.trimByChar)
        (by simp [evals, eval, get_of_loc q3, get_of_loc q2]) rfl rfl r1]
      exact ⟨_, rfl, by rw [← q4.1]; exact r2, by rw [← q4.2.1]; exact r3, by rw [← q4.2.2]; exact r4⟩
    · rw [if_pos rfl, exec_retCall (vs := [.str (some s), .char pad, .bool true]) (d := BinaryCodec.trimByChar)
        (by simp [evals, eval, get_of_loc q3, get_of_loc q2]) rfl rfl r1]
      exact ⟨_, rfl, by rw [← q4.1]; exact r2, by rw [← q4.2.1]; exact r3, by rw [← q4.2.2]; exact r4⟩

open BinaryCodec in
theorem call_read2 (fld : String → Option V) (out : WBuf) (inp : RBuf) (len : BitVec 32) :
    ∃ st', call methods BinaryCodec.readFixedString2 [.buf, .int len] fld out inp =
        some (st', match (readFixedStringInt2 inp len).2 with | .ok s => .ret (.str (some s)) | .error e => .thrown (ofJErr e)) ∧
      st'.out = out ∧ st'.inp = (readFixedStringInt2 inp len).1 ∧ st'.fld = fld := by
  obtain ⟨st', h1, h2, h3, h4⟩ := call_read4 fld out inp len 0x20 false
  have hcall : call methods BinaryCodec.readFixedString2 [.buf, .int len] fld out inp =
    exec methods BinaryCodec.readFixedString2.body ⟨fld, fun y => if y = "len" then some (.int len) else if y = "byteBuf" then some .buf else none, out, inp⟩ := rfl
  rw [hcall]
  simp only [BinaryCodec.readFixedString2]
  simp only [call, readFixedString4, bindParams, assignTo, V.int?] at h1
  simp only [readFixedStringInt2]
  have hev : evals [.var "byteBuf", .var "len", .chr 0x20, .lit false]
      ⟨fld, fun y => if y = "len" then some (.int len) else if y = "byteBuf" then some .buf else none, out, inp⟩ =
      (⟨fld, fun y => if y = "len" then some (.int len) else if y = "byteBuf" then some .buf else none, out, inp⟩, .ok [.buf, .int len, .char 0x20, .bool false]) := by
    simp [evals, eval, St.get]
  rcases hr : (readFixedStringInt inp len 0x20 false) with ⟨b, e | s⟩
  · rw [hr] at h1 h3
    rw [exec_retCall_err (d := readFixedString4) hev rfl rfl h1]
    exact ⟨_, rfl, h2, h3, h4⟩
  · rw [hr] at h1 h3
    rw [exec_retCall (d := readFixedString4) hev rfl rfl h1]
    exact ⟨_, rfl, h2, h3, h4⟩

end FinProto.Mini
