import Verif.Spec.Linking
import Verif.Props.Codec
import Verif.Props.Methods
import Verif.Model.Names
/-
C86: where the statements of `encode` and `decode` call another class, the semantics of C82 has the effect of the call in one step.  Here: that effect is what the
statements of the called method have, by the semantics of C83 and C84.  (The calls of `create` are in C84_create_in_decode; the calls of `encode`, `decode` of other
messages are run by statements in C82 itself.)
-/
namespace FinProto
open Mini (Gives ofErr ofText)

theorem toInt_ofNat_small (n : Nat) (h : n < 2 ^ 31) : (BitVec.ofNat 32 n).toInt = n := by
  rw [BitVec.toInt_eq_toNat_of_msb]
  · rw [BitVec.toNat_ofNat, Nat.mod_eq_of_lt (by omega)]
  · rw [BitVec.msb_eq_decide]; simp; omega

/-- **C86.** A call of `writeFixedString` in `encode` writes what the statements of `writeFixedString` write, and throws what they throw. -/
theorem C86_write_fixed (env : Java.Env) (e : Java.Expr) (n : Nat) (pad : JChar) (left : Bool) (q q' : Java.St) (x : HVal) (value : Option JStr)
    (he : Java.eval env e q = (q', .ok (.val x))) (hx : Java.IsText x value) (hn : n < 2 ^ 31)
    (hv : ∀ s, value = some s → (utf8Enc s).length < 2 ^ 31) (fld : String → Option Mini.V) (inp : RBuf) :
    ∃ b err, Java.simple env (.writeFixed e n pad left) q = some ({ q' with out := b }, err)
      ∧ Gives (Mini.call Mini.BinaryCodec.methods Mini.BinaryCodec.writeFixedString5
          [.buf, .str value, .int (BitVec.ofNat 32 n), .char pad, .bool left] fld q'.out inp) fld b inp (ofErr err) := by
  have hg := C83_write_fixed fld q'.out inp value (BitVec.ofNat 32 n) pad left hv
  have hi := toInt_ofNat_small n hn
  rw [writeFixedStringInt_nonneg _ _ _ _ _ (by omega), hi, Int.toNat_natCast] at hg
  refine ⟨_, _, ?_, hg⟩
  rw [Java.simple, he]
  cases hx <;> rfl

/-- **C86.** A call of `readFixedString` in `decode` reads what the statements of `readFixedString` read, and throws what they throw. -/
theorem C86_read_fixed (env : Java.Env) (n : Nat) (pad : JChar) (left : Bool) (q : Java.St) (hn : n < 2 ^ 31) (fld : String → Option Mini.V) (out : WBuf) :
    ∃ b r, Java.eval env (.readFixed n pad left) q = ({ q with inp := b }, r.map fun s => .val (.str s))
      ∧ Gives (Mini.call Mini.BinaryCodec.methods Mini.BinaryCodec.readFixedString4
          [.buf, .int (BitVec.ofNat 32 n), .char pad, .bool left] fld out q.inp) fld out b (ofText r) := by
  have hg := C83_read_fixed fld out q.inp (BitVec.ofNat 32 n) pad left
  have hi := toInt_ofNat_small n hn
  rw [readFixedStringInt_nonneg _ _ _ _ (by omega), hi, Int.toNat_natCast] at hg
  refine ⟨_, _, ?_, hg⟩
  rw [Java.eval]
  rcases readFixedString q.inp n pad left with ⟨b, e | s⟩ <;> rfl

/-- **C86.** The widths in the text of the message classes are positive and fit in an `int`: the hypotheses of C86_write_fixed and C86_read_fixed about the width hold
for every call. -/
theorem C86_widths (c : Cls) (n : Nat) (h : n ∈ Java.widthsOf (Java.encBody c) ∨ n ∈ Java.widthsOf (Java.decBody c)) : 0 < n ∧ n < 2 ^ 31 := by
  have : (allCls.all fun c => (Java.widthsOf (Java.encBody c) ++ Java.widthsOf (Java.decBody c)).all fun n => decide (0 < n ∧ n < 2 ^ 31)) = true := by
    decide +kernel
  have h1 := List.all_eq_true.1 (List.all_eq_true.1 this c (mem_allCls c)) n (List.mem_append.2 h)
  simpa using h1

/-- **C86.** A call of `getChecksumService` in `encode` gives what the statements of `getChecksumService` give. -/
theorem C86_get_service (flt : Num → JStr) (k : Nat) (env : Java.Env) (q : Java.St) (alg : String) (st : Methods.St) (h : Methods.RegAs st env.svc) :
    ∃ s, Java.eval env (.service alg) q = (q, .ok (.service s))
      ∧ Methods.callReg flt k Methods.getServiceBody [(.name, .name (some alg))] st = (st, .ret (.service s)) :=
  ⟨_, rfl, C84_get_service flt k st env.svc h alg⟩

/-- **C86.** A call of `calc` in `encode`, on a service of the library, gives what the statements of `calc` in that class give on the same buffer, after the static
initialiser of the class has filled its table; and it leaves the buffer and the table as they are. -/
theorem C86_calc (k : LibService) (env : Java.Env) (e : Java.Expr) (q q' : Java.St) (he : Java.eval env e q = (q', .ok (.service (some k.service))))
    (hrd : q'.out.rd ≤ q'.out.data.length) (hlen : q'.out.data.length < 2 ^ 31) (spare : List Byte) (out₀ : WBuf) (inp₀ : RBuf) :
    ∃ fld v, Gives (Mini.exec Mini.noMethods k.init ⟨newTable, fun _ => none, out₀, inp₀⟩) fld out₀ inp₀ .next
      ∧ Java.eval env (.calc e) q = (q', .ok (.val (.num (.int v))))
      ∧ Gives (Mini.call Mini.noMethods k.calcMethod [.buf] fld q'.out ⟨q'.out.data, spare, q'.out.rd⟩) fld q'.out ⟨q'.out.data, spare, q'.out.rd⟩ (.ret (.int v)) := by
  have hj : Java.eval env (.calc e) q = (q', .ok (.val (.num (.int (k.service.calcOn q'.out.readable))))) := by
    rw [Java.eval, he]
  have htab := C83_tables newTable out₀ inp₀ rfl
  have hr : (⟨q'.out.data, spare, q'.out.rd⟩ : RBuf).readable = q'.out.readable := rfl
  cases k with
  | crc16 =>
    refine ⟨_, _, htab.1, hj, ?_⟩
    have := (C83_calc (fun y => if y = "CRC_TABLE" then some (.ints crc16Table) else newTable y) q'.out ⟨q'.out.data, spare, q'.out.rd⟩ hrd hlen).1 rfl
    rw [crc16Calc_eq] at this
    exact this
  | crc32 =>
    refine ⟨_, _, htab.2, hj, ?_⟩
    have := (C83_calc (fun y => if y = "CRC_TABLE" then some (.ints crc32Table) else newTable y) q'.out ⟨q'.out.data, spare, q'.out.rd⟩ hrd hlen).2.1 rfl
    rw [crc32Calc_eq] at this
    exact this
  | sseBin =>
    refine ⟨newTable, _, ⟨⟨newTable, fun _ => none, out₀, inp₀⟩, by simp [LibService.init, Mini.exec], rfl, rfl, rfl⟩, hj, ?_⟩
    have := (C83_calc newTable q'.out ⟨q'.out.data, spare, q'.out.rd⟩ hrd hlen).2.2.1
    rw [sseBinCalc_eq] at this
    exact this
  | szseBin =>
    refine ⟨newTable, _, ⟨⟨newTable, fun _ => none, out₀, inp₀⟩, by simp [LibService.init, Mini.exec], rfl, rfl, rfl⟩, hj, ?_⟩
    have := (C83_calc newTable q'.out ⟨q'.out.data, spare, q'.out.rd⟩ hrd hlen).2.2.2
    rw [szseBinCalc_eq] at this
    exact this

/-- **C86.** The call of `calc` in `verify`, likewise: `verify` answers whether the number that the statements of `calc` return is the expected one. -/
theorem C86_verify (k : LibService) (flt : Num → JStr) (n : Nat) (b : RBuf) (expected : Option (BitVec 32)) (st : Methods.St)
    (hrd : b.rd ≤ b.data.length) (hlen : b.data.length < 2 ^ 31) (out : WBuf) (inp₀ : RBuf) :
    ∃ fld v, Gives (Mini.exec Mini.noMethods k.init ⟨newTable, fun _ => none, out, inp₀⟩) fld out inp₀ .next
      ∧ Gives (Mini.call Mini.noMethods k.calcMethod [.buf] fld out b) fld out b (.ret (.int v))
      ∧ Methods.exec (.at flt (n + 1) (.service (some k.service)) .sse_SseBinary b) Methods.verifyBody
          (Methods.args [(.expected, .val (match expected with | some v => .num (.int v) | none => .null))]) st = (st, .ret (.bool (decide (expected = some v)))) := by
  have hver := C84_verify flt n k.service b expected st
  have hdec : k.service.verify b expected = decide (expected = some (k.service.calcOn b.readable)) := by
    rw [Service.verify]
    by_cases h : expected = some (k.service.calcOn b.readable)
    · rw [h]; simp
    · rw [decide_eq_false h]; exact beq_eq_false_iff_ne.2 (fun e => h e.symm)
  rw [hdec] at hver
  have htab := C83_tables newTable out inp₀ rfl
  cases k with
  | crc16 =>
    refine ⟨_, _, htab.1, ?_, hver⟩
    have := (C83_calc (fun y => if y = "CRC_TABLE" then some (.ints crc16Table) else newTable y) out b hrd hlen).1 rfl
    rw [crc16Calc_eq] at this
    exact this
  | crc32 =>
    refine ⟨_, _, htab.2, ?_, hver⟩
    have := (C83_calc (fun y => if y = "CRC_TABLE" then some (.ints crc32Table) else newTable y) out b hrd hlen).2.1 rfl
    rw [crc32Calc_eq] at this
    exact this
  | sseBin =>
    refine ⟨newTable, _, ⟨⟨newTable, fun _ => none, out, inp₀⟩, by simp [LibService.init, Mini.exec], rfl, rfl, rfl⟩, ?_, hver⟩
    have := (C83_calc newTable out b hrd hlen).2.2.1
    rw [sseBinCalc_eq] at this
    exact this
  | szseBin =>
    refine ⟨newTable, _, ⟨⟨newTable, fun _ => none, out, inp₀⟩, by simp [LibService.init, Mini.exec], rfl, rfl, rfl⟩, ?_, hver⟩
    have := (C83_calc newTable out b hrd hlen).2.2.2
    rw [szseBinCalc_eq] at this
    exact this

/-! ### Instances -/

/-- A text in the third field of a message, and a service in a variable, with ten bytes written and the reader index at 1. -/
def exLink : Java.St :=
  ⟨[.msg .bjse_AllegeQuote [.num ⟨.i32, 7⟩, .num ⟨.i64, 8⟩, .str [0x61, 0x62]]], ⟨[1, 2, 3, 4, 5, 6, 7, 8, 9, 10], 1, 100⟩, ⟨[0x61, 0x62, 0x20], [], 0⟩,
   fun x => if x = .service then some (.service (some crc16Service)) else none⟩

def exEnv : Java.Env := ⟨World.initial.svc, World.initial.suppliers, 0, []⟩

example := C86_write_fixed exEnv (.field 2) 3 0x20 false exLink exLink (.str [0x61, 0x62]) (some [0x61, 0x62]) rfl (.str _) (by decide)
  (by intro s hs; injection hs with hs; subst hs; decide) (fun _ => none) ⟨[], [], 0⟩
example : (Java.simple exEnv (.writeFixed (.field 2) 3 0x20 false) exLink).map (fun o => (o.1.out.data.drop 10, o.2)) = some ([0x61, 0x62, 0x20], none) := by decide +kernel
example := C86_read_fixed exEnv 3 0x20 false exLink (by decide) (fun _ => none) ⟨[], 0, 0⟩
example : Java.widthsOf (Java.encBody .bjse_AllegeQuote) = [3, 6, 6, 8, 4, 2, 32, 16, 16, 10, 10, 10, 10, 10, 120] := by decide +kernel
example := C86_calc .crc16 exEnv (.var .service) exLink exLink rfl (by decide) (by decide) [0, 0] ⟨[], 0, 0⟩ ⟨[], [], 0⟩
example := C86_verify .szseBin (fun _ => []) 0 ⟨[1, 2, 3], [], 1⟩ (some 5) exStarted (by decide) (by decide) ⟨[], 0, 0⟩ ⟨[], [], 0⟩
example := C86_get_service (fun _ => []) 0 ⟨Registry.initial, World.initial.suppliers, 0, []⟩ exLink "CRC16"
  (Methods.initReg (fun _ => []) 0 Methods.ctorServices (.fresh []))
    (C84_registry_call (fun _ => []) 0 _ _ (C84_registry_call (fun _ => []) 0 (.fresh []) (fun _ => none) (fun _ => rfl) (.registry crc16Service)) (.registry crc32Service))

/-- `C86_widths`. -/
example := C86_widths .bjse_AllegeQuote 120 (.inl (by decide +kernel))

end FinProto
