import Verif.Spec.Wire
/-
The `encode`/`decode` programs of all classes are the ones a schematic translation of the layouts gives.
The translation is only a proof device: the property theorems do not mention it.
-/
namespace FinProto

/-- Byte order used by the accessor of a number of type `t` (single bytes have no order). -/
def ordOf (k : Conv) (t : PTy) : Endian := if t = .i8 then .be else k.order

def encElOf (k : Conv) : EWTy → EncElem
  | .num t => .num t (ordOf k t)
  | .text n pad left => .fixed n pad left
  | .vstr => .dyn k.strLen k.strLen k.order
  | .sub _ => .obj

/-- Statements that write field `i`. -/
def encOf (k : Conv) (i : Nat) : WTy → List EncStmt
  | .num t => [.num i t (ordOf k t)]
  | .text n pad left => [.fixed i n pad left]
  | .vstr => [.dyn i k.strLen k.strLen k.order]
  | .list e => [.list i k.listLen k.listLen k.order (encElOf k e)]
  | .sub _ => [.obj i]
  | .ext _ _ => [.objOpt i]
  | .len _ => []
  | .cksum t alg => [.checksum i alg, .num i t k.order]

def lenOf (k : Conv) (i : Nat) (t : PTy) : List EncStmt :=
  [.save 0, .zero t k.order, .save 1, .objOpt (i + 1), .save 2, .setLen i 2 1, .patch 0 i t k.order]

def compileEnc (k : Conv) (i : Nat) : List WTy → List EncStmt
  | [] => []
  | .len t :: .ext _ _ :: ts => lenOf k i t ++ compileEnc k (i + 2) ts
  | t :: ts => encOf k i t ++ compileEnc k (i + 1) ts

def decElOf (k : Conv) : EWTy → DecElem
  | .num t => .num t (ordOf k t)
  | .text n pad left => .fixed n pad left
  | .vstr => .dyn k.strLen k.order
  | .sub c => .obj c

def decOf (k : Conv) (i : Nat) : WTy → List DecStmt
  | .num t | .len t | .cksum t _ => [.num i t (ordOf k t)]
  | .text n pad left => [.fixed i n pad left]
  | .vstr => [.dyn i k.strLen k.order]
  | .list e => [.list i k.listLen k.order (decElOf k e)]
  | .sub c => [.obj i c]
  | .ext fac key => [.create i fac key, .call i]

def compileDec (k : Conv) (i : Nat) : List WTy → List DecStmt
  | [] => []
  | t :: ts => decOf k i t ++ compileDec k (i + 1) ts

set_option maxRecDepth 100000 in
theorem enc_table (c : Cls) : (decl c).enc = compileEnc (conv c.mod) 0 (wire c) := by
  cases c <;> rfl

set_option maxRecDepth 100000 in
theorem dec_table (c : Cls) : (decl c).dec = compileDec (conv c.mod) 0 (wire c) := by
  cases c <;> rfl

theorem type_table (c : Cls) : javaTypes c = (wire c).map WTy.java := by
  cases c <;> rfl

theorem name_table (c : Cls) : (decl c).fields.map (·.1) = (layout c).map (·.1) := by
  cases c <;> rfl

/-- Length fields are 32-bit and directly in front of a polymorphic body; checksums are 32-bit. -/
def lenOk : List WTy → Bool
  | [] => true
  | .len t :: .ext _ _ :: ts => decide (t = .i32) && lenOk ts
  | .len _ :: _ => false
  | .cksum t _ :: ts => decide (t = .i32) && lenOk ts
  | _ :: ts => lenOk ts

theorem lenOk_table (c : Cls) : lenOk (wire c) = true := by
  cases c <;> rfl

/-- Types used for lengths and counts. -/
def PTy.isCount (t : PTy) : Bool := match t with | .i16 | .i32 => true | _ => false

theorem conv_counts (m : Mod) : (conv m).strLen.isCount = true ∧ (conv m).listLen.isCount = true := by
  cases m <;> decide

end FinProto
