import Verif.Model.Methods
/-
The text of the statements of `Model/Methods.lean`, used by `Tests/Render.lean` and `Tests/RenderCodec.lean`.
-/
namespace FinProto.RenderMethods
open Methods

/-- Names in the place where the statements stand: of the class, its fields, the map of the factory, and of the parameters that are called differently in
different classes. -/
structure Ctx where
  cls : String := ""
  field : Nat → String := fun _ => ""
  map : String := ""
  key : String := ""
  param : String := ""

def var (x : Ctx) : Name → String
  | .obj => "obj"
  | .other => "orther_"
  | .param => x.param
  | .key => x.key
  | .supplier => "supplier"
  | .clazz => "clazz"
  | .type => "type"
  | .service => "checksumService"
  | .name => "name"
  | .expected => "expectedChecksum"

/-- Declared type of a local variable. -/
def ty (x : Ctx) : Name → String
  | .other => x.cls
  | .supplier => "Supplier<BinaryCodec>"
  | _ => "?"

def expr (x : Ctx) : Expr → String
  | .this => "this"
  | .null => "null"
  | .bool b => toString b
  | .text s => "\"" ++ s ++ "\""
  | .var y => var x y
  | .own true f => "this." ++ x.field f
  | .own false f => x.field f
  | .of y f => var x y ++ "." ++ x.field f
  | .same a b => expr x a ++ " == " ++ expr x b
  | .differ a b => expr x a ++ " != " ++ expr x b
  | .or a b => expr x a ++ " || " ++ expr x b
  | .and a b => expr x a ++ " && " ++ expr x b
  | .plus a b => expr x a ++ " + " ++ expr x b
  | .getClass => "getClass()"
  | .getClassOf e => expr x e ++ ".getClass()"
  | .cast c e => "(" ++ (decl c).name ++ ") " ++ expr x e
  | .objectsEquals a b => "Objects.equals(" ++ expr x a ++ ", " ++ expr x b ++ ")"
  | .objectsHash fs => "Objects.hash(" ++ ", ".intercalate (fs.map x.field) ++ ")"
  | .thisHashCode => "this.hashCode()"
  | .mapGet e => x.map ++ ".get(" ++ expr x e ++ ")"
  | .mapRemove e => x.map ++ ".remove(" ++ expr x e ++ ")"
  | .supply e => expr x e ++ ".get()"
  | .typeGet e => "reverseMap.get(" ++ expr x e ++ ")"
  | .cacheGet e => "(ChecksumService<T, R>) CACHE.get(" ++ expr x e ++ ")"
  | .cacheHas e => "CACHE.containsKey(" ++ expr x e ++ ")"
  | .algorithm e => expr x e ++ ".algorithm()"
  | .calc => "calc(buffer)"
  | .constValue e => expr x e ++ ".value"

mutual
def stmt (x : Ctx) : Stmt → String
  | .ret e => "return " ++ expr x e ++ "; "
  | .ite c body => "if (" ++ expr x c ++ ") { " ++ stmts x body ++ "} "
  | .local y e => ty x y ++ " " ++ var x y ++ " = " ++ expr x e ++ "; "
  | .assign f e => "this." ++ x.field f ++ " = " ++ expr x e ++ "; "
  | .mapPut k e => x.map ++ ".put(" ++ expr x k ++ ", " ++ expr x e ++ "); "
  | .typePut k e => "reverseMap.put(" ++ expr x k ++ ", " ++ expr x e ++ "); "
  | .cachePut k e => "CACHE.put(" ++ expr x k ++ ", " ++ expr x e ++ "); "
  | .cacheRemove e => "CACHE.remove(" ++ expr x e ++ "); "
  | .cacheClear => "CACHE.clear(); "
  | .illegal e => "throw new IllegalArgumentException(" ++ expr x e ++ "); "
  | .forTypes body => "for (MessageType type : values()) { " ++ stmts x body ++ "} "
def stmts (x : Ctx) : List Stmt → String
  | [] => ""
  | s :: ss => stmt x s ++ stmts x ss
end

/-! ### Precedence: the text of an expression means the expression (all binary operators associate to the left) -/

def prec : Expr → Nat
  | .plus _ _ => 11
  | .same _ _ | .differ _ _ => 8
  | .and _ _ => 4
  | .or _ _ => 3
  | .cast _ _ | .cacheGet _ => 13
  | _ => 14

def fits : Expr → Bool
  | .same a b | .differ a b => fits a && fits b && 8 ≤ prec a && 8 < prec b
  | .or a b => fits a && fits b && 3 ≤ prec a && 3 < prec b
  | .and a b => fits a && fits b && 4 ≤ prec a && 4 < prec b
  | .plus a b => fits a && fits b && 11 ≤ prec a && 11 < prec b
  | .getClassOf e | .supply e | .algorithm e | .constValue e => fits e && prec e = 14
  | .cast _ e => fits e && 13 ≤ prec e
  | .objectsEquals a b => fits a && fits b
  | .mapGet e | .mapRemove e | .typeGet e | .cacheGet e | .cacheHas e => fits e
  | _ => true

mutual
def sfits : Stmt → Bool
  | .ret e | .local _ e | .assign _ e | .cacheRemove e | .illegal e => fits e
  | .ite c body => fits c && ssfit body
  | .mapPut k e | .typePut k e | .cachePut k e => fits k && fits e
  | .cacheClear => true
  | .forTypes body => ssfit body
def ssfit : List Stmt → Bool
  | [] => true
  | s :: ss => sfits s && ssfit ss
end

example : (allCls.all fun c => ssfit (equalsBody c) && ssfit (hashBody (decl c)) && ssfit (toStringBody (decl c))
    && (decl c).acc.all fun a => ssfit (getterBody a) && ssfit (setterBody a)) = true := by decide +kernel

example : ([createBody "MsgType", createBody "ApplID", registerBody, registerSseBody, removeBody, getMsgTypeBody, fromValueBody, registryBody, removeServiceBody,
    clearBody, getServiceBody, verifyBody].all ssfit) = true := by decide +kernel

end FinProto.RenderMethods
