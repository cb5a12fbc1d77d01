import Verif.Model.Java
import Verif.Tests.RenderMethods
/-
The way back from the model to the code: `render c` is the Java text of the file of class `c`, written from the tables of `Model/Classes.lean` and
nothing else; the bodies of `encode` and `decode` are the statements of `Model/Java.lean`, those of the other methods the statements of `Model/Methods.lean`.  `tools/roundtrip.py` runs it for every class and compares the result with the files in /repo, character by character apart from white space.
So the tables hold everything that is in the files, and the meaning of each table entry as Java text can be read off here.  (A test of the model; no theorem uses it.)
-/
namespace FinProto.Render

def PTy.java : PTy → String
  | .i8 => "byte" | .i16 => "short" | .i32 => "int" | .i64 => "long" | .f32 => "float" | .f64 => "double"

def PTy.boxed : PTy → String
  | .i8 => "Byte" | .i16 => "Short" | .i32 => "Integer" | .i64 => "Long" | .f32 => "Float" | .f64 => "Double"

/-- The part of the names of `ByteBuf` methods that tells type and byte order. -/
def suffix (t : PTy) (e : Endian) : String :=
  (match t with | .i8 => "Byte" | .i16 => "Short" | .i32 => "Int" | .i64 => "Long" | .f32 => "Float" | .f64 => "Double")
    ++ (match e with | .be => "" | .le => "LE")

def ElTy.java : ElTy → String
  | .prim t => PTy.boxed t
  | .str => "String"
  | .obj c => (decl c).name

def FTy.java : FTy → String
  | .prim t => PTy.java t
  | .str => "String"
  | .list e => "List<" ++ ElTy.java e ++ ">"
  | .obj c => (decl c).name
  | .codec => "BinaryCodec"

/-- The name of a field. -/
def name (d : ClassDecl) (f : Nat) : String := (d.fields.getD f ("?", .str)).1

/-- The arguments that follow the width; blanks on the right need none. -/
def padArgs (pad : JChar) (left : Bool) : String :=
  if pad = 0x20 ∧ left = false then ""
  else ", '" ++ (if pad = 0 then "\\0" else String.singleton (Char.ofNat pad.toNat)) ++ "', " ++ (if left then "true" else "false")

/-- The name of a factory: the field it is for, or the private map of TradeCaptureCofirm. -/
def facName (body : String) : String := String.ofList (match body.toList with | [] => [] | c :: cs => c.toUpper :: cs) ++ "MessageFactory"

open Java in
def var (d : ClassDecl) : Var → String
  | .len f => name d f ++ "Len"
  | .size f => name d f ++ "Size"
  | .elem f => name d f ++ "_"
  | .pos f => name d f ++ "Pos"
  | .start f => name d f ++ "Start"
  | .fin f 0 => name d f ++ "End"
  | .fin _ _ => "?"
  | .bytes => "bytes"
  | .i => "i"
  | .service => "checksumService"

open Java in
def expr (d : ClassDecl) : Expr → String
  | .field f => "this." ++ name d f
  | .var x => var d x
  | .lit k => toString k
  | .size e => expr d e ++ ".size()"
  | .get e i => expr d e ++ ".get(" ++ expr d i ++ ")"
  | .cast t e => "(" ++ PTy.java t ++ ") " ++ expr d e
  | .sub a b => "(" ++ expr d a ++ " - " ++ expr d b ++ ")"
  | .utf8 e => expr d e ++ ".getBytes(StandardCharsets.UTF_8)"
  | .length e => expr d e ++ ".length"
  | .writerIndex => "byteBuf.writerIndex()"
  | .read t en => "byteBuf.read" ++ suffix t en ++ "()"
  | .readText e => "byteBuf.readCharSequence(" ++ expr d e ++ ", StandardCharsets.UTF_8).toString()"
  | .readFixed n pad left => "readFixedString(byteBuf, " ++ toString n ++ padArgs pad left ++ ")"
  | .newList => "new ArrayList<>()"
  | .newObj c => "new " ++ (decl c).name ++ "()"
  | .create .bjse_TradeCaptureCofirm e => "createApplExtend(" ++ expr d e ++ ")"
  | .create fac e =>
    -- the factory is named after the field it is for
    let f := (d.dec.findSome? fun s => match s with | .create f fac' _ => if fac' = fac then some f else none | _ => none).getD 0
    facName (name d f) ++ ".getInstance().create(" ++ expr d e ++ ")"
  | .service alg => "ChecksumServiceFactory.getInstance().getChecksumService(\"" ++ alg ++ "\")"
  | .calc e => expr d e ++ ".calc(byteBuf)"

open Java in
def cond (d : ClassDecl) : Cond → String
  | .isNull true e => "null == " ++ expr d e
  | .isNull false e => expr d e ++ " == null"
  | .notNull true e => "null != " ++ expr d e
  | .notNull false e => expr d e ++ " != null"
  | .isNullOrEmpty e => "StringUtil.isNullOrEmpty(" ++ expr d e ++ ")"
  | .isZero e => expr d e ++ " == 0"
  | .positive e => expr d e ++ " > 0"
  | .or a b => cond d a ++ " || " ++ cond d b

open Java in
def lty : LTy → String
  | .prim t => PTy.java t
  | .bytes => "byte[]"
  | .obj c => (decl c).name
  | .service => "ChecksumService<ByteBuf, Integer>"

open Java in
mutual
/-- The text of a statement of `Model/Java.lean`. -/
def stmt (d : ClassDecl) : Stmt → String
  | .assign f e => "this." ++ name d f ++ " = " ++ expr d e ++ "; "
  | .local ty x e => lty ty ++ " " ++ var d x ++ " = " ++ expr d e ++ "; "
  | .write t en e => "byteBuf.write" ++ suffix t en ++ "(" ++ expr d e ++ "); "
  | .setAt t en p e => "byteBuf.set" ++ suffix t en ++ "(" ++ expr d p ++ ", " ++ expr d e ++ "); "
  | .writeBytes e => "byteBuf.writeBytes(" ++ expr d e ++ "); "
  | .writeFixed e n pad left => "writeFixedString(byteBuf, " ++ expr d e ++ ", " ++ toString n ++ padArgs pad left ++ "); "
  | .add f e => "this." ++ name d f ++ ".add(" ++ expr d e ++ "); "
  | .encode e => expr d e ++ ".encode(byteBuf); "
  | .decode e => expr d e ++ ".decode(byteBuf); "
  | .ite c a [] => "if (" ++ cond d c ++ ") { " ++ stmts d a ++ "} "
  | .ite c a b => "if (" ++ cond d c ++ ") { " ++ stmts d a ++ "} else { " ++ stmts d b ++ "} "
  | .loop x k bound body =>
    "for (int " ++ var d x ++ " = " ++ toString k.toInt ++ "; " ++ var d x ++ " < " ++ expr d bound ++ "; " ++ var d x ++ "++) { " ++ stmts d body ++ "} "
def stmts (d : ClassDecl) : List Stmt → String
  | [] => ""
  | s :: ss => stmt d s ++ stmts d ss
end

/-- Names for the statements of `Model/Methods.lean`. -/
def ctx (d : ClassDecl) : RenderMethods.Ctx := { cls := d.name, field := name d }

def accessor (d : ClassDecl) (a : String × Nat × Nat) : String :=
  let ty (f : Nat) : String := FTy.java (d.fields.getD f ("?", .str)).2
  -- the parameter has the name of the field
  let x := { ctx d with param := name d a.2.2 }
  "public " ++ ty a.2.1 ++ " get" ++ a.1 ++ "() { " ++ RenderMethods.stmts x (Methods.getterBody a) ++ "} public void set" ++ a.1 ++ "(" ++ ty a.2.2 ++ " " ++ x.param
    ++ ") { " ++ RenderMethods.stmts x (Methods.setterBody a) ++ "} "

/-- From the first field to the end of `decode`. -/
def codecPart (c : Cls) : String :=
  let d := decl c
  String.join (d.fields.map fun f => "private " ++ FTy.java f.2 ++ " " ++ f.1 ++ "; ")
    ++ String.join (d.acc.map (accessor d))
    ++ "@Override public void encode(ByteBuf byteBuf) { " ++ stmts d (Java.encBody c) ++ "} "
    ++ "@Override public void decode(ByteBuf byteBuf) { " ++ stmts d (Java.decBody c) ++ "} "

/-- `hashCode`, `equals`, `toString`. -/
def objectPart (c : Cls) : String :=
  let d := decl c
  "@Override public int hashCode() { " ++ RenderMethods.stmts (ctx d) (Methods.hashBody d)
    ++ "} @Override public boolean equals(Object obj) { " ++ RenderMethods.stmts (ctx d) (Methods.equalsBody c)
    ++ "} @Override public String toString() { " ++ RenderMethods.stmts (ctx d) (Methods.toStringBody d) ++ "} "

/-- The factory of a class, its body field and key field (declared types). -/
def factoryOf (d : ClassDecl) : Option (Fac × Nat × Nat) := d.dec.findSome? fun s => match s with | .create f fac key => some (fac, f, key) | _ => none

def regsOf (fac : Fac) : List Reg := defaultRegs.filter fun r => r.fac == fac

def keyText : Key → String
  | .null => "null"
  | .int v => "(int) " ++ toString v.toNat
  | .short v => "(short) " ++ toString v.toNat
  | .str s => "\"" ++ String.ofList (s.map fun c => Char.ofNat c.toNat) ++ "\""

/-- The private map of TradeCaptureCofirm, between `decode` and `hashCode`. -/
def privateMap (d : ClassDecl) : String :=
  match factoryOf d with
  | some (.bjse_TradeCaptureCofirm, f, key) =>
    let m := name d f ++ "Map"
    let k := name d key
    "private static final Map<String, Supplier<BinaryCodec>> " ++ m ++ " = new HashMap<>(); static { "
      ++ String.join ((regsOf .bjse_TradeCaptureCofirm).map fun r => m ++ ".put(" ++ keyText r.key ++ ", " ++ (decl r.cls).name ++ "::new); ")
      ++ "} private BinaryCodec createApplExtend(String " ++ k ++ ") { " ++ RenderMethods.stmts { ctx d with map := m, key := k } (Methods.createBody (Methods.keyWord .bjse_TradeCaptureCofirm)) ++ "} "
  | _ => ""

/-- The constants of `MessageType`. -/
def messageType : String :=
  let const (m : SseMessageType) : String := ((toString (repr m)).splitOn ".").getLast!
  "public enum MessageType { " ++ ", ".intercalate (sseMessageTypes.map fun p => const p.1 ++ "(" ++ toString p.2.toNat ++ ")")
    ++ "; private final int value; MessageType(int value) { this.value = value; } public int getValue() { return value; } "
    ++ "public static MessageType fromValue(int value) { " ++ RenderMethods.stmts { key := "value" } Methods.fromValueBody ++ "} } "

def sseReg (r : Cls × SseMessageType × Cls) : String :=
  "getInstance().register(" ++ (decl r.1).name ++ ".class, MessageType." ++ ((toString (repr r.2.1)).splitOn ".").getLast! ++ ".getValue(), " ++ (decl r.2.2).name ++ "::new); "

/-- The enum with the suppliers, at the end of the class. -/
def factory (d : ClassDecl) : String :=
  match factoryOf d with
  | none | some (.bjse_TradeCaptureCofirm, _) => ""
  | some (fac, f, key) =>
    let fname := facName (name d f)
    let m := name d f ++ "Map"
    let sse := decide (fac = .sse_SseBinary)
    let body (kv : String) : List Methods.Stmt → String := RenderMethods.stmts { ctx d with map := m, key := kv }
    let (kt, kv) := match (d.fields.getD key ("?", .str)).2 with
      | .prim .i32 => ("Integer", "msgType")
      | .prim .i16 => ("Short", "msgType")
      | _ => ("String", "applId")
    "public static enum " ++ fname ++ " { INSTANCE; private final Map<" ++ kt ++ ", Supplier<BinaryCodec>> " ++ m ++ " = new HashMap<>(); "
      ++ (if sse then "private final Map<Class<?>, Integer> reverseMap = new HashMap<>(); " ++ messageType else "")
      ++ "static { "
      ++ (if sse then String.join (sseDefaultRegs.map sseReg)
          else String.join ((regsOf fac).map fun r => "getInstance().register(" ++ keyText r.key ++ ", " ++ (decl r.cls).name ++ "::new); "))
      ++ "} public BinaryCodec create(" ++ kt ++ " " ++ kv ++ ") { " ++ body kv (Methods.createBody (Methods.keyWord fac)) ++ "} "
      ++ (if sse then "public void register(Class<?> clazz, " ++ kt ++ " " ++ kv ++ ", Supplier<BinaryCodec> supplier) { " ++ body kv Methods.registerSseBody ++ "} "
          else "public void register(" ++ kt ++ " " ++ kv ++ ", Supplier<BinaryCodec> supplier) { " ++ body kv Methods.registerBody ++ "} ")
      ++ "public boolean remove(" ++ kt ++ " " ++ kv ++ ") { " ++ body kv Methods.removeBody ++ "} "
      ++ (if sse then "public Integer getMsgType(Class<?> clazz) { " ++ body kv Methods.getMsgTypeBody ++ "} " else "")
      ++ "public static " ++ fname ++ " getInstance() { return INSTANCE; } } "

def generated : String := "// Code generated by fin-protoc. DO NOT EDIT.\n"

/-- A nested class. -/
def nested (c : Cls) : String :=
  generated ++ "public static class " ++ (decl c).name ++ " implements BinaryCodec { " ++ codecPart c ++ objectPart c ++ "} "

/-- The imports a file needs. -/
def imports (ds : List ClassDecl) : List String :=
  let any (p : ClassDecl → Bool) : Bool := ds.any p
  let lists := any fun d => d.fields.any fun f => match f.2 with | .list _ => true | _ => false
  let texts := any fun d => d.enc.any fun s => match s with | .dyn .. => true | .list _ _ _ _ (.dyn ..) => true | _ => false
  let sums := any fun d => d.enc.any fun s => match s with | .checksum .. => true | _ => false
  let facs := any fun d => (factoryOf d).isSome
  let fields := any fun d => !d.fields.isEmpty
  ["com.finproto.codec.BinaryCodec"]
    ++ (if sums then ["com.finproto.codec.ChecksumService", "com.finproto.codec.ChecksumServiceFactory"] else [])
    ++ ["io.netty.buffer.ByteBuf"]
    ++ (if texts then ["io.netty.util.internal.StringUtil", "java.nio.charset.StandardCharsets"] else [])
    ++ (if lists then ["java.util.ArrayList"] else [])
    ++ (if facs then ["java.util.HashMap"] else [])
    ++ (if lists then ["java.util.List"] else [])
    ++ (if facs then ["java.util.Map"] else [])
    ++ (if fields then ["java.util.Objects"] else [])
    ++ (if facs then ["java.util.function.Supplier"] else [])

def package : Mod → String
  | .sample => "com.finproto.sample.messages"
  | .sse => "com.finproto.sse.bin.messages"
  | .szse => "com.finproto.szse.bin.messages"
  | .bjse => "com.finproto.bjse.trade.messages"
  | .risk => "com.finproto.risk.bin.messages"

/-- `Outer_Inner` for nested classes: `inner` are the classes nested in `c`. -/
def ident (c : Cls) : String := ((toString (repr c)).splitOn ".").getLast!

def inner (c : Cls) : List Cls := allCls.filter fun k => (ident c ++ "_").isPrefixOf (ident k)

/-- The file of a class that is not nested. -/
def render (c : Cls) : String :=
  let d := decl c
  generated ++ "package " ++ package c.mod ++ "; "
    ++ String.join ((imports (d :: (inner c).map decl)).map fun i => "import " ++ i ++ "; ")
    ++ "public class " ++ d.name ++ " implements BinaryCodec { " ++ codecPart c ++ privateMap d ++ objectPart c ++ String.join ((inner c).map nested) ++ factory d ++ "}"

/-- All files: a line with the name of the class, then a line with the text. -/
def main : IO Unit :=
  for c in allCls do
    if !(allCls.any fun k => (ident k ++ "_").isPrefixOf (ident c)) then
      IO.println (ident c)
      IO.println ((render c).replace "\n" " ")

end FinProto.Render
