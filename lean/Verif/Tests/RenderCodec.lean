import Verif.Model.Codec
import Verif.Tests.RenderMethods
/-
The way back from the methods of `Model/Codec.lean` to the Java text of the files of the module `codec`.  `tools/roundtrip.py` compares the result with /repo,
comments and white space apart.  (A test of the model; no theorem uses it.)
-/
namespace FinProto.RenderCodec
open Mini

def ty : Ty → String
  | .byte => "byte" | .short => "short" | .char => "char" | .int => "int" | .long => "long" | .boolean => "boolean"
  | .string => "String" | .bytes => "byte[]" | .buf => "ByteBuf"

def op : Op → String
  | .add => "+" | .sub => "-" | .mul => "*" | .rem => "%" | .and => "&" | .or => "|" | .xor => "^" | .shl => "<<" | .shr => ">>" | .ushr => ">>>"
  | .lt => "<" | .gt => ">" | .eq => "==" | .ne => "!="

def hex (n : Nat) : String := "0x" ++ String.ofList ((Nat.toDigits 16 n).map Char.toUpper)

def expr : Expr → String
  | .var x => x
  | .dec n => toString n
  | .decL n => toString n ++ "L"
  | .hex n => hex n
  | .chr c => "'" ++ String.singleton (Char.ofNat c.toNat) ++ "'"
  | .lit b => toString b
  | .paren e => "(" ++ expr e ++ ")"
  | .bin o a b => expr a ++ " " ++ op o ++ " " ++ expr b
  | .land a b => expr a ++ " && " ++ expr b
  | .not e => "!" ++ expr e
  | .compl e => "~" ++ expr e
  | .cast t e => "(" ++ ty t ++ ") " ++ expr e
  | .index a i => expr a ++ "[" ++ expr i ++ "]"
  | .length e => expr e ++ ".length()"
  | .arrayLength e => expr e ++ ".length"
  | .charAt e i => expr e ++ ".charAt(" ++ expr i ++ ")"
  | .substring e a b => expr e ++ ".substring(" ++ expr a ++ ", " ++ expr b ++ ")"
  | .utf8 e => expr e ++ ".getBytes(StandardCharsets.UTF_8)"
  | .min a b => "Math.min(" ++ expr a ++ ", " ++ expr b ++ ")"
  | .isNullOrEmpty e => "StringUtil.isNullOrEmpty(" ++ expr e ++ ")"
  | .readerIndex b => expr b ++ ".readerIndex()"
  | .readableBytes b => expr b ++ ".readableBytes()"
  | .getUnsignedByte b i => expr b ++ ".getUnsignedByte(" ++ expr i ++ ")"
  | .readByte b => expr b ++ ".readByte()"
  | .readText b n => expr b ++ ".readCharSequence(" ++ expr n ++ ", StandardCharsets.UTF_8).toString()"

def args (es : List Expr) : String := ", ".intercalate (es.map expr)

mutual
def stmt : Stmt → String
  | .decl t x none => ty t ++ " " ++ x ++ "; "
  | .decl t x (some e) => ty t ++ " " ++ x ++ " = " ++ expr e ++ "; "
  | .assign x e => x ++ " = " ++ expr e ++ "; "
  | .opAssign x o e => x ++ " " ++ op o ++ "= " ++ expr e ++ "; "
  | .incr x => x ++ "++; "
  | .decr x => x ++ "--; "
  | .store a i e => a ++ "[" ++ expr i ++ "] = " ++ expr e ++ "; "
  | .writeByte b e => expr b ++ ".writeByte(" ++ expr e ++ "); "
  | .writeBytes b e o n => expr b ++ ".writeBytes(" ++ args [e, o, n] ++ "); "
  | .call m es => m ++ "(" ++ args es ++ "); "
  | .ret e => "return " ++ expr e ++ "; "
  | .retCall m es => "return " ++ m ++ "(" ++ args es ++ "); "
  | .ite c a [] => "if (" ++ expr c ++ ") { " ++ stmts a ++ "} "
  | .ite c a b => "if (" ++ expr c ++ ") { " ++ stmts a ++ "} else { " ++ stmts b ++ "} "
  | .when c s => "if (" ++ expr c ++ ") " ++ stmt s
  | .while c body => "while (" ++ expr c ++ ") { " ++ stmts body ++ "} "
  | .doWhile body c => "do { " ++ stmts body ++ "} while (" ++ expr c ++ "); "
  | .for x e c body => "for (int " ++ x ++ " = " ++ expr e ++ "; " ++ expr c ++ "; " ++ x ++ "++) { " ++ stmts body ++ "} "
def stmts : List Stmt → String
  | [] => ""
  | s :: ss => stmt s ++ stmts ss
end

/-- A method with what stands before its name. -/
def method (head name : String) (m : Method) : String :=
  head ++ " " ++ name ++ "(" ++ ", ".intercalate (m.params.map fun p => ty p.1 ++ " " ++ p.2) ++ ") { " ++ stmts m.body ++ "} "

/-! ### Precedence: the text of an expression means the expression

Java reads `a + b & c` as `(a + b) & c`.  `fits` checks that every operand binds at least as strongly as its place asks for, so that reading the text gives back
the expression (all binary operators associate to the left). -/

def Op.prec : Op → Nat
  | .mul | .rem => 12
  | .add | .sub => 11
  | .shl | .shr | .ushr => 10
  | .lt | .gt => 9
  | .eq | .ne => 8
  | .and => 7
  | .xor => 6
  | .or => 5

def prec : Expr → Nat
  | .bin o _ _ => Op.prec o
  | .land _ _ => 4
  | .not _ | .compl _ | .cast _ _ => 13
  | _ => 14

def fits : Expr → Bool
  | .paren e => fits e
  | .bin o a b => fits a && fits b && Op.prec o ≤ prec a && Op.prec o < prec b
  | .land a b => fits a && fits b && 4 ≤ prec a && 4 < prec b
  | .not e | .compl e | .cast _ e => fits e && 13 ≤ prec e
  | .length e | .arrayLength e | .utf8 e | .readerIndex e | .readableBytes e | .readByte e => fits e && prec e = 14
  | .index e i | .charAt e i | .getUnsignedByte e i | .readText e i => fits e && prec e = 14 && fits i
  | .substring e a b => fits e && prec e = 14 && fits a && fits b
  | .min a b => fits a && fits b
  | .isNullOrEmpty e => fits e
  | _ => true

mutual
def sfits : Stmt → Bool
  | .decl _ _ none | .incr _ | .decr _ => true
  | .decl _ _ (some e) | .assign _ e | .opAssign _ _ e | .ret e => fits e
  | .store _ i e => fits i && fits e
  | .writeByte b e => fits b && prec b = 14 && fits e
  | .writeBytes b e o n => fits b && prec b = 14 && fits e && fits o && fits n
  | .call _ es | .retCall _ es => es.all fits
  | .ite c a b => fits c && ssfit a && ssfit b
  | .when c s => fits c && sfits s
  | .while c body | .doWhile body c => fits c && ssfit body
  | .for _ e c body => fits e && fits c && ssfit body
def ssfit : List Stmt → Bool
  | [] => true
  | s :: ss => sfits s && ssfit ss
end

example : ([Mini.BinaryCodec.writeFixedString3, BinaryCodec.writeFixedString5, BinaryCodec.padChar, BinaryCodec.trimByChar, BinaryCodec.readFixedString2,
    BinaryCodec.readFixedString4, ⟨[], Crc16.init⟩, Crc16.calcMethod, ⟨[], Crc32.init⟩, Crc32.calcMethod, SseBin.calcMethod, SzseBin.calcMethod, ByteBitMap.set,
    ByteBitMap.clear, ByteBitMap.get, ByteBitMap.write, ByteBitMap.read, ByteBitMap.bitCount, ShortBitMap.set, ShortBitMap.clear, ShortBitMap.get,
    ShortBitMap.write, ShortBitMap.read, ShortBitMap.bitCount, IntBitMap.set, IntBitMap.clear, IntBitMap.get, IntBitMap.write, IntBitMap.read,
    IntBitMap.bitCount, LongBitMap.set, LongBitMap.clear, LongBitMap.get, LongBitMap.write, LongBitMap.read, LongBitMap.bitCount] : List Method).all
    (fun m => ssfit m.body) = true := by decide +kernel

/-! ### The files -/

def binaryCodec : String :=
  "package com.finproto.codec; import io.netty.buffer.ByteBuf; import io.netty.util.internal.StringUtil; import java.nio.charset.StandardCharsets; "
    ++ "public interface BinaryCodec { void encode(ByteBuf byteBuf); void decode(ByteBuf byteBuf); "
    ++ method "default void" "writeFixedString" BinaryCodec.writeFixedString3
    ++ method "default void" "writeFixedString" BinaryCodec.writeFixedString5
    ++ method "public default void" "padChar" BinaryCodec.padChar
    ++ method "public static String" "trimByChar" BinaryCodec.trimByChar
    ++ method "default String" "readFixedString" BinaryCodec.readFixedString2
    ++ method "default String" "readFixedString" BinaryCodec.readFixedString4 ++ "}"

def service (name alg : String) (init : Option (List Stmt)) (m : Method) : String :=
  "package com.finproto.codec; import io.netty.buffer.ByteBuf; public class " ++ name ++ " implements ChecksumService<ByteBuf, Integer> { "
    ++ (match init with | some ss => "private static final int[] CRC_TABLE = new int[256]; static { " ++ stmts ss ++ "} " | none => "")
    ++ method "@Override public Integer" "calc" m ++ "@Override public String algorithm() { return ChecksumAlgorithms." ++ alg ++ "; } }"

def bitMap (name : String) (t : Ty) (set clear get write read bitCount : Method) : String :=
  "package com.finproto.bitmap; import io.netty.buffer.ByteBuf; public final class " ++ name ++ " implements BitMap { private " ++ ty t ++ " bits; "
    ++ method "@Override public void" "set" set ++ method "@Override public void" "clear" clear ++ method "@Override public boolean" "get" get
    ++ method "@Override public void" "write" write ++ method "@Override public void" "read" read ++ method "@Override public int" "bitCount" bitCount ++ "}"

def mstmts : List Methods.Stmt → String := RenderMethods.stmts {}

/-- Class of a service. -/
def serviceClass (s : Service) : String := if s.algorithm = "CRC16" then "Crc16ChecksumService" else if s.algorithm = "CRC32" then "Crc32ChecksumService" else "?"

def serviceFactory : String :=
  "package com.finproto.codec; import java.util.HashMap; import java.util.Map; public enum ChecksumServiceFactory { INSTANCE; "
    ++ "public static ChecksumServiceFactory getInstance() { return INSTANCE; } private final Map<String, ChecksumService<?, ?>> CACHE = new HashMap<>(); "
    ++ "private ChecksumServiceFactory() { " ++ String.join (Methods.ctorServices.map fun s => "registry(new " ++ serviceClass s ++ "()); ") ++ "} "
    ++ "public void removeChecksumService(String name) { " ++ mstmts Methods.removeServiceBody ++ "} "
    ++ "public void clearAllChecksumService() { " ++ mstmts Methods.clearBody ++ "} "
    ++ "public boolean registry(ChecksumService<?, ?> checksumService) { " ++ mstmts Methods.registryBody ++ "} "
    ++ "@SuppressWarnings(\"unchecked\") public <T, R> ChecksumService<T, R> getChecksumService(String name) { " ++ mstmts Methods.getServiceBody ++ "} }"

def checksumService : String :=
  "package com.finproto.codec; import java.util.Objects; public interface ChecksumService<T, R> { R calc(T buffer); "
    ++ "default boolean verify(T buffer, R expectedChecksum) { " ++ mstmts Methods.verifyBody ++ "} String algorithm(); }"

/-- The constants; `algorithm()` of each service returns the one its file names. -/
def checksumAlgorithms : String :=
  let const (n : String) (s : Service) : String := "String " ++ n ++ " = \"" ++ s.algorithm ++ "\"; "
  "package com.finproto.codec; public interface ChecksumAlgorithms { " ++ const "CRC16" crc16Service ++ const "CRC32" crc32Service ++ const "SSE_BIN" sseBinService
    ++ const "SZSE_BIN" szseBinService ++ "}"

/-- The interface; its methods are those of the four classes. -/
def bitMapInterface : String :=
  "package com.finproto.bitmap; import io.netty.buffer.ByteBuf; public interface BitMap { void set(int pos); boolean get(int pos); void clear(int pos); "
    ++ "void write(ByteBuf buf); void read(ByteBuf buf); int bitCount(); }"

/-- All files: a line with the name, then a line with the text. -/
def main : IO Unit := do
  let file (n t : String) : IO Unit := do IO.println n; IO.println t
  file "codec/BinaryCodec" binaryCodec
  file "codec/Crc16ChecksumService" (service "Crc16ChecksumService" "CRC16" (some Crc16.init) Crc16.calcMethod)
  file "codec/Crc32ChecksumService" (service "Crc32ChecksumService" "CRC32" (some Crc32.init) Crc32.calcMethod)
  file "codec/SseBinChecksumService" (service "SseBinChecksumService" "SSE_BIN" none SseBin.calcMethod)
  file "codec/SzseBinChecksumService" (service "SzseBinChecksumService" "SZSE_BIN" none SzseBin.calcMethod)
  file "codec/ChecksumServiceFactory" serviceFactory
  file "codec/ChecksumService" checksumService
  file "codec/ChecksumAlgorithms" checksumAlgorithms
  file "bitmap/BitMap" bitMapInterface
  file "bitmap/ByteBitMap" (bitMap "ByteBitMap" .byte ByteBitMap.set ByteBitMap.clear ByteBitMap.get ByteBitMap.write ByteBitMap.read ByteBitMap.bitCount)
  file "bitmap/ShortBitMap" (bitMap "ShortBitMap" .short ShortBitMap.set ShortBitMap.clear ShortBitMap.get ShortBitMap.write ShortBitMap.read ShortBitMap.bitCount)
  file "bitmap/IntBitMap" (bitMap "IntBitMap" .int IntBitMap.set IntBitMap.clear IntBitMap.get IntBitMap.write IntBitMap.read IntBitMap.bitCount)
  file "bitmap/LongBitMap" (bitMap "LongBitMap" .long LongBitMap.set LongBitMap.clear LongBitMap.get LongBitMap.write LongBitMap.read LongBitMap.bitCount)

end FinProto.RenderCodec
