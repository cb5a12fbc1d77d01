import Verif.Model.Basic
/-
`String.getBytes(UTF_8)` and `new String(bytes, off, len, UTF_8)` of the JDK.
Library model; part of the trusted base (JDK 11 `StringCoding.encodeUTF8` / `decodeUTF8_0`).
-/
namespace FinProto

/-- Is it a high surrogate?. [BinaryCodec.java:21 (`getBytes`), StringPacket.java:129] -/
def isHigh (c : JChar) : Bool := 0xD800 ≤ c.toNat && c.toNat < 0xDC00
/-- Is it a low surrogate?. [BinaryCodec.java:21 (`getBytes`), StringPacket.java:129] -/
def isLow (c : JChar) : Bool := 0xDC00 ≤ c.toNat && c.toNat < 0xE000

/-- The Unicode scalar values `getBytes` encodes: surrogate pairs are combined, an
unpaired surrogate is replaced by `'?'` (0x3F), as the JDK encoder does. [BinaryCodec.java:21
(`getBytes`), StringPacket.java:129] -/
def scalars : JStr → List Nat
  | [] => []
  | [c] => [if isHigh c || isLow c then 0x3F else c.toNat]
  | c :: d :: t =>
    if isHigh c then
      if isLow d then (0x10000 + (c.toNat - 0xD800) * 0x400 + (d.toNat - 0xDC00)) :: scalars t
      else 0x3F :: scalars (d :: t)
    else (if isLow c then 0x3F else c.toNat) :: scalars (d :: t)

/-- UTF-8 form of one scalar value. [BinaryCodec.java:21 (`getBytes`), StringPacket.java:129] -/
def utf8Scalar (u : Nat) : List Byte :=
  if u < 0x80 then [BitVec.ofNat 8 u]
  else if u < 0x800 then [BitVec.ofNat 8 (0xC0 + u / 0x40), BitVec.ofNat 8 (0x80 + u % 0x40)]
  else if u < 0x10000 then
    [BitVec.ofNat 8 (0xE0 + u / 0x1000), BitVec.ofNat 8 (0x80 + u / 0x40 % 0x40),
     BitVec.ofNat 8 (0x80 + u % 0x40)]
  else
    [BitVec.ofNat 8 (0xF0 + u / 0x40000), BitVec.ofNat 8 (0x80 + u / 0x1000 % 0x40),
     BitVec.ofNat 8 (0x80 + u / 0x40 % 0x40), BitVec.ofNat 8 (0x80 + u % 0x40)]

/-- UTF-16 form of one scalar value. [BinaryCodec.java:21 (`getBytes`), StringPacket.java:129] -/
def utf16Scalar (u : Nat) : JStr :=
  if u < 0x10000 then [BitVec.ofNat 16 u]
  else [BitVec.ofNat 16 (0xD800 + (u - 0x10000) / 0x400), BitVec.ofNat 16 (0xDC00 + (u - 0x10000) % 0x400)]

/-- `s.getBytes(StandardCharsets.UTF_8)`. [BinaryCodec.java:21 (`getBytes`), StringPacket.java:129]
-/
def utf8Enc (s : JStr) : List Byte := (scalars s).flatMap utf8Scalar

/-- U+FFFD, the decoder's replacement character. [BinaryCodec.java:63 (`readCharSequence`)] -/
def repl : JChar := 0xFFFD

/-- Is it a continuation byte?. [BinaryCodec.java:63 (`readCharSequence`)] -/
def isCont (b : Byte) : Bool := 0x80 ≤ b.toNat && b.toNat < 0xC0

/-- One step of the JDK decoder at lead byte `b` with the bytes `t` after it: the
code units emitted and how many bytes of `t` the step consumes (`t.length` when the
decoder stops: an incomplete sequence at the end of the input gives one U+FFFD).
[BinaryCodec.java:63 (`readCharSequence`)] -/
def utf8Step (b : Byte) (t : List Byte) : JStr × Nat :=
  let b1 := b.toNat
  if b1 < 0x80 then ([BitVec.ofNat 16 b1], 0)
  else if 0xC2 ≤ b1 && b1 < 0xE0 then
    match t with
    | c :: _ =>
      if isCont c then ([BitVec.ofNat 16 ((b1 - 0xC0) * 0x40 + (c.toNat - 0x80))], 1)
      else ([repl], 0)
    | [] => ([repl], 0)
  else if 0xE0 ≤ b1 && b1 < 0xF0 then
    match t with
    | c :: d :: _ =>
      if (b1 == 0xE0 && c.toNat < 0xA0) || !isCont c then ([repl], 0)
      else if !isCont d then ([repl], 1)
      else
        let u := (b1 - 0xE0) * 0x1000 + (c.toNat - 0x80) * 0x40 + (d.toNat - 0x80)
        if 0xD800 ≤ u && u < 0xE000 then ([repl], 2) else ([BitVec.ofNat 16 u], 2)
    | [c] => if (b1 == 0xE0 && c.toNat < 0xA0) || !isCont c then ([repl], 0) else ([repl], 1)
    | [] => ([repl], 0)
  else if 0xF0 ≤ b1 && b1 < 0xF8 then
    match t with
    | c :: d :: f :: _ =>
      if 0xF4 < b1 || (b1 == 0xF0 && c.toNat < 0x90) || (b1 == 0xF4 && 0x90 ≤ c.toNat) || !isCont c then
        ([repl], 0)
      else if !isCont d then ([repl], 1)
      else if !isCont f then ([repl], 2)
      else
        (utf16Scalar ((b1 - 0xF0) * 0x40000 + (c.toNat - 0x80) * 0x1000 + (d.toNat - 0x80) * 0x40
          + (f.toNat - 0x80)), 3)
    | c :: t' =>
      if 0xF4 < b1 || (b1 == 0xF0 && c.toNat < 0x90) || (b1 == 0xF4 && 0x90 ≤ c.toNat) || !isCont c then
        ([repl], 0)
      else
        match t' with
        | d :: _ => if !isCont d then ([repl], 1) else ([repl], t.length)
        | [] => ([repl], t.length)
    | [] => ([repl], 0)
  else ([repl], 0)

/-- Decoder loop; the first argument counts bytes still to be skipped. [BinaryCodec.java:63
(`readCharSequence`)] -/
def utf8DecGo : Nat → List Byte → JStr
  | _, [] => []
  | k + 1, _ :: t => utf8DecGo k t
  | 0, b :: t => (utf8Step b t).1 ++ utf8DecGo (utf8Step b t).2 t

/-- `new String(bytes, UTF_8)`. [BinaryCodec.java:63 (`readCharSequence`), StringPacket.java:215] -/
def utf8Dec (bs : List Byte) : JStr := utf8DecGo 0 bs

end FinProto
