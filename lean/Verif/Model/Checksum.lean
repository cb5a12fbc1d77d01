import Verif.Model.Buf
/-
Model of codec/src/main/java/com/finproto/codec/{Crc16,Crc32,SseBin,SzseBin}ChecksumService.java,
ChecksumService.java, ChecksumAlgorithms.java and ChecksumServiceFactory.java.

All four `calc` methods read `readerIndex()`/`readableBytes()` and then only
`getUnsignedByte(readerIndex + i)` for `0 ≤ i < readableBytes`; they never move an index or write.
`crc16Calc` … `szseBinCalc` model them with that index loop; `crc16` … `szseBin` are the same folds over
the list of readable bytes (the two agree: lemma `calcLoop_eq`).
-/
namespace FinProto

/-! ### CRC-16 -/

/-- One step of the table construction, Crc16ChecksumService.java:14-18. -/
def crc16TabStep (crc : BitVec 32) : BitVec 32 :=
  if crc &&& 1 ≠ 0 then (crc >>> 1) ^^^ 0xA001#32 else crc >>> 1

/-- Eight steps, Crc16ChecksumService.java:11-20: `CRC_TABLE[i]`. -/
def crc16TabEntry (i : Nat) : BitVec 32 :=
  (List.range 8).foldl (fun c _ => crc16TabStep c) (BitVec.ofNat 32 i)

/-- `CRC_TABLE`, Crc16ChecksumService.java:8-22. -/
def crc16Table : List (BitVec 32) := (List.range 256).map crc16TabEntry

/-- Loop body, Crc16ChecksumService.java:31-32.  The index is masked to 0..255, so the array access cannot fail. -/
def crc16Step (crc : BitVec 32) (b : Byte) : BitVec 32 :=
  (crc >>> 8) ^^^ crc16Table.getD ((crc ^^^ b.setWidth 32) &&& 0xFF#32).toNat 0

/-- `Crc16ChecksumService.calc`, Crc16ChecksumService.java:25-36. -/
def crc16 (bs : List Byte) : BitVec 32 := bs.foldl crc16Step 0xFFFF#32 &&& 0xFFFF#32

/-! ### CRC-32 -/

/-- One step of the table construction, Crc32ChecksumService.java:14-18. -/
def crc32TabStep (c : BitVec 32) : BitVec 32 :=
  if c &&& 1 ≠ 0 then 0xEDB88320#32 ^^^ (c >>> 1) else c >>> 1

/-- Eight steps, Crc32ChecksumService.java:11-20: `CRC_TABLE[i]`. -/
def crc32TabEntry (i : Nat) : BitVec 32 :=
  (List.range 8).foldl (fun c _ => crc32TabStep c) (BitVec.ofNat 32 i)

/-- `CRC_TABLE`, Crc32ChecksumService.java:8-22. -/
def crc32Table : List (BitVec 32) := (List.range 256).map crc32TabEntry

/-- Loop body, Crc32ChecksumService.java:31-32. -/
def crc32Step (crc : BitVec 32) (b : Byte) : BitVec 32 :=
  crc32Table.getD ((crc ^^^ b.setWidth 32) &&& 0xFF#32).toNat 0 ^^^ (crc >>> 8)

/-- `Crc32ChecksumService.calc`, Crc32ChecksumService.java:25-36. -/
def crc32 (bs : List Byte) : BitVec 32 := bs.foldl crc32Step 0xFFFFFFFF#32 ^^^ 0xFFFFFFFF#32

/-! ### Byte sums -/

/-- `SseBinChecksumService.calc`, SseBinChecksumService.java:12-22. -/
def sseBin (bs : List Byte) : BitVec 32 :=
  bs.foldl (fun (checksum : BitVec 32) (b : Byte) => (checksum + b.setWidth 32) &&& 0xFF#32) 0

/-- The `long sum` of SzseBinChecksumService.java:16-19. -/
def szseSum (bs : List Byte) : BitVec 64 :=
  bs.foldl (fun (sum : BitVec 64) (b : Byte) => sum + b.setWidth 64) 0

/-- `SzseBinChecksumService.calc`, SzseBinChecksumService.java:12-22: `(int) (sum % 256)` with Java's
(sign-following) remainder on `long`. -/
def szseBin (bs : List Byte) : BitVec 32 := ((szseSum bs).srem 256#64).setWidth 32

/-! ### The index loops -/

/-- `ByteBuf.getUnsignedByte(index)`: checked against the capacity; reads the backing array.
[Crc32ChecksumService.java:31] -/
def RBuf.getUnsignedByte (b : RBuf) (i : Nat) : Except JErr Byte :=
  match (b.data ++ b.spare)[i]? with
  | some x => .ok x
  | none => .error .indexOutOfBounds

/-- The common loop `for (i …; i < readableBytes; i++) acc = step(acc, buf.getUnsignedByte(readerIndex + i))`
(Crc16ChecksumService.java:30-33, Crc32ChecksumService.java:30-33, SseBinChecksumService.java:17-20,
SzseBinChecksumService.java:17-19) with `n` iterations to go. -/
def calcLoop {α : Type} (step : α → Byte → α) (b : RBuf) : Nat → Nat → α → Except JErr α
  | 0, _, acc => .ok acc
  | n + 1, i, acc =>
    match b.getUnsignedByte (b.rd + i) with
    | .ok x => calcLoop step b n (i + 1) (step acc x)
    | .error e => .error e

/-- `Crc16ChecksumService.calc(buf)`, Crc16ChecksumService.java:25-36. -/
def crc16Calc (b : RBuf) : Except JErr (BitVec 32) :=
  (calcLoop crc16Step b (b.data.length - b.rd) 0 0xFFFF#32).map (· &&& 0xFFFF#32)

/-- `Crc32ChecksumService.calc(buf)`, Crc32ChecksumService.java:25-36. -/
def crc32Calc (b : RBuf) : Except JErr (BitVec 32) :=
  (calcLoop crc32Step b (b.data.length - b.rd) 0 0xFFFFFFFF#32).map (· ^^^ 0xFFFFFFFF#32)

/-- `SseBinChecksumService.calc(buf)`, SseBinChecksumService.java:12-22. -/
def sseBinCalc (b : RBuf) : Except JErr (BitVec 32) :=
  calcLoop (fun (checksum : BitVec 32) (x : Byte) => (checksum + x.setWidth 32) &&& 0xFF#32) b (b.data.length - b.rd) 0 0

/-- `SzseBinChecksumService.calc(buf)`, SzseBinChecksumService.java:12-22. -/
def szseBinCalc (b : RBuf) : Except JErr (BitVec 32) :=
  (calcLoop (fun (sum : BitVec 64) (x : Byte) => sum + x.setWidth 64) b (b.data.length - b.rd) 0 0).map
    fun sum => (sum.srem 256#64).setWidth 32

/-! ### Services and their registry -/

/-- A checksum service over a buffer: its algorithm name and its `calc` on the readable bytes.
(Simplification: services that modify the buffer, throw or return null are not represented.)
[ChecksumService.java:13, ChecksumService.java:31] -/
structure Service where
  algorithm : String
  calcOn : List Byte → BitVec 32

/-- The four services with their names, ChecksumAlgorithms.java:4-7 and the `algorithm()` methods
(Crc16ChecksumService.java:39-41, Crc32ChecksumService.java:39-41, SseBinChecksumService.java:25-27,
SzseBinChecksumService.java:25-27). -/
def crc16Service : Service := ⟨"CRC16", crc16⟩
/-- `CRC32`. [Crc32ChecksumService.java:24-41] -/
def crc32Service : Service := ⟨"CRC32", crc32⟩
/-- `SSE_BIN`. [SseBinChecksumService.java:11-27] -/
def sseBinService : Service := ⟨"SSE_BIN", sseBin⟩
/-- `SZSE_BIN`. [SzseBinChecksumService.java:11-27] -/
def szseBinService : Service := ⟨"SZSE_BIN", szseBin⟩

/-- `verify(buffer, expectedChecksum)`, ChecksumService.java:22-24; `none` is a null argument. -/
def Service.verify (s : Service) (b : RBuf) (expected : Option (BitVec 32)) : Bool :=
  some (s.calcOn b.readable) == expected

/-- `CACHE`, ChecksumServiceFactory.java:13: a `HashMap<String, ChecksumService>` as a partial function. -/
abbrev Registry := String → Option Service

/-- `registry(checksumService)`, ChecksumServiceFactory.java:28-34. -/
def Registry.registry (r : Registry) (s : Service) : Registry × Bool :=
  if (r s.algorithm).isSome then (r, false)
  else (fun n => if n = s.algorithm then some s else r n, true)

/-- `removeChecksumService(name)`, ChecksumServiceFactory.java:20-22. -/
def Registry.remove (r : Registry) (name : String) : Registry :=
  fun n => if n = name then none else r n

/-- `clearAllChecksumService()`, ChecksumServiceFactory.java:24-26. -/
def Registry.clear (_ : Registry) : Registry := fun _ => none

/-- `getChecksumService(name)`, ChecksumServiceFactory.java:37-39. -/
def Registry.getService (r : Registry) (name : String) : Option Service := r name

/-- The enum constructor, ChecksumServiceFactory.java:13-18: registers CRC16 and CRC32 only. -/
def Registry.initial : Registry :=
  (Registry.registry (Registry.registry (fun _ => none) crc16Service).1 crc32Service).1

end FinProto
