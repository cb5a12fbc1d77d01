import Verif.Proofs.Checksum
import Verif.Proofs.Registry
/-
Properties C07–C16: checksum services and their registry.
-/
namespace FinProto

/-- **C07.** `Crc16ChecksumService.calc` never fails and returns CRC-16/MODBUS of the readable bytes, a number in 0..0xFFFF.
(The model of `calc` has no way to change the buffer: it only uses `getUnsignedByte`.) -/
theorem C07_crc16 (b : RBuf) :
    ∃ v, crc16Calc b = .ok v ∧ v.toNat = (crc16Modbus b.readable).toNat ∧ v.toNat < 0x10000 := by
  refine ⟨_, crc16Calc_eq b, ?_, ?_⟩ <;> rw [crc16_eq] <;> have := (crc16Modbus b.readable).isLt <;> simp <;> omega

/-- The standard check value of CRC-16/MODBUS on "123456789", with bytes in front of the reader index and behind the writer
index ignored. -/
example : crc16Modbus (utf8Enc (js "123456789")) = 0x4B37 := by decide +kernel
example : (crc16Calc ⟨7 :: utf8Enc (js "123456789"), [5], 1⟩).toOption = some 0x4B37 := by decide +kernel

/-- **C08.** `Crc32ChecksumService.calc` never fails and returns CRC-32/ISO-HDLC of the readable bytes. -/
theorem C08_crc32 (b : RBuf) : crc32Calc b = .ok (crc32IsoHdlc b.readable) := by
  rw [crc32Calc_eq, crc32_eq]

example : crc32IsoHdlc (utf8Enc (js "123456789")) = 0xCBF43926 := by decide +kernel
example : (crc32Calc ⟨7 :: utf8Enc (js "123456789"), [5], 1⟩).toOption = some 0xCBF43926 := by decide +kernel

/-- **C09.** Two messages that differ, and only inside a window of at most 16 consecutive bits, have different CRC16 values. -/
theorem C09_burst16 (b1 b2 : RBuf) (p e1 e2 s : List Bool)
    (h1 : msgBits b1.readable = p ++ e1 ++ s) (h2 : msgBits b2.readable = p ++ e2 ++ s)
    (hl : e1.length = e2.length) (hk : e1.length ≤ 16) (hne : e1 ≠ e2) :
    (crc16Calc b1).toOption ≠ (crc16Calc b2).toOption := by
  rw [crc16Calc_eq, crc16Calc_eq, crc16_eq, crc16_eq]
  intro h
  refine crcRef_burst 0xA001#16 0xFFFF#16 0#16 (by decide) _ _ p e1 e2 s h1 h2 hl hk hne ?_
  have h : (crc16Modbus b1.readable).setWidth 32 = (crc16Modbus b2.readable).setWidth 32 := by
    simpa [Except.toOption] using h
  have h := congrArg (·.setWidth 16) h
  simpa [crc16Modbus] using h

/-- **C09.** Likewise for CRC32 with windows of at most 32 bits. -/
theorem C09_burst32 (b1 b2 : RBuf) (p e1 e2 s : List Bool)
    (h1 : msgBits b1.readable = p ++ e1 ++ s) (h2 : msgBits b2.readable = p ++ e2 ++ s)
    (hl : e1.length = e2.length) (hk : e1.length ≤ 32) (hne : e1 ≠ e2) :
    (crc32Calc b1).toOption ≠ (crc32Calc b2).toOption := by
  rw [crc32Calc_eq, crc32Calc_eq, crc32_eq, crc32_eq]
  intro h
  refine crcRef_burst 0xEDB88320#32 0xFFFFFFFF#32 0xFFFFFFFF#32 (by decide) _ _ p e1 e2 s h1 h2 hl hk hne ?_
  simpa [Except.toOption, crc32IsoHdlc] using h

/-- **C09.** In bytes: buffers whose readable bytes differ, and only in up to two (CRC16) / four (CRC32) adjacent bytes, have different
checksums. -/
theorem C09_burst_bytes (b1 b2 : RBuf) (p w1 w2 s : List Byte) (h1 : b1.readable = p ++ w1 ++ s) (h2 : b2.readable = p ++ w2 ++ s)
    (hl : w1.length = w2.length) (hne : w1 ≠ w2) :
    (w1.length ≤ 2 → (crc16Calc b1).toOption ≠ (crc16Calc b2).toOption)
      ∧ (w1.length ≤ 4 → (crc32Calc b1).toOption ≠ (crc32Calc b2).toOption) := by
  have hb : msgBits w1 ≠ msgBits w2 := fun h => hne (msgBits_inj _ _ h)
  have hbl : (msgBits w1).length = (msgBits w2).length := by rw [msgBits_length, msgBits_length, hl]
  constructor
  · intro hk
    exact C09_burst16 b1 b2 (msgBits p) (msgBits w1) (msgBits w2) (msgBits s)
      (by rw [h1]; simp [msgBits_append]) (by rw [h2]; simp [msgBits_append]) hbl (by rw [msgBits_length]; omega) hb
  · intro hk
    exact C09_burst32 b1 b2 (msgBits p) (msgBits w1) (msgBits w2) (msgBits s)
      (by rw [h1]; simp [msgBits_append]) (by rw [h2]; simp [msgBits_append]) hbl (by rw [msgBits_length]; omega) hb

/-- Two buffers meeting the hypotheses with a window of two bytes. -/
example : (RBuf.mk [9, 1, 2, 3, 4] [] 1).readable = [1] ++ [2, 3] ++ [4]
    ∧ (RBuf.mk [1, 7, 3, 4] [] 0).readable = [1] ++ [7, 3] ++ [4] := by decide

example : msgBits [0x01, 0x80] = [] ++ [true] ++ (List.replicate 14 false ++ [true]) ∧
    msgBits [0x00, 0x80] = [] ++ [false] ++ (List.replicate 14 false ++ [true]) := by decide

/-- **C10.** `SseBinChecksumService.calc` never fails and returns the byte sum modulo 256. -/
theorem C10_sse_sum (b : RBuf) :
    ∃ v, sseBinCalc b = .ok v ∧ v.toNat = byteSum b.readable % 256 ∧ v.toNat < 256 := by
  refine ⟨_, sseBinCalc_eq b, sseBin_toNat _, ?_⟩
  rw [sseBin_toNat]
  omega

example : (sseBinCalc ⟨[1, 0xFF, 0xFF], [9], 1⟩).toOption = some 254 := by decide

/-- **C11.** For every buffer shorter than 2^31 bytes (every Java buffer) the 64-bit accumulator holds the exact sum, and
`SzseBinChecksumService.calc` returns the byte sum modulo 256, as an `int`, i.e. the same value as the SSE service. -/
theorem C11_szse_sum (b : RBuf) (h : b.data.length < 2 ^ 31) :
    (szseSum b.readable).toNat = byteSum b.readable
      ∧ (∃ v, szseBinCalc b = .ok v ∧ v.toNat = byteSum b.readable % 256)
      ∧ szseBinCalc b = sseBinCalc b := by
  have hr : b.readable.length < 2 ^ 31 := by
    simp only [RBuf.readable, List.length_drop]
    omega
  refine ⟨szseSum_toNat _ hr, ⟨_, szseBinCalc_eq b, szseBin_toNat _ hr⟩, ?_⟩
  rw [szseBinCalc_eq, sseBinCalc_eq]
  congr 1
  apply BitVec.eq_of_toNat_eq
  rw [szseBin_toNat _ hr, sseBin_toNat]

example : (szseBinCalc ⟨[1, 0xFF, 0xFF], [9], 1⟩).toOption = some 254 := by decide

theorem sseBin_single_byte (p s : List Byte) (x y : Byte) (hne : x ≠ y) :
    sseBin (p ++ x :: s) ≠ sseBin (p ++ y :: s) := by
  intro h
  have h := congrArg BitVec.toNat h
  rw [sseBin_toNat, sseBin_toNat, byteSum_append, byteSum_append] at h
  have hx := x.isLt
  have hy := y.isLt
  have : x.toNat ≠ y.toNat := fun h => hne (BitVec.eq_of_toNat_eq h)
  simp [byteSum] at h
  omega

/-- **C12.** Changing exactly one readable byte changes the checksum of the SSE service … -/
theorem C12_single_byte (b1 b2 : RBuf) (p s : List Byte) (x y : Byte) (h1 : b1.readable = p ++ x :: s)
    (h2 : b2.readable = p ++ y :: s) (hne : x ≠ y) : (sseBinCalc b1).toOption ≠ (sseBinCalc b2).toOption := by
  rw [sseBinCalc_eq, sseBinCalc_eq, h1, h2]
  intro h
  exact sseBin_single_byte p s x y hne (by simpa [Except.toOption] using h)

/-- **C12.** … and of the SZSE service. -/
theorem C12_single_byte_szse (b1 b2 : RBuf) (p s : List Byte) (x y : Byte) (h1 : b1.readable = p ++ x :: s)
    (h2 : b2.readable = p ++ y :: s) (hne : x ≠ y) (hlen : b1.readable.length < 2 ^ 31) :
    (szseBinCalc b1).toOption ≠ (szseBinCalc b2).toOption := by
  rw [h1] at hlen
  rw [szseBinCalc_eq, szseBinCalc_eq, h1, h2]
  intro h
  apply sseBin_single_byte p s x y hne
  apply BitVec.eq_of_toNat_eq
  have h : szseBin (p ++ x :: s) = szseBin (p ++ y :: s) := by simpa [Except.toOption] using h
  have h := congrArg BitVec.toNat h
  rwa [szseBin_toNat _ hlen, szseBin_toNat _ (by simpa using hlen), ← sseBin_toNat, ← sseBin_toNat] at h

example : (RBuf.mk [9, 1, 2, 3] [] 1).readable = [1] ++ 2 :: [3] ∧ (RBuf.mk [1, 7, 3] [] 0).readable = [1] ++ 7 :: [3] := by decide

/-- **C12.** No reordering of the readable bytes is ever noticed, by either service. -/
theorem C12_permutation (b1 b2 : RBuf) (h : b1.readable.Perm b2.readable) :
    sseBinCalc b1 = sseBinCalc b2 ∧ szseBinCalc b1 = szseBinCalc b2 := by
  have hs : byteSum b1.readable = byteSum b2.readable := (h.map _).sum_nat
  rw [sseBinCalc_eq, sseBinCalc_eq, szseBinCalc_eq, szseBinCalc_eq]
  constructor
  · congr 1
    apply BitVec.eq_of_toNat_eq
    rw [sseBin_toNat, sseBin_toNat, hs]
  · have : szseSum b1.readable = szseSum b2.readable :=
      h.foldl_eq' (fun x _ y _ z => by simp only [BitVec.add_assoc]; rw [BitVec.add_comm (x.setWidth 64)]) _
    rw [szseBin, szseBin, this]

example : ([1, 2, 3] : List Byte).Perm [3, 1, 2] := by decide

/-- **C13.** The sum checksum of a concatenation is the sum of the parts' checksums modulo 256 (SSE service). -/
theorem C13_sum_concat (b1 b2 b : RBuf) (h : b.readable = b1.readable ++ b2.readable) :
    ∃ v1 v2 v, sseBinCalc b1 = .ok v1 ∧ sseBinCalc b2 = .ok v2 ∧ sseBinCalc b = .ok v
      ∧ v.toNat = (v1.toNat + v2.toNat) % 256 := by
  refine ⟨_, _, _, sseBinCalc_eq b1, sseBinCalc_eq b2, sseBinCalc_eq b, ?_⟩
  rw [h, sseBin_toNat, sseBin_toNat, sseBin_toNat, byteSum_append]
  omega

/-- **C13.** The same for the SZSE service and buffers shorter than 2^31 bytes. -/
theorem C13_sum_concat_szse (b1 b2 b : RBuf) (h : b.readable = b1.readable ++ b2.readable) (hlen : b.readable.length < 2 ^ 31) :
    ∃ v1 v2 v, szseBinCalc b1 = .ok v1 ∧ szseBinCalc b2 = .ok v2 ∧ szseBinCalc b = .ok v
      ∧ v.toNat = (v1.toNat + v2.toNat) % 256 := by
  refine ⟨_, _, _, szseBinCalc_eq b1, szseBinCalc_eq b2, szseBinCalc_eq b, ?_⟩
  rw [h] at hlen ⊢
  simp only [List.length_append] at hlen
  rw [szseBin_toNat _ (by simp; omega), szseBin_toNat _ (by omega), szseBin_toNat _ (by omega), byteSum_append]
  omega

example : (RBuf.mk [0, 200, 100, 7] [3] 1).readable = (RBuf.mk [200] [] 0).readable ++ (RBuf.mk [5, 100, 7] [] 1).readable := by decide

/-- **C13.** Two prefixes have equal CRCs exactly if they stay equal under a common suffix; so the CRC of a concatenation is a
function of the CRC of the first part and the bytes of the second, and injective in the former. -/
theorem C13_crc_concat (b1 b2 e1 e2 : RBuf) (s : List Byte) (h1 : e1.readable = b1.readable ++ s) (h2 : e2.readable = b2.readable ++ s) :
    ((crc16Calc e1).toOption = (crc16Calc e2).toOption ↔ (crc16Calc b1).toOption = (crc16Calc b2).toOption)
      ∧ ((crc32Calc e1).toOption = (crc32Calc e2).toOption ↔ (crc32Calc b1).toOption = (crc32Calc b2).toOption) := by
  simp only [crc16Calc_eq, crc32Calc_eq, h1, h2, Except.toOption, Option.some.injEq]
  obtain ⟨a, ha⟩ : ∃ a, a = b1.readable := ⟨_, rfl⟩
  obtain ⟨a', ha'⟩ : ∃ a', a' = b2.readable := ⟨_, rfl⟩
  rw [← ha, ← ha']
  have key : ∀ {w : Nat} (poly init xo : BitVec (w + 1)), poly.msb = true →
      (crcRef poly init xo (a ++ s) = crcRef poly init xo (a' ++ s) ↔ crcRef poly init xo a = crcRef poly init xo a') := by
    intro w poly init xo hp
    have hx : ∀ x y : BitVec (w + 1), x ^^^ xo = y ^^^ xo ↔ x = y := by
      intro x y
      refine ⟨fun h => ?_, fun h => by rw [h]⟩
      have := congrArg (· ^^^ xo) h
      simpa [BitVec.xor_assoc] using this
    unfold crcRef
    rw [hx, hx, msgBits_append, msgBits_append, List.foldl_append, List.foldl_append]
    exact ⟨crcBits_inj poly hp _ _ _, fun h => by rw [h]⟩
  constructor
  · have h16 : ∀ x y : BitVec 16, x.setWidth 32 = y.setWidth 32 ↔ x = y := by
      intro x y
      refine ⟨fun h => ?_, fun h => by rw [h]⟩
      have := congrArg (·.setWidth 16) h
      simpa using this
    rw [crc16_eq, crc16_eq, crc16_eq, crc16_eq, h16, h16]
    exact key 0xA001#16 0xFFFF#16 0#16 (by decide)
  · rw [crc32_eq, crc32_eq, crc32_eq, crc32_eq]
    exact key 0xEDB88320#32 0xFFFFFFFF#32 0xFFFFFFFF#32 (by decide)

example : (RBuf.mk [0, 1, 2, 9] [] 1).readable = (RBuf.mk [1, 2] [] 0).readable ++ [9] := by decide

/-- **C14.** `verify` answers true exactly for the calculated checksum, and false for null; so it accepts exactly one value. -/
theorem C14_verify (s : Service) (b : RBuf) (expected : Option (BitVec 32)) :
    s.verify b expected = true ↔ expected = some (s.calcOn b.readable) := by
  rw [Service.verify, beq_iff_eq]
  exact eq_comm

/-- **C14.** For the four services of the library: `verify` is true exactly if `calc` returned that value. -/
theorem C14_verify_calc (b : RBuf) (v : BitVec 32) :
    (crc16Service.verify b (some v) = true ↔ crc16Calc b = .ok v)
      ∧ (crc32Service.verify b (some v) = true ↔ crc32Calc b = .ok v)
      ∧ (sseBinService.verify b (some v) = true ↔ sseBinCalc b = .ok v)
      ∧ (szseBinService.verify b (some v) = true ↔ szseBinCalc b = .ok v) := by
  simp only [C14_verify, crc16Calc_eq, crc32Calc_eq, sseBinCalc_eq, szseBinCalc_eq, Except.ok.injEq, Option.some.injEq]
  exact ⟨eq_comm, eq_comm, eq_comm, eq_comm⟩

example : sseBinService.verify ⟨[200, 100], [], 0⟩ (some 44) = true ∧ sseBinService.verify ⟨[200, 100], [], 0⟩ none = false := by
  decide

/-- **C15.** After any history of calls on a new factory, `getChecksumService(name)` returns the first service offered for that name
since the last call that reset it (the factory itself registers CRC16 and CRC32 first). -/
theorem C15_lookup (history : List RegCall) (name : String) :
    Registry.getService (runCalls Registry.initial history) name = registeredAfter (startCalls ++ history) name := by
  rw [← runCalls_eq, runCalls, runCalls, List.foldl_append]
  rfl

/-- **C15.** `registry(s)` returns true exactly if the name was free, and then `s` is what is found under it. -/
theorem C15_registry_result (history : List RegCall) (s : Service) :
    ((Registry.registry (runCalls Registry.initial history) s).2 = true
        ↔ registeredAfter (startCalls ++ history) s.algorithm = none)
      ∧ ((Registry.registry (runCalls Registry.initial history) s).2 = true →
          Registry.getService (runCalls Registry.initial (history ++ [.registry s])) s.algorithm = some s) := by
  have hl := C15_lookup history s.algorithm
  rw [Registry.getService] at hl
  rw [← hl]
  have hr : runCalls Registry.initial (history ++ [.registry s]) =
      RegCall.run (runCalls Registry.initial history) (.registry s) := by
    simp [runCalls, List.foldl_append]
  rw [hr, Registry.getService]
  generalize runCalls Registry.initial history = g
  simp only [Registry.registry, RegCall.run]
  cases hg : g s.algorithm <;> simp

/-- **C15.** Calls that concern other names do not affect a name. -/
theorem C15_names_independent (history : List RegCall) (c : RegCall) (name : String)
    (h1 : c.resets name = false) (h2 : c.offers name = none) :
    Registry.getService (runCalls Registry.initial (history ++ [c])) name
      = Registry.getService (runCalls Registry.initial history) name := by
  rw [C15_lookup, C15_lookup, ← List.append_assoc, registeredAfter_snoc, h1, h2]
  cases registeredAfter (startCalls ++ history) name <;> rfl

/-- First registration wins, and a removed name can be registered again. -/
example : ((Registry.getService (runCalls Registry.initial [.registry ⟨"CRC16", fun _ => 0⟩]) "CRC16").map fun s => s.calcOn [])
    = some 0xFFFF := by decide
example : ((Registry.getService (runCalls Registry.initial
      [.remove "CRC16", .registry ⟨"CRC16", fun _ => 7⟩, .registry crc16Service]) "CRC16").map fun s => s.calcOn []) = some 7 := by
  decide

/-- **C16 (registry part).** In a fresh process a service is found exactly for "CRC16" and "CRC32", and it is the matching one. -/
theorem C16_default_registry (name : String) :
    ((Registry.getService Registry.initial name).isSome = true ↔ name = "CRC16" ∨ name = "CRC32")
      ∧ (∃ s, Registry.getService Registry.initial "CRC16" = some s ∧ ∀ bytes, s.calcOn bytes = (crc16Modbus bytes).setWidth 32)
      ∧ (∃ s, Registry.getService Registry.initial "CRC32" = some s ∧ ∀ bytes, s.calcOn bytes = crc32IsoHdlc bytes)
      ∧ Registry.getService Registry.initial "SSE_BIN" = none
      ∧ Registry.getService Registry.initial "SZSE_BIN" = none := by
  have hreg : ∀ n, Registry.initial n =
      if n = "CRC32" then some crc32Service else if n = "CRC16" then some crc16Service else none := by
    intro n
    rfl
  refine ⟨?_, ?_, ?_, ?_, ?_⟩
  · simp only [Registry.getService, hreg]
    by_cases h1 : name = "CRC32"
    · simp [h1]
    · by_cases h2 : name = "CRC16" <;> simp [h1, h2]
  · exact ⟨crc16Service, by simp [Registry.getService, hreg], fun bytes => crc16_eq bytes⟩
  · exact ⟨crc32Service, by simp [Registry.getService, hreg], fun bytes => crc32_eq bytes⟩
  all_goals simp [Registry.getService, hreg]

/-- `C09_burst16`, `C09_burst32`: one bit of the first byte is wrong. -/
example := C09_burst16 ⟨[9, 0x01, 0x80], [], 1⟩ ⟨[0x00, 0x80], [], 0⟩ [] [true] [false] (List.replicate 14 false ++ [true])
  (by decide +kernel) (by decide +kernel) rfl (by decide) (by decide)
example := C09_burst32 ⟨[9, 0x01, 0x80], [], 1⟩ ⟨[0x00, 0x80], [], 0⟩ [] [true] [false] (List.replicate 14 false ++ [true])
  (by decide +kernel) (by decide +kernel) rfl (by decide) (by decide)

/-- `C12_single_byte`, `C13_sum_concat`. -/
example := C12_single_byte ⟨[9, 1, 2, 3], [], 1⟩ ⟨[1, 7, 3], [], 0⟩ [1] [3] 2 7 (by decide) (by decide) (by decide)
example := C13_sum_concat ⟨[200], [], 0⟩ ⟨[5, 100, 7], [], 1⟩ ⟨[0, 200, 100, 7], [3], 1⟩ (by decide)

end FinProto
