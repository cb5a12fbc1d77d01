import Verif.Proofs.Integrity
import Verif.Props.Checksum
import Verif.Props.Flips
import Verif.Props.Frames
import Verif.Props.RoundTrip
/-
C75: a receiver that recomputes the checksum takes every genuine frame and notices corrupted bytes.

A sender encodes a frame into a buffer without readable bytes, with the frame's checksum service registered.  `(…).2.1.data.drop b.data.length`
are the bytes of the frame.  A receiver (`accepts`, `Spec/Integrity.lean`) decodes bytes into a new object, requires that all of them are
used, and lets the service verify the decoded checksum against all bytes but the last four.  Sender and receiver may be different
processes (`w`, `wr`) with different call-stack depths (`n`, `m`).
-/
namespace FinProto

/-- **C75.** What such a receiver takes, exactly: bytes that `decode` takes as a whole and that end in the checksum of what is in front. -/
theorem C75_accepts_iff (s : Service) (w : World) (n : Nat) (c : Cls) (e : Endian) (h : sumOrder c = some e) (F : List Byte) :
    accepts s w n c F = true ↔
      (∃ fs b, decode w n c (freshFields c) ⟨F, [], 0⟩ = (fs, b, none) ∧ b.rd = F.length)
      ∧ ∃ front, F = front ++ (Num.int (s.calcOn front)).bytes e :=
  accepts_form s w n c e h F

/-- The bytes of an SSE frame. -/
theorem sse_ends (w : World) (n : Nat) (b : WBuf) (ty seq len ck : Num) (body : Val) (s : Service)
    (hv : wellTyped (.obj .sse_SseBinary [.num ty, .num seq, .num len, body, .num ck]) = true) (hb : b.Valid)
    (hok : (encode w n (.obj .sse_SseBinary [.num ty, .num seq, .num len, body, .num ck]) b).2.2 = none)
    (hs : w.svc.getService "SSE_BIN" = some s) (hrd : b.rd = b.data.length) :
    ∃ own, (encode w n (.obj .sse_SseBinary [.num ty, .num seq, .num len, body, .num ck]) b).2.1.data
      = b.data ++ (own ++ (Num.int (s.calcOn own)).bytes .be) := by
  obtain ⟨front, own, len', ck', body', h1, _, h3, _, h5, h6⟩ := C34_sse w n b ty seq len ck body hv hb hok
  refine ⟨own, ?_⟩
  rw [h1, h3 s hs, h6 hrd, h5, List.append_assoc]

/-- The bytes of an SZSE frame. -/
theorem szse_ends (w : World) (n : Nat) (b : WBuf) (ty len ck : Num) (body : Val) (s : Service)
    (hv : wellTyped (.obj .szse_SzseBinary [.num ty, .num len, body, .num ck]) = true) (hb : b.Valid)
    (hok : (encode w n (.obj .szse_SzseBinary [.num ty, .num len, body, .num ck]) b).2.2 = none)
    (hs : w.svc.getService "SZSE_BIN" = some s) (hrd : b.rd = b.data.length) :
    ∃ own, (encode w n (.obj .szse_SzseBinary [.num ty, .num len, body, .num ck]) b).2.1.data
      = b.data ++ (own ++ (Num.int (s.calcOn own)).bytes .be) := by
  obtain ⟨front, own, len', ck', body', h1, _, h3, _, h5, h6⟩ := C34_szse w n b ty len ck body hv hb hok
  refine ⟨own, ?_⟩
  rw [h1, h3 s hs, h6 hrd, h5, List.append_assoc]

/-- The bytes of a sample root packet. -/
theorem root_ends (w : World) (n : Nat) (b : WBuf) (ty len ck : Num) (body : Val) (s : Service)
    (hv : wellTyped (.obj .sample_RootPacket [.num ty, .num len, body, .num ck]) = true) (hb : b.Valid)
    (hok : (encode w n (.obj .sample_RootPacket [.num ty, .num len, body, .num ck]) b).2.2 = none)
    (hs : w.svc.getService "CRC32" = some s) (hrd : b.rd = b.data.length) :
    ∃ own, (encode w n (.obj .sample_RootPacket [.num ty, .num len, body, .num ck]) b).2.1.data
      = b.data ++ (own ++ (Num.int (s.calcOn own)).bytes .le) := by
  obtain ⟨front, own, len', ck', body', h1, _, h3, _, h5, h6⟩ := C34_root w n b ty len ck body hv hb hok
  refine ⟨own, ?_⟩
  rw [h1, h3 s hs, h6 hrd, h5, List.append_assoc]

theorem genuine_accepted (ws wr : World) (n m : Nat) (c : Cls) (e : Endian) (he : sumOrder c = some e) (fs : List Val) (b : WBuf)
    (s : Service) (hv : wellTyped (.obj c fs) = true) (hb : b.Valid) (hok : (encode ws n (.obj c fs) b).2.2 = none)
    (hends : ∃ own, (encode ws n (.obj c fs) b).2.1.data = b.data ++ (own ++ (Num.int (s.calcOn own)).bytes e))
    (hl : legible wr (.obj c fs)) (hm : depth (.obj c fs) ≤ m) :
    accepts s wr m c ((encode ws n (.obj c fs) b).2.1.data.drop b.data.length) = true := by
  obtain ⟨bytes, fs', h1, _, h3⟩ := C23_general ws wr n m c fs b hv hb hok hl hm
  obtain ⟨own, h4⟩ := hends
  rw [accepts_form s wr m c e he]
  rw [h1, List.drop_left]
  have h5 : bytes = own ++ (Num.int (s.calcOn own)).bytes e := List.append_cancel_left (h1.symm.trans h4)
  have h6 := h3 [] [] []
  simp only [List.nil_append, List.append_nil, List.length_nil, Nat.zero_add] at h6
  exact ⟨⟨_, _, h6, rfl⟩, own, h5⟩

/-- **C75.** Every genuine SSE frame a receiver can follow (`legible`) is accepted. -/
theorem C75_genuine_sse (w wr : World) (n m : Nat) (b : WBuf) (ty seq len ck : Num) (body : Val) (s : Service)
    (hv : wellTyped (.obj .sse_SseBinary [.num ty, .num seq, .num len, body, .num ck]) = true) (hb : b.Valid)
    (hok : (encode w n (.obj .sse_SseBinary [.num ty, .num seq, .num len, body, .num ck]) b).2.2 = none)
    (hs : w.svc.getService "SSE_BIN" = some s) (hrd : b.rd = b.data.length)
    (hl : legible wr (.obj .sse_SseBinary [.num ty, .num seq, .num len, body, .num ck]))
    (hm : depth (.obj .sse_SseBinary [.num ty, .num seq, .num len, body, .num ck]) ≤ m) :
    accepts s wr m .sse_SseBinary
      ((encode w n (.obj .sse_SseBinary [.num ty, .num seq, .num len, body, .num ck]) b).2.1.data.drop b.data.length) = true :=
  genuine_accepted w wr n m _ _ rfl _ b s hv hb hok (sse_ends w n b ty seq len ck body s hv hb hok hs hrd) hl hm

/-- **C75.** … every genuine SZSE frame … -/
theorem C75_genuine_szse (w wr : World) (n m : Nat) (b : WBuf) (ty len ck : Num) (body : Val) (s : Service)
    (hv : wellTyped (.obj .szse_SzseBinary [.num ty, .num len, body, .num ck]) = true) (hb : b.Valid)
    (hok : (encode w n (.obj .szse_SzseBinary [.num ty, .num len, body, .num ck]) b).2.2 = none)
    (hs : w.svc.getService "SZSE_BIN" = some s) (hrd : b.rd = b.data.length)
    (hl : legible wr (.obj .szse_SzseBinary [.num ty, .num len, body, .num ck]))
    (hm : depth (.obj .szse_SzseBinary [.num ty, .num len, body, .num ck]) ≤ m) :
    accepts s wr m .szse_SzseBinary
      ((encode w n (.obj .szse_SzseBinary [.num ty, .num len, body, .num ck]) b).2.1.data.drop b.data.length) = true :=
  genuine_accepted w wr n m _ _ rfl _ b s hv hb hok (szse_ends w n b ty len ck body s hv hb hok hs hrd) hl hm

/-- **C75.** … and every genuine sample root packet. -/
theorem C75_genuine_root (w wr : World) (n m : Nat) (b : WBuf) (ty len ck : Num) (body : Val) (s : Service)
    (hv : wellTyped (.obj .sample_RootPacket [.num ty, .num len, body, .num ck]) = true) (hb : b.Valid)
    (hok : (encode w n (.obj .sample_RootPacket [.num ty, .num len, body, .num ck]) b).2.2 = none)
    (hs : w.svc.getService "CRC32" = some s) (hrd : b.rd = b.data.length)
    (hl : legible wr (.obj .sample_RootPacket [.num ty, .num len, body, .num ck]))
    (hm : depth (.obj .sample_RootPacket [.num ty, .num len, body, .num ck]) ≤ m) :
    accepts s wr m .sample_RootPacket
      ((encode w n (.obj .sample_RootPacket [.num ty, .num len, body, .num ck]) b).2.1.data.drop b.data.length) = true :=
  genuine_accepted w wr n m _ _ rfl _ b s hv hb hok (root_ends w n b ty len ck body s hv hb hok hs hrd) hl hm

/-- **C75.** One changed byte anywhere in a genuine SSE frame (header, body or checksum): no receiver accepts the result. -/
theorem C75_corrupted_sse (w wr : World) (n m : Nat) (b : WBuf) (ty seq len ck : Num) (body : Val)
    (hv : wellTyped (.obj .sse_SseBinary [.num ty, .num seq, .num len, body, .num ck]) = true) (hb : b.Valid)
    (hok : (encode w n (.obj .sse_SseBinary [.num ty, .num seq, .num len, body, .num ck]) b).2.2 = none)
    (hs : w.svc.getService "SSE_BIN" = some sseBinService) (hrd : b.rd = b.data.length) (F' : List Byte)
    (hF : OneByteChanged
      ((encode w n (.obj .sse_SseBinary [.num ty, .num seq, .num len, body, .num ck]) b).2.1.data.drop b.data.length) F') :
    accepts sseBinService wr m .sse_SseBinary F' = false := by
  obtain ⟨own, h⟩ := sse_ends w n b ty seq len ck body _ hv hb hok hs hrd
  rw [h, List.drop_left] at hF
  rw [Bool.eq_false_iff]
  intro ha
  obtain ⟨_, front, rfl⟩ := (accepts_form _ _ _ _ _ rfl _).mp ha
  refine one_byte_noticed sseBinService .be own front ?_ hF
  intro p x y q h1 h2 hne he
  exact C12_single_byte ⟨own, [], 0⟩ ⟨front, [], 0⟩ p q x y h1 h2 hne (by
    rw [sseBinCalc_eq, sseBinCalc_eq]; exact congrArg some he)

/-- **C75.** The same for SZSE frames shorter than 2^31 bytes (Netty buffers are never longer). -/
theorem C75_corrupted_szse (w wr : World) (n m : Nat) (b : WBuf) (ty len ck : Num) (body : Val)
    (hv : wellTyped (.obj .szse_SzseBinary [.num ty, .num len, body, .num ck]) = true) (hb : b.Valid)
    (hok : (encode w n (.obj .szse_SzseBinary [.num ty, .num len, body, .num ck]) b).2.2 = none)
    (hs : w.svc.getService "SZSE_BIN" = some szseBinService) (hrd : b.rd = b.data.length) (F' : List Byte) (hlen : F'.length < 2 ^ 31)
    (hF : OneByteChanged
      ((encode w n (.obj .szse_SzseBinary [.num ty, .num len, body, .num ck]) b).2.1.data.drop b.data.length) F') :
    accepts szseBinService wr m .szse_SzseBinary F' = false := by
  obtain ⟨own, h⟩ := szse_ends w n b ty len ck body _ hv hb hok hs hrd
  rw [h, List.drop_left] at hF
  rw [Bool.eq_false_iff]
  intro ha
  obtain ⟨_, front, rfl⟩ := (accepts_form _ _ _ _ _ rfl _).mp ha
  refine one_byte_noticed szseBinService .be own front ?_ hF
  intro p x y q h1 h2 hne he
  exact C12_single_byte_szse ⟨own, [], 0⟩ ⟨front, [], 0⟩ p q x y h1 h2 hne (by
      simp only [List.length_append] at hlen
      have a := congrArg List.length h1
      have b := congrArg List.length h2
      simp only [List.length_append, List.length_cons] at a b
      show own.length < _
      omega) (by
    rw [szseBinCalc_eq, szseBinCalc_eq]; exact congrArg some he)

/-- Two root packets with right checksums have the same CRC-32 as a whole, so they cannot differ by an error that CRC-32 sees. -/
theorem root_residue (w wr : World) (n m : Nat) (b : WBuf) (ty len ck : Num) (body : Val)
    (hv : wellTyped (.obj .sample_RootPacket [.num ty, .num len, body, .num ck]) = true) (hb : b.Valid)
    (hok : (encode w n (.obj .sample_RootPacket [.num ty, .num len, body, .num ck]) b).2.2 = none)
    (hs : w.svc.getService "CRC32" = some crc32Service) (hrd : b.rd = b.data.length) (F' : List Byte)
    (ha : accepts crc32Service wr m .sample_RootPacket F' = true) :
    (crc32Calc ⟨(encode w n (.obj .sample_RootPacket [.num ty, .num len, body, .num ck]) b).2.1.data.drop b.data.length, [], 0⟩).toOption
      = (crc32Calc ⟨F', [], 0⟩).toOption := by
  obtain ⟨own, h⟩ := root_ends w n b ty len ck body _ hv hb hok hs hrd
  obtain ⟨_, front, rfl⟩ := (accepts_form _ _ _ _ _ rfl _).mp ha
  rw [h, List.drop_left, crc32Calc_eq, crc32Calc_eq]
  simp only [RBuf.readable, List.drop_zero]
  have hr : ∀ A, crc32 (A ++ (Num.int (crc32Service.calcOn A)).bytes .le) = 0x2144DF1C#32 := by
    intro A
    show crc32 (A ++ (Num.int (crc32 A)).bytes .le) = _
    rw [crc32_eq, crc32_eq]
    exact crc_residue A
  rw [hr, hr]

/-- **C75.** Any change of bits of a genuine sample root packet within 32 consecutive bits, wherever they are (also across the boundary
between body and checksum): no receiver accepts the result.  In particular up to four adjacent changed bytes. -/
theorem C75_corrupted_root (w wr : World) (n m : Nat) (b : WBuf) (ty len ck : Num) (body : Val)
    (hv : wellTyped (.obj .sample_RootPacket [.num ty, .num len, body, .num ck]) = true) (hb : b.Valid)
    (hok : (encode w n (.obj .sample_RootPacket [.num ty, .num len, body, .num ck]) b).2.2 = none)
    (hs : w.svc.getService "CRC32" = some crc32Service) (hrd : b.rd = b.data.length) (F' : List Byte)
    (hF : BurstChanged 32
      ((encode w n (.obj .sample_RootPacket [.num ty, .num len, body, .num ck]) b).2.1.data.drop b.data.length) F') :
    accepts crc32Service wr m .sample_RootPacket F' = false := by
  rw [Bool.eq_false_iff]
  intro ha
  obtain ⟨p, e, e', q, h1, h2, h3, h4, h5⟩ := hF
  exact C09_burst32 ⟨_, [], 0⟩ ⟨F', [], 0⟩ p e e' q h1 h2 h3 h4 h5 (root_residue w wr n m b ty len ck body hv hb hok hs hrd F' ha)

/-- **C75.** Two flipped bits anywhere in a genuine sample root packet of at most 536870911 bytes: no receiver accepts the result. -/
theorem C75_two_bits_root (w wr : World) (n m : Nat) (b : WBuf) (ty len ck : Num) (body : Val)
    (hv : wellTyped (.obj .sample_RootPacket [.num ty, .num len, body, .num ck]) = true) (hb : b.Valid)
    (hok : (encode w n (.obj .sample_RootPacket [.num ty, .num len, body, .num ck]) b).2.2 = none)
    (hs : w.svc.getService "CRC32" = some crc32Service) (hrd : b.rd = b.data.length) (F' : List Byte) (hlen : F'.length ≤ 536870911)
    (hl : ((encode w n (.obj .sample_RootPacket [.num ty, .num len, body, .num ck]) b).2.1.data.drop b.data.length).length = F'.length)
    (hF : (flips ((encode w n (.obj .sample_RootPacket [.num ty, .num len, body, .num ck]) b).2.1.data.drop b.data.length) F').length = 2) :
    accepts crc32Service wr m .sample_RootPacket F' = false := by
  rw [Bool.eq_false_iff]
  intro ha
  exact (C68_few ⟨_, [], 0⟩ ⟨F', [], 0⟩ hl).2 (Nat.le_trans (Nat.le_of_eq hl) hlen) hF
    (root_residue w wr n m b ty len ck body hv hb hok hs hrd F' ha)

/-- **C75.** Up to three flipped bits anywhere in a genuine sample root packet of at most 11454 bytes, its checksum included: no receiver
accepts the result. -/
theorem C75_three_bits_root (w wr : World) (n m : Nat) (b : WBuf) (ty len ck : Num) (body : Val)
    (hv : wellTyped (.obj .sample_RootPacket [.num ty, .num len, body, .num ck]) = true) (hb : b.Valid)
    (hok : (encode w n (.obj .sample_RootPacket [.num ty, .num len, body, .num ck]) b).2.2 = none)
    (hs : w.svc.getService "CRC32" = some crc32Service) (hrd : b.rd = b.data.length) (F' : List Byte) (hlen : F'.length ≤ 11454)
    (hl : ((encode w n (.obj .sample_RootPacket [.num ty, .num len, body, .num ck]) b).2.1.data.drop b.data.length).length = F'.length)
    (hF : F' ≠ (encode w n (.obj .sample_RootPacket [.num ty, .num len, body, .num ck]) b).2.1.data.drop b.data.length)
    (h3 : (flips ((encode w n (.obj .sample_RootPacket [.num ty, .num len, body, .num ck]) b).2.1.data.drop b.data.length) F').length ≤ 3) :
    accepts crc32Service wr m .sample_RootPacket F' = false := by
  rw [Bool.eq_false_iff]
  intro ha
  exact C68_three32 ⟨_, [], 0⟩ ⟨F', [], 0⟩ hl (Nat.le_trans (Nat.le_of_eq hl) hlen) (flips_pos _ _ hl (fun h => hF h.symm)) h3
    (root_residue w wr n m b ty len ck body hv hb hok hs hrd F' ha)

/-- **C75.** Up to four flipped bits anywhere in a genuine sample root packet of at most 375 bytes, its checksum included: no receiver
accepts the result. -/
theorem C75_four_bits_root (w wr : World) (n m : Nat) (b : WBuf) (ty len ck : Num) (body : Val)
    (hv : wellTyped (.obj .sample_RootPacket [.num ty, .num len, body, .num ck]) = true) (hb : b.Valid)
    (hok : (encode w n (.obj .sample_RootPacket [.num ty, .num len, body, .num ck]) b).2.2 = none)
    (hs : w.svc.getService "CRC32" = some crc32Service) (hrd : b.rd = b.data.length) (F' : List Byte) (hlen : F'.length ≤ 375)
    (hl : ((encode w n (.obj .sample_RootPacket [.num ty, .num len, body, .num ck]) b).2.1.data.drop b.data.length).length = F'.length)
    (hF : F' ≠ (encode w n (.obj .sample_RootPacket [.num ty, .num len, body, .num ck]) b).2.1.data.drop b.data.length)
    (h4 : (flips ((encode w n (.obj .sample_RootPacket [.num ty, .num len, body, .num ck]) b).2.1.data.drop b.data.length) F').length ≤ 4) :
    accepts crc32Service wr m .sample_RootPacket F' = false := by
  rw [Bool.eq_false_iff]
  intro ha
  exact C68_four32 ⟨_, [], 0⟩ ⟨F', [], 0⟩ hl (Nat.le_trans (Nat.le_of_eq hl) hlen) (flips_pos _ _ hl (fun h => hF h.symm)) h4
    (root_residue w wr n m b ty len ck body hv hb hok hs hrd F' ha)

/-- The frame `exCanonical` written by a process that registered the SSE service, behind one byte that has already been read. -/
def exGenuine : List Byte := (encode exSseWorld 3 exCanonical ⟨[9], 1, 100⟩).2.1.data.drop 1

/-- It meets the hypotheses of `C75_genuine_sse` and `C75_corrupted_sse`: it is accepted, a copy with one changed byte in the body (which
`decode` takes as well) is not, nor is one with a changed checksum byte. -/
example : wellTyped exCanonical = true ∧ (WBuf.mk [9] 1 100).Valid ∧ (encode exSseWorld 3 exCanonical ⟨[9], 1, 100⟩).2.2 = none
    ∧ exSseWorld.svc.getService "SSE_BIN" = some sseBinService ∧ depth exCanonical ≤ 3 :=
  ⟨by decide +kernel, ⟨by decide, by decide⟩, by decide +kernel, rfl, by decide +kernel⟩
example : legible World.initial exCanonical :=
  (canonical_facts World.initial exCanonical (by decide +kernel) exCanonical_canonical).2.1
example : exGenuine.length = 42 ∧ accepts sseBinService World.initial 3 .sse_SseBinary exGenuine = true := by decide +kernel
example : OneByteChanged exGenuine (exGenuine.set 29 7)
    ∧ (decode World.initial 3 .sse_SseBinary (freshFields .sse_SseBinary) ⟨exGenuine.set 29 7, [], 0⟩).2.2 = none
    ∧ accepts sseBinService World.initial 3 .sse_SseBinary (exGenuine.set 29 7) = false
    ∧ accepts sseBinService World.initial 3 .sse_SseBinary (exGenuine.set 41 7) = false :=
  ⟨⟨exGenuine.take 29, 1, 7, exGenuine.drop 30, by decide +kernel, by decide +kernel, by decide⟩,
    by decide +kernel, by decide +kernel, by decide +kernel⟩

/-- A sample root packet for `C75_genuine_root`, `C75_corrupted_root` and `C75_two_bits_root`. -/
def exRoot : Val := .obj .sample_RootPacket
  [.num ⟨.i16, 4⟩, .num ⟨.i32, 0⟩, .obj .sample_EmptyPacket [], .num ⟨.i32, 0⟩]

example : wellTyped exRoot = true ∧ (encode World.initial 3 exRoot ⟨[], 0, 100⟩).2.2 = none
    ∧ World.initial.svc.getService "CRC32" = some crc32Service :=
  ⟨by decide +kernel, by decide +kernel, rfl⟩

/-- Its ten bytes; the last three bytes of the header and the first of the checksum changed. -/
def exRootBytes : List Byte := (encode World.initial 3 exRoot ⟨[], 0, 100⟩).2.1.data.drop 0
def exRootBurst : List Byte := exRootBytes.take 3 ++ [1, 2, 3, 4] ++ exRootBytes.drop 7

set_option maxRecDepth 8000 in
example : legible World.initial exRoot := ⟨trivial, trivial, ⟨⟨_, rfl, rfl⟩, trivial⟩, trivial, trivial⟩
example : exRootBytes.length = 10 ∧ accepts crc32Service World.initial 3 .sample_RootPacket exRootBytes = true := by decide +kernel
example : BurstChanged 32 exRootBytes exRootBurst :=
  ⟨msgBits (exRootBytes.take 3), msgBits ((exRootBytes.drop 3).take 4), msgBits [1, 2, 3, 4], msgBits (exRootBytes.drop 7),
    by decide +kernel, by decide +kernel, by decide +kernel, by decide +kernel, by decide +kernel⟩
example : (decode World.initial 3 .sample_RootPacket (freshFields .sample_RootPacket) ⟨exRootBurst, [], 0⟩).2.2 = none
    ∧ accepts crc32Service World.initial 3 .sample_RootPacket exRootBurst = false := by decide +kernel
example : (flips exRootBytes ((exRootBytes.set 5 1).set 9 (exRootBytes[9]! ^^^ 4))).length = 2
    ∧ accepts crc32Service World.initial 3 .sample_RootPacket ((exRootBytes.set 5 1).set 9 (exRootBytes[9]! ^^^ 4)) = false := by
  decide +kernel
example : (flips exRootBytes ((exRootBytes.set 5 3).set 9 (exRootBytes[9]! ^^^ 4))).length = 3
    ∧ accepts crc32Service World.initial 3 .sample_RootPacket ((exRootBytes.set 5 3).set 9 (exRootBytes[9]! ^^^ 4)) = false := by
  decide +kernel

/-- **C75, what the sums cannot see.** Two exchanged bytes in an SSE frame go unnoticed: the result is accepted. -/
theorem C75_exchanged_bytes_violated :
    ∃ F F' : List Byte, accepts sseBinService World.initial 3 .sse_SseBinary F = true
      ∧ (∃ b : WBuf, b.rd = b.data.length ∧ (encode exSseWorld 3 exCanonical b).2.1.data.drop b.data.length = F)
      ∧ F' ≠ F ∧ F'.length = F.length ∧ accepts sseBinService World.initial 3 .sse_SseBinary F' = true := by
  refine ⟨exGenuine, (exGenuine.set 28 1).set 29 0, by decide +kernel, ⟨⟨[9], 1, 100⟩, rfl, rfl⟩, by decide +kernel, by decide +kernel,
    by decide +kernel⟩

/-- **C75 violated for buffers with unread bytes.** Written behind a byte that has not been read yet, a genuine frame carries the checksum
of that byte and its own bytes; a receiver of the frame refuses it. -/
theorem C75_unread_bytes_violated :
    ∃ b : WBuf, b.Valid ∧ (encode exSseWorld 3 exCanonical b).2.2 = none
      ∧ accepts sseBinService World.initial 3 .sse_SseBinary ((encode exSseWorld 3 exCanonical b).2.1.data.drop b.data.length) = false :=
  ⟨⟨[9], 0, 100⟩, ⟨by decide, by decide⟩, by decide +kernel, by decide +kernel⟩

private theorem exCanonical_legible : legible World.initial exCanonical :=
  (canonical_facts World.initial exCanonical (by decide +kernel) exCanonical_canonical).2.1

/-- The theorems on these frames. -/
example := C75_accepts_iff sseBinService World.initial 3 .sse_SseBinary .be rfl exGenuine
example := C75_genuine_sse exSseWorld World.initial 3 3 ⟨[9], 1, 100⟩ _ _ _ _ _ sseBinService (by decide +kernel : wellTyped exCanonical = true)
  ⟨by decide, by decide⟩ (by decide +kernel) rfl rfl exCanonical_legible (by decide +kernel)
example := C75_corrupted_sse exSseWorld World.initial 3 3 ⟨[9], 1, 100⟩ _ _ _ _ _ (by decide +kernel : wellTyped exCanonical = true)
  ⟨by decide, by decide⟩ (by decide +kernel) rfl rfl (exGenuine.set 29 7)
  ⟨exGenuine.take 29, 1, 7, exGenuine.drop 30, by decide +kernel, by decide +kernel, by decide⟩

private def exSzseWorld : World := { World.initial with svc := (World.initial.svc.registry szseBinService).1 }
private def exSzse : Val := .obj .szse_SzseBinary [.num ⟨.i32, 3⟩, .num ⟨.i32, 999⟩, .obj .szse_Heartbeat [], .num ⟨.i32, 0x55⟩]
set_option maxRecDepth 8000 in
private theorem exSzse_legible : legible World.initial exSzse := ⟨trivial, trivial, ⟨⟨_, rfl, rfl⟩, trivial⟩, trivial, trivial⟩

example := C75_genuine_szse exSzseWorld World.initial 3 3 ⟨[9], 1, 100⟩ _ _ _ _ szseBinService (by decide +kernel : wellTyped exSzse = true)
  ⟨by decide, by decide⟩ (by decide +kernel) rfl rfl exSzse_legible (by decide +kernel)
example := C75_corrupted_szse exSzseWorld World.initial 3 3 ⟨[9], 1, 100⟩ _ _ _ _ (by decide +kernel : wellTyped exSzse = true)
  ⟨by decide, by decide⟩ (by decide +kernel) rfl rfl [1, 0, 0, 3, 0, 0, 0, 0, 0, 0, 0, 3] (by decide)
  ⟨[], 0, 1, [0, 0, 3, 0, 0, 0, 0, 0, 0, 0, 3], by decide +kernel, rfl, by decide⟩
example := C75_three_bits_root World.initial World.initial 3 3 ⟨[], 0, 100⟩ _ _ _ _ (by decide +kernel : wellTyped exRoot = true)
  ⟨by decide, by decide⟩ (by decide +kernel) rfl rfl ((exRootBytes.set 5 3).set 9 (exRootBytes[9]! ^^^ 4)) (by decide +kernel) (by decide +kernel)
  (by decide +kernel) (by decide +kernel)
example := C75_four_bits_root World.initial World.initial 3 3 ⟨[], 0, 100⟩ _ _ _ _ (by decide +kernel : wellTyped exRoot = true)
  ⟨by decide, by decide⟩ (by decide +kernel) rfl rfl ((exRootBytes.set 5 7).set 9 (exRootBytes[9]! ^^^ 4)) (by decide +kernel) (by decide +kernel)
  (by decide +kernel) (by decide +kernel)

end FinProto
