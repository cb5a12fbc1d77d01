import Verif.Model.Interp
/-
`encode`/`decode` while other threads change the registries.

The checksum registry (ChecksumServiceFactory.java:13) and the maps of the message factories are shared by all threads, and calls of
`registry`, `register`, `remove`, … by other threads can take effect between any two lookups of a running `encode`/`decode`.
`ws p` is the state of the registries while the running call has its reader index (decode) or writer index (encode) at `p`.
This is any development of the registries over time: between two lookups of one call the index grows, because the key of a factory lookup is
read from the buffer before it, and a checksum is written right after its lookup.

Simplification: as in `ConcurrentRegistry.lean`, one lookup sees one consistent state of a map.
-/
namespace FinProto

/-- A `decode` statement sequence; each statement sees the registries as they are at that moment.
[SseBinary.java:83-90, StringPacket.java:211-281] -/
def decStmtsDuring (ws : Nat → World) (call : DecCall) (tys : List FTy) : List DecStmt → DecSt → DecSt × Option JErr
  | [], st => (st, none)
  | s :: ss, st =>
    match decStmt (ws st.buf.rd) call tys s st with
    | (st', none) => decStmtsDuring ws call tys ss st'
    | (st', some e) => (st', some e)

/-- `o.decode(byteBuf)` as in `decode` (Interp.lean), with changing registries.
[SseBinary.java:83-90, StringPacket.java:211-281] -/
def decodeDuring (ws : Nat → World) : Nat → Cls → List Val → RBuf → List Val × RBuf × Option JErr
  | 0, _, fs, b => (fs, b, some .stackOverflow)
  | n + 1, c, fs, b =>
    let r := decStmtsDuring ws (decodeDuring ws n) ((decl c).fields.map (·.2)) (decl c).dec ⟨fs, b⟩
    (r.1.fs, r.1.buf, r.2)

/-- An `encode` statement sequence; each statement sees the registries as they are at that moment.
[SseBinary.java:61-80, StringPacket.java:125-208] -/
def encStmtsDuring (ws : Nat → World) (call : EncCall) : List EncStmt → EncSt → EncSt × Option JErr
  | [], st => (st, none)
  | s :: ss, st =>
    match encStmt (ws st.buf.wr) call s st with
    | (st', none) => encStmtsDuring ws call ss st'
    | (st', some e) => (st', some e)

/-- `v.encode(byteBuf)` as in `encode` (Interp.lean), with changing registries.
[SseBinary.java:61-80, StringPacket.java:125-208] -/
def encodeDuring (ws : Nat → World) : Nat → Val → WBuf → Val × WBuf × Option JErr
  | _, .null, b => (.null, b, some .nullPointer)
  | 0, v, b => (v, b, some .stackOverflow)
  | n + 1, .obj c fs, b =>
    let r := encStmtsDuring ws (encodeDuring ws n) (decl c).enc ⟨fs, b, fun _ => none⟩
    (.obj c r.1.fs, r.1.buf, r.2)
  | _ + 1, v, b => (v, b, some .illTyped)

end FinProto
