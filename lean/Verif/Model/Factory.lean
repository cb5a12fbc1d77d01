import Verif.Model.Interp
/-
Message factories.  All `enum ...MessageFactory` types in the repository have the same code; it is cited for
  RootPacket.PayloadMessageFactory   sample-bin/.../RootPacket.java:112-145
  SseBinary.BodyMessageFactory       sse-bin/.../SseBinary.java:128-226 (with a reverse map)
and is textually identical (up to key type and map name; checked by tools/extract.py) in SzseBinary, RcBinary,
BjseBinary and in the ApplExtendMessageFactory of the SZSE/BJSE order, report and quote classes.
`TradeCaptureCofirm` (bjse) has a private static map instead, without register/remove
(bjse-bin/.../TradeCaptureCofirm.java:354-371).
-/
namespace FinProto

/-- The maps of all factories and the reverse map of the SSE factory (SseBinary.java:132).
A `HashMap` is a partial function; storing a null supplier is the same as storing nothing for every public method. -/
structure Factories where
  map : Fac → Key → Option Val
  rev : Cls → Option (BitVec 32)

/-- Has the factory public `register`/`remove` methods? [SseBinary.java:209-216,
RootPacket.java:134-140] -/
def Fac.isPublic : Fac → Bool
  | .bjse_TradeCaptureCofirm => false
  | _ => true

/-- `create(key)`: RootPacket.java:126-132, SseBinary.java:201-207, TradeCaptureCofirm.java:364-370, etc. -/
def Factories.create (F : Factories) (f : Fac) (k : Key) : Except JErr Val :=
  match F.map f k with
  | none => .error .illegalArgument
  | some v => .ok v

/-- `map.put(key, supplier)`. [SseBinary.java:210, RootPacket.java:135] -/
def Factories.put (F : Factories) (f : Fac) (k : Key) (s : Option Val) : Factories :=
  { F with map := fun f' k' => if f' = f ∧ k' = k then s else F.map f' k' }

/-- `register(key, supplier)`: RootPacket.java:134-136 etc. -/
def Factories.register (F : Factories) (f : Fac) (k : Key) (s : Option Val) : Factories := F.put f k s

/-- `register(clazz, msgType, supplier)` of the SSE factory, SseBinary.java:209-212. -/
def Factories.registerSse (F : Factories) (c : Cls) (t : BitVec 32) (s : Option Val) : Factories :=
  let F' := F.put .sse_SseBinary (.int t) s
  { F' with rev := fun c' => if c' = c then some t else F'.rev c' }

/-- `remove(key)`: RootPacket.java:138-140, SseBinary.java:214-216, etc. -/
def Factories.remove (F : Factories) (f : Fac) (k : Key) : Factories × Bool :=
  ({ F with map := fun f' k' => if f' = f ∧ k' = k then none else F.map f' k' }, (F.map f k).isSome)

/-- `getMsgType(clazz)`, SseBinary.java:218-220; `none` is null. -/
def Factories.getMsgType (F : Factories) (c : Cls) : Option (BitVec 32) := F.rev c

/-- `MessageType.getValue()`, SseBinary.java:156-158. -/
def SseMessageType.getValue (m : SseMessageType) : BitVec 32 :=
  match sseMessageTypes.find? (fun p => p.1 = m) with
  | some p => p.2
  | none => 0  -- not reachable: `values()` lists every constant (theorem C40)

/-- `MessageType.fromValue(value)`, SseBinary.java:160-167. -/
def SseMessageType.fromValue (v : BitVec 32) : Except JErr SseMessageType :=
  match sseMessageTypes.find? (fun p => p.2 = v) with
  | some p => .ok p.1
  | none => .error .illegalArgument

/-- The empty factories before the static initialisers run. [SseBinary.java:131-132,
RootPacket.java:117] -/
def Factories.empty : Factories := ⟨fun _ _ => none, fun _ => none⟩

/-- The static initialisers of all factories (the `register(key, C::new)` calls listed in `defaultRegs`; for SSE the
three-argument ones listed in `sseDefaultRegs`, SseBinary.java:170-199). -/
def Factories.initial : Factories :=
  let F := defaultRegs.foldl (fun F r => if r.fac = .sse_SseBinary then F else F.put r.fac r.key (some (fresh r.cls))) .empty
  sseDefaultRegs.foldl (fun F r => F.registerSse r.1 r.2.1.getValue (some (fresh r.2.2))) F

/-- The state of a freshly started process. [SseBinary.java:170-199,
ChecksumServiceFactory.java:15-18] -/
def World.initial : World := ⟨Registry.initial, Factories.initial.map⟩

end FinProto
