import Verif.Model.Program
/-
Specification for C85: the registries a program has after a history, if nobody has to think about when they are initialised.
-/
namespace FinProto.Methods

/-- The calls on factories, in order. -/
def facOps (acts : List Act) : List FacOp := acts.filterMap fun | .fac op => some op | _ => none

/-- The calls on the checksum registry, in order. -/
def regCalls (acts : List Act) : List RegCall := acts.filterMap fun | .reg call => some call | _ => none

/-- The registries that other theorems speak about: for every key the supplier stored last, or the default one; for every name the first service offered since the
name was reset, CRC16 and CRC32 being offered at the start. -/
def worldAfter (acts : List Act) : World :=
  ⟨registeredAfter (startCalls ++ regCalls acts), fun f k => lastStored f k (Factories.initial.map f k) (facOps acts)⟩

/-- The message type recorded for class `c`: the one of the last call that recorded one, or the default. -/
def typeAfter (acts : List Act) (c : Cls) : Option (BitVec 32) :=
  ((facOps acts).reverse.findSome? (FacOp.types c)).or (Factories.initial.getMsgType c)

end FinProto.Methods
