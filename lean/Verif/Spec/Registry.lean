import Verif.Model.Checksum
/-
Specification of registries in terms of the history of calls, independent of any map.
-/
namespace FinProto

/-- A call on the checksum registry. -/
inductive RegCall where
  | registry (s : Service)
  | remove (name : String)
  | clear
  | get (name : String)

/-- The call makes `name` unregistered. -/
def RegCall.resets (name : String) : RegCall → Bool
  | .remove n => n == name
  | .clear => true
  | _ => false

/-- The call tries to register a service under `name`. -/
def RegCall.offers (name : String) : RegCall → Option Service
  | .registry s => if s.algorithm = name then some s else none
  | _ => none

/-- The service registered under `name` after a history (oldest call first): the first one offered
since the last call that reset the name. -/
def registeredAfter (history : List RegCall) (name : String) : Option Service :=
  let sinceReset := (history.reverse.takeWhile fun c => !c.resets name).reverse
  sinceReset.findSome? (·.offers name)

/-- Effect of one call on the registry of the model. -/
def RegCall.run (r : Registry) : RegCall → Registry
  | .registry s => (Registry.registry r s).1
  | .remove n => Registry.remove r n
  | .clear => Registry.clear r
  | .get _ => r

/-- Effect of a history, oldest call first. -/
def runCalls (r : Registry) (history : List RegCall) : Registry := history.foldl RegCall.run r

/-- What the factory does when it is created (ChecksumServiceFactory.java:15-18). -/
def startCalls : List RegCall := [.registry crc16Service, .registry crc32Service]

end FinProto
