import Verif.Spec.Wire
/-
Specification: the registry entries that concern a message.
-/
namespace FinProto

/-- The message contains, at some level, a polymorphic part of factory `fac` whose key field has the value `k`. -/
inductive Carries : Val → Fac → Key → Prop
  | here {c : Cls} {fs : List Val} {fac : Fac} {key : Nat} {v : Val} : WTy.ext fac key ∈ wire c → fs[key]? = some v → Carries (.obj c fs) fac (keyOf v)
  | field {c : Cls} {fs : List Val} {v : Val} {fac : Fac} {k : Key} : v ∈ fs → Carries v fac k → Carries (.obj c fs) fac k
  | elem {xs : List Val} {v : Val} {fac : Fac} {k : Key} : v ∈ xs → Carries v fac k → Carries (.list xs) fac k

/-- The message contains, at some level, a checksum field of algorithm `alg`. -/
inductive Checksums : Val → String → Prop
  | here {c : Cls} {fs : List Val} {t : PTy} {alg : String} : WTy.cksum t alg ∈ wire c → Checksums (.obj c fs) alg
  | field {c : Cls} {fs : List Val} {v : Val} {alg : String} : v ∈ fs → Checksums v alg → Checksums (.obj c fs) alg
  | elem {xs : List Val} {v : Val} {alg : String} : v ∈ xs → Checksums v alg → Checksums (.list xs) alg

end FinProto
