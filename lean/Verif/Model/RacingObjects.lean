import Verif.Model.Racing
import Verif.Model.ObjectMethods
/-
`equals`, `hashCode` and `toString` of messages whose setters other threads call at the same time.

These methods read each field once, in the order of the text; `equals` reads it in `this` and then in the other message, and stops at the first pair that differs.
Between any two accesses other threads may call any number of setters.

Simplifications as in `Racing.lean`: an access is indivisible and sees all assignments made before it; others do not change what is in the lists and parts that the
fields refer to (they may replace them).  So it makes no difference when a value that has been read is compared, hashed or printed.
-/
namespace FinProto

/-- Read the listed fields of `this`, one after the other; `k` accesses have been made. [SseBinary.java:94] -/
def readAll (o : Others) : List Nat → Nat → List Val → Option (List Val)
  | [], _, _ => some []
  | i :: is, k, fs =>
    match (setAll fs (o k))[i]?, readAll o is (k + 1) (setAll fs (o k)) with
    | some v, some vs => some (v :: vs)
    | _, _ => none

/-- `hashCode()` while other threads do `o`; as `Val.hashCode`. [SseBinary.java:93-95] -/
def rhashCode (o : Others) : Nat → Cls → List Val → Except JErr (BitVec 32)
  | 0, _, _ => .error .stackOverflow
  | n + 1, c, fs =>
    match (decl c).hash with
    | .self => rhashCode o n c fs
    | .fields is =>
      match readAll o is 0 fs with
      | some vs => hashSeq (Val.hashCode n) 1 vs
      | none => .error .illTyped

/-- The pieces of the printed form; `conv` is string conversion, `k` accesses have been made. [SseBinary.java:115-126] -/
def rparts (o : Others) (conv : Val → Option JStr) : List StrPart → Nat → List Val → Option (List JStr)
  | [], _, _ => some []
  | .lit s :: ps, k, fs =>
    match rparts o conv ps k fs with
    | some ss => some (js s :: ss)
    | none => none
  | .field i :: ps, k, fs =>
    match (setAll fs (o k))[i]? with
    | none => none
    | some v =>
      match conv v, rparts o conv ps (k + 1) (setAll fs (o k)) with
      | some s, some ss => some (s :: ss)
      | _, _ => none

/-- `toString()` while other threads do `o`; as `Val.toStr`. [SseBinary.java:114-127] -/
def rtoStr (o : Others) (flt : Num → JStr) : Nat → Cls → List Val → Option JStr
  | 0, _, _ => none
  | n + 1, c, fs => (rparts o (Val.toStr flt n) (decl c).str 0 fs).map List.flatten

/-- `Objects.equals(this.F, orther_.F) && ...`, while other threads do `oa` to `this` and `ob` to the other message; `k` accesses have been made.  The result, and
the number of accesses in the end. [SseBinary.java:106-110] -/
def reqs (oa ob : Others) : List (Nat × Nat) → Nat → List Val → List Val → Bool × Nat
  | [], k, _, _ => (true, k)
  | p :: ps, k, fs, gs =>
    match (setAll fs (oa k))[p.1]?, (setAll (setAll gs (ob k)) (ob (k + 1)))[p.2]? with
    | some x, some y =>
      if Val.equals x y then reqs oa ob ps (k + 2) (setAll (setAll fs (oa k)) (oa (k + 1))) (setAll (setAll gs (ob k)) (ob (k + 1)))
      else (false, k + 2)
    | _, _ => (false, k + 2)

/-- `a.equals(b)` for messages of classes `c` and `d` with fields `fs` and `gs`, while other threads do `oa` to `a` and `ob` to `b`; `same`: they are one object
(`this == obj`). [SseBinary.java:98-111] -/
def requals (same : Bool) (oa ob : Others) (c : Cls) (fs : List Val) (d : Cls) (gs : List Val) : Bool × Nat :=
  if same then (true, 0)
  else if c = d then reqs oa ob (decl c).eqs 0 fs gs
  else (false, 0)

end FinProto
