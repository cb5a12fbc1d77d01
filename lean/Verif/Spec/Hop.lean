import Verif.Spec.Everywhere
import Verif.Model.Interp
/-
Specification: messages that are sent on from receiver to receiver.
-/
namespace FinProto

/-- Something is left of the field at the receiver's: a left-padded text does not consist of padding only (it would be left out when it is
sent on), and a list of length-prefixed strings does not consist of empty strings only (they would all be dropped). -/
def relayable (_ : Conv) (t : WTy) (v : Val) : Prop :=
  match t, v with
  | .text n pad true, v => textReceived n pad true v.text ≠ []
  | .list .vstr, .list xs => xs = [] ∨ ∃ x ∈ xs, x.text ≠ []
  | _, _ => True

/-- The string, as it was decoded, can be sent on: its bytes fit the length prefix.  (Bytes that are not UTF-8 are replaced by U+FFFD, which takes
three bytes, so a string may grow.) -/
def fitsAgain (k : Conv) (t : WTy) (v : Val) : Prop :=
  match t with
  | .vstr => countFits k.strLen (utf8Enc v.text).length
  | _ => True

/-- Both conditions on a decoded message that is to be sent on. -/
def resendable (k : Conv) (t : WTy) (v : Val) : Prop := fitsAgain k t v ∧ relayable k t v

/-- No factory has an entry for a text with U+FFFD in it. -/
def PlainKeys (w : World) : Prop := ∀ f s v, w.fac f (.str s) = some v → (0xFFFD : JChar) ∉ s

/-- `fs'` is what arrives when `fs`, an object of class `c`, is sent on any number of times: encoded by anyone (`ws`, `n`) behind any bytes already written
(`out`), and decoded into a new object with the receivers' registries `w`, from any place in a buffer. -/
inductive SentOn (w : World) (m : Nat) (c : Cls) (fs : List Val) : List Val → Prop
  | start : SentOn w m c fs fs
  | hop {gs gs' : List Val} (ws : World) (n : Nat) (out : WBuf) (bytes before after spare : List Byte) (b' : RBuf) :
      SentOn w m c fs gs → out.Valid → (encode ws n (.obj c gs) out).2.2 = none →
      (encode ws n (.obj c gs) out).2.1.data = out.data ++ bytes →
      decode w m c (freshFields c) ⟨before ++ bytes ++ after, spare, before.length⟩ = (gs', b', none) → SentOn w m c fs gs'

end FinProto
