import Verif.Model.Codec
/-
Specification: what a caller of a method of the module `codec` can observe.
-/
namespace FinProto.Mini

/-- The call ended; afterwards the fields are `fld`, the buffer as it is written is `out` and as it is read is `inp`; it ended as `r` says: normally, with a result or
with an exception. -/
def Gives (o : Option (St × Out)) (fld : String → Option V) (out : WBuf) (inp : RBuf) (r : Out) : Prop :=
  ∃ st', o = some (st', r) ∧ st'.fld = fld ∧ st'.out = out ∧ st'.inp = inp

/-- How a method without result ends. -/
def ofErr : Option JErr → Out
  | none => .next
  | some e => .thrown (ofJErr e)

/-- How a method that returns a text ends. -/
def ofText : Except JErr JStr → Out
  | .ok s => .ret (.str (some s))
  | .error e => .thrown (ofJErr e)

/-- How `calc` ends. -/
def ofCalc : Except JErr (BitVec 32) → Out
  | .ok v => .ret (.int v)
  | .error e => .thrown (ofJErr e)

/-- The fields of a bit map with another value of `bits`. -/
def withBits (fld : String → Option V) (v : V) : String → Option V := fun y => if y = "bits" then some v else fld y

end FinProto.Mini
