import Verif.Model.ObjectMethods
import Verif.Spec.Objects

/-
Tables of equals, hashCode, toString and the accessors, compared with the layouts.
-/
namespace FinProto

/-! ### Tables -/

theorem eqs_table (c : Cls) : (decl c).eqs = (List.range (layout c).length).map fun i => (i, i) := by
  cases c <;> decide

theorem hash_table (c : Cls) : (decl c).hash = if fieldLess c then HashBody.self else HashBody.fields (List.range (layout c).length) := by
  cases c <;> decide

theorem acc_table (c : Cls) : (decl c).acc.map (·.2) = (List.range (layout c).length).map fun i => (i, i) := by
  cases c <;> decide

theorem acc_names (c : Cls) : (decl c).acc.map (·.1) = (layout c).map fun f => capital f.1 := by
  cases c <;> decide

/-- The pieces printed for the fields `i, i+1, ...`. -/
def strFields : Nat → Bool → List String → List StrPart
  | _, _, [] => []
  | i, first, nm :: r => .lit (if first then nm ++ "=" else ", " ++ nm ++ "=") :: .field i :: strFields (i + 1) false r

theorem str_table (c : Cls) : (decl c).str =
    if fieldLess c then [.lit ((decl c).name ++ " []")]
    else .lit ((decl c).name ++ " [") :: strFields 0 true ((layout c).map (·.1)) ++ [.lit "]"] := by
  cases c <;> rfl

end FinProto
