import Verif.Spec.Everywhere
/-
Specification: decoded messages that can be sent on without loss.
-/
namespace FinProto

/-- The text contains no U+FFFD, the character by which the decoder replaces bytes that are not UTF-8. -/
def noReplacement (_ : Conv) (_ : WTy) (v : Val) : Prop := (0xFFFD : JChar) ∉ v.text

/-- A list of length-prefixed strings is not empty.  (Such a list is decoded to an empty one if all strings in it are empty.) -/
def listFilled (_ : Conv) (t : WTy) (v : Val) : Prop :=
  match t, v with
  | .list .vstr, .list xs => xs ≠ []
  | _, _ => True

/-- All three conditions on the fields of a decoded message. -/
def intact (k : Conv) (t : WTy) (v : Val) : Prop := noReplacement k t v ∧ leftFilled k t v ∧ listFilled k t v

/-- No optional part is absent: length-prefixed strings and lists are not null.  (Absence can be written in many ways: as zero or as any
negative count.)  Lists of length-prefixed strings are left out, since empty strings in them are dropped. -/
def present (_ : Conv) (t : WTy) (v : Val) : Prop :=
  match t with
  | .vstr => v ≠ .null
  | .list e => v ≠ .null ∧ e ≠ .vstr
  | _ => True

/-- The bytes `X` stand in the buffer, at the reader index of `b`; `b'` is the same buffer with the reader index behind them. -/
def Consumed (b b' : RBuf) (X : List Byte) : Prop :=
  b' = { b with rd := b.rd + X.length } ∧ X <+: (b.data ++ b.spare).drop b.rd

instance (k : Conv) (t : WTy) (v : Val) : Decidable (noReplacement k t v) := inferInstanceAs (Decidable (¬ _))

instance : DecidablePred fun v : Val => v = .null := fun v =>
  match v with
  | .null => .isTrue rfl
  | .num _ => .isFalse nofun
  | .str _ => .isFalse nofun
  | .list _ => .isFalse nofun
  | .obj _ _ => .isFalse nofun

instance (k : Conv) (t : WTy) (v : Val) : Decidable (leftFilled k t v) := by
  unfold leftFilled; split <;> infer_instance

instance (k : Conv) (t : WTy) (v : Val) : Decidable (listFilled k t v) := by
  unfold listFilled
  split
  · next xs => exact (match xs with | [] => .isFalse (by simp) | _ :: _ => .isTrue (by simp))
  · infer_instance

instance (k : Conv) (t : WTy) (v : Val) : Decidable (intact k t v) := inferInstanceAs (Decidable (_ ∧ _))

instance (k : Conv) (t : WTy) (v : Val) : Decidable (present k t v) := by
  unfold present
  have : Decidable (v = .null) := inferInstanceAs (Decidable ((fun v : Val => v = .null) v))
  split
  · infer_instance
  · next e =>
    have : Decidable (e = .vstr) := match e with
      | .vstr => .isTrue rfl
      | .num _ => .isFalse nofun
      | .text _ _ _ => .isFalse nofun
      | .sub _ => .isFalse nofun
    infer_instance
  · infer_instance

/-- Every nested message, at every level, is of a class with property `Q`. -/
def classesIn (Q : Cls → Prop) (_ : Conv) (_ : WTy) (v : Val) : Prop :=
  match v with
  | .obj c _ => Q c
  | _ => True

end FinProto
