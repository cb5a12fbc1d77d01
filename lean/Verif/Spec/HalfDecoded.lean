import Verif.Spec.AtOnce
/-
Specification: threads that stop for good in the middle of `decode` or `encode`.
-/
namespace FinProto

/-- Threads do their jobs on messages of the heap; they make the steps of `sched`, and then no thread ever makes a step again: they were stopped by an
error such as `OutOfMemoryError` or `StackOverflowError`, or the application has given up on them.  `depth` is the size of their call stacks. -/
structure Halt where
  depth : Nat
  jobs : Nat → Job
  sched : List Nat

/-- The heap and the threads at the moment at which they stop. -/
def Halt.final (w : World) (e : Halt) (h : Heap) : WSys := (WSys.start e.depth h e.jobs).run w w.suppliers e.depth e.sched

/-- The heap after several such events, one after the other. -/
def afterHalts (w : World) : List Halt → Heap → Heap
  | [], h => h
  | e :: es, h => afterHalts w es (e.final w h).h

/-- In each event the threads work on different messages (`Apart`).  The message at `r` is either not touched by any of them, or one of them decodes into it,
from the first bytes of `message` (in a buffer in which `before` has been read already). -/
def Receiving (w : World) (r : Nat) (before message : List Byte) : List Halt → Heap → Prop
  | [], _ => True
  | e :: es, h => Apart h e.jobs
      ∧ ((∀ i q, Reach h (e.jobs i).root q → ¬ Reach h (.ref r) q)
        ∨ ∃ i part spare, e.jobs i = .dec r ⟨before ++ part, spare, before.length⟩ ∧ part <+: message)
      ∧ Receiving w r before message es (e.final w h).h

/-- As `Receiving`, with any bytes. -/
def Disturbing (w : World) (r : Nat) : List Halt → Heap → Prop
  | [], _ => True
  | e :: es, h => Apart h e.jobs
      ∧ ((∀ i q, Reach h (e.jobs i).root q → ¬ Reach h (.ref r) q) ∨ ∃ i b, e.jobs i = .dec r b)
      ∧ Disturbing w r es (e.final w h).h

/-- An object of class `c` as it is when `decode` has just made it: by the constructor, or by a supplier from a registry. -/
def JustMade (w : World) (c : Cls) (fs : List Val) : Prop := fs = freshFields c ∨ ∃ fac key, w.fac fac key = some (.obj c fs)

mutual
/-- A field that held `old` and will hold `new` may hold this in between: the old value; the new value; the first elements of the new list; the message it
holds already, or one just made, in the middle of being filled. -/
inductive Partly (w : World) : (old now new : Val) → Prop
  | old {old new : Val} : Partly w old old new
  | new {old new : Val} : Partly w old new new
  | list {old : Val} {xs ys : List Val} (h : xs <+: ys) : Partly w old (.list xs) (.list ys)
  | inside {c : Cls} {os ps ns : List Val} (h : PartlyFilled w os ps ns) : Partly w (.obj c os) (.obj c ps) (.obj c ns)
  | made {old : Val} {c : Cls} {os ps ns : List Val} (hm : JustMade w c os) (h : PartlyFilled w os ps ns) : Partly w old (.obj c ps) (.obj c ns)

/-- A message in the middle of being filled: its fields have their new values up to some field, which may be in between, and the fields behind it are
untouched. -/
inductive PartlyFilled (w : World) : (olds now news : List Val) → Prop
  | untouched {os ns : List Val} : PartlyFilled w os os ns
  | here {o v n : Val} {os ns : List Val} (h : Partly w o v n) : PartlyFilled w (o :: os) (v :: os) (n :: ns)
  | later {o n : Val} {os ps ns : List Val} (h : PartlyFilled w os ps ns) : PartlyFilled w (o :: os) (n :: ps) (n :: ns)
end

end FinProto
