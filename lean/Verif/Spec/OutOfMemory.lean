import Verif.Spec.MsgQueue
/-
Buffers that cannot always grow: earlier attempts to write a message, and the queue of `MsgQueue.lean` with an allocator that may behave differently in every call.
-/
namespace FinProto.OutOfMemory
open Netty MsgQueue

/-- An earlier attempt to write a message: how the buffer grew then, how deep the stack was, the buffer. -/
structure Attempt where
  grow : Grow
  depth : Nat
  buf : NBuf

/-- The buffer was in order. -/
def Attempt.Ok (a : Attempt) : Prop := a.grow.Fair ∧ a.buf.Valid ∧ a.buf.alive = true

/-- The message after these attempts, however they ended. -/
def afterAttempts (w : World) : List Attempt → Val → Val
  | [], v => v
  | a :: as, v => afterAttempts w as (Netty.encode a.grow w a.depth v a.buf).1

/-- `MsgQueue.run`, with the allocator as it is in each call. -/
def runWith (ws wr : World) (n m : Nat) (c : Cls) : NBuf → List (Grow × Op) → NBuf × List Out
  | b, [] => (b, [])
  | b, (g, o) :: os =>
    let s := step g ws wr n m c b o
    let r := runWith ws wr n m c s.1 os
    (r.1, s.2 :: r.2)

end FinProto.OutOfMemory
