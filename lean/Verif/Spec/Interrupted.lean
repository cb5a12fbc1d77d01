import Verif.Model.ConcurrentHeap
/-
Specification: threads that stop for good in the middle of `encode`.
-/
namespace FinProto

/-- Threads call `encode` on messages of the heap, thread `i` on `roots i` with buffer `bufs i`; they make the steps of `sched`, and then no
thread ever makes a step again: they were stopped by an error such as `OutOfMemoryError`, wait for something that never comes, or the
application has given up on them.  Nothing is assumed about how far a call has got, nor about what the messages have in common. -/
structure Episode where
  depth : Nat
  roots : Nat → HVal
  bufs : Nat → WBuf
  sched : List Nat

/-- The heap and the threads at the moment at which an episode ends. -/
def Episode.final (w : World) (e : Episode) (h : Heap) : HSys := (HSys.start e.depth h e.roots e.bufs).run w e.depth e.sched

/-- The heap after several such episodes. -/
def afterEpisodes (w : World) : List Episode → Heap → Heap
  | [], h => h
  | e :: es, h => afterEpisodes w es (e.final w h).h

/-- Every byte of `d` is the byte of `d'` at the same place, or is zero. -/
def FilledIn (d d' : List Byte) : Prop := ∀ (k : Nat) (y : Byte), d[k]? = some y → d'[k]? = some y ∨ (y = 0 ∧ k < d'.length)

end FinProto
