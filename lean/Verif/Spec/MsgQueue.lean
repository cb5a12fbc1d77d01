import Verif.Model.NettyRead
import Verif.Spec.Wire
import Verif.Spec.Receive
/-
One Netty buffer used as a queue of messages: application code around `encode` and `decode`, as users of the library write it (not part of the
repository), and what they expect of it.
-/
namespace FinProto.MsgQueue
open Netty

/-- What the application does with the buffer. -/
inductive Op
  | send (v : Val)
  | take
  | discard

/-- What it sees. -/
inductive Out
  /-- the message has been put into the queue; as it is after `encode` -/
  | sent (v : Val)
  | refused (e : NErr)
  /-- a message has been taken out -/
  | took (v : Val)
  | nothing (e : NErr)
  | discarded

/-- `encode` the message; when there is an exception put the writer index back to where it was. -/
def send (grow : Grow) (w : World) (n : Nat) (v : Val) (b : NBuf) : NBuf × Out :=
  let r := Netty.encode grow w n v b
  match r.2.2 with
  | none => (r.2.1, .sent r.1)
  | some e => ({ r.2.1 with wr := b.wr }, .refused e)

/-- `decode` a new message; when there is an exception put the reader index back to where it was. -/
def take (w : World) (n : Nat) (c : Cls) (b : NBuf) : NBuf × Out :=
  let r := Netty.decode w n c (freshFields c) b
  match r.2.2 with
  | none => (r.2.1, .took (.obj c r.1))
  | some e => ({ r.2.1 with rd := b.rd }, .nothing e)

def step (grow : Grow) (ws wr : World) (n m : Nat) (c : Cls) (b : NBuf) : Op → NBuf × Out
  | .send v => send grow ws n v b
  | .take => take wr m c b
  | .discard => (b.discardReadBytes.1, .discarded)

def run (grow : Grow) (ws wr : World) (n m : Nat) (c : Cls) : NBuf → List Op → NBuf × List Out
  | b, [] => (b, [])
  | b, o :: os =>
    let s := step grow ws wr n m c b o
    let r := run grow ws wr n m c s.1 os
    (r.1, s.2 :: r.2)

/-- `Fifo q ops outs q'`: a queue with the messages `q` in it may show `outs` when `ops` are done, and then has the messages `q'` in it.  What has been put in (up to length
and checksum fields of frames, which `encode` computes) comes out, once and in this order; nothing comes out only if there is nothing in it. -/
inductive Fifo : List Val → List Op → List Out → List Val → Prop
  | nil (q) : Fifo q [] [] q
  | sent {q v v' ops os q'} : blank v' = blank v → Fifo (q ++ [v']) ops os q' → Fifo q (.send v :: ops) (.sent v' :: os) q'
  | refused {q v e ops os q'} : Fifo q ops os q' → Fifo q (.send v :: ops) (.refused e :: os) q'
  | took {q v ops os q'} : Fifo q ops os q' → Fifo (v :: q) (.take :: ops) (.took v :: os) q'
  | nothing {e ops os q'} : Fifo [] ops os q' → Fifo [] (.take :: ops) (.nothing e :: os) q'
  | discarded {q ops os q'} : Fifo q ops os q' → Fifo q (.discard :: ops) (.discarded :: os) q'

/-- What the application may do: it sends messages of class `c` that arrive unchanged. -/
def Sendable (w : World) (m : Nat) (c : Cls) : Op → Prop
  | .send v => (∃ fs, v = .obj c fs) ∧ wellTyped v = true ∧ canonical w v ∧ depth v ≤ m
  | _ => True

/-- First there are fixed-width texts (maybe none), and then there is a number, a string with its length or a list with its count. -/
def hasNumber : List WTy → Bool
  | .text _ _ _ :: ts => hasNumber ts
  | .num _ :: _ | .len _ :: _ | .cksum _ _ :: _ | .vstr :: _ | .list _ :: _ => true
  | _ => false

/-- The same for a class; its messages may also begin with a message of such a class. -/
def numbered (c : Cls) : Bool :=
  match wire c with
  | .sub d :: _ => hasNumber (wire d)
  | ts => hasNumber ts

/-- Only fixed-width texts. -/
def onlyTexts (ts : List WTy) : Bool := ts.all fun t => match t with | .text _ _ _ => true | _ => false

end FinProto.MsgQueue
