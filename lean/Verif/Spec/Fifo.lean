import Verif.Model.RingBuf
/-!
# Specification: a bounded first-in first-out queue

Independent of the ring buffer implementation: a plain list of at most `cap` bytes.
Only the observation types are shared with the model.
-/
namespace Mdmi.Fifo
open Mdmi.Ring (Op Obs Status)

/-- One call on the abstract queue `q` of capacity `cap`. -/
def step (cap : Nat) (q : List Nat) : Op → Obs × List Nat
  | .read => match q with
    | [] => (.read .empty none, [])
    | b :: q' => (.read .ok (some b), q')
  | .write b => if q.length = cap then (.write .full, q) else (.write .ok, q ++ [b])
  | .canRead => (.bool (!q.isEmpty), q)
  | .available => (.num (cap - q.length), q)
  | .canWrite => (.bool (decide (q.length ≠ cap)), q)

/-- A sequence of calls on the abstract queue. -/
def run (cap : Nat) (q : List Nat) : List Op → List Obs
  | [] => []
  | op :: ops => (step cap q op).1 :: run cap (step cap q op).2 ops

/-- A call on a shared queue as it returns: a byte was taken in, turned away, handed out, or a read
found nothing. -/
inductive Ev
  | accept (b : Nat) | reject (b : Nat) | deliver (b : Nat) | empty
  deriving DecidableEq, Repr

/-- Contents of a bounded queue after event `e`, or `none` if a bounded first-in first-out queue
holding `q` could not show `e`. -/
def next (cap : Nat) (q : List Nat) : Ev → Option (List Nat)
  | .accept b => if q.length < cap then some (q ++ [b]) else none
  | .reject _ => if q.length = cap then some q else none
  | .deliver b => match q with
    | [] => none
    | x :: q' => if x = b then some q' else none
  | .empty => if q = [] then some [] else none

/-- Contents of an initially empty queue after a history (oldest event first); `none` if the history
is not one of a bounded first-in first-out queue. -/
def after (cap : Nat) (t : List Ev) : Option (List Nat) := t.foldlM (next cap) []

/-- Bytes taken in, in order. -/
def accepted : List Ev → List Nat
  | [] => []
  | .accept b :: t => b :: accepted t
  | _ :: t => accepted t

/-- Bytes handed out, in order. -/
def delivered : List Ev → List Nat
  | [] => []
  | .deliver b :: t => b :: delivered t
  | _ :: t => delivered t

end Mdmi.Fifo
