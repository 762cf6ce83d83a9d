import Verif.Model.Log
/-! Specification: a queue that keeps the nine newest messages. -/
namespace Mdmi.LogSpec
open Mdmi.Log (Op Entry)

/-- The newest `n` elements of a list ordered oldest first. -/
def newest (n : Nat) (q : List Entry) : List Entry := q.drop (q.length - n)

/-- Results of the dequeue calls on an unbounded queue trimmed to its nine newest entries. -/
def run (q : List Entry) : List Op → List (Option Entry)
  | [] => []
  | .log l m :: ops => run (newest 9 (q ++ [⟨l, m⟩])) ops
  | .dequeue :: ops => q.head? :: run q.tail ops

end Mdmi.LogSpec
