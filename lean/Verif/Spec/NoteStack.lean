import Verif.Model.NotePriority
/-!
# Specification: bounded list of held notes

A plain list, oldest first, of at most 10 pitches.  Only the call and result types are shared with the
model.
-/
namespace Mdmi.NoteStack
open Mdmi.NotePriority (Op Obs)

/-- Newest element and the rest. -/
def popNewest (l : List Nat) : Nat × List Nat := (l.getLastD 0, l.dropLast)

/-- One call on the abstract list. -/
def step (l : List Nat) : Op → Obs × List Nat
  | .push p => (.unit, if l.length = 10 then l else l ++ [p])
  | .pop => (.pitch (popNewest l).1, (popNewest l).2)
  | .remove p => (.unit, l.filter (· ≠ p))
  | .isFull => (.bool (decide (l.length = 10)), l)
  | .count => (.num l.length, l)

/-- A sequence of calls. -/
def run (l : List Nat) : List Op → List Obs
  | [] => []
  | op :: ops => (step l op).1 :: run (step l op).2 ops

end Mdmi.NoteStack
