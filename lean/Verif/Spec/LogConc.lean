import Verif.Model.LogConc
import Verif.Spec.Log
/-!
# Specification of the log under interrupts

The log should look as if calls took effect one after another.  A call of the main program takes effect at the statement
that chooses its entry (or finds the log empty), a message of the interrupt when the interrupt runs.
-/
namespace Mdmi.LogConc
open Mdmi.Log

/-- The calls that take effect in a step. -/
def effect (s : Sys) : Act → List Log.Op
  | .call _ => []
  | .irq m => [.log .warn m]
  | .main => match s.pc with
    | .slot l m => [.log l m]
    | .check => if s.log.count = 0 then [.dequeue] else []
    | .front => [.dequeue]
    | _ => []

/-- The calls that take effect in a schedule, in order. -/
def history (s : Sys) : List Act → List Log.Op
  | [] => []
  | a :: as => effect s a ++ match step s a with
    | none => []
    | some s' => history s' as

/-- The calls of the main program that take effect in a step. -/
def own (s : Sys) : Act → List Log.Op
  | .irq _ => []
  | a => effect s a

/-- The call the main program begins in a step. -/
def program (s : Sys) : Act → List Log.Op
  | .call op => if s.pc = .idle then [op] else []
  | _ => []

/-- The calls of the main program that take effect in a schedule, in order. -/
def owns (s : Sys) : List Act → List Log.Op
  | [] => []
  | a :: as => own s a ++ match step s a with
    | none => []
    | some s' => owns s' as

/-- The calls the main program makes in a schedule, in order. -/
def programs (s : Sys) : List Act → List Log.Op
  | [] => []
  | a :: as => program s a ++ match step s a with
    | none => []
    | some s' => programs s' as

/-- The main program is not between choosing an entry and the last update of the counters. -/
def Safe (s : Sys) : Prop :=
  match s.pc with
  | .idle | .slot _ _ | .check | .front => True
  | .put _ _ _ | .fetch _ => s.cut = 0
  | _ => False

/-- Messages fit; with `safe` interrupts come at safe points only. -/
def Calm (safe : Bool) (s : Sys) : List Act → Prop
  | [] => True
  | a :: as =>
    (match a with
      | .call (.log _ m) => m.length ≤ 39
      | .irq m => m.length ≤ 39 ∧ (safe = true → Safe s)
      | _ => True) ∧
    ∀ s', step s a = some s' → Calm safe s' as

end Mdmi.LogConc
