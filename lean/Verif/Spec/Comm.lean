import Verif.Model.Comm
/-! Specification vocabulary for interface selection: projections of schedules and histories. -/
namespace Mdmi.Comm

/-- Interface an event belongs to. -/
def Ev.iface : Ev → Nat
  | .got i _ => i
  | .sent i _ => i

/-- Bytes read, in order. -/
def gotBytes (t : List Ev) : List Nat := t.filterMap fun | .got _ b => some b | _ => none

/-- Messages sent, in order. -/
def sentData (t : List Ev) : List (List Nat) := t.filterMap fun | .sent _ d => some d | _ => none

/-- Bytes that arrived on interface `i` during a schedule, in order. -/
def arrivals (i : Nat) (as : List Act) : List Nat :=
  as.filterMap fun | .arrive j b => if j = i then some b else none | _ => none

end Mdmi.Comm
