import Verif.Model.Serial
/-! Specification vocabulary for the serial receiver: projections of the recorded history. -/
namespace Mdmi.Serial

/-- Queue events of a history. -/
def queueEvents (t : List Ev) : List Fifo.Ev :=
  t.filterMap fun | .q e => some e | .flush _ => none

/-- Bytes taken from the UART, in order, whatever became of them. -/
def taken (t : List Ev) : List Nat :=
  t.filterMap fun
    | .q (.accept b) => some b | .q (.reject b) => some b | .flush b => some b | _ => none

/-- Bytes that arrived at the UART during a schedule, in order. -/
def arrivals (as : List Act) : List Nat :=
  as.filterMap fun | .arrive b => some b | _ => none

/-- No interrupt is taken in the window between enabling it and installing the callback, i.e. while
exactly one of the three initialisation statements has run. -/
def noEarlyIrq : Nat → List Act → Prop
  | _, [] => True
  | k, .irq :: as => k ≠ 1 ∧ noEarlyIrq k as
  | k, .init :: as => noEarlyIrq (k + 1) as
  | k, _ :: as => noEarlyIrq k as

end Mdmi.Serial
