import Verif.Model.Scheduler
/-! Specification vocabulary for the scheduler. -/
namespace Mdmi.Scheduler

/-- Vertical blanks in a schedule. -/
def vblanks (as : List Act) : Nat := as.countP (· = .vsync)

/-- Sum of the frame counts handler `i` was given. -/
def total (i : Nat) (t : List Ev) : Nat :=
  (t.map fun | .frame j d => if j = i then d else 0 | _ => 0).sum

/-- Number of calls to tick handler `i`. -/
def tickCalls (i : Nat) (t : List Ev) : Nat := t.countP (· = .tick i)

/-- A point where the interrupt is harmless: not between computing the frame count and storing the
frame number it was computed from. -/
def harmless : Pc → Bool
  | .frameHandlers _ _ => false
  | .save => false
  | _ => true

/-- No vertical blank falls between computing the frame count and storing the frame number. -/
def quietDispatch (nt nf : Nat) (s : St) : List Act → Prop
  | [] => True
  | .vsync :: as => harmless s.pc = true ∧ quietDispatch nt nf (vsync s) as
  | .step :: as => quietDispatch nt nf (tickStep nt nf s) as

end Mdmi.Scheduler
