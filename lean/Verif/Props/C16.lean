import Verif.Proofs.NotePriority
/-! C16: the note stack is a bounded list. -/
namespace Mdmi.Props
open Mdmi

/-- **C16.** For every sequence of calls on a freshly initialised note stack no access leaves the ten
slots and every result is that of a list of at most ten pitches: push appends (ignored when full), pop
takes the newest (0 when empty), remove deletes every occurrence and keeps the order of the rest. -/
theorem C16_note_stack_is_bounded_list (ops : List NotePriority.Op) :
    NotePriority.run NotePriority.init ops = some (NoteStack.run [] ops) :=
  NotePriority.Rep.init.run ops

/-- The abstract list never exceeds ten pitches. -/
theorem C16_never_more_than_ten (l : List Nat) (h : l.length ≤ 10) (op : NotePriority.Op) :
    (NoteStack.step l op).2.length ≤ 10 := by
  cases op with
  | push p => simp only [NoteStack.step]; split <;> (try simp) <;> omega
  | pop => simp [NoteStack.step, NoteStack.popNewest]; omega
  | remove p => exact Nat.le_trans (List.length_filter_le _ _) h
  | _ => exact h

-- non-vacuity
example : NotePriority.run NotePriority.init
    [.push 60, .push 64, .push 60, .remove 60, .count, .pop, .pop, .isFull] =
    some [.unit, .unit, .unit, .unit, .num 1, .pitch 64, .pitch 0, .bool false] := by decide

end Mdmi.Props
