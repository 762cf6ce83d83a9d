/-!
# Model of `src/note_priority.c`

`slot` is the array, `top` the signed index of the newest entry (−1 when empty).  An access outside
the array is the outcome `none`.
-/
namespace Mdmi.NotePriority

/-- `NOTE_PRIORITY_LENGTH`, src/note_priority.h:4. -/
def length : Nat := 10

/-- `NotePriorityStack`, src/note_priority.h:6-9. -/
structure Stack where
  slot : List Nat
  top : Int
  deriving DecidableEq, Repr

/-- `note_priority_init`, src/note_priority.c:3-7. -/
def init : Stack := ⟨List.replicate length 0, -1⟩

/-- Array load. -/
def load (s : Stack) (i : Int) : Option Nat := if i < 0 then none else s.slot[i.toNat]?

/-- Array store. -/
def store (s : Stack) (i : Int) (v : Nat) : Option Stack :=
  if i < 0 ∨ (s.slot.length : Int) ≤ i then none else some { s with slot := s.slot.set i.toNat v }

/-- `note_priority_push`, src/note_priority.c:11-17. -/
def push (s : Stack) (pitch : Nat) : Option Stack :=
  if s.top = (length : Int) - 1 then some s
  else store { s with top := s.top + 1 } (s.top + 1) pitch

/-- `note_priority_pop`, src/note_priority.c:19-26. -/
def pop (s : Stack) : Option (Nat × Stack) :=
  if s.top = -1 then some (0, s)
  else match load s s.top with
    | none => none
    | some v => some (v, { s with top := s.top - 1 })

/-- The loop of `note_priority_remove`, src/note_priority.c:31-38: `i` is the read cursor, `w` the
write cursor, `n` the number of iterations left (`top + 1 - i`; `top` does not change in the loop). -/
def removeLoop (pitch : Nat) : Nat → Int → Int → Stack → Option (Int × Stack)
  | 0, _, w, s => some (w, s)
  | n + 1, i, w, s => match load s i with
    | none => none
    | some item =>
      if item = pitch then removeLoop pitch n (i + 1) w s
      else match store s (w + 1) item with
        | none => none
        | some s' => removeLoop pitch n (i + 1) (w + 1) s'

/-- `note_priority_remove`, src/note_priority.c:28-40. -/
def remove (s : Stack) (pitch : Nat) : Option Stack :=
  match removeLoop pitch (s.top + 1).toNat 0 (-1) s with
  | none => none
  | some (w, s') => some { s' with top := w }

/-- `note_priority_isFull`, src/note_priority.c:42-45. -/
def isFull (s : Stack) : Bool := s.top = (length : Int) - 1

/-- `note_priority_count`, src/note_priority.c:47-50 (result type `u8`). -/
def count (s : Stack) : Nat := ((s.top + 1) % 256).toNat

/-- API calls and their results. -/
inductive Op
  | push (p : Nat) | pop | remove (p : Nat) | isFull | count
  deriving DecidableEq, Repr

/-- What a call returns. -/
inductive Obs
  | unit | pitch (p : Nat) | bool (b : Bool) | num (n : Nat)
  deriving DecidableEq, Repr

/-- Dispatch of one call. -/
def step (s : Stack) : Op → Option (Obs × Stack)
  | .push p => (push s p).map fun s' => (.unit, s')
  | .pop => (pop s).map fun (v, s') => (.pitch v, s')
  | .remove p => (remove s p).map fun s' => (.unit, s')
  | .isFull => some (.bool (isFull s), s)
  | .count => some (.num (count s), s)

/-- A sequence of calls; `none` on an out-of-bounds access. -/
def run (s : Stack) : List Op → Option (List Obs)
  | [] => some []
  | op :: ops => match step s op with
    | none => none
    | some (o, s') => (run s' ops).map (o :: ·)

end Mdmi.NotePriority
