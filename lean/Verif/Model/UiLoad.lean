/-!
# Model of the load meter in `src/ui.c`

Only the load meter: `load_percent`, `update_load`, `print_load_text` and the two frame counters in
`update`.  The counters of `src/comm/comm.c` are inputs.
-/
namespace Mdmi.UiLoad

/-- `loadCalculationFrame`, `loadFrame` (ui.c:307, 314) and `loadPercentSum` (ui.c:114). -/
structure St where
  calcFrame : Nat
  loadFrame : Nat
  sum : Nat
  deriving DecidableEq, Repr

/-- What one refresh shows: percentage, number of lit LED tiles, number in the debug text. -/
structure Shown where
  percent : Nat
  lit : Nat
  text : Nat
  deriving DecidableEq, Repr

/-- `load_percent`, ui.c:325-333.  `none` = division by zero. -/
def loadPercent (idle busy : Nat) : Option Nat :=
  if idle = 0 ∧ busy = 0 then some 0
  else if idle + busy = 0 then none
  else some (busy * 100 / (idle + busy) % 65536)

/-- `update_load`, ui.c:513-530, with `print_load_text`, ui.c:503-511 (`LED_TILE_COUNT` = 4,
ui.c:63; frame constants 15, ui.c:47-48). -/
def updateLoad (s : St) : Shown × St :=
  let percent := s.sum / (15 / 15)
  let level := if percent = 0 then 0 else percent / (100 / 4) + 1
  ({ percent := percent,
     lit := (List.range 4).countP (· < level),
     text := if percent > 99 then 99 else percent },
   { s with sum := 0 })

/-- The load part of `update`, ui.c:307-319, for `delta` frames and the current counters; the counters
are reset by the caller whenever something is shown (`comm_reset_counts`, ui.c:529). -/
def update (s : St) (delta idle busy : Nat) : Option (Option Shown × St) :=
  let s := { s with calcFrame := (s.calcFrame + delta) % 65536 }
  let s? : Option St :=
    if s.calcFrame ≥ 15 then
      (loadPercent idle busy).map fun p => { s with calcFrame := 0, sum := (s.sum + p) % 65536 }
    else some s
  match s? with
  | none => none
  | some s =>
    let s := { s with loadFrame := (s.loadFrame + delta) % 65536 }
    if s.loadFrame ≥ 15 then
      let (sh, s) := updateLoad { s with loadFrame := 0 }
      some (some sh, s)
    else some (none, s)

/-- A history of frame updates: frames elapsed and the two counters at each. -/
def run (s : St) : List (Nat × Nat × Nat) → Option (List (Option Shown))
  | [] => some []
  | (d, i, b) :: rest => match update s d i b with
    | none => none
    | some (sh, s') => (run s' rest).map (sh :: ·)

/-- Static initial values (and `update_load` called once at ui.c:135, which leaves them). -/
def init : St := ⟨0, 0, 0⟩

end Mdmi.UiLoad
