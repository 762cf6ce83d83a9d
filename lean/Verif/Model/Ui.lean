import Verif.Model.Midi
/-!
# Model of the display: `src/ui.c` and `src/ui_fm.c`

The text plane is a function of column and row.  Text and cleared areas are drawn on it; images and tiles lie on
cells of their own and are separate fields (the waiting picture, the source picture, the routing tiles, the special
mode mark, the algorithm sprite).  Colours are not modelled.  The load meter is `UiLoad`; its tiles and digits
occupy columns 2-7 of row 26, and only row 26 is left to it.  Reading a constant table outside its bounds, or
formatting more text than the buffer holds, sets `fault`.

The engine enters through the device table, the mode flag and the driver's parameters (`midi_channel_mappings`,
`midi_dynamic_mode`, `synth_channel_parameters`, `synth_global_parameters`).  It calls the display through the change
callback (midi.c:587-594, 1298-1306), `ui_fm_set_parameters_visibility` (midi.c:1258) - both are events of
`Midi.St.out`, and both are the last thing the calling function does to anything the display reads - and the
driver's `parameterUpdatedCallback`, whose calls are given with each engine call.
-/
namespace Mdmi.Ui
open Mdmi.Midi (Dev)

abbrev Text := List Char
/-- Contents of the text plane: column, row. -/
abbrev Screen := Nat → Nat → Char

/-! ### Drawing -/

/-- `VDP_drawText` (SGDK).  No text here reaches the edge of the 64-column plane, where it would be cut. -/
def drawText (scr : Screen) (t : Text) (x y : Nat) : Screen := fun x' y' =>
  if y' = y ∧ x ≤ x' ∧ x' < x + t.length then t.getD (x' - x) ' ' else scr x' y'

/-- `VDP_clearTextArea` (SGDK). -/
def clearArea (scr : Screen) (x y w h : Nat) : Screen := fun x' y' =>
  if x ≤ x' ∧ x' < x + w ∧ y ≤ y' ∧ y' < y + h then ' ' else scr x' y'

/-- `draw_text`, ui.c:340-343 (`MARGIN_X` = `MARGIN_Y` = 1, ui.h:6-7). -/
def draw (scr : Screen) (t : Text) (x y : Nat) : Screen := drawText scr t (1 + x) (1 + y)

/-- `%d` / `%u` of a non-negative number. -/
def dec (n : Nat) : Text := Nat.toDigits 10 n
/-- `%-wd`. -/
def decLeft (w n : Nat) : Text := dec n ++ List.replicate (w - (dec n).length) ' '
/-- `%wd`. -/
def decRight (w n : Nat) : Text := List.replicate (w - (dec n).length) ' ' ++ dec n
/-- Upper-case hexadecimal digit. -/
def hexDigit (n : Nat) : Char :=
  ['0', '1', '2', '3', '4', '5', '6', '7', '8', '9', 'A', 'B', 'C', 'D', 'E', 'F'].getD n '?'
/-- `%02X` of a `u8`. -/
def hex2 (n : Nat) : Text := [hexDigit (n / 16), hexDigit (n % 16)]

/-- `MIDI_CH_TEXT`, ui.c:69-70. -/
def midiChText : List Text :=
  [[' ', '1'], [' ', '2'], [' ', '3'], [' ', '4'], [' ', '5'], [' ', '6'], [' ', '7'], [' ', '8'], [' ', '9'],
    ['1', '0'], ['1', '1'], ['1', '2'], ['1', '3'], ['1', '4'], ['1', '5'], ['1', '6']]

/-- `DEV_CH_TEXT`, ui.c:71. -/
def devChText : List Text :=
  [['1'], ['2'], ['3'], ['4'], ['5'], ['6'], ['1'], ['2'], ['3'], ['4']]

/-- `MIDI_PITCH_NAMES`, ui.c:76-84: 107 entries. -/
def pitchNames : List Text :=
  [['A', '-', '0'], ['A', '#', '0'], ['B', '-', '0'], ['C', '-', '1'], ['C', '#', '1'], ['D', '-', '1'],
    ['D', '#', '1'], ['E', '-', '1'], ['F', '-', '1'], ['F', '#', '1'], ['G', '-', '1'], ['G', '#', '1'],
    ['A', '-', '1'], ['A', '#', '1'], ['B', '-', '1'], ['C', '-', '2'], ['C', '#', '2'], ['D', '-', '2'],
    ['D', '#', '2'], ['E', '-', '2'], ['F', '-', '2'], ['F', '#', '2'], ['G', '-', '2'], ['G', '#', '2'],
    ['A', '-', '2'], ['A', '#', '2'], ['B', '-', '2'], ['C', '-', '3'], ['C', '#', '3'], ['D', '-', '3'],
    ['D', '#', '3'], ['E', '-', '3'], ['F', '-', '3'], ['F', '#', '3'], ['G', '-', '3'], ['G', '#', '3'],
    ['A', '-', '3'], ['A', '#', '3'], ['B', '-', '3'], ['C', '-', '4'], ['C', '#', '4'], ['D', '-', '4'],
    ['D', '#', '4'], ['E', '-', '4'], ['F', '-', '4'], ['F', '#', '4'], ['G', '-', '4'], ['G', '#', '4'],
    ['A', '-', '4'], ['A', '#', '4'], ['B', '-', '4'], ['C', '-', '5'], ['C', '#', '5'], ['D', '-', '5'],
    ['D', '#', '5'], ['E', '-', '5'], ['F', '-', '5'], ['F', '#', '5'], ['G', '-', '5'], ['G', '#', '5'],
    ['A', '-', '5'], ['A', '#', '5'], ['B', '-', '5'], ['C', '-', '6'], ['C', '#', '6'], ['D', '-', '6'],
    ['D', '#', '6'], ['E', '-', '6'], ['F', '-', '6'], ['F', '#', '6'], ['G', '-', '6'], ['G', '#', '6'],
    ['A', '-', '6'], ['A', '#', '6'], ['B', '-', '6'], ['C', '-', '7'], ['C', '#', '7'], ['D', '-', '7'],
    ['D', '#', '7'], ['E', '-', '7'], ['F', '-', '7'], ['F', '#', '7'], ['G', '-', '7'], ['G', '#', '7'],
    ['A', '-', '7'], ['A', '#', '7'], ['B', '-', '7'], ['C', '-', '8'], ['C', '#', '8'], ['D', '-', '8'],
    ['D', '#', '8'], ['E', '-', '8'], ['F', '-', '8'], ['F', '#', '8'], ['G', '-', '8'], ['G', '#', '8'],
    ['A', '-', '8'], ['A', '#', '8'], ['B', '-', '8'], ['C', '-', '9'], ['C', '#', '9'], ['D', '-', '9'],
    ['D', '#', '9'], ['E', '-', '9'], ['F', '-', '9'], ['F', '#', '9'], ['G', '-', '9']]

/-! ### State -/

/-- `CommMode`, comm/comm.h:4-12. -/
inductive CommMode where
  | unknown | discovery | everdrive | everdrivePro | serial | megaWifi | demo
  deriving DecidableEq, Repr

/-- `MidiChangeType`, midi.h. -/
inductive Kind where
  | none | program | cc
  deriving DecidableEq, Repr

/-- `MidiUiChange`, ui.c:105-110. -/
structure Change where
  kind : Kind
  key : Nat
  value : Nat
  ttl : Nat
  deriving DecidableEq, Repr

/-- `ParameterUpdated`, synth.h:54. -/
inductive Note where
  | channel | lfo | specialMode
  deriving DecidableEq, Repr

/-- Constants of a build and of the console: `BUILD`, `DEBUG_TICKS` (settings.c:30-37), and which cartridges
`ui_print_present_devices` finds. -/
structure Env where
  midi : Midi.Env
  build : Text
  debugTicks : Bool
  everdrive : Bool
  everdrivePro : Bool

/-- The statics of ui.c (103-117, 180-181, 288, 401, 547) and ui_fm.c (43-50, 109-110), the screen, and the pictures:
`waiting` (which cartridge hint is shown), `source` (index of the source picture), `routing` (dynamic tiles loaded),
`mark` (special mode mark), `diagram` (visible algorithm sprite).  `lastMidiChans` (ui.c:401) is never written and so
left out. -/
structure St where
  scr : Screen
  lastPitches : Nat → Nat
  change : Nat → Change
  activityFrame : Nat
  commInited : Bool
  lastComm : CommMode
  lastMark : Bool
  lastDynamic : Bool
  logY : Nat
  waiting : Option Nat
  source : Option Nat
  routing : Bool
  mark : Bool
  dirty : Bool
  shown : Bool
  panelMidi : Nat
  panelFm : Nat
  lastAlgorithm : Nat
  force : Bool
  fmLast : Nat → Nat
  opLast : Nat → Nat → Nat
  diagram : Option Nat
  fault : Bool

/-- Undefined behaviour. -/
def ub (s : St) : St := { s with fault := true }

/-- `sprintf` into a buffer of `size` bytes, then `draw_text` of it. -/
def print (s : St) (size : Nat) (t : Text) (x y : Nat) : St :=
  if t.length + 1 ≤ size then { s with scr := draw s.scr t x y } else ub s

/-! ### Voices -/

/-- `midi_change_callback`, ui.c:144-158 (`DEV_PHYSICAL_CHANS` = 10, `UI_CHANGE_TTL` = 150; the fields are
bytes). -/
def midiChange (dev : Nat → Dev) (s : St) (ch : Nat) (kind : Kind) (key value : Nat) : St :=
  { s with change := fun i =>
      if i < 10 ∧ (dev i).midiChannel = ch then ⟨kind, key % 256, value % 256, 150⟩ else s.change i }

/-- The body of `print_chan_activity`, ui.c:422-437, for one voice (`PITCH_X` = 6, `MIDI_Y` = 2). -/
def showPitch (s : St) (i pitch : Nat) : St :=
  if pitch = s.lastPitches i then s
  else
    let s' :=
      if pitch = 0 then { s with scr := clearArea s.scr (6 + 1) (2 + i * 2 + 1) 3 1 }
      else if pitch > 21 then
        match pitchNames[pitch - 21]? with
        | some t => { s with scr := draw s.scr t 6 (2 + i * 2) }
        | none => ub s
      else { s with scr := draw s.scr ['?', '?', '?'] 6 (2 + i * 2) }
    { s' with lastPitches := upd s.lastPitches i pitch }

/-- `update_key_on_off`, ui.c:385-397, with `print_chan_activity`, ui.c:418-442. -/
def updateKeyOnOff (dev : Nat → Dev) (s : St) : St :=
  (List.range 10).foldl (fun s i => showPitch s i (if (dev i).noteOn then (dev i).pitch else 0)) s

/-- The body of `print_midi_changes`, ui.c:251-279, for one voice (`CHANGE_X` = 10). -/
def printChange (s : St) (i : Nat) : St :=
  let c := s.change i
  if c.kind = .none then s
  else if c.ttl = 0 then
    { s with change := upd s.change i { c with kind := .none }
             scr := clearArea s.scr (10 + 1) (1 + 2 + i * 2) 7 1 }
  else
    let s' :=
      if c.ttl = 150 then
        match c.kind with
        | .program => print s 10 (['P', '='] ++ decLeft 3 c.value) 10 (2 + i * 2)
        | .cc => print s 10 (['C', 'C'] ++ hex2 c.key ++ ['='] ++ hex2 c.value) 10 (2 + i * 2)
        | .none => s
      else s
    { s' with change := upd s.change i { c with ttl := c.ttl - 1 } }

/-- `print_midi_changes`, ui.c:248-281. -/
def printChanges (s : St) : St := (List.range 10).foldl printChange s

/-- Drawing loop of `print_mappings_if_dirty`, ui.c:406-415, for one voice. -/
def showMapping (dev : Nat → Dev) (s : St) (i : Nat) : St :=
  if (dev i).midiChannel = 0x7F then { s with scr := draw s.scr [' ', '-'] 3 (2 + i * 2) }
  else match midiChText[(dev i).midiChannel]? with
    | some t => { s with scr := draw s.scr t 3 (2 + i * 2) }
    | none => ub s

/-- `print_mappings`, ui.c:170-178, and `print_mappings_if_dirty`, ui.c:399-416.  The table compared against is never
written: it stays all zero. -/
def printMappings (dev : Nat → Dev) (s : St) : St :=
  if (List.range 10).all fun i => (dev i).midiChannel == 0 then s else (List.range 10).foldl (showMapping dev) s

/-! ### Status line -/

/-- The switch of `print_comm_mode`, ui.c:458-485. -/
def sourceOf : CommMode → Nat
  | .unknown => 0 | .discovery => 0 | .everdrive => 1 | .everdrivePro => 2 | .serial => 3 | .megaWifi => 4 | .demo => 5

/-- `print_comm_mode`, ui.c:444-495 (`MAX_EFFECTIVE_Y` = 25, `COMM_EXTRA_X` = 17). -/
def printCommMode (s : St) (mode : CommMode) : St :=
  if s.commInited then s
  else if s.lastComm = mode then s
  else
    let inited := mode ≠ .unknown ∧ mode ≠ .discovery
    let s := { s with lastComm := mode, commInited := inited, source := some (sourceOf mode)
                      scr := clearArea s.scr 9 (25 + 1) 7 1 }
    if inited then { s with waiting := none, scr := clearArea s.scr 17 (25 + 1) 5 1 } else s

/-- `print_log`, ui.c:190-215, with `clear_log_area`, ui.c:183-188, for the message `log_dequeue` returns
(`LOG_X` = 2, `LOG_Y` = 21, `MAX_LOG_LINES` = 2; `showLogs` is never cleared). -/
def printLog (s : St) (msg : Option Text) : St :=
  match msg with
  | none => s
  | some t =>
    let s := if 2 ≤ s.logY then { s with scr := clearArea s.scr (1 + 2) (21 + 1) (37 - 2) (2 + 1), logY := 0 } else s
    { s with scr := draw s.scr t (1 + 2) (21 + 1 + s.logY), logY := (s.logY + 1) % 256 }

/-- `print_routing_mode_if_needed`, ui.c:545-553. -/
def printRouting (s : St) (dynamic : Bool) : St :=
  if s.lastDynamic ≠ dynamic then { s with routing := dynamic, lastDynamic := dynamic } else s

/-- `print_ticks`, ui.c:241-246. -/
def printTicks (s : St) (ticks : Nat) : St := print s 6 (decLeft 5 ticks) 0 1

/-- The mark of channel 3 special mode, ui.c:300-304 and 160-168. -/
def printMark (s : St) (special : Bool) : St :=
  if special = s.lastMark then s
  else if special then { s with mark := true, lastMark := true }
  else { s with mark := false, lastMark := false, scr := clearArea s.scr (1 + 2) (3 + 2 * 2) 1 1 }

/-! ### Parameter panel (ui_fm.c) -/

/-- Position of the value of a field of `fmFields`, ui_fm.c:84-93: `headerX + valueOffset`, `headerY`. -/
def fmPos : Nat → Nat × Nat
  | 0 => (0 + 3, 0) | 1 => (7 + 3, 0) | 2 => (0 + 4, 2) | 3 => (7 + 3, 2)
  | 4 => (0 + 4, 3) | 5 => (0 + 4, 4) | 6 => (0 + 4, 5) | _ => (8 + 4, 5)

/-- `stereo_text`, ui_fm.c:282-294. -/
def stereoText : Nat → Text
  | 0 => ['M', 'u', 't', 'e'] | 1 => ['R', ' ', ' ', ' '] | 2 => ['L', ' ', ' ', ' '] | _ => ['L', 'R', ' ', ' ']

/-- `TEXT` of `lfo_freq_text`, ui_fm.c:298-299. -/
def lfoTexts : List Text :=
  [['O', 'f', 'f', ' ', ' '], ['4', 'H', 'z', ' ', ' '], ['5', '.', '5', 'H', 'z'], ['6', 'H', 'z', ' ', ' '],
    ['6', '.', '5', 'H', 'z'], ['7', 'H', 'z', ' ', ' '], ['1', '0', 'H', 'z', ' '], ['4', '8', 'H', 'z', ' '],
    ['7', '2', 'H', 'z', ' ']]

/-- `TEXT` of `ams_text`, ui_fm.c:305. -/
def amsTexts : List Text :=
  [['0', 'd', 'B', ' '], ['1', 'd', 'B', ' '], ['6', 'd', 'B', ' '], ['1', '2', 'd', 'B']]

/-- `TEXT` of `fms_text`, ui_fm.c:311-312. -/
def fmsTexts : List Text :=
  [['0', '%', ' ', ' '], ['3', '%', ' ', ' '], ['6', '%', ' ', ' '], ['1', '0', '%', ' '], ['1', '4', '%', ' '],
    ['2', '0', '%', ' '], ['4', '0', '%', ' '], ['8', '0', '%', ' ']]

/-- Text that must fit a static buffer of `size` bytes. -/
def fit (size : Nat) (t : Text) : Option Text := if t.length + 1 ≤ size then some t else none

/-- `formatFunc` of a field, ui_fm.c:84-93, 282-328; `none` is undefined behaviour. -/
def fmText (field value : Nat) : Option Text :=
  match field with
  | 0 | 1 => fit 3 (decLeft 2 (value + 1))
  | 2 | 3 => fit 3 (dec value)
  | 4 => some (stereoText value)
  | 5 => lfoTexts[value]?
  | 6 => fmsTexts[value]?
  | _ => amsTexts[value]?

/-- `getValue` of a field, ui_fm.c:84-93, 144-185. -/
def fmValue (field midiChan fmChan : Nat) (c : Synth.FmChannel) (lfoEnable lfoFrequency : Nat) : Nat :=
  match field with
  | 0 => midiChan
  | 1 => fmChan
  | 2 => c.algorithm
  | 3 => c.feedback
  | 4 => c.stereo
  | 5 => if lfoEnable = 0 then 0 else lfoFrequency + 1
  | 6 => c.fms
  | _ => c.ams

/-- `getValue` of a field of `opFields`, ui_fm.c:95-107, 187-240. -/
def opValue (field : Nat) (o : Synth.Operator) : Nat :=
  match field with
  | 0 => o.totalLevel
  | 1 => o.attackRate
  | 2 => o.multiple
  | 3 => o.detune
  | 4 => o.rateScaling
  | 5 => o.am
  | 6 => o.decayRate
  | 7 => o.sustainRate
  | 8 => o.sustainLevel
  | 9 => o.releaseRate
  | _ => o.ssgEg

/-- `synth_parameter_updated`, ui_fm.c:137-142. -/
def noted (s : St) (n : Nat × Note) : St :=
  if n.1 = s.panelFm ∨ n.2 = .lfo then { s with dirty := true } else s

/-- Texts of `print_channel_parameter_headings`, ui_fm.c:242-254, with their positions (`FM_HEADING_X` = 18, `BASE_Y` = 2,
`OP_BASE_Y` = 9). -/
def headings : List (Text × Nat × Nat) :=
  [([' ', ' ', ' ', ' ', 'O', 'p', '1', ' ', ' ', ' ', '2', ' ', ' ', ' ', '3', ' ', ' ', ' ', '4'], 18, 9),
    ([' ', 'T', 'L'], 18, 10), ([' ', 'A', 'R'], 18, 11), (['M', 'U', 'L'], 18, 12), ([' ', 'D', 'T'], 18, 13),
    ([' ', 'R', 'S'], 18, 14), ([' ', 'A', 'M'], 18, 15), ([' ', 'D', 'R'], 18, 16), ([' ', 'S', 'R'], 18, 17),
    ([' ', 'S', 'L'], 18, 18), ([' ', 'R', 'R'], 18, 19), (['S', 'S', 'G'], 18, 20),
    (['C', 'h'], 18, 2), (['F', 'M'], 25, 2), (['A', 'l', 'g'], 18, 4), (['F', 'b'], 25, 4), (['P', 'a', 'n'], 18, 5),
    (['L', 'F', 'O'], 18, 6), (['F', 'M', 'S'], 18, 7), (['A', 'M', 'S'], 26, 7)]

/-- `ui_fm_set_parameters_visibility`, ui_fm.c:414-427 (`MAX_X` = 39). -/
def setVisibility (s : St) (chan : Nat) (visible : Bool) : St :=
  let s := { s with shown := visible, panelMidi := chan }
  let s :=
    if visible then { s with force := true, scr := headings.foldl (fun scr h => draw scr h.1 h.2.1 h.2.2) s.scr }
    else { s with scr := clearArea s.scr 18 (1 + 2) 39 20, diagram := none }
  { s with dirty := true }

/-- `update_field_if_changed`, ui_fm.c:357-368. -/
def updateField (s : St) (field value : Nat) : St :=
  if s.fmLast field ≠ value ∨ s.force = true then
    match fmText field value with
    | some t => { s with scr := draw s.scr t (18 + (fmPos field).1) (2 + (fmPos field).2)
                         fmLast := upd s.fmLast field value }
    | none => ub s
  else s

/-- `update_op_field_if_changed`, ui_fm.c:330-346. -/
def updateOp (s : St) (field op value : Nat) : St :=
  if s.opLast field op ≠ value ∨ s.force = true then
    { print s 4 (decRight 3 value) (22 + op * 4) (9 + field + 1) with
      opLast := upd s.opLast field (upd (s.opLast field) op value) }
  else s

/-- `update_algorithm_diagram`, ui_fm.c:263-268. -/
def updateDiagram (s : St) (algorithm : Nat) : St :=
  if s.lastAlgorithm ≠ algorithm ∨ s.force = true then
    if algorithm < 8 then { s with diagram := some algorithm, lastAlgorithm := algorithm } else ub s
  else s

/-- `update_op_values`, ui_fm.c:348-355, for the operators in turn. -/
def updateOps (s : St) (ops : Synth.Ops4) : St :=
  (List.range 11).foldl (fun s f => (List.range 4).foldl (fun s op => updateOp s f op (opValue f (ops.get op))) s) s

/-- The eight fields of `update_fm_values`, ui_fm.c:374-388. -/
def updateFields (sy : Synth.St) (s : St) (c : Synth.FmChannel) : St :=
  (List.range 8).foldl
    (fun s f => updateField s f (fmValue f s.panelMidi s.panelFm c sy.lfoEnable sy.lfoFrequency)) s

/-- `update_fm_values`, ui_fm.c:370-391. -/
def updateValues (sy : Synth.St) (s : St) : St :=
  if s.panelFm < 6 then
    let c := sy.ch s.panelFm
    let s := updateFields sy s c
    let s := updateDiagram s c.algorithm
    let s := updateOps s c.ops
    { s with force := false }
  else ub s

/-- `get_fm_chan_for_midi_chan`, ui_fm.c:270-280 (`none`: `UNKNOWN_FM_CHANNEL`). -/
def fmChanFor (dev : Nat → Dev) (ch : Nat) : Option Nat :=
  ((List.range 6).find? fun i => (dev i).midiChannel == ch).map fun i => (dev i).num

/-- `update_fm_values_if_chan_selected`, ui_fm.c:393-412. -/
def updatePanel (dev : Nat → Dev) (sy : Synth.St) (s : St) : St :=
  if s.shown = false then s
  else match fmChanFor dev s.panelMidi with
    | none => s
    | some chan =>
      let s := if s.panelFm ≠ chan then { s with panelFm := chan, dirty := true } else s
      if s.dirty then { updateValues sy s with dirty := false } else s

/-! ### Frames -/

/-- What a frame brings from outside the engine: frames elapsed, the tick count, the communication mode, and what
`log_dequeue` returns if it is called. -/
structure Frame where
  delta : Nat
  ticks : Nat
  mode : CommMode
  log : Option Text

/-- The slow part of `update`, ui.c:290-305. -/
def activity (env : Env) (m : Midi.St) (s : St) (f : Frame) : St :=
  let s := printMappings m.dev s
  let s := printCommMode s f.mode
  let s := printLog s f.log
  let s := printRouting s m.dynamic
  let s := if env.debugTicks then printTicks s f.ticks else s
  printMark s m.fm.synth.specialMode

/-- `update`, ui.c:283-323, without the load meter. -/
def update (env : Env) (m : Midi.St) (s : St) (f : Frame) : St :=
  let s := updateKeyOnOff m.dev s
  let s := printChanges s
  let s := { s with activityFrame := (s.activityFrame + f.delta) % 65536 }
  let s := if 5 ≤ s.activityFrame then activity env m { s with activityFrame := 0 } f else s
  updatePanel m.dev m.fm.synth s

/-- Zeroed statics and their initialisers, on the blank screen SGDK starts with. -/
def powerOn : St :=
  { scr := fun _ _ => ' ', lastPitches := fun _ => 0, change := fun _ => ⟨.none, 0, 0, 0⟩, activityFrame := 0
    commInited := false, lastComm := .unknown, lastMark := false, lastDynamic := false, logY := 0
    waiting := none, source := none, routing := false, mark := false
    dirty := false, shown := false, panelMidi := 0, panelFm := 0, lastAlgorithm := 0xFF, force := false
    fmLast := fun _ => 0, opLast := fun _ _ => 0, diagram := none, fault := false }

/-- `ui_init`, ui.c:119-142, with `print_header` (350-374) and `print_channels` (376-383), and the `%` of `init_load`
(497-501); then `ui_print_present_devices`, ui.c:228-239, after `comm_init` (main.c:24-26).  No source has been chosen
when `ui_init` runs. -/
def init (env : Env) (m : Midi.St) : St :=
  let s := { powerOn with scr := draw (draw powerOn.scr ['M', 'D', 'M', 'I'] 0 0) env.build 5 0 }
  let s := (List.range 10).foldl (fun s i => { s with scr := draw s.scr (devChText.getD i []) 1 (2 + i * 2) }) s
  let s := { s with scr := draw s.scr ['%'] 0 25 }
  let s := printCommMode s .discovery
  let s := printMappings m.dev s
  let s := { s with routing := m.dynamic }
  if env.everdrivePro then { s with waiting := some 1 } else if env.everdrive then { s with waiting := some 0 } else s

/-! ### Engine and display together -/

structure Sys where
  m : Midi.St
  ui : St

/-- An engine call with the driver's notifications it causes, or a display frame. -/
inductive Ev where
  | midi (op : Midi.Op) (notes : List (Nat × Note))
  | frame (f : Frame)

/-- A call from the engine into the display (midi.c:587-594, 1258, 1298-1306). -/
def heed (dev : Nat → Dev) (s : St) : Midi.Ev → St
  | .tx _ => s
  | .changedProgram ch program => midiChange dev s ch .program 0 program
  | .changedCc ch controller value => midiChange dev s ch .cc controller value
  | .showParams ch value => setVisibility s ch (value ≠ 0)

/-- The events a call added, oldest first. -/
def added (before after : List Midi.Ev) : List Midi.Ev := (after.take (after.length - before.length)).reverse

def step (env : Env) (s : Sys) : Ev → Sys
  | .midi op notes =>
    let m := Midi.step env.midi s.m op
    ⟨m, (added s.m.out m.out).foldl (heed m.dev) (notes.foldl noted s.ui)⟩
  | .frame f => ⟨s.m, update env s.m s.ui f⟩

/-- A history of events. -/
def run (env : Env) (s : Sys) (evs : List Ev) : Sys := evs.foldl (step env) s

/-- `midi_init`, `ui_init`, `comm_init`, `ui_print_present_devices` (main.c:23-26). -/
def boot (env : Env) (busTaken : Bool) (mem : Sram.Mem) : Sys :=
  let m := Midi.boot env.midi busTaken mem
  ⟨m, init env m⟩

end Mdmi.Ui
