import Verif.Model.Psg
import Verif.Model.MidiFm
import Verif.Model.NotePriority
/-!
# Model of `src/midi.c` and `src/midi_tx.c`

The MIDI engine over the PSG and FM devices.  Pointers into `deviceChannels` and `midiChannels` are
indices; the four vtables are the constructors of `Ops`.  Undefined behaviour sets `fault` here, `psg.fault`
or `fm.synth.fault`.  The change callback (midi.c:587-594, 1298-1306) is taken to be registered: its calls are
events.  Not modelled: `parameterUpdatedCallback` of the synth, the text of log messages, `midi_fm_sram_init`
(its outcome is `Env.fm.sram`).
-/
namespace Mdmi.Midi
open Mdmi.NotePriority (Stack)
open Mdmi.Synth (FmPreset)

/-- Which vtable a device channel points to, midi.c:47-58. -/
inductive Ops where
  | fm | psg | sm | dac
  deriving DecidableEq, Repr

/-- `DeviceChannel`, midi.h:150-162. -/
structure Dev where
  num : Nat
  ops : Ops
  noteOn : Bool
  midiChannel : Nat
  program : Nat
  pitch : Nat
  volume : Nat
  pan : Nat
  pitchBend : Nat
  cents : Int
  glide : Nat
  deriving DecidableEq, Repr

/-- `MidiChannel`, midi.c:29-43 (`num` is the index).  `deviceSelect` is the enumeration of midi.c:27 as its
number: 0 automatic, 1 FM, 2 PSG tone, 3 PSG noise. -/
structure Chan where
  volume : Nat
  program : Nat
  pan : Nat
  pitchBend : Nat
  range : PitchCents
  lastVelocity : Nat
  stack : Stack
  deviceSelect : Nat
  portamento : Bool
  interval : Nat
  fineTune : Int
  rpn : Nat
  deriving DecidableEq, Repr

/-- `MappingMode`, midi.c:45. -/
inductive Mode where
  | static | dynamic | auto
  deriving DecidableEq, Repr

/-- `MidiConfig`, midi.c:77-82. -/
structure Config where
  pref : Mode
  disableNonGm : Bool
  stick : Bool
  invert : Bool
  deriving DecidableEq, Repr

/-- Log messages of midi.c. -/
inductive Msg where
  | dropped (ch pitch : Nat)
  | stackFull (ch : Nat)
  | envelopeLoaded
  | presetStored (program : Nat)
  | presetCleared (program : Nat)
  | allCleared
  | badType (type : Nat)
  | noFm (ch : Nat)
  | chanDumped (ch num : Nat)
  | presetDumped (program : Nat)
  | noPreset (program : Nat)
  | badCommand (command : Nat)
  | badLength (command length : Nat)
  | badMidiChannel (ch : Nat)
  | badDeviceChannel (dev : Nat)
  | unknownCc (ch controller value : Nat)
  | unknownRpn (ch rpn value : Nat)
  deriving DecidableEq, Repr

/-- Effects outside the chips: bytes handed to `comm_write`, calls of the change callback and of
`ui_fm_set_parameters_visibility`. -/
inductive Ev where
  | tx (bytes : List Nat)
  | changedProgram (ch program : Nat)
  | changedCc (ch controller value : Nat)
  | showParams (ch value : Nat)
  deriving DecidableEq, Repr

/-- Constant data, and `DEFAULT_MAPPING_MODE` (user_prefs.h:9). -/
structure Env where
  fm : Fm.Env
  psg : Psg.Env
  mode : Mode

/-- The statics of midi.c:72-84 over those of the devices. -/
structure St where
  dev : Nat → Dev
  chan : Nat → Chan
  dynamic : Bool
  cfg : Config
  psg : Psg.St
  fm : Fm.St
  out : List Ev
  log : List Msg
  fault : Bool

/-- Undefined behaviour. -/
def ub (s : St) : St := { s with fault := true }
/-- `log_info`, `log_warn`. -/
def say (s : St) (m : Msg) : St := { s with log := m :: s.log }
/-- An effect outside the chips. -/
def emit (s : St) (e : Ev) : St := { s with out := e :: s.out }
/-- Store to a device channel. -/
def setDev (s : St) (i : Nat) (f : Dev → Dev) : St := { s with dev := upd s.dev i (f (s.dev i)) }
/-- Store to a MIDI channel. -/
def setChan (s : St) (c : Nat) (f : Chan → Chan) : St := { s with chan := upd s.chan c (f (s.chan c)) }
/-- Call into the FM device. -/
def fmCall (env : Env) (s : St) (op : Fm.Op) : St := { s with fm := Fm.step env.fm s.fm op }
/-- Call into the PSG device. -/
def psgCall (env : Env) (s : St) (op : Psg.Op) : St := { s with psg := Psg.step env.psg s.psg op }

/-- `FOREACH_DEV_CHAN_WITH_MIDI`, midi.c:20-24 (`DEV_CHANS` = 13). -/
def foreach (s : St) (c : Nat) (body : St → Nat → St) : St :=
  (List.range 13).foldl (fun s i => if (s.dev i).midiChannel = c then body s i else s) s

/-! ### Calls through the vtable (midi.c:47-58) -/

/-- `ops->noteOn`: midi_fm_note_on, midi_psg_note_on, midi_fm_sm_note_on, midi_dac_note_on. -/
def devNoteOn (env : Env) (s : St) (i pitch : Nat) (cents : Int) (velocity : Nat) : St :=
  match (s.dev i).ops with
  | .fm => fmCall env s (.noteOn (s.dev i).num pitch cents velocity)
  | .psg => psgCall env s (.noteOn (s.dev i).num pitch cents velocity)
  | .sm => fmCall env s (.smNoteOn (s.dev i).num pitch cents velocity)
  | .dac => fmCall env s (.dacNoteOn pitch)

/-- `ops->noteOff`. -/
def devNoteOff (env : Env) (s : St) (i : Nat) : St :=
  match (s.dev i).ops with
  | .fm => fmCall env s (.noteOff (s.dev i).num)
  | .psg => psgCall env s (.noteOff (s.dev i).num)
  | .sm => s
  | .dac => fmCall env s .dacNoteOff

/-- `ops->channelVolume`. -/
def devVolume (env : Env) (s : St) (i volume : Nat) : St :=
  match (s.dev i).ops with
  | .fm => fmCall env s (.volume (s.dev i).num volume)
  | .psg => psgCall env s (.volume (s.dev i).num volume)
  | .sm | .dac => s

/-- `ops->program`. -/
def devProgram (env : Env) (s : St) (i program : Nat) : St :=
  match (s.dev i).ops with
  | .fm => fmCall env s (.program (s.dev i).num program)
  | .psg => psgCall env s (.program (s.dev i).num program)
  | .sm | .dac => s

/-- `ops->allNotesOff`. -/
def devAllNotesOff (env : Env) (s : St) (i : Nat) : St :=
  match (s.dev i).ops with
  | .fm => fmCall env s (.allNotesOff (s.dev i).num)
  | .psg => psgCall env s (.allNotesOff (s.dev i).num)
  | .sm | .dac => s

/-- `ops->pan` (`midi_psg_pan` does nothing, midi_psg.c:308-311). -/
def devPan (env : Env) (s : St) (i pan : Nat) : St :=
  match (s.dev i).ops with
  | .fm => fmCall env s (.pan (s.dev i).num pan)
  | .psg | .sm | .dac => s

/-- `ops->pitch`. -/
def devPitch (env : Env) (s : St) (i pitch : Nat) (cents : Int) : St :=
  match (s.dev i).ops with
  | .fm => fmCall env s (.pitch (s.dev i).num pitch cents)
  | .psg => psgCall env s (.pitch (s.dev i).num pitch cents)
  | .sm => fmCall env s (.smPitch (s.dev i).num pitch cents)
  | .dac => s

/-! ### Choice of a device channel -/

/-- The loop variable of `for (i = a; i <= b; i++)`. -/
def span (a b : Nat) : List Nat := List.range' a (b + 1 - a)

/-- `isChannelPlayingNote`, midi.c:185-189. -/
def isPlaying (d : Dev) (pitch : Nat) : Bool :=
  d.noteOn && ((if d.glide ≠ 0 then d.glide % 256 else d.pitch) == pitch)

/-- `isPsgAndIncomingChanIsPercussive`, midi.c:191-194. -/
def psgPercussive (d : Dev) (c : Nat) : Bool := d.ops == .psg && c == 9

/-- `isChannelSuitable`, midi.c:196-199. -/
def suitable (d : Dev) (c : Nat) : Bool := !d.noteOn && !psgPercussive d c

/-- `findFreeMidiAssignedChannel`, midi.c:201-212. -/
def findFreeMidiAssigned (s : St) (c lo hi : Nat) : Option Nat :=
  (span lo hi).find? fun i => (s.dev i).midiChannel == c && suitable (s.dev i) c

/-- `findFreePsgChannelForSquareWaveVoices`, midi.c:214-231 (channels 6 and 7 only: the bound is exclusive). -/
def findFreePsgSquare (s : St) (c : Nat) : Option Nat :=
  if (s.chan c).program = 80 ∨ (s.chan c).program = 89 ∨ (s.chan c).program = 99 then
    [6, 7].find? fun i => suitable (s.dev i) c
  else none

/-- `findAnyFreeChannel`, midi.c:233-242 (exclusive upper bound). -/
def findAnyFree (s : St) (c lo hi : Nat) : Option Nat :=
  (List.range' lo (hi - lo)).find? fun i => suitable (s.dev i) c

/-- `deviceChannelByMidiChannel`, midi.c:381-387. -/
def devByMidi (s : St) (c : Nat) : Option Nat :=
  (List.range 13).find? fun i => (s.dev i).midiChannel == c

/-- The two loops of `findDeviceSpecificChannel`, midi.c:258-271. -/
def findInSpan (s : St) (c lo hi : Nat) : Option Nat :=
  match (span lo hi).find? fun i => suitable (s.dev i) c with
  | some i => some i
  | none => (span lo hi).find? fun i => (s.dev i).midiChannel == c && !psgPercussive (s.dev i) c

/-- `findDeviceSpecificChannel`, midi.c:244-272. -/
def findDeviceSpecific (s : St) (c lo hi : Nat) : Option Nat :=
  if s.cfg.stick then
    match devByMidi s c with
    | none => none
    | some a => if (s.dev a).ops = .fm then findInSpan s c 0 5 else findInSpan s c 6 8
  else findInSpan s c lo hi

/-- `set_device_min_max_chans`, midi.c:274-290. -/
def minMax (s : St) (c : Nat) : Nat × Nat :=
  match (s.chan c).deviceSelect with
  | 0 => (0, 8)
  | 1 => (0, 5)
  | 2 => (6, 8)
  | _ => (9, 9)

/-- `findFreeChannel` and `findSuitableDeviceChannel`, midi.c:292-322, 399-402. -/
def findFree (s : St) (c : Nat) : Option Nat :=
  let (lo, hi) := minMax s c
  match findFreeMidiAssigned s c lo hi with
  | some i => some i
  | none =>
    if !s.dynamic then devByMidi s c
    else match findFreePsgSquare s c with
      | some i => some i
      | none => match findDeviceSpecific s c lo hi with
        | some i => some i
        | none => findAnyFree s c lo hi

/-- `tooManyPercussiveNotes`, midi.c:324-342 (the early return does not change the answer). -/
def tooManyPercussive (s : St) (c : Nat) : Bool :=
  c == 9 && decide (2 ≤ ((List.range 13).filter fun i => (s.dev i).midiChannel == 9 && (s.dev i).noteOn).length)

/-- `is_single_voice_channel`, midi.c:473-482. -/
def singleVoice (s : St) (c : Nat) (playing : Bool) : Bool :=
  ((List.range 13).filter fun i =>
    (s.dev i).midiChannel == c && !(playing && !(s.dev i).noteOn)).length == 1

/-! ### Keeping devices in step with MIDI channels -/

/-- `effectivePitchCents` of a device channel, midi.c:404-410 (`midiChannels` has 16 elements). -/
def withPitch (s : St) (i : Nat) (k : PitchCents → St) : St :=
  let d := s.dev i
  if d.midiChannel < 16 then
    let m := s.chan d.midiChannel
    k (effectivePitchCents d.pitch d.cents d.pitchBend m.range m.fineTune)
  else ub s

/-- `set_downstream_pitch`, midi.c:412-416. -/
def setDownstreamPitch (env : Env) (s : St) (i : Nat) : St :=
  withPitch s i fun pc => devPitch env s i pc.pitch pc.cents

/-- `set_downstream_note_on`, midi.c:418-422. -/
def setDownstreamNoteOn (env : Env) (s : St) (i velocity : Nat) : St :=
  withPitch s i fun pc => devNoteOn env s i pc.pitch pc.cents velocity

/-- `update_volume`, midi.c:344-350. -/
def updateVolume (env : Env) (s : St) (c i : Nat) : St :=
  if (s.dev i).volume ≠ (s.chan c).volume then
    setDev (devVolume env s i (s.chan c).volume) i fun d => { d with volume := (s.chan c).volume }
  else s

/-- `update_pan`, midi.c:352-358. -/
def updatePan (env : Env) (s : St) (c i : Nat) : St :=
  if (s.dev i).pan ≠ (s.chan c).pan then
    setDev (devPan env s i (s.chan c).pan) i fun d => { d with pan := (s.chan c).pan }
  else s

/-- `update_program`, midi.c:368-374. -/
def updateProgram (env : Env) (s : St) (c i : Nat) : St :=
  if (s.dev i).program ≠ (s.chan c).program then
    setDev (devProgram env s i (s.chan c).program) i fun d => { d with program := (s.chan c).program }
  else s

/-- `update_pitch_bend`, midi.c:360-366. -/
def updatePitchBend (env : Env) (s : St) (c i : Nat) : St :=
  if (s.dev i).pitchBend ≠ (s.chan c).pitchBend then
    setDownstreamPitch env (setDev s i fun d => { d with pitchBend := (s.chan c).pitchBend }) i
  else s

/-- `update_device_channel_from_associated_midi_channel`, midi.c:389-397.  Every device channel sets the
percussion flag of the FM channel with its number, whatever device it belongs to. -/
def updateDev (env : Env) (s : St) (i : Nat) : St :=
  let c := (s.dev i).midiChannel
  if c < 16 then
    let s := fmCall env s (.percussive (s.dev i).num (c == 9))
    let s := updateVolume env s c i
    let s := updatePan env s c i
    let s := updateProgram env s c i
    updatePitchBend env s c i
  else ub s

/-! ### Notes -/

/-- `dev_chan_note_on`, midi.c:510-516. -/
def devChanNoteOn (env : Env) (s : St) (i pitch velocity : Nat) : St :=
  setDownstreamNoteOn env (setDev s i fun d => { d with noteOn := true, cents := 0, pitch := pitch }) i velocity

/-- `dev_chan_note_off`, midi.c:518-523. -/
def devChanNoteOff (env : Env) (s : St) (i : Nat) : St :=
  devNoteOff env (setDev s i fun d => { d with noteOn := false, pitch := 0 }) i

/-- Body of the loop of `midi_note_off`, midi.c:494-506; the flag is `handledRetrigger`. -/
def noteOffBody (env : Env) (c pitch next : Nat) (single : Bool) (x : St × Bool) (i : Nat) : St × Bool :=
  let (s, handled) := x
  if (s.dev i).midiChannel = c ∧ isPlaying (s.dev i) pitch then
    if !handled && single && next != 0 then
      if (s.chan c).portamento then
        match NotePriority.push (s.chan c).stack next with
        | none => (ub s, true)
        | some st =>
          (setDev (setChan s c fun m => { m with stack := st }) i fun d => { d with glide := next }, true)
      else (devChanNoteOn env s i next (s.chan c).lastVelocity, true)
    else (devChanNoteOff env s i, handled)
  else (s, handled)

/-- `midi_note_off`, midi.c:484-508. -/
def noteOff (env : Env) (s : St) (c pitch : Nat) : St :=
  match NotePriority.remove (s.chan c).stack pitch with
  | none => ub s
  | some st =>
    match NotePriority.pop st with
    | none => ub s
    | some (next, st) =>
      let s := setChan s c fun m => { m with stack := st }
      ((List.range 13).foldl (noteOffBody env c pitch next (singleVoice s c true)) (s, false)).1

/-- End of `midi_note_on`, midi.c:464-470. -/
def startNote (env : Env) (s : St) (i c pitch velocity : Nat) : St :=
  let s := if (s.dev i).midiChannel = 9 ∧ c ≠ 9 then devProgram env s i (s.chan c).program else s
  let s := setDev s i fun d => { d with midiChannel := c, noteOn := true, cents := 0, pitch := pitch }
  let s := updateDev env s i
  setDownstreamNoteOn env s i velocity

/-- `midi_note_on`, midi.c:433-471. -/
def noteOn (env : Env) (s : St) (c pitch velocity : Nat) : St :=
  if velocity = 0 then noteOff env s c pitch
  else if tooManyPercussive s c then s
  else match findFree s c with
    | none => say s (.dropped c pitch)
    | some i =>
      if singleVoice s c false then
        if NotePriority.isFull (s.chan c).stack then say s (.stackFull c)
        else match NotePriority.push (s.chan c).stack pitch with
          | none => ub s
          | some st =>
            let s := setChan s c fun m => { m with stack := st, lastVelocity := velocity }
            if (s.chan c).portamento ∧ 1 < NotePriority.count st then
              setDev s i fun d => { d with glide := pitch }
            else startNote env (setDev s i fun d => { d with glide := 0 }) i c pitch velocity
      else startNote env s i c pitch velocity

/-- `midi_pitch_bend`, midi.c:568-577. -/
def pitchBend (env : Env) (s : St) (c bend : Nat) : St :=
  let s := setChan s c fun m => { m with pitchBend := bend }
  foreach s c fun s i => if (s.dev i).noteOn then updatePitchBend env s c i else s

/-- `midi_program`, midi.c:579-595. -/
def program (env : Env) (s : St) (c program : Nat) : St :=
  let s := setChan s c fun m => { m with program := program }
  let s := foreach s c fun s i => updateProgram env s c i
  emit s (.changedProgram c program)

/-- `all_notes_off`, midi.c:607-614. -/
def allNotesOff (env : Env) (s : St) (c : Nat) : St :=
  foreach s c fun s i => devAllNotesOff env (setDev s i fun d => { d with noteOn := false, pitch := 0 }) i

/-! ### Start-up, mapping and resets -/

/-- `init_midi_channel`, midi.c:145-161. -/
def freshChan : Chan :=
  { volume := 127, program := 0, pan := 64, pitchBend := 0x2000, range := ⟨2, 0⟩, lastVelocity := 0,
    stack := NotePriority.init, deviceSelect := 0, portamento := false, interval := 47, fineTune := 0,
    rpn := 0x7F7F }

/-- `init_device_channel`, midi.c:163-183. -/
def initDev (env : Env) (s : St) (i : Nat) : St :=
  let s := setDev s i fun d =>
    let d := if i ≤ 5 then { d with num := i, ops := .fm }
      else if i ≤ 9 then { d with num := i - 6, ops := .psg }
      else { d with num := i - 10, ops := .sm }
    { d with noteOn := false, midiChannel := i, pitch := 0, cents := 0, pitchBend := 0x2000, glide := 0 }
  updateDev env s i

/-- `apply_dynamic_mode`, midi.c:971-977. -/
def applyDynamicMode (s : St) : St :=
  { s with dev := fun i => if i < 13 then { s.dev i with midiChannel := if s.dynamic then 0x7F else i } else s.dev i }

/-- `reset_channels`, midi.c:134-143. -/
def resetChannels (env : Env) (s : St) : St :=
  let s := { s with chan := fun c => if c < 16 then freshChan else s.chan c }
  applyDynamicMode ((List.range 13).foldl (initDev env) s)

/-- `reset`, midi.c:119-132, and `midi_reset`, midi.c:1309-1312. -/
def reset (env : Env) (s : St) : St :=
  let s := psgCall env s .reset
  let s := fmCall env s .reset
  let s := fmCall env s .smReset
  let s := { s with cfg := ⟨env.mode, false, false, false⟩, dynamic := env.mode == .dynamic }
  resetChannels env s

/-- `set_dynamic_mode`, midi.c:979-989. -/
def setDynamicMode (s : St) (mode : Mode) : St :=
  let s := { s with cfg := { s.cfg with pref := mode } }
  match mode with
  | .dynamic => applyDynamicMode { s with dynamic := true }
  | .static => applyDynamicMode { s with dynamic := false }
  | .auto => s

/-- Conversion of `bool` to `MappingMode` (midi.c:550, 560, 733). -/
def modeOf (b : Bool) : Mode := if b then .dynamic else .static

/-- `midi_remap_channel`, midi.c:937-958, with `valid_midi_channel` and `valid_device_channel`,
midi.c:919-935. -/
def remap (s : St) (c i : Nat) : St :=
  if c ≠ 0x7F ∧ 16 ≤ c then say s (.badMidiChannel c)
  else if i = 0x7F then
    match devByMidi s c with
    | some a => setDev s a fun d => { d with midiChannel := 0x7F }
    | none => s
  else if 13 ≤ i then say s (.badDeviceChannel i)
  else setDev s i fun d => { d with midiChannel := c }

/-- `set_polyphonic_mode`, midi.c:558-566. -/
def setPolyphonic (s : St) (enable : Bool) : St :=
  let s := setDynamicMode s (modeOf enable)
  if enable then (List.range 6).foldl (fun s i => remap s 0 i) s else s

/-- `resetAllControllers`, midi.c:541-551. -/
def resetAllControllers (env : Env) (s : St) (c : Nat) : St :=
  let s := setChan s c fun _ => freshChan
  let s := foreach s c (initDev env)
  setDynamicMode s (modeOf s.dynamic)

/-- `general_midi_reset`, midi.c:960-969. -/
def generalMidiReset (env : Env) (s : St) : St :=
  let s := (List.range 16).foldl (allNotesOff env) s
  let s := if s.cfg.pref = .auto then { s with dynamic := true } else s
  resetChannels env s

/-! ### Controllers -/

/-- The driver call of an FM parameter controller, midi.c:1007-1140 without the gating, `RANGE` as in
midi.c:18; `none` for controllers that are not FM parameters (and for 78, the DAC). -/
def fmParam (invert : Bool) (num controller v : Nat) : Option Synth.Op :=
  match controller with
  | 14 => some (.algorithm num (v / 16))
  | 15 => some (.feedback num (v / 16))
  | 16 | 17 | 18 | 19 => some (.totalLevel num (controller - 16) (if invert then toU8 (127 - (v : Int)) else v))
  | 20 | 21 | 22 | 23 => some (.multiple num (controller - 20) (v / 8))
  | 24 | 25 | 26 | 27 => some (.detune num (controller - 24) (v / 16))
  | 39 | 40 | 41 | 42 => some (.rateScaling num (controller - 39) (v / 32))
  | 43 | 44 | 45 | 46 => some (.attackRate num (controller - 43) (v / 4))
  | 47 | 48 | 49 | 50 => some (.decayRate num (controller - 47) (v / 4))
  | 51 | 52 | 53 | 54 => some (.sustainRate num (controller - 51) (v / 8))
  | 55 | 56 | 57 | 58 => some (.sustainLevel num (controller - 55) (v / 8))
  | 59 | 60 | 61 | 62 => some (.releaseRate num (controller - 59) (v / 8))
  | 70 | 71 | 72 | 73 => some (.am num (controller - 70) (v / 64))
  | 90 | 91 | 92 | 93 => some (.ssgEg num (controller - 90) (v / 8))
  | 74 => some (.enableLfo (v / 64))
  | 1 => some (.lfoFrequency (v / 16))
  | 76 => some (.ams num (v / 32))
  | 75 => some (.fms num (v / 16))
  | 77 => some (.stereo num (v / 32))
  | _ => none

/-- `enable_dac`, midi.c:1001-1005. -/
def enableDac (env : Env) (s : St) (enable : Bool) : St :=
  let s := setDev s 5 fun d => { d with ops := if enable then .dac else .fm }
  fmCall env s (.synth (.enableDac enable))

/-- `set_fm_chan_parameter`, midi.c:1007-1150: the driver is called with the number of the device channel
whatever device it belongs to. -/
def setFmParam (env : Env) (s : St) (i controller v : Nat) : St :=
  match fmParam s.cfg.invert (s.dev i).num controller v with
  | some op => if s.cfg.disableNonGm then s else fmCall env s (.synth op)
  | none =>
    if controller = 78 then if s.cfg.disableNonGm then s else enableDac env s (v / 64 ≠ 0)
    else say s (.unknownCc (s.dev i).midiChannel controller v)

/-- `update_pb_range`, midi.c:1179-1191 (`cents` is an `s8`). -/
def updatePbRange (env : Env) (s : St) (c v : Nat) (msb : Bool) : St :=
  let s := setChan s c fun m =>
    { m with range := if msb then { m.range with pitch := v } else { m.range with cents := toS8 v } }
  foreach s c fun s i => if (s.dev i).pitchBend ≠ 0x2000 then setDownstreamPitch env s i else s

/-- `update_rpn`, midi.c:1193-1200 (`rpn` is a `u16`). -/
def updateRpn (s : St) (c v : Nat) (msb : Bool) : St :=
  setChan s c fun m =>
    { m with rpn := if msb then (v * 128 ||| (m.rpn % 128)) % 65536 else m.rpn / 128 * 128 + v % 128 }

/-- `rpn_data_entry`, midi.c:1202-1216. -/
def rpnDataEntry (env : Env) (s : St) (c v : Nat) (msb : Bool) : St :=
  if (s.chan c).rpn = 0 then updatePbRange env s c v msb else say s (.unknownRpn c (s.chan c).rpn v)

/-- `store_program_from_channel`, midi.c:1218-1227. -/
def storeFromChannel (env : Env) (s : St) (c program : Nat) : St :=
  match (List.range 13).find? fun i => (s.dev i).midiChannel == c && (s.dev i).ops == .fm with
  | some i => say (fmCall env s (.storeFrom (s.dev i).num program)) (.presetStored program)
  | none => s

/-- The switch of `midi_cc`, midi.c:1231-1296. -/
def ccSwitch (env : Env) (s : St) (c controller v : Nat) : St :=
  match controller with
  | 5 => match portaTimeToInterval[v]? with
    | some x => setChan s c fun m => { m with interval := x }
    | none => ub s
  | 7 => foreach (setChan s c fun m => { m with volume := v }) c fun s i => updateVolume env s c i
  | 10 => foreach (setChan s c fun m => { m with pan := v }) c fun s i => updatePan env s c i
  | 120 | 123 => allNotesOff env s c
  | 84 => setPolyphonic s (v / 64 ≠ 0)
  | 80 => fmCall env s (.synth (.specialMode (v / 64 ≠ 0)))
  | 121 => resetAllControllers env s c
  | 83 => if s.cfg.disableNonGm then s else emit s (.showParams c (v / 64))
  | 86 => if s.cfg.disableNonGm then s else setChan s c fun m => { m with deviceSelect := v / 32 }
  | 65 => setChan s c fun m => { m with portamento := v / 64 ≠ 0 }
  | 85 => if s.cfg.disableNonGm then s else setChan s c fun m => { m with fineTune := toS8 ((v : Int) - 64) }
  | 6 => rpnDataEntry env s c v true
  | 38 => rpnDataEntry env s c v false
  | 101 => updateRpn s c v true
  | 100 => updateRpn s c v false
  | 11 | 64 | 98 | 99 => s
  | 87 => storeFromChannel env s c v
  | _ => foreach s c fun s i => setFmParam env s i controller v

/-- `midi_cc`, midi.c:1229-1307. -/
def cc (env : Env) (s : St) (c controller v : Nat) : St :=
  emit (ccSwitch env s c controller v) (.changedCc c controller v)

/-! ### System exclusive -/

/-- `midi_tx_send_sysex`, midi_tx.c:5-15. -/
def sendSysex (s : St) (data : List Nat) : St := emit s (.tx (0xF0 :: data ++ [0xF7]))

/-- Operator parameters in the order of a program message, midi.c:664-676, 759-771. -/
def operBytes (o : Synth.Operator) : List Nat :=
  [o.multiple, o.detune, o.attackRate, o.rateScaling, o.decayRate, o.am, o.sustainLevel, o.sustainRate,
    o.releaseRate, o.totalLevel, o.ssgEg]

/-- `send_preset_dump`, midi.c:741-774. -/
def sendPresetDump (s : St) (context command : Nat) (p : FmPreset) : St :=
  sendSysex s ([0x00, 0x22, 0x77, command, 0, context, p.algorithm, p.feedback, p.ams, p.fms] ++
    operBytes p.ops.o0 ++ operBytes p.ops.o1 ++ operBytes p.ops.o2 ++ operBytes p.ops.o3)

/-- Operator `i` of a store message, midi.c:664-676; assignment truncates to the bit-field (synth.h:14-26). -/
def operOf (d : List Nat) (i : Nat) : Synth.Operator :=
  { multiple := d.getD (6 + i * 11) 0 % 16
    detune := d.getD (7 + i * 11) 0 % 8
    attackRate := d.getD (8 + i * 11) 0 % 32
    rateScaling := d.getD (9 + i * 11) 0 % 4
    decayRate := d.getD (10 + i * 11) 0 % 32
    am := d.getD (11 + i * 11) 0 % 2
    sustainLevel := d.getD (12 + i * 11) 0 % 16
    sustainRate := d.getD (13 + i * 11) 0 % 32
    releaseRate := d.getD (14 + i * 11) 0 % 16
    totalLevel := d.getD (15 + i * 11) 0 % 128
    ssgEg := d.getD (16 + i * 11) 0 % 16 }

/-- The preset of a store message, midi.c:659-676. -/
def presetOf (d : List Nat) : FmPreset :=
  { algorithm := d.getD 2 0 % 8, feedback := d.getD 3 0 % 8, ams := d.getD 4 0 % 4, fms := d.getD 5 0 % 8,
    ops := ⟨operOf d 0, operOf d 1, operOf d 2, operOf d 3⟩ }

/-- `store_program`, midi.c:652-685 (50 bytes, checked by the caller). -/
def storeProgram (env : Env) (s : St) (d : List Nat) : St :=
  if d.getD 0 0 = 0 then say (fmCall env s (.store (d.getD 1 0) (presetOf d))) (.presetStored (d.getD 1 0))
  else say s (.badType (d.getD 0 0))

/-- `clear_program`, midi.c:687-701 (2 bytes). -/
def clearProgram (env : Env) (s : St) (d : List Nat) : St :=
  if d.getD 0 0 = 0 then say (fmCall env s (.clear (d.getD 1 0))) (.presetCleared (d.getD 1 0))
  else say s (.badType (d.getD 0 0))

/-- `clear_all_programs`, midi.c:703-719 (1 byte). -/
def clearAll (env : Env) (s : St) (d : List Nat) : St :=
  if d.getD 0 0 = 0 then say ((List.range 128).foldl (fun s n => fmCall env s (.clear n)) s) .allCleared
  else say s (.badType (d.getD 0 0))

/-- `dump_preset_request`, midi.c:804-824 (2 bytes). -/
def dumpPreset (env : Env) (s : St) (d : List Nat) : St :=
  if d.getD 0 0 = 0 then
    match Fm.getStoredPreset env.fm s.fm (d.getD 1 0) with
    | some p => say (sendPresetDump s (d.getD 1 0) 0x0E p) (.presetDumped (d.getD 1 0))
    | none => say s (.noPreset (d.getD 1 0))
  else say s (.badType (d.getD 0 0))

/-- `dump_channel_request`, midi.c:776-802 (2 bytes). -/
def dumpChannel (s : St) (d : List Nat) : St :=
  let c := d.getD 1 0
  if 16 ≤ c then say s (.badMidiChannel c)
  else if d.getD 0 0 = 0 then
    match devByMidi s c with
    | some i =>
      if (s.dev i).ops = .fm then
        say (sendPresetDump s c 0x10 (Synth.extractPreset s.fm.synth (s.dev i).num)) (.chanDumped c (s.dev i).num)
      else say s (.noFm c)
    | none => say s (.noFm c)
  else say s (.badType (d.getD 0 0))

/-- `send_pong`, midi.c:891-917. -/
def sendPong (s : St) (d : List Nat) : St :=
  sendSysex s ([0x00, 0x22, 0x77, 0x02] ++ d.take 1 ++
    (if 3 ≤ d.length ∧ d.getD 1 0 = 1 then d.drop 2 else []))

/-- The loop of `load_psg_envelope`, midi.c:630-632.  For an odd length the last byte is paired with the byte
after the payload, `junk`: it lies inside the caller's buffer but was never written (midi_rx.c:201-211). -/
def envelopeBytes (junk : Nat) : List Nat → List Nat
  | [] => []
  | [a] => [(a * 16 ||| junk) % 256]
  | a :: b :: rest => (a * 16 ||| b) % 256 :: envelopeBytes junk rest

/-- `load_psg_envelope`, midi.c:626-636.  The 256-byte buffer suffices: payloads have at most 252 bytes. -/
def loadPsgEnvelope (env : Env) (s : St) (d : List Nat) (junk : Nat) : St :=
  if 256 ≤ (d.length + 1) / 2 then ub s
  else say (psgCall env s (.loadEnvelope (envelopeBytes junk d ++ [0xFF]))) .envelopeLoaded

/-- `direct_write_ym2612`, midi.c:644-650 (4 bytes). -/
def directWrite (env : Env) (s : St) (part : Nat) (d : List Nat) : St :=
  fmCall env s (.synth (.directWrite part ((d.getD 0 0 * 16 ||| d.getD 1 0) % 256) ((d.getD 2 0 * 16 ||| d.getD 3 0) % 256)))

/-- `SYSEX_COMMANDS`, midi.c:833-851: required payload length (`none`: any) of the commands with a handler. -/
def commandLength : Nat → Option (Option Nat)
  | 0x00 => some (some 2)
  | 0x01 => some none
  | 0x03 | 0x04 | 0x05 | 0x07 => some (some 1)
  | 0x06 => some none
  | 0x08 | 0x09 => some (some 4)
  | 0x0A => some (some 50)
  | 0x0B | 0x0D | 0x0F => some (some 2)
  | 0x0C => some (some 1)
  | _ => none

/-- The handlers of `SYSEX_COMMANDS`, midi.c:833-851. -/
def handler (env : Env) (s : St) (command : Nat) (d : List Nat) (junk : Nat) : St :=
  match command with
  | 0x00 => remap s (d.getD 0 0) (d.getD 1 0)
  | 0x01 => sendPong s d
  | 0x03 => setDynamicMode s (modeOf (d.getD 0 0 ≠ 0))
  | 0x04 => { s with cfg := { s.cfg with disableNonGm := d.getD 0 0 = 0 } }
  | 0x05 => { s with cfg := { s.cfg with stick := d.getD 0 0 ≠ 0 } }
  | 0x06 => loadPsgEnvelope env s d junk
  | 0x07 => { s with cfg := { s.cfg with invert := d.getD 0 0 ≠ 0 } }
  | 0x08 => directWrite env s 0 d
  | 0x09 => directWrite env s 1 d
  | 0x0A => storeProgram env s d
  | 0x0B => clearProgram env s d
  | 0x0C => clearAll env s d
  | 0x0D => dumpPreset env s d
  | 0x0F => dumpChannel s d
  | _ => s

/-- `midi_sysex`, midi.c:853-889; `data` = the payload, `junk` = the byte that follows it in memory. -/
def sysex (env : Env) (s : St) (data : List Nat) (junk : Nat) : St :=
  if data.length < 4 then s
  else if data.take 4 = [0x7E, 0x7F, 0x09, 0x01] then generalMidiReset env s
  else if data.take 3 ≠ [0x00, 0x22, 0x77] then s
  else
    let command := data.getD 3 0
    let d := data.drop 4
    match commandLength command with
    | none => say s (.badCommand command)
    | some (some n) => if d.length ≠ n then say s (.badLength command d.length) else handler env s command d junk
    | some none => handler env s command d junk

/-! ### Frame tick -/

/-- `process_channel_glide`, midi.c:1314-1343. -/
def processGlide (env : Env) (s : St) (i interval : Nat) : St :=
  match glideStep interval ⟨(s.dev i).pitch, (s.dev i).cents, (s.dev i).glide⟩ with
  | none => s
  | some g =>
    setDownstreamPitch env (setDev s i fun d => { d with pitch := g.pitch, cents := g.cents, glide := g.target }) i

/-- `process_portamento` and `midi_tick`, midi.c:1345-1361. -/
def tick (env : Env) (s : St) : St :=
  (List.range 13).foldl (fun s i =>
    if (s.dev i).midiChannel = 0x7F then s
    else if (s.dev i).midiChannel < 16 then
      if (s.chan (s.dev i).midiChannel).portamento && (s.dev i).noteOn then
        processGlide env s i (s.chan (s.dev i).midiChannel).interval
      else s
    else ub s) s

/-! ### The engine -/

/-- Calls into the engine: MIDI messages (midi.h:178-188), remapping, system reset and the two frame handlers
(midi.c:115, midi_psg.c:62). -/
inductive Op where
  | noteOn (c pitch velocity : Nat)
  | noteOff (c pitch : Nat)
  | bend (c bend : Nat)
  | cc (c controller value : Nat)
  | program (c program : Nat)
  | sysex (data : List Nat) (junk : Nat)
  | remap (c dev : Nat)
  | reset
  | tick
  | psgTick
  deriving DecidableEq

/-- One call; a MIDI channel outside the array is undefined behaviour. -/
def step (env : Env) (s : St) : Op → St
  | .noteOn c p v => if c < 16 then noteOn env s c p v else ub s
  | .noteOff c p => if c < 16 then noteOff env s c p else ub s
  | .bend c b => if c < 16 then pitchBend env s c b else ub s
  | .cc c k v => if c < 16 then cc env s c k v else ub s
  | .program c p => if c < 16 then program env s c p else ub s
  | .sysex d j => sysex env s d j
  | .remap c i => remap s c i
  | .reset => reset env s
  | .tick => tick env s
  | .psgTick => psgCall env s .tick

/-- A history of calls. -/
def run (env : Env) (s : St) (ops : List Op) : St := ops.foldl (step env) s

/-- Zeroed static storage over a preset memory; every vtable pointer is set before use. -/
def powerOn (env : Env) (busTaken : Bool) (mem : Sram.Mem) : St :=
  { dev := fun _ => ⟨0, .fm, false, 0, 0, 0, 0, 0, 0, 0, 0⟩
    chan := fun _ => ⟨0, 0, 0, 0, ⟨0, 0⟩, 0, NotePriority.init, 0, false, 0, 0, 0⟩
    dynamic := false, cfg := ⟨.static, false, false, false⟩
    psg := Psg.init env.psg, fm := Fm.powerOn busTaken mem, out := [], log := [], fault := false }

/-- `midi_init`, midi.c:106-117. -/
def boot (env : Env) (busTaken : Bool) (mem : Sram.Mem) : St := reset env (powerOn env busTaken mem)

end Mdmi.Midi
