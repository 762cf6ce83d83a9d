import Verif.Model.Sram
/-!
# Model of `src/midi_fm.c`, `src/midi_fm_sm.c` and `src/midi_dac.c`

These sit on the YM2612 driver (`Synth`) and the preset memory (`Sram`).  Undefined behaviour sets
`synth.fault`.  `userPresets`/`activeUserPresets` (midi_fm.c:41-42), where the pointer is NULL or points
to the program's own entry, are one table of options; the contents of inactive entries are never read.
-/
namespace Mdmi.Fm
open Mdmi.Synth (FmPreset)

/-- `PercussionPreset`, midi_fm.h:9-12. -/
structure Perc where
  preset : FmPreset
  key : Nat
  deriving DecidableEq

/-- Constant data and build facts: `M_BANK_0`, `P_BANK_0`, `percussionPcmSample` (whether a sample is
present), `SYS_isPAL()`, and whether a cartridge with SRAM is present (sram.c:38-48; decided at start-up). -/
structure Env where
  presets : List FmPreset
  perc : List Perc
  pcm : Nat → Bool
  pal : Bool
  sram : Bool

/-- `MidiFmChannel`, midi_fm.c:19-26. -/
structure Chan where
  pitch : Nat
  cents : Int
  volume : Nat
  velocity : Nat
  pan : Nat
  percussive : Bool
  deriving DecidableEq

/-- Log messages. -/
inductive Msg where
  | noSram
  | badChecksum (program : Nat)
  | loaded (count : Nat)
  deriving DecidableEq

/-- The statics of midi_fm.c:28-42, midi_fm_sm.c:12 and sram.c:35-36, over the driver's. -/
structure St where
  synth : Synth.St
  ch : Nat → Chan
  user : Nat → Option FmPreset
  smPitch : Nat → Nat
  smCents : Nat → Int
  mem : Sram.Mem
  sramBusTaken : Bool
  log : List Msg

/-- Undefined behaviour. -/
def ub (s : St) : St := { s with synth := Synth.ub s.synth }

/-- `FREQS_NTSC`, midi_fm.c:9-13. -/
def freqsNtsc : List Nat := [607, 644, 681, 722, 765, 810, 858, 910, 964, 1021, 1081, 1146, 1214]
/-- `FREQS_PAL`, midi_fm.c:14-17. -/
def freqsPal : List Nat := [613, 649, 688, 729, 772, 818, 867, 918, 973, 1031, 1092, 1157, 1226]

/-- `midi_fm_pitch_to_octave`, midi_fm.c:161-164 (`MIN_MIDI_PITCH` = 11). -/
def pitchToOctave (pitch : Nat) : Nat := toU8 (((pitch : Int) - 11).tdiv 12)

/-- `lookup_freq_num`, midi_fm.c:166-170; the index is at most 12 for the offsets used. -/
def lookupFreqNum (pal : Bool) (pitch offset : Nat) : Nat :=
  (if pal then freqsPal else freqsNtsc).getD (toU8 ((pitch : Int) - 11) % 12 + offset) 0

/-- `midi_fm_pitch_cents_to_freq_num`, midi_fm.c:77-82. -/
def freqNum (pal : Bool) (pitch : Nat) (cents : Int) : Nat :=
  let freq := lookupFreqNum pal pitch 0
  let nextFreq := lookupFreqNum pal pitch 1
  toU16 ((freq : Int) + (((nextFreq : Int) - freq) * cents).tdiv 100)

/-- `effective_volume`, midi_fm.c:177-180. -/
def effectiveVolume (c : Chan) : Nat := c.volume * c.velocity / 0x7F % 256

/-- Access to `fmChannels[chan]` (6 elements). -/
def guardCh (s : St) (chan : Nat) (k : St → St) : St := if chan < 6 then k s else ub s

/-- A call into the driver. -/
def call (s : St) (op : Synth.Op) : St := { s with synth := Synth.step s.synth op }

/-- `set_synth_pitch`, midi_fm.c:84-89. -/
def setSynthPitch (env : Env) (s : St) (chan : Nat) : St :=
  call s (.pitch chan (pitchToOctave (s.ch chan).pitch) (freqNum env.pal (s.ch chan).pitch (s.ch chan).cents))

/-- `midi_fm_note_on`, midi_fm.c:91-109. -/
def noteOn (env : Env) (s : St) (chan pitch : Nat) (cents : Int) (velocity : Nat) : St :=
  if pitch < 11 ∨ pitch > 106 then s
  else guardCh s chan fun s =>
    let play (s : St) (pitch : Nat) : St :=
      let s := { s with ch := upd s.ch chan { s.ch chan with velocity := velocity } }
      let s := call s (.volume chan (effectiveVolume (s.ch chan)))
      let s := { s with ch := upd s.ch chan { s.ch chan with pitch := pitch, cents := cents } }
      let s := setSynthPitch env s chan
      call s (.noteOn chan)
    if (s.ch chan).percussive then
      match env.perc[pitch]? with
      | none => ub s
      | some pp => play (call s (.preset chan pp.preset)) pp.key
    else play s pitch

/-- `midi_fm_note_off`, midi_fm.c:111-115. -/
def noteOff (s : St) (chan : Nat) : St := call s (.noteOff chan)

/-- `midi_fm_channel_volume`, midi_fm.c:117-122. -/
def channelVolume (s : St) (chan volume : Nat) : St :=
  guardCh s chan fun s =>
    let s := { s with ch := upd s.ch chan { s.ch chan with volume := volume } }
    call s (.volume chan (effectiveVolume (s.ch chan)))

/-- `midi_fm_program`, midi_fm.c:124-129. -/
def program (env : Env) (s : St) (chan program : Nat) : St :=
  if program < 128 then
    match s.user program with
    | some p => call s (.preset chan p)
    | none =>
      match env.presets[program]? with
      | some p => call s (.preset chan p)
      | none => ub s
  else ub s

/-- `midi_fm_all_notes_off`, midi_fm.c:131-134. -/
def allNotesOff (s : St) (chan : Nat) : St := noteOff s chan

/-- `midi_fm_percussive`, midi_fm.c:136-140. -/
def percussive (s : St) (chan : Nat) (enabled : Bool) : St :=
  guardCh s chan fun s => { s with ch := upd s.ch chan { s.ch chan with percussive := enabled } }

/-- `midi_fm_pan` and `update_pan`, midi_fm.c:142-159 (synth.h:9-13: right 1, left 2, centre 3). -/
def pan (s : St) (chan pan : Nat) : St :=
  guardCh s chan fun s =>
    let s := { s with ch := upd s.ch chan { s.ch chan with pan := pan } }
    if pan > 95 then call s (.stereo chan 1)
    else if pan > 31 then call s (.stereo chan 3)
    else call s (.stereo chan 2)

/-- `midi_fm_pitch`, midi_fm.c:182-188. -/
def pitch (env : Env) (s : St) (chan pitch : Nat) (cents : Int) : St :=
  guardCh s chan fun s =>
    setSynthPitch env { s with ch := upd s.ch chan { s.ch chan with pitch := pitch, cents := cents } } chan

/-! ### Preset memory -/

/-- `sram_enable`, sram.c:50-55: `Z80_getAndRequestBus` returns whether the 68k already had the bus. -/
def sramEnable (s : St) : St :=
  { s with sramBusTaken := s.synth.busTaken,
           synth := Synth.emit { s.synth with busTaken := true } .reqBus }

/-- `sram_disable`, sram.c:57-65. -/
def sramDisable (s : St) : St :=
  if s.sramBusTaken then
    { s with sramBusTaken := false, synth := Synth.emit { s.synth with busTaken := false } .relBus }
  else s

/-- `midi_fm_sram_save_preset`, midi_fm_sram.c:19-49. -/
def sramSave (env : Env) (s : St) (program : Nat) (p : FmPreset) : St :=
  if env.sram = false then { s with log := .noSram :: s.log }
  else
    let s := sramEnable s
    let s := { s with mem := Sram.applyWrites s.mem (Sram.saveWrites program p) }
    sramDisable s

/-- `midi_fm_sram_clear_preset`, midi_fm_sram.c:51-63. -/
def sramClear (env : Env) (s : St) (program : Nat) : St :=
  if env.sram = false then { s with log := .noSram :: s.log }
  else
    let s := sramEnable s
    let s := { s with mem := Sram.applyWrites s.mem (Sram.clearWrites program) }
    sramDisable s

/-- Loop body of `midi_fm_sram_load_presets`, midi_fm_sram.c:72-93, with the running count. -/
def loadOne (x : St × Nat) (program : Nat) : St × Nat :=
  match Sram.loadProgram x.1.mem program with
  | .empty => x
  | .badChecksum => ({ x.1 with log := .badChecksum program :: x.1.log }, x.2)
  | .ok p => ({ x.1 with user := upd x.1.user program (some p) }, (x.2 + 1) % 256)

/-- `midi_fm_sram_load_presets`, midi_fm_sram.c:65-98. -/
def sramLoad (env : Env) (s : St) : St :=
  if env.sram = false then s
  else
    let s := sramEnable s
    let x := (List.range 128).foldl loadOne (s, 0)
    let s := if x.2 ≠ 0 then { x.1 with log := .loaded x.2 :: x.1.log } else x.1
    sramDisable s

/-- `midi_fm_store_preset`, midi_fm.c:190-195. -/
def storePreset (env : Env) (s : St) (program : Nat) (p : FmPreset) : St :=
  if program < 128 then sramSave env { s with user := upd s.user program (some p) } program p
  else ub s

/-- `midi_fm_clear_preset`, midi_fm.c:197-202. -/
def clearPreset (env : Env) (s : St) (program : Nat) : St :=
  if program < 128 then sramClear env { s with user := upd s.user program none } program
  else ub s

/-- `midi_fm_store_preset_from_channel`, midi_fm.c:204-209. -/
def storePresetFromChannel (env : Env) (s : St) (chan program : Nat) : St :=
  guardCh s chan fun s => storePreset env s program (Synth.extractPreset s.synth chan)

/-- `midi_fm_get_stored_preset`, midi_fm.c:211-218 (`none`: NULL). -/
def getStoredPreset (env : Env) (s : St) (program : Nat) : Option FmPreset :=
  if program ≥ 128 then none
  else match s.user program with
    | some p => some p
    | none => env.presets[program]?

/-- `reset_fm_channels`, midi_fm.c:65-75. -/
def resetChans (ch : Nat → Chan) : Nat → Chan := fun c =>
  if c < 6 then { ch c with volume := 127, velocity := 127, pan := 0, percussive := false, cents := 0 }
  else ch c

/-- `midi_fm_reset`, midi_fm.c:51-57. -/
def reset (env : Env) (s : St) : St :=
  let s := { s with user := fun _ => none, ch := resetChans s.ch }
  let s := sramLoad env s
  match env.presets[0]? with
  | some p => call s (.init p)
  | none => ub s

/-! ### Channel 3 special mode -/

/-- `midi_fm_sm_pitch`, midi_fm_sm.c:20-28 (`SM_OP_LEN` = 3). -/
def smPitch (env : Env) (s : St) (op pitch : Nat) (cents : Int) : St :=
  if op < 3 then
    let s := { s with smPitch := upd s.smPitch op pitch, smCents := upd s.smCents op cents }
    call s (.specialModePitch op (pitchToOctave pitch) (freqNum env.pal pitch cents))
  else ub s

/-- `midi_fm_sm_note_on`, midi_fm_sm.c:14-18. -/
def smNoteOn (env : Env) (s : St) (op pitch : Nat) (cents : Int) (velocity : Nat) : St :=
  call (smPitch env s op pitch cents) (.specialModeVolume op velocity)

/-- `midi_fm_sm_reset`, midi_fm_sm.c:30-37. -/
def smReset (s : St) : St :=
  { s with smPitch := fun o => if o < 3 then 0 else s.smPitch o
           smCents := fun o => if o < 3 then 0 else s.smCents o }

/-! ### Samples -/

/-- `midi_dac_note_on`, midi_dac.c:4-11.  `SND_PCM_startPlay` ends with the bus released. -/
def dacNoteOn (env : Env) (s : St) (pitch : Nat) : St :=
  if pitch < 128 then
    if env.pcm pitch then
      { s with synth := Synth.emit { s.synth with busTaken := false } (.pcmStart pitch) }
    else s
  else ub s

/-- `midi_dac_note_off`, midi_dac.c:17-20.  `SND_PCM_stopPlay` ends with the bus released. -/
def dacNoteOff (s : St) : St :=
  { s with synth := Synth.emit { s.synth with busTaken := false } .pcmStop }

/-! ### Histories -/

/-- API calls, including those into the driver that midi.c makes directly. -/
inductive Op where
  | reset
  | noteOn (chan pitch : Nat) (cents : Int) (velocity : Nat)
  | noteOff (chan : Nat)
  | volume (chan volume : Nat)
  | program (chan program : Nat)
  | allNotesOff (chan : Nat)
  | percussive (chan : Nat) (enabled : Bool)
  | pan (chan pan : Nat)
  | pitch (chan pitch : Nat) (cents : Int)
  | store (program : Nat) (p : FmPreset)
  | clear (program : Nat)
  | storeFrom (chan program : Nat)
  | smNoteOn (op pitch : Nat) (cents : Int) (velocity : Nat)
  | smPitch (op pitch : Nat) (cents : Int)
  | smReset
  | dacNoteOn (pitch : Nat)
  | dacNoteOff
  | synth (op : Synth.Op)

/-- Effect of a call. -/
def step (env : Env) (s : St) : Op → St
  | .reset => reset env s
  | .noteOn c p x v => noteOn env s c p x v
  | .noteOff c => noteOff s c
  | .volume c v => channelVolume s c v
  | .program c p => program env s c p
  | .allNotesOff c => allNotesOff s c
  | .percussive c b => percussive s c b
  | .pan c x => pan s c x
  | .pitch c p x => pitch env s c p x
  | .store n p => storePreset env s n p
  | .clear n => clearPreset env s n
  | .storeFrom c n => storePresetFromChannel env s c n
  | .smNoteOn o p x v => smNoteOn env s o p x v
  | .smPitch o p x => smPitch env s o p x
  | .smReset => smReset s
  | .dacNoteOn p => dacNoteOn env s p
  | .dacNoteOff => dacNoteOff s
  | .synth o => call s o

/-- A history of calls. -/
def run (env : Env) (s : St) (ops : List Op) : St := ops.foldl (step env) s

/-- Zeroed static storage, over a memory that survived the power cycle. -/
def powerOn (busTaken : Bool) (mem : Sram.Mem) : St :=
  { synth := Synth.boot busTaken, ch := fun _ => ⟨0, 0, 0, 0, 0, false⟩, user := fun _ => none,
    smPitch := fun _ => 0, smCents := fun _ => 0, mem := mem, sramBusTaken := false, log := [] }

/-- Start-up: `midi_init` calls `midi_fm_reset`, midi.c:106-122. -/
def boot (env : Env) (busTaken : Bool) (mem : Sram.Mem) : St := reset env (powerOn busTaken mem)

end Mdmi.Fm
