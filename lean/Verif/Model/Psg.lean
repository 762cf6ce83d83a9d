import Verif.Model.Pitch
/-!
# Model of `src/midi_psg.c`

Pointers into envelopes are pairs of a source (the user buffer or a built-in table) and an offset; a
read outside the source is undefined behaviour.  Channel-level functions return `none` on undefined
behaviour, state-level functions set the sticky flag `fault`.  Output events are consed, newest first.
`chanNum` (midi_psg.c:34, set to the index at line 73) is replaced by the index.
-/
namespace Mdmi

/-- Array update. -/
def upd {α : Type} (f : Nat → α) (i : Nat) (x : α) : Nat → α := fun j => if j = i then x else f j

namespace Psg

/-- Array a pointer points into: `userDefinedEnvelope` (midi_psg.c:48) or `envelopes[n]`
(midi_psg.c:50). -/
inductive Src where
  | user
  | builtin (n : Nat)
  deriving DecidableEq, Repr

/-- `const u8*` into an envelope. -/
structure Ptr where
  src : Src
  off : Nat
  deriving DecidableEq, Repr

/-- `p + 1`. -/
def Ptr.next (p : Ptr) : Ptr := { p with off := p.off + 1 }

/-- `MidiPsgChannel`, midi_psg.c:33-46. -/
structure Chan where
  pitch : Nat
  cents : Int
  attenuation : Nat
  freq : Nat
  noteOn : Bool
  volume : Nat
  velocity : Nat
  envelope : Nat
  step : Ptr
  loopStart : Option Ptr
  noteReleased : Bool
  deriving DecidableEq, Repr

/-- Calls to `PSG_setTone` and `PSG_setEnvelope` (SGDK). -/
inductive Ev where
  | tone (ch value : Nat)
  | att (ch value : Nat)
  deriving DecidableEq, Repr

/-- Constant data: `defaultEnvelopes` (midi_psg.c:60) and `SYS_isPAL()`. -/
structure Env where
  envelopes : List (List Nat)
  isPAL : Bool

/-- The statics of midi_psg.c:48-51.  `userLoaded` = `userDefinedEnvelopePtr != NULL` (the only
non-null value it takes is the start of the buffer, lines 69 and 293). -/
structure St where
  userBuf : Nat → Nat
  userLoaded : Bool
  ch : Nat → Chan
  out : List Ev
  fault : Bool

/-- `TONES_NTSC`, midi_psg.c:15-19. -/
def tonesNtsc : List Nat :=
  [1016, 959, 905, 855, 807, 761, 719, 678, 640, 604, 570,
    538, 508, 479, 452, 427, 403, 380, 359, 339, 320, 302, 285, 269, 254, 239, 226, 213, 201, 190,
    179, 169, 160, 151, 142, 134, 127, 119, 113, 106, 100, 95, 89, 84, 80, 75, 71, 67, 63, 59, 56,
    53, 50, 47, 44, 42, 40, 37, 35, 33, 31, 29, 28, 26, 25, 23, 22, 21, 20, 18, 17, 16, 15, 14, 14,
    13, 12, 11, 11, 10, 10, 9, 8]

/-- `TONES_PAL`, midi_psg.c:21-25. -/
def tonesPal : List Nat :=
  [1007, 951, 897, 847, 799, 754, 712, 672, 634, 599, 565,
    533, 503, 475, 448, 423, 399, 377, 356, 336, 317, 299, 282, 266, 251, 237, 224, 211, 199, 188,
    178, 168, 158, 149, 141, 133, 125, 118, 112, 105, 99, 94, 89, 84, 79, 74, 70, 66, 62, 59, 56,
    52, 49, 47, 44, 42, 39, 37, 35, 33, 31, 29, 28, 26, 24, 23, 22, 21, 19, 18, 17, 16, 15, 14, 14,
    13, 12, 11, 11, 10, 9, 9, 8]

/-- `ATTENUATIONS`, midi_psg.c:27-31. -/
def attenuations : List Nat :=
  [15, 14, 14, 14, 13, 13, 13, 13, 12, 12, 12, 11, 11, 11, 11, 10,
    10, 10, 10, 9, 9, 9, 9, 9, 8, 8, 8, 8, 8, 7, 7, 7, 7, 7, 7, 6, 6, 6, 6, 6, 6, 5, 5, 5, 5, 5, 5,
    5, 5, 4, 4, 4, 4, 4, 4, 4, 4, 4, 3, 3, 3, 3, 3, 3, 3, 3, 3, 3, 3, 3, 2, 2, 2, 2, 2, 2, 2, 2, 2,
    2, 2, 2, 2, 2, 2, 1, 1, 1, 1, 1, 1, 1, 1, 1, 1, 1, 1, 1, 1, 1, 1, 1, 1, 1, 1, 1, 1, 1, 1, 0, 0,
    0, 0, 0, 0, 0, 0, 0, 0, 0, 0, 0, 0, 0, 0, 0, 0, 0]

/-- Read through an envelope pointer; `none` outside the array it points into. -/
def deref (env : Env) (userBuf : Nat → Nat) (p : Ptr) : Option Nat :=
  match p.src with
  | .user => if p.off < 256 then some (userBuf p.off) else none
  | .builtin n => (env.envelopes[n]?).bind (·[p.off]?)

/-- `tone_for_midi_key`, midi_psg.c:296-306. -/
def toneForMidiKey (isPAL : Bool) (midiKey : Nat) : Option Nat :=
  let tones := if isPAL then tonesPal else tonesNtsc
  if midiKey < 45 then tones[0]?
  else if midiKey > 127 then tones[82]?
  else tones[midiKey - 45]?

/-- `tone_from_pitch_cents`, midi_psg.c:110-117.  The argument `pc.pitch + 1` is converted to `u8`. -/
def toneFromPitchCents (isPAL : Bool) (pc : PitchCents) : Option Nat :=
  match toneForMidiKey isPAL pc.pitch with
  | none => none
  | some tone =>
    if pc.cents = 0 then some tone
    else match toneForMidiKey isPAL (toU8 (pc.pitch + 1 : Nat)) with
      | none => none
      | some next => some (toU16 (tone + ((((next : Int) - tone) * pc.cents).tdiv 100)))

/-- Pitch shift of an envelope byte's upper nibble: the switch of `envelope_tone`,
midi_psg.c:121-168. -/
def envelopeShift (pc : PitchCents) (shift : Nat) : PitchCents :=
  match shift with
  | 0x1 => pcShift pc 5
  | 0x2 => pcShift pc 10
  | 0x3 => pcShift pc 20
  | 0x4 => pcShift pc 50
  | 0x5 => { pc with pitch := toU8 ((pc.pitch : Int) + 1) }
  | 0x6 => { pc with pitch := toU8 ((pc.pitch : Int) + 2) }
  | 0x7 => { pc with pitch := toU8 ((pc.pitch : Int) + 5) }
  | 0x8 => pcShift pc (-5)
  | 0x9 => pcShift pc (-10)
  | 0xA => pcShift pc (-20)
  | 0xB => pcShift pc (-50)
  | 0xC => { pc with pitch := toU8 ((pc.pitch : Int) - 1) }
  | 0xD => { pc with pitch := toU8 ((pc.pitch : Int) - 2) }
  | 0xE => { pc with pitch := toU8 ((pc.pitch : Int) - 5) }
  | _ => pc

/-- `envelope_tone`, midi_psg.c:119-170, `b` = `*psgChan->envelopeStep`. -/
def envelopeTone (isPAL : Bool) (c : Chan) (b : Nat) : Option Nat :=
  toneFromPitchCents isPAL (envelopeShift { pitch := c.pitch, cents := c.cents } (b / 16))

/-- `effective_attenuation`, midi_psg.c:93-101, `b` = `*psgChan->envelopeStep`. -/
def effectiveAttenuation (c : Chan) (b : Nat) : Option Nat :=
  match attenuations[c.volume * c.velocity / 127]? with
  | none => none
  | some att =>
    let invAtt := toU8 (15 - (att : Int))
    let envAtt := b % 16
    let invEnvAtt := toU8 (15 - (envAtt : Int))
    let invEffectiveAtt := toU8 ((invAtt * invEnvAtt / 15 : Nat) : Int)
    some (toU8 (15 - (invEffectiveAtt : Int)))

/-- A channel and the events it has produced so far (newest first). -/
abbrev Out := Chan × List Ev

/-- `apply_tone`, midi_psg.c:172-178. -/
def applyTone (n : Nat) (o : Out) (newFreq : Nat) : Out :=
  if newFreq ≠ o.1.freq then ({ o.1 with freq := newFreq }, .tone n newFreq :: o.2) else o

/-- `apply_attenuation`, midi_psg.c:180-186. -/
def applyAttenuation (n : Nat) (o : Out) (newAtt : Nat) : Out :=
  if newAtt ≠ o.1.attenuation then ({ o.1 with attenuation := newAtt }, .att n newAtt :: o.2) else o

/-- `note_off`, midi_psg.c:103-108. -/
def noteOffChan (n : Nat) (o : Out) : Out :=
  let o := applyAttenuation n o 15
  ({ o.1 with noteOn := false, noteReleased := false }, o.2)

/-- Lines 208-209 of `apply_envelope_step`. -/
def applyLevel (env : Env) (buf : Nat → Nat) (n : Nat) (o : Out) : Option Out :=
  match deref env buf o.1.step with
  | none => none
  | some b =>
    match envelopeTone env.isPAL o.1 b with
    | none => none
    | some t =>
      let o := applyTone n o t
      match effectiveAttenuation o.1 b with
      | none => none
      | some a => some (applyAttenuation n o a)

/-- Lines 190-193 of `apply_envelope_step`: enter a loop. -/
def stepLoopStart (env : Env) (buf : Nat → Nat) (c : Chan) : Option Chan :=
  match deref env buf c.step with
  | none => none
  | some b =>
    some (if b = 0xFE then { c with step := c.step.next, loopStart := some c.step.next } else c)

/-- Lines 194-199 of `apply_envelope_step`: end of a loop. -/
def stepLoopEnd (env : Env) (buf : Nat → Nat) (c : Chan) : Option Chan :=
  match deref env buf c.step with
  | none => none
  | some b =>
    match c.loopStart with
    | some ls =>
      if b = 0xFD then
        some (if !c.noteReleased then { c with step := ls } else { c with step := c.step.next })
      else some c
    | none => some c

/-- `apply_envelope_step`, midi_psg.c:188-210. -/
def applyEnvelopeStep (env : Env) (buf : Nat → Nat) (n : Nat) (c : Chan) : Option Out :=
  (stepLoopStart env buf c).bind fun c =>
  (stepLoopEnd env buf c).bind fun c =>
  match deref env buf c.step with
  | none => none
  | some b =>
    if b = 0xFF then
      match c.loopStart, c.noteReleased with
      | some ls, false => applyLevel env buf n ({ c with step := ls }, [])
      | _, _ => some (noteOffChan n (c, []))
    else applyLevel env buf n (c, [])

/-- `init_envelope`, midi_psg.c:86-91.  `none`: index outside `envelopes`. -/
def initEnvelope (env : Env) (userLoaded : Bool) (c : Chan) : Option Chan :=
  if userLoaded then some { c with step := ⟨.user, 0⟩, loopStart := none }
  else if c.envelope < env.envelopes.length then
    some { c with step := ⟨.builtin c.envelope, 0⟩, loopStart := none }
  else none

/-- Run a channel-level function on channel `n`; undefined behaviour, including a channel number
outside the array, sets `fault`. -/
def onChan (s : St) (n : Nat) (f : Chan → Option Out) : St :=
  if n < 4 then
    match f (s.ch n) with
    | none => { s with fault := true }
    | some (c, evs) => { s with ch := upd s.ch n c, out := evs ++ s.out }
  else { s with fault := true }

/-- Channel part of `midi_psg_note_on`, midi_psg.c:217-224. -/
def noteOnChan (env : Env) (s : St) (n pitch : Nat) (cents : Int) (velocity : Nat) (c : Chan) :
    Option Out :=
  let c := { c with noteReleased := false, pitch := pitch, cents := cents, velocity := velocity,
                    noteOn := true }
  (initEnvelope env s.userLoaded c).bind (applyEnvelopeStep env s.userBuf n)

/-- `midi_psg_note_on`, midi_psg.c:212-225. -/
def noteOn (env : Env) (s : St) (n pitch : Nat) (cents : Int) (velocity : Nat) : St :=
  if pitch < 45 then s else onChan s n (noteOnChan env s n pitch cents velocity)

/-- Channel part of `midi_psg_note_off`, midi_psg.c:230-236. -/
def releaseChan (n : Nat) (c : Chan) : Option Out :=
  if c.noteOn then
    match c.loopStart with
    | some _ => some ({ c with noteReleased := true }, [])
    | none => some (noteOffChan n (c, []))
  else some (c, [])

/-- `midi_psg_note_off`, midi_psg.c:227-237 (the pitch is ignored). -/
def noteOff (s : St) (n : Nat) : St := onChan s n (releaseChan n)

/-- `midi_psg_all_notes_off`, midi_psg.c:239-242. -/
def allNotesOff (s : St) (n : Nat) : St := noteOff s n

/-- Channel part of `midi_psg_channel_volume`, midi_psg.c:247-250. -/
def volumeChan (env : Env) (s : St) (n volume : Nat) (c : Chan) : Option Out :=
  let c := { c with volume := volume }
  if c.noteOn then
    (deref env s.userBuf c.step).bind fun b =>
    (effectiveAttenuation c b).bind fun a => some (applyAttenuation n (c, []) a)
  else some (c, [])

/-- `midi_psg_channel_volume`, midi_psg.c:244-251. -/
def volume (env : Env) (s : St) (n volume : Nat) : St := onChan s n (volumeChan env s n volume)

/-- `midi_psg_program`, midi_psg.c:253-257. -/
def program (s : St) (n program : Nat) : St :=
  onChan s n fun c => some ({ c with envelope := program }, [])

/-- Channel part of `midi_psg_pitch`, midi_psg.c:316-318. -/
def pitchChan (env : Env) (s : St) (n pitch : Nat) (cents : Int) (c : Chan) : Option Out :=
  let c := { c with pitch := pitch, cents := cents }
  (deref env s.userBuf c.step).bind fun b =>
  (envelopeTone env.isPAL c b).bind fun t => some (applyTone n (c, []) t)

/-- `midi_psg_pitch`, midi_psg.c:313-319. -/
def pitch (env : Env) (s : St) (n pitch : Nat) (cents : Int) : St :=
  onChan s n (pitchChan env s n pitch cents)

/-- `increment_envelope_step` behind the test of `midi_psg_tick`, midi_psg.c:265-271, 277-279. -/
def tickChan (env : Env) (buf : Nat → Nat) (n : Nat) (c : Chan) : Option Out :=
  if c.noteOn then
    (deref env buf c.step).bind fun b =>
    applyEnvelopeStep env buf n (if b ≠ 0xFF then { c with step := c.step.next } else c)
  else some (c, [])

/-- `midi_psg_tick`, midi_psg.c:273-281. -/
def tick (env : Env) (s : St) : St :=
  (List.range 4).foldl (fun s n => onChan s n (tickChan env s.userBuf n)) s

/-- The copy loop of `midi_psg_load_envelope`, midi_psg.c:285-292: `none` when it runs past the source
or the 256-byte buffer. -/
def loadLoop : List Nat → Nat → (Nat → Nat) → Option (Nat → Nat)
  | [], _, _ => none
  | b :: rest, i, buf =>
    if i < 256 then
      let buf := upd buf i b
      if b = 0xFF then some buf else loadLoop rest (i + 1) buf
    else none

/-- `midi_psg_load_envelope`, midi_psg.c:283-294; `eef` = memory readable from the pointer on. -/
def loadEnvelope (s : St) (eef : List Nat) : St :=
  match loadLoop eef 0 s.userBuf with
  | none => { s with fault := true }
  | some buf => { s with userBuf := buf, userLoaded := true }

/-- Body of the loop of `midi_psg_reset`, midi_psg.c:71-82. -/
def resetChan (env : Env) (c : Chan) : Option Out :=
  (initEnvelope env false { c with
    attenuation := 15, noteOn := false, volume := 127, velocity := 127, envelope := 0,
    noteReleased := false, freq := 0, pitch := 0, cents := 0 }).map fun c => (c, [])

/-- `midi_psg_reset`, midi_psg.c:67-84. -/
def reset (env : Env) (s : St) : St :=
  (List.range 4).foldl (fun s n => onChan s n (resetChan env)) { s with userLoaded := false }

/-- Zeroed static storage before `midi_psg_init`; the pointer value is a placeholder that is never
read before `reset` sets it. -/
def zeroChan : Chan :=
  ⟨0, 0, 0, 0, false, 0, 0, 0, ⟨.user, 0⟩, none, false⟩

/-- `midi_psg_init`, midi_psg.c:60-65. -/
def init (env : Env) : St :=
  reset env { userBuf := fun _ => 0, userLoaded := false, ch := fun _ => zeroChan, out := [],
              fault := false }

/-- API calls. -/
inductive Op where
  | noteOn (ch pitch : Nat) (cents : Int) (velocity : Nat)
  | noteOff (ch : Nat)
  | allNotesOff (ch : Nat)
  | volume (ch volume : Nat)
  | program (ch program : Nat)
  | pitch (ch pitch : Nat) (cents : Int)
  | tick
  | loadEnvelope (eef : List Nat)
  | reset

/-- One API call. -/
def step (env : Env) (s : St) : Op → St
  | .noteOn ch p c v => noteOn env s ch p c v
  | .noteOff ch => noteOff s ch
  | .allNotesOff ch => allNotesOff s ch
  | .volume ch v => volume env s ch v
  | .program ch p => program s ch p
  | .pitch ch p c => pitch env s ch p c
  | .tick => tick env s
  | .loadEnvelope e => loadEnvelope s e
  | .reset => reset env s

/-- A history of API calls. -/
def run (env : Env) (s : St) (ops : List Op) : St := ops.foldl (step env) s

/-- `ENV_SQUARE_LEAD`, src/envelopes.c:4-5. -/
def envSquareLead : List Nat := [0x00, 0xFE, 0x00, 0xFD, 0x01, 0x02, 0x03,
    0x04, 0x05, 0x06, 0x07, 0x08, 0x09, 0x0A, 0x0B, 0x0C, 0x0D, 0x0E, 0x0F, 0xFF]

/-- `ENVELOPE_0`, src/envelopes.c:7-10. -/
def envelope0 : List Nat := [0x00, 0x00, 0x01, 0x01, 0x01, 0x01, 0x01, 0x01, 0x01, 0x01, 0x01,
    0x01, 0x01, 0x01, 0x01, 0x01, 0x01, 0x01, 0x01, 0x01, 0x01, 0x01, 0x01, 0xFE, 0x01,
    0x01, 0x11, 0x11, 0x01, 0x01, 0x81, 0x81, 0xFD, 0x01, 0x02, 0x03, 0x04, 0x05, 0x06,
    0x07, 0x08, 0x09, 0x0A, 0x0B, 0x0C, 0x0D, 0x0E, 0x0F, 0xFF]

/-- `ENVELOPES`, src/envelopes.c:12-37: all programs use `ENVELOPE_0` except 80, 89 and 99. -/
def realEnvelopes : List (List Nat) :=
  (List.range 128).map fun p => if p = 80 ∨ p = 89 ∨ p = 99 then envSquareLead else envelope0

end Psg
end Mdmi
