import Verif.Model.Psg
/-!
# Model of `src/synth.c`, the YM2612 driver

Bit-fields (synth.h:15-51) are `Nat`s; every store masks to the field width.  Array indices outside
the arrays are undefined behaviour and set the sticky flag `fault`.  Calls into SGDK are events,
consed newest first.  `parameterUpdatedCallback` (synth.c:270-282, 426-429), which only redraws the
screen, is left out.

SGDK facts used: `Z80_getAndRequestBus` returns whether the 68k already had the bus; loading the PCM
driver ends with the bus released (the driver runs); `YM2612_writeReg`/`YM2612_write` do not touch the
bus.
-/
namespace Mdmi.Synth

/-- `Operator`, synth.h:15-27. -/
structure Operator where
  multiple : Nat
  detune : Nat
  attackRate : Nat
  rateScaling : Nat
  decayRate : Nat
  am : Nat
  sustainLevel : Nat
  sustainRate : Nat
  releaseRate : Nat
  totalLevel : Nat
  ssgEg : Nat
  deriving DecidableEq, Repr

/-- `Operator operators[MAX_FM_OPERATORS]` (4 elements, synth.h:4). -/
structure Ops4 where
  o0 : Operator
  o1 : Operator
  o2 : Operator
  o3 : Operator
  deriving DecidableEq, Repr

/-- Array read; callers check the index. -/
def Ops4.get (o : Ops4) : Nat → Operator
  | 0 => o.o0
  | 1 => o.o1
  | 2 => o.o2
  | _ => o.o3

/-- Array write; callers check the index. -/
def Ops4.set (o : Ops4) (i : Nat) (x : Operator) : Ops4 :=
  match i with
  | 0 => { o with o0 := x }
  | 1 => { o with o1 := x }
  | 2 => { o with o2 := x }
  | _ => { o with o3 := x }

/-- `FmChannel`, synth.h:29-38. -/
structure FmChannel where
  algorithm : Nat
  feedback : Nat
  stereo : Nat
  ams : Nat
  fms : Nat
  octave : Nat
  freqNumber : Nat
  ops : Ops4
  deriving DecidableEq, Repr

/-- `FmPreset`, synth.h:40-46. -/
structure FmPreset where
  algorithm : Nat
  feedback : Nat
  ams : Nat
  fms : Nat
  ops : Ops4
  deriving DecidableEq, Repr

/-- Calls into SGDK. -/
inductive Ev where
  /-- `YM2612_writeReg(part, reg, data)` -/
  | ym (part reg data : Nat)
  /-- `YM2612_write(0, YM_DAC_DATA)`: latch the address of the DAC data register -/
  | latchDac
  /-- `Z80_loadDriver(Z80_DRIVER_PCM, true)` -/
  | loadPcm
  /-- `Z80_loadDriver(Z80_DRIVER_NULL, FALSE)` -/
  | loadNull
  /-- `Z80_requestBus(TRUE)` or `Z80_getAndRequestBus(TRUE)` -/
  | reqBus
  /-- `Z80_releaseBus()` -/
  | relBus
  /-- `SND_PCM_startPlay` of the sample of a key -/
  | pcmStart (pitch : Nat)
  /-- `SND_PCM_stopPlay` -/
  | pcmStop
  deriving DecidableEq, Repr

/-- The statics of synth.c:5-7 (`Global`, synth.h:48-53, as four fields), the hardware bus state, and
the trace. -/
structure St where
  lfoEnable : Nat
  lfoFrequency : Nat
  specialMode : Bool
  dacEnable : Bool
  ch : Nat → FmChannel
  vol : Nat → Nat
  busTaken : Bool
  out : List Ev
  fault : Bool

/-- `VOLUME_TO_TOTAL_LEVELS`, synth.c:13-18. -/
def volumeToTotalLevels : List Nat :=
  [127, 122, 117, 113, 108, 104, 100, 97, 93, 89, 86, 83,
    80, 77, 74, 71, 68, 66, 63, 61, 58, 56, 54, 52, 50, 48, 46, 44, 43, 41, 40, 38, 37, 35, 34, 32,
    31, 30, 29, 28, 27, 26, 25, 24, 23, 22, 21, 20, 19, 19, 18, 17, 17, 16, 15, 15, 14, 13, 13, 12,
    12, 11, 11, 11, 10, 10, 9, 9, 9, 8, 8, 7, 7, 7, 7, 6, 6, 6, 5, 5, 5, 5, 5, 4, 4, 4, 4, 4, 3, 3,
    3, 3, 3, 3, 3, 2, 2, 2, 2, 2, 2, 2, 2, 1, 1, 1, 1, 1, 1, 1, 1, 1, 1, 1, 1, 1, 1, 0, 0, 0, 0, 0,
    0, 0, 0, 0, 0, 0]

def emit (s : St) (e : Ev) : St := { s with out := e :: s.out }

/-- Undefined behaviour. -/
def ub (s : St) : St := { s with fault := true }

/-- Access to `fmChannels[c]` / `volumes[c]`: 6 elements. -/
def onCh (s : St) (c : Nat) (f : FmChannel → FmChannel) : St :=
  if c < 6 then { s with ch := upd s.ch c (f (s.ch c)) } else ub s

/-- Store to a field of `get_operator(c, op)`, synth.c:312-315. -/
def onOp (s : St) (c op : Nat) (f : Operator → Operator) : St :=
  if c < 6 ∧ op < 4 then
    { s with ch := upd s.ch c { s.ch c with
        ops := (s.ch c).ops.set op (f ((s.ch c).ops.get op)) } }
  else ub s

/-- `release_z80_bus`, synth.c:499-503. -/
def releaseZ80Bus (s : St) : St :=
  emit { emit s .latchDac with busTaken := false } .relBus

/-- `write_reg_safe`, synth.c:483-497 (without the debug message). -/
def writeRegSafe (s : St) (part reg data : Nat) : St :=
  if s.dacEnable = false then emit s (.ym part reg data)
  else
    let takenAlready := s.busTaken
    let s := emit { s with busTaken := true } .reqBus
    let s := emit s (.ym part reg data)
    if takenAlready = false then releaseZ80Bus s else s

/-- `write_channel_reg`, synth.c:284-289. -/
def writeChannelReg (s : St) (c baseReg data : Nat) : St :=
  writeRegSafe s (if c > 2 then 1 else 0) ((baseReg + c % 3) % 256) (data % 256)

/-- `reg_operator_index`, synth.c:291-300. -/
def regOperatorIndex (op : Nat) : Nat := if op = 1 then 2 else if op = 2 then 1 else op

/-- `write_operator_reg`, synth.c:302-305. -/
def writeOperatorReg (s : St) (c op baseReg data : Nat) : St :=
  writeChannelReg s c ((baseReg + regOperatorIndex op * 4) % 256) data

/-- `key_on_off_reg_offset`, synth.c:307-310. -/
def keyOnOffRegOffset (c : Nat) : Nat := if c < 3 then c else (c + 1) % 256

/-- `write_global_lfo`, synth.c:317-320. -/
def writeGlobalLfo (s : St) : St :=
  writeRegSafe s 0 0x22 ((s.lfoEnable <<< 3) ||| s.lfoFrequency)

/-- `write_dac_reg`, synth.c:322-325. -/
def writeDacReg (s : St) : St := writeRegSafe s 0 0x2B (if s.dacEnable then 0x80 else 0)

/-- Guard for reads of `fmChannels[c]`. -/
def guardCh (s : St) (c : Nat) (k : St → St) : St := if c < 6 then k s else ub s

/-- Guard for reads of `fmChannels[c].operators[op]`. -/
def guardOp (s : St) (c op : Nat) (k : St → St) : St := if c < 6 ∧ op < 4 then k s else ub s

/-- `write_octave_and_frequency`, synth.c:327-332. -/
def writeOctaveAndFrequency (s : St) (c : Nat) : St :=
  guardCh s c fun s =>
    let ch := s.ch c
    let s := writeChannelReg s c 0xA4 ((ch.freqNumber >>> 8) ||| (ch.octave <<< 3))
    writeChannelReg s c 0xA0 ch.freqNumber

/-- `write_algorithm_and_feedback`, synth.c:334-338. -/
def writeAlgorithmAndFeedback (s : St) (c : Nat) : St :=
  guardCh s c fun s => writeChannelReg s c 0xB0 ((s.ch c).feedback * 8 + (s.ch c).algorithm)

/-- `write_stereo_ams_fms`, synth.c:340-345. -/
def writeStereoAmsFms (s : St) (c : Nat) : St :=
  guardCh s c fun s =>
    writeChannelReg s c 0xB4 ((s.ch c).stereo * 64 + (s.ch c).ams * 16 + (s.ch c).fms)

/-- `write_operator_multiple_and_detune`, synth.c:347-352. -/
def writeOperatorMultipleAndDetune (s : St) (c op : Nat) : St :=
  guardOp s c op fun s =>
    let o := (s.ch c).ops.get op
    writeOperatorReg s c op 0x30 (o.multiple + o.detune * 16)

/-- `write_operator_rate_scaling_and_attack_rate`, synth.c:354-359. -/
def writeOperatorRateScalingAndAttackRate (s : St) (c op : Nat) : St :=
  guardOp s c op fun s =>
    let o := (s.ch c).ops.get op
    writeOperatorReg s c op 0x50 (o.attackRate + o.rateScaling * 64)

/-- `write_operator_amplitude_modulation_and_decay_rate`, synth.c:361-366. -/
def writeOperatorAmplitudeModulationAndDecayRate (s : St) (c op : Nat) : St :=
  guardOp s c op fun s =>
    let o := (s.ch c).ops.get op
    writeOperatorReg s c op 0x60 (o.decayRate + o.am * 128)

/-- `write_operator_sustain_rate`, synth.c:368-372. -/
def writeOperatorSustainRate (s : St) (c op : Nat) : St :=
  guardOp s c op fun s => writeOperatorReg s c op 0x70 ((s.ch c).ops.get op).sustainRate

/-- `write_operator_release_rate_and_sustain_level`, synth.c:374-379. -/
def writeOperatorReleaseRateAndSustainLevel (s : St) (c op : Nat) : St :=
  guardOp s c op fun s =>
    let o := (s.ch c).ops.get op
    writeOperatorReg s c op 0x80 (o.releaseRate + o.sustainLevel * 16)

/-- `write_operator_ssg_eg`, synth.c:381-385. -/
def writeOperatorSsgEg (s : St) (c op : Nat) : St :=
  guardOp s c op fun s => writeOperatorReg s c op 0x90 ((s.ch c).ops.get op).ssgEg

/-- `is_output_operator`, synth.c:401-405. -/
def isOutputOperator (algorithm op : Nat) : Bool :=
  (algorithm < 4 && op == 3) || (algorithm == 4 && (op == 1 || op == 3))
    || ((algorithm == 5 || algorithm == 6) && op > 0) || algorithm == 7

/-- The arithmetic of `volume_adjusted_total_level`, synth.c:407-414 (also lines 457-460), for the
volume `volume`; `none`: index outside `VOLUME_TO_TOTAL_LEVELS`. -/
def scaleTotalLevel (volume totalLevel : Nat) : Option Nat :=
  match volumeToTotalLevels[volume]? with
  | none => none
  | some tl =>
    let logarithmicVolume := toU8 (0x7F - (tl : Int))
    let inverseTotalLevel := toU8 (0x7F - (totalLevel : Int))
    let inverseNewTotalLevel := toU8 ((inverseTotalLevel * logarithmicVolume / 0x7F : Nat) : Int)
    some (toU8 (0x7F - (inverseNewTotalLevel : Int)))

/-- `effective_total_level`, synth.c:394-399. -/
def effectiveTotalLevel (s : St) (c op totalLevel : Nat) : Option Nat :=
  if isOutputOperator (s.ch c).algorithm op then scaleTotalLevel (s.vol c) totalLevel
  else some totalLevel

/-- `write_operator_total_level`, synth.c:387-392. -/
def writeOperatorTotalLevel (s : St) (c op : Nat) : St :=
  guardOp s c op fun s =>
    match effectiveTotalLevel s c op ((s.ch c).ops.get op).totalLevel with
    | none => ub s
    | some tl => writeOperatorReg s c op 0x40 tl

/-- The loop body of `update_channel`, synth.c:83-89. -/
def updateOperator (s : St) (c op : Nat) : St :=
  let s := writeOperatorMultipleAndDetune s c op
  let s := writeOperatorRateScalingAndAttackRate s c op
  let s := writeOperatorAmplitudeModulationAndDecayRate s c op
  let s := writeOperatorSustainRate s c op
  let s := writeOperatorReleaseRateAndSustainLevel s c op
  let s := writeOperatorTotalLevel s c op
  writeOperatorSsgEg s c op

/-- `update_channel`, synth.c:78-91. -/
def updateChannel (s : St) (c : Nat) : St :=
  let s := writeAlgorithmAndFeedback s c
  let s := writeStereoAmsFms s c
  (List.range 4).foldl (fun s op => updateOperator s c op) s

/-- `preset_to_channel`, synth.c:47-59 (`STEREO_MODE_CENTRE` = 3, synth.h:10). -/
def presetToChannel (p : FmPreset) : FmChannel :=
  { algorithm := p.algorithm, feedback := p.feedback, ams := p.ams, fms := p.fms, stereo := 3,
    octave := 0, freqNumber := 0, ops := p.ops }

/-- `synth_note_on`, synth.c:101-104. -/
def noteOn (s : St) (c : Nat) : St := writeRegSafe s 0 0x28 ((0xF0 + keyOnOffRegOffset c) % 256)

/-- `synth_note_off`, synth.c:106-109. -/
def noteOff (s : St) (c : Nat) : St := writeRegSafe s 0 0x28 (keyOnOffRegOffset c)

/-- `synth_pitch`, synth.c:111-117. -/
def pitch (s : St) (c octave freqNumber : Nat) : St :=
  writeOctaveAndFrequency
    (onCh s c fun ch => { ch with octave := octave % 8, freqNumber := freqNumber % 2048 }) c

/-- `synth_volume`, synth.c:119-128. -/
def volume (s : St) (c volume : Nat) : St :=
  guardCh s c fun s =>
    if s.vol c = volume then s
    else (List.range 4).foldl (fun s op => writeOperatorTotalLevel s c op)
      { s with vol := upd s.vol c volume }

/-- `synth_stereo`, synth.c:130-135. -/
def stereo (s : St) (c x : Nat) : St :=
  writeStereoAmsFms (onCh s c fun ch => { ch with stereo := x % 4 }) c

/-- `synth_algorithm`, synth.c:137-142. -/
def algorithm (s : St) (c x : Nat) : St :=
  writeAlgorithmAndFeedback (onCh s c fun ch => { ch with algorithm := x % 8 }) c

/-- `synth_feedback`, synth.c:144-149. -/
def feedback (s : St) (c x : Nat) : St :=
  writeAlgorithmAndFeedback (onCh s c fun ch => { ch with feedback := x % 8 }) c

/-- `synth_operator_total_level`, synth.c:151-160. -/
def operatorTotalLevel (s : St) (c op x : Nat) : St :=
  guardOp s c op fun s =>
    if ((s.ch c).ops.get op).totalLevel = x then s
    else writeOperatorTotalLevel (onOp s c op fun o => { o with totalLevel := x % 128 }) c op

/-- `synth_operator_multiple`, synth.c:162-167. -/
def operatorMultiple (s : St) (c op x : Nat) : St :=
  writeOperatorMultipleAndDetune (onOp s c op fun o => { o with multiple := x % 16 }) c op

/-- `synth_operator_detune`, synth.c:169-174. -/
def operatorDetune (s : St) (c op x : Nat) : St :=
  writeOperatorMultipleAndDetune (onOp s c op fun o => { o with detune := x % 8 }) c op

/-- `synth_operator_rate_scaling`, synth.c:176-181. -/
def operatorRateScaling (s : St) (c op x : Nat) : St :=
  writeOperatorRateScalingAndAttackRate (onOp s c op fun o => { o with rateScaling := x % 4 }) c op

/-- `synth_operator_attack_rate`, synth.c:183-188. -/
def operatorAttackRate (s : St) (c op x : Nat) : St :=
  writeOperatorRateScalingAndAttackRate (onOp s c op fun o => { o with attackRate := x % 32 }) c op

/-- `synth_operator_sustain_rate`, synth.c:190-195. -/
def operatorSustainRate (s : St) (c op x : Nat) : St :=
  writeOperatorSustainRate (onOp s c op fun o => { o with sustainRate := x % 32 }) c op

/-- `synth_operator_release_rate`, synth.c:197-202. -/
def operatorReleaseRate (s : St) (c op x : Nat) : St :=
  writeOperatorReleaseRateAndSustainLevel (onOp s c op fun o => { o with releaseRate := x % 16 }) c op

/-- `synth_operator_ssg_eg`, synth.c:204-209. -/
def operatorSsgEg (s : St) (c op x : Nat) : St :=
  writeOperatorSsgEg (onOp s c op fun o => { o with ssgEg := x % 16 }) c op

/-- `synth_operator_sustain_level`, synth.c:211-216. -/
def operatorSustainLevel (s : St) (c op x : Nat) : St :=
  writeOperatorReleaseRateAndSustainLevel (onOp s c op fun o => { o with sustainLevel := x % 16 }) c op

/-- `synth_operator_decay_rate`, synth.c:218-223. -/
def operatorDecayRate (s : St) (c op x : Nat) : St :=
  writeOperatorAmplitudeModulationAndDecayRate
    (onOp s c op fun o => { o with decayRate := x % 32 }) c op

/-- `synth_operator_amplitude_modulation`, synth.c:225-230. -/
def operatorAm (s : St) (c op x : Nat) : St :=
  writeOperatorAmplitudeModulationAndDecayRate (onOp s c op fun o => { o with am := x % 2 }) c op

/-- `synth_enable_lfo`, synth.c:232-237. -/
def enableLfo (s : St) (enable : Nat) : St := writeGlobalLfo { s with lfoEnable := enable % 2 }

/-- `synth_global_lfo_frequency`, synth.c:239-244. -/
def globalLfoFrequency (s : St) (freq : Nat) : St :=
  writeGlobalLfo { s with lfoFrequency := freq % 8 }

/-- `synth_ams`, synth.c:246-251. -/
def ams (s : St) (c x : Nat) : St :=
  writeStereoAmsFms (onCh s c fun ch => { ch with ams := x % 4 }) c

/-- `synth_fms`, synth.c:253-258. -/
def fms (s : St) (c x : Nat) : St :=
  writeStereoAmsFms (onCh s c fun ch => { ch with fms := x % 8 }) c

/-- `synth_preset`, synth.c:260-268. -/
def preset (s : St) (c : Nat) (p : FmPreset) : St :=
  guardCh s c fun s =>
    updateChannel (onCh s c fun ch => { presetToChannel p with stereo := ch.stereo }) c

/-- `write_special_mode_reg`, synth.c:431-434. -/
def writeSpecialModeReg (s : St) : St :=
  writeRegSafe s 0 0x27 (if s.specialMode then 64 else 0)

/-- `synth_set_special_mode`, synth.c:436-441. -/
def setSpecialMode (s : St) (enable : Bool) : St :=
  writeSpecialModeReg { s with specialMode := enable }

/-- `synth_special_mode_pitch`, synth.c:443-448. -/
def specialModePitch (s : St) (op octave freqNumber : Nat) : St :=
  let offset := (op + 1) % 3
  let s := writeRegSafe s 0 (0xAC + offset) (((freqNumber >>> 8) ||| (octave <<< 3)) % 256)
  writeRegSafe s 0 (0xA8 + offset) (freqNumber % 256)

/-- `synth_special_mode_volume`, synth.c:450-464 (`CH3_SPECIAL_MODE` = 2, synth.h:8). -/
def specialModeVolume (s : St) (op volume : Nat) : St :=
  guardOp s 2 op fun s =>
    if isOutputOperator (s.ch 2).algorithm op = false then s
    else match scaleTotalLevel volume ((s.ch 2).ops.get op).totalLevel with
      | none => ub s
      | some newTotalLevel =>
        match effectiveTotalLevel s 2 op newTotalLevel with
        | none => ub s
        | some tl => writeOperatorReg s 2 op 0x40 tl

/-- `synth_direct_write_ym2612`, synth.c:466-469. -/
def directWrite (s : St) (part reg data : Nat) : St := writeRegSafe s part reg data

/-- `synth_enable_dac`, synth.c:471-481. -/
def enableDac (s : St) (enable : Bool) : St :=
  let s :=
    if enable = true ∧ s.dacEnable = false then emit { s with busTaken := false } .loadPcm
    else if enable = false then
      emit { emit { s with busTaken := false } .loadNull with busTaken := true } .reqBus
    else s
  writeDacReg { s with dacEnable := enable }

/-- `init_global`, synth.c:93-99. -/
def initGlobal (s : St) : St :=
  { s with lfoEnable := 1, lfoFrequency := 0, specialMode := false, dacEnable := false }

/-- The loop body of `synth_init`, synth.c:67-73 (`MAX_VOLUME` = 0x7F, line 11). -/
def initChannel (p : FmPreset) (s : St) (c : Nat) : St :=
  let s := noteOff { s with vol := upd s.vol c 0x7F } c
  updateChannel (onCh s c fun _ => presetToChannel p) c

/-- `synth_init`, synth.c:61-76. -/
def init (s : St) (p : FmPreset) : St :=
  let s := writeSpecialModeReg (enableDac (initGlobal s) false)
  writeGlobalLfo ((List.range 6).foldl (initChannel p) s)

/-- `synth_extract_preset`, synth.c:505-515 (`c` in range; callers check). -/
def extractPreset (s : St) (c : Nat) : FmPreset :=
  { algorithm := (s.ch c).algorithm, feedback := (s.ch c).feedback, ams := (s.ch c).ams,
    fms := (s.ch c).fms, ops := (s.ch c).ops }

def zeroOperator : Operator := ⟨0, 0, 0, 0, 0, 0, 0, 0, 0, 0, 0⟩
def zeroOps : Ops4 := ⟨zeroOperator, zeroOperator, zeroOperator, zeroOperator⟩

/-- Zeroed static storage. -/
def boot (busTaken : Bool) : St :=
  { lfoEnable := 0, lfoFrequency := 0, specialMode := false, dacEnable := false,
    ch := fun _ => ⟨0, 0, 0, 0, 0, 0, 0, zeroOps⟩, vol := fun _ => 0, busTaken := busTaken,
    out := [], fault := false }

/-- API calls. -/
inductive Op where
  | init (p : FmPreset)
  | noteOn (c : Nat)
  | noteOff (c : Nat)
  | pitch (c octave freqNumber : Nat)
  | volume (c x : Nat)
  | stereo (c x : Nat)
  | algorithm (c x : Nat)
  | feedback (c x : Nat)
  | totalLevel (c op x : Nat)
  | multiple (c op x : Nat)
  | detune (c op x : Nat)
  | rateScaling (c op x : Nat)
  | attackRate (c op x : Nat)
  | sustainRate (c op x : Nat)
  | releaseRate (c op x : Nat)
  | ssgEg (c op x : Nat)
  | sustainLevel (c op x : Nat)
  | decayRate (c op x : Nat)
  | am (c op x : Nat)
  | enableLfo (x : Nat)
  | lfoFrequency (x : Nat)
  | ams (c x : Nat)
  | fms (c x : Nat)
  | preset (c : Nat) (p : FmPreset)
  | specialMode (enable : Bool)
  | specialModePitch (op octave freqNumber : Nat)
  | specialModeVolume (op x : Nat)
  | directWrite (part reg data : Nat)
  | enableDac (enable : Bool)

/-- One API call. -/
def step (s : St) : Op → St
  | .init p => init s p
  | .noteOn c => noteOn s c
  | .noteOff c => noteOff s c
  | .pitch c o f => pitch s c o f
  | .volume c x => volume s c x
  | .stereo c x => stereo s c x
  | .algorithm c x => algorithm s c x
  | .feedback c x => feedback s c x
  | .totalLevel c op x => operatorTotalLevel s c op x
  | .multiple c op x => operatorMultiple s c op x
  | .detune c op x => operatorDetune s c op x
  | .rateScaling c op x => operatorRateScaling s c op x
  | .attackRate c op x => operatorAttackRate s c op x
  | .sustainRate c op x => operatorSustainRate s c op x
  | .releaseRate c op x => operatorReleaseRate s c op x
  | .ssgEg c op x => operatorSsgEg s c op x
  | .sustainLevel c op x => operatorSustainLevel s c op x
  | .decayRate c op x => operatorDecayRate s c op x
  | .am c op x => operatorAm s c op x
  | .enableLfo x => enableLfo s x
  | .lfoFrequency x => globalLfoFrequency s x
  | .ams c x => ams s c x
  | .fms c x => fms s c x
  | .preset c p => preset s c p
  | .specialMode e => setSpecialMode s e
  | .specialModePitch op o f => specialModePitch s op o f
  | .specialModeVolume op x => specialModeVolume s op x
  | .directWrite p r d => directWrite s p r d
  | .enableDac e => enableDac s e

/-- A history of API calls. -/
def run (s : St) (ops : List Op) : St := ops.foldl step s

end Mdmi.Synth
