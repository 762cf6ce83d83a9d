import Verif.Model.Synth
/-!
# Specification of the YM2612: register map, bus ownership, legal calls

The register map is that of the YM2612 data sheet, written without reference to the driver.
-/
namespace Mdmi.Synth

/-- Value last written to a register (events newest first); 0 after power-up. -/
def ymReg : List Ev → Nat → Nat → Nat
  | [], _, _ => 0
  | .ym p r d :: rest, part, reg => if p = part ∧ r = reg then d else ymReg rest part reg
  | _ :: rest, part, reg => ymReg rest part reg

/-- Whether channel `c` is keyed on: the last write to register 0x28 whose low three bits name the
channel (0, 1, 2, 4, 5, 6) has the operator bits set. -/
def keyed : List Ev → Nat → Bool
  | [], _ => false
  | .ym p r d :: rest, c =>
    if p = 0 ∧ r = 0x28 ∧ d % 8 = [0, 1, 2, 4, 5, 6].getD c 8 then d / 16 ≠ 0 else keyed rest c
  | _ :: rest, c => keyed rest c

/-- How often channel `c` was keyed on: writes to register 0x28 that name it and have operator bits set. -/
def keyOns : List Ev → Nat → Nat
  | [], _ => 0
  | .ym p r d :: rest, c =>
    keyOns rest c + if p = 0 ∧ r = 0x28 ∧ d % 8 = [0, 1, 2, 4, 5, 6].getD c 8 ∧ d / 16 ≠ 0 then 1 else 0
  | _ :: rest, c => keyOns rest c

/-- The chip addresses operators in the order 1, 3, 2, 4, four registers apart. -/
def opOffset : Nat → Nat
  | 0 => 0
  | 1 => 8
  | 2 => 4
  | _ => 12

/-- Register of group `base` for an operator of a channel: channels 0-2 in part 0, 3-5 in part 1. -/
def opReg (out : List Ev) (base c op : Nat) : Nat := ymReg out (c / 3) (base + opOffset op + c % 3)

/-- Channel register of group `base`. -/
def chReg (out : List Ev) (base c : Nat) : Nat := ymReg out (c / 3) (base + c % 3)

/-- Operator parameters as the chip decodes them. -/
def chipOperator (out : List Ev) (c op : Nat) : Operator :=
  { multiple := opReg out 0x30 c op % 16
    detune := opReg out 0x30 c op / 16 % 8
    totalLevel := opReg out 0x40 c op % 128
    attackRate := opReg out 0x50 c op % 32
    rateScaling := opReg out 0x50 c op / 64 % 4
    decayRate := opReg out 0x60 c op % 32
    am := opReg out 0x60 c op / 128 % 2
    sustainRate := opReg out 0x70 c op % 32
    releaseRate := opReg out 0x80 c op % 16
    sustainLevel := opReg out 0x80 c op / 16 % 16
    ssgEg := opReg out 0x90 c op % 16 }

/-- Channel parameters as the chip decodes them. -/
def chipChannel (out : List Ev) (c : Nat) : FmChannel :=
  { algorithm := chReg out 0xB0 c % 8
    feedback := chReg out 0xB0 c / 8 % 8
    stereo := chReg out 0xB4 c / 64 % 4
    ams := chReg out 0xB4 c / 16 % 4
    fms := chReg out 0xB4 c % 8
    octave := chReg out 0xA4 c / 8 % 8
    freqNumber := chReg out 0xA4 c % 8 * 256 + chReg out 0xA0 c % 256
    ops := ⟨chipOperator out c 0, chipOperator out c 1, chipOperator out c 2, chipOperator out c 3⟩ }

/-- An operator without its total level. -/
def Operator.shape (o : Operator) : Operator := { o with totalLevel := 0 }

/-- Everything the chip holds for a channel apart from total levels and frequency. -/
def FmChannel.timbre (c : FmChannel) : FmChannel :=
  { c with octave := 0, freqNumber := 0,
           ops := ⟨c.ops.o0.shape, c.ops.o1.shape, c.ops.o2.shape, c.ops.o3.shape⟩ }

/-- Block and F-number of a channel. -/
def FmChannel.freq (c : FmChannel) : Nat × Nat := (c.octave, c.freqNumber)

/-- Carriers (operators that reach the output) of each algorithm, from the data sheet's diagrams. -/
def carriers : Nat → List Nat
  | 4 => [1, 3]
  | 5 | 6 => [1, 2, 3]
  | 7 => [0, 1, 2, 3]
  | _ => [3]

/-- Total level a channel's parameters ask for: on carriers the level is scaled by the volume curve, on
modulators it is the parameter itself. -/
def wantTl (algorithm vol op tl : Nat) : Nat :=
  if op ∈ carriers algorithm then 127 - (127 - tl) * (127 - volumeToTotalLevels.getD vol 0) / 127 else tl

/-- The channel a register write belongs to, if any: key on/off by its data, the operator and channel
groups by address (0xA8-0xAE belong to channel 3's special mode). -/
def owner (part reg data : Nat) : Option Nat :=
  if part = 0 ∧ reg = 0x28 then
    if data % 8 < 3 then some (data % 8)
    else if 4 ≤ data % 8 ∧ data % 8 < 7 then some (data % 8 - 1) else none
  else if 0x30 ≤ reg ∧ reg < 0xB8 ∧ reg % 4 < 3 ∧ part < 2 then
    if 0xA8 ≤ reg ∧ reg < 0xB0 then (if part = 0 then some 2 else none)
    else some (part * 3 + reg % 4)
  else none

/-- Field widths of `Operator`. -/
structure Operator.Ok (o : Operator) : Prop where
  multiple : o.multiple < 16
  detune : o.detune < 8
  attackRate : o.attackRate < 32
  rateScaling : o.rateScaling < 4
  decayRate : o.decayRate < 32
  am : o.am < 2
  sustainLevel : o.sustainLevel < 16
  sustainRate : o.sustainRate < 32
  releaseRate : o.releaseRate < 16
  totalLevel : o.totalLevel < 128
  ssgEg : o.ssgEg < 16

/-- Field widths of `Operator operators[4]`. -/
structure Ops4.Ok (o : Ops4) : Prop where
  o0 : o.o0.Ok
  o1 : o.o1.Ok
  o2 : o.o2.Ok
  o3 : o.o3.Ok

/-- Field widths of `FmPreset`. -/
structure FmPreset.Ok (p : FmPreset) : Prop where
  algorithm : p.algorithm < 8
  feedback : p.feedback < 8
  ams : p.ams < 4
  fms : p.fms < 8
  ops : p.ops.Ok

/-- Field widths of `FmChannel`. -/
structure FmChannel.Ok (c : FmChannel) : Prop where
  algorithm : c.algorithm < 8
  feedback : c.feedback < 8
  stereo : c.stereo < 4
  ams : c.ams < 4
  fms : c.fms < 8
  octave : c.octave < 8
  freqNumber : c.freqNumber < 2048
  ops : c.ops.Ok

/-- The FM channel a call addresses. -/
def Op.chan : Op → Option Nat
  | .noteOn c | .noteOff c | .pitch c _ _ | .volume c _ | .stereo c _ | .algorithm c _
  | .feedback c _ | .totalLevel c _ _ | .multiple c _ _ | .detune c _ _ | .rateScaling c _ _
  | .attackRate c _ _ | .sustainRate c _ _ | .releaseRate c _ _ | .ssgEg c _ _
  | .sustainLevel c _ _ | .decayRate c _ _ | .am c _ _ | .ams c _ | .fms c _ | .preset c _ => some c
  | .specialModePitch _ _ _ | .specialModeVolume _ _ => some 2
  | _ => none

/-- The operator a call addresses. -/
def Op.oper : Op → Option Nat
  | .totalLevel _ o _ | .multiple _ o _ | .detune _ o _ | .rateScaling _ o _ | .attackRate _ o _
  | .sustainRate _ o _ | .releaseRate _ o _ | .ssgEg _ o _ | .sustainLevel _ o _ | .decayRate _ o _
  | .am _ o _ | .specialModeVolume o _ => some o
  | _ => none

/-- Legal arguments: six channels, four operators, 7-bit volumes, presets within their bit-fields;
raw register writes excluded. -/
def Op.Legal (op : Op) : Prop :=
  (∀ c, op.chan = some c → c < 6) ∧ (∀ o, op.oper = some o → o < 4) ∧
  match op with
  | .volume _ x | .specialModeVolume _ x => x < 128
  | .preset _ p | .init p => p.Ok
  | .directWrite _ _ _ => False
  | _ => True

/-- The calls as requests on a channel's parameters: what the user asked the channel to be, arguments
reduced to the width of their field. -/
def Op.request (c : Nat) (x : FmChannel) : Op → FmChannel
  | .init p => ⟨p.algorithm, p.feedback, 3, p.ams, p.fms, 0, 0, p.ops⟩
  | .preset c' p => if c' = c then ⟨p.algorithm, p.feedback, x.stereo, p.ams, p.fms, 0, 0, p.ops⟩ else x
  | .pitch c' o f => if c' = c then { x with octave := o % 8, freqNumber := f % 2048 } else x
  | .stereo c' v => if c' = c then { x with stereo := v % 4 } else x
  | .algorithm c' v => if c' = c then { x with algorithm := v % 8 } else x
  | .feedback c' v => if c' = c then { x with feedback := v % 8 } else x
  | .ams c' v => if c' = c then { x with ams := v % 4 } else x
  | .fms c' v => if c' = c then { x with fms := v % 8 } else x
  | .totalLevel c' o v => oper c' o fun p => { p with totalLevel := v % 128 }
  | .multiple c' o v => oper c' o fun p => { p with multiple := v % 16 }
  | .detune c' o v => oper c' o fun p => { p with detune := v % 8 }
  | .rateScaling c' o v => oper c' o fun p => { p with rateScaling := v % 4 }
  | .attackRate c' o v => oper c' o fun p => { p with attackRate := v % 32 }
  | .sustainRate c' o v => oper c' o fun p => { p with sustainRate := v % 32 }
  | .releaseRate c' o v => oper c' o fun p => { p with releaseRate := v % 16 }
  | .ssgEg c' o v => oper c' o fun p => { p with ssgEg := v % 16 }
  | .sustainLevel c' o v => oper c' o fun p => { p with sustainLevel := v % 16 }
  | .decayRate c' o v => oper c' o fun p => { p with decayRate := v % 32 }
  | .am c' o v => oper c' o fun p => { p with am := v % 2 }
  | _ => x
where
  /-- Change of one operator. -/
  oper (c' o : Nat) (f : Operator → Operator) : FmChannel :=
    if c' = c then
      { x with ops := match o with
          | 0 => { x.ops with o0 := f x.ops.o0 }
          | 1 => { x.ops with o1 := f x.ops.o1 }
          | 2 => { x.ops with o2 := f x.ops.o2 }
          | _ => { x.ops with o3 := f x.ops.o3 } }
    else x

/-- Requested volume of a channel. -/
def Op.requestVol (c : Nat) (v : Nat) : Op → Nat
  | .init _ => 127
  | .volume c' x => if c' = c then x else v
  | _ => v

/-- Parameters requested by a history. -/
def requested (c : Nat) (p0 : FmPreset) (ops : List Op) : FmChannel :=
  (Op.init p0 :: ops).foldl (Op.request c) ⟨0, 0, 0, 0, 0, 0, 0, p0.ops⟩

/-- The register bank of a parameter by the data sheet: (channel, operator, register group), operator 4
for channel-wide parameters. -/
def Op.bank : Op → Option (Nat × Nat × Nat)
  | .multiple c o _ | .detune c o _ => some (c, o, 0x30)
  | .totalLevel c o _ => some (c, o, 0x40)
  | .attackRate c o _ | .rateScaling c o _ => some (c, o, 0x50)
  | .decayRate c o _ | .am c o _ => some (c, o, 0x60)
  | .sustainRate c o _ => some (c, o, 0x70)
  | .releaseRate c o _ | .sustainLevel c o _ => some (c, o, 0x80)
  | .ssgEg c o _ => some (c, o, 0x90)
  | .pitch c _ _ => some (c, 4, 0xA0)
  | .algorithm c _ | .feedback c _ => some (c, 4, 0xB0)
  | .stereo c _ | .ams c _ | .fms c _ => some (c, 4, 0xB4)
  | _ => none

/-- Requested frequency (block, F-number) of a channel: the last pitch call. -/
def Op.requestFreq (c : Nat) (x : Nat × Nat) : Op → Nat × Nat
  | .pitch c' o f => if c' = c then (o % 8, f % 2048) else x
  | _ => x

/-- Requested key state of a channel. -/
def Op.requestKey (c : Nat) (x : Bool) : Op → Bool
  | .noteOn c' => if c' = c then true else x
  | .noteOff c' => if c' = c then false else x
  | .init _ => false
  | _ => x

/-- Requested LFO enable, LFO frequency, special mode and DAC enable. -/
def Op.requestGlobal (x : Nat × Nat × Bool × Bool) : Op → Nat × Nat × Bool × Bool
  | .init _ => (1, 0, false, false)
  | .enableLfo v => (v % 2, x.2)
  | .lfoFrequency v => (x.1, v % 8, x.2.2)
  | .specialMode b => (x.1, x.2.1, b, x.2.2.2)
  | .enableDac b => (x.1, x.2.1, x.2.2.1, b)
  | _ => x

/-- Calls after which total levels of channel `c` may be stale. -/
def Op.staleTl (op : Op) (c : Nat) : Prop :=
  match op with
  | .algorithm c' _ => c' = c
  | .specialModeVolume _ _ => c = 2
  | _ => False

/-- A driver history: initialisation from either bus state, then calls. -/
def hist (b : Bool) (p0 : FmPreset) (ops : List Op) : St := run (boot b) (.init p0 :: ops)

/-- Whether the 68k owns the Z80 bus after the events `out` (newest first). -/
def busOwned (initial : Bool) : List Ev → Bool
  | [] => initial
  | .reqBus :: _ => true
  | .relBus :: _ | .loadPcm :: _ | .loadNull :: _ | .pcmStart _ :: _ | .pcmStop :: _ => false
  | _ :: rest => busOwned initial rest

/-- Bus discipline of a trace: registers are written (and the DAC data register latched) only while the
68k owns the bus, and the bus is released only straight after the latch. -/
def busOk (initial : Bool) : List Ev → Prop
  | [] => True
  | .ym _ _ _ :: rest => busOwned initial rest = true ∧ busOk initial rest
  | .latchDac :: rest => busOwned initial rest = true ∧ busOk initial rest
  | .relBus :: rest => rest.head? = some .latchDac ∧ busOk initial rest
  | _ :: rest => busOk initial rest

end Mdmi.Synth
