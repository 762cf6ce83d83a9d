import Verif.Spec.Synth
import Verif.Model.MidiFm
/-!
# Specification of the FM device: legal data and calls
-/
namespace Mdmi.Fm

/-- Legal constant data: tables of 128 entries within their bit-fields. -/
structure Env.Ok (env : Env) : Prop where
  presets : env.presets.length = 128
  presetsOk : ∀ p ∈ env.presets, p.Ok
  perc : env.perc.length = 128
  percOk : ∀ p ∈ env.perc, p.preset.Ok ∧ p.key < 256

/-- Legal calls: six channels, three special-mode operators, 7-bit velocity, volume and program, presets
within their bit-fields; any pitch and pan, except that samples exist for pitches below 128. -/
def Op.Legal : Op → Prop
  | .noteOn c _ _ v => c < 6 ∧ v < 128
  | .noteOff c | .allNotesOff c | .percussive c _ | .pan c _ | .pitch c _ _ => c < 6
  | .volume c v => c < 6 ∧ v < 128
  | .program c p => c < 6 ∧ p < 128
  | .store n p => n < 128 ∧ p.Ok
  | .clear n => n < 128
  | .storeFrom c n => c < 6 ∧ n < 128
  | .smNoteOn o _ _ v => o < 3 ∧ v < 128
  | .smPitch o _ _ => o < 3
  | .dacNoteOn p => p < 128
  | .synth o => o.Legal ∨ ∃ p r d, o = .directWrite p r d
  | .reset | .smReset | .dacNoteOff => True

/-- Legal calls that do not write to the chip behind the driver's back. -/
def Op.Proper (op : Op) : Prop := op.Legal ∧ ∀ p r d, op ≠ .synth (.directWrite p r d)

/-- The calls that write program `n`. -/
def Op.writes (n : Nat) : Op → Prop
  | .store k _ | .clear k | .storeFrom _ k => k = n
  | _ => False

/-- Calls after which total levels of channel `c` may be stale. -/
def Op.staleTl (op : Op) (c : Nat) : Prop :=
  match op with
  | .synth o => o.staleTl c
  | .smNoteOn _ _ _ _ => c = 2
  | _ => False

/-- Direct calls of the driver's volume and initialisation, which `midi.c` never makes. -/
def Op.driverVolume : Op → Prop
  | .synth (.volume _ _) | .synth (.init _) => True
  | _ => False

/-- Channel volume asked for: the last volume call, 127 after a reset. -/
def Op.reqVolume (c : Nat) (x : Nat) : Op → Nat
  | .volume c' v => if c' = c then v else x
  | .reset => 127
  | _ => x

/-- Velocity asked for: that of the last note-on for a key in range, 127 after a reset. -/
def Op.reqVelocity (c : Nat) (x : Nat) : Op → Nat
  | .noteOn c' p _ v => if c' = c ∧ 11 ≤ p ∧ p ≤ 106 then v else x
  | .reset => 127
  | _ => x

/-- The calls into the sample player. -/
def Op.pcm : Op → Prop
  | .dacNoteOn _ | .dacNoteOff => True
  | _ => False

/-- Registers are written only while the 68k owns the bus (events newest first). -/
def writesOwned (initial : Bool) : List Synth.Ev → Prop
  | [] => True
  | .ym _ _ _ :: rest => Synth.busOwned initial rest = true ∧ writesOwned initial rest
  | _ :: rest => writesOwned initial rest

/-- Frequency of a (block, F-number) pair, in units of clock / (144 · 2^21): the data sheet's
`f = F · 2^(block - 1) · clock / (144 · 2^20)`. -/
def units (x : Nat × Nat) : Nat := x.2 * 2 ^ x.1

/-- Clock of the chip in Hz: 7.600489 MHz (PAL), 7.670454 MHz (NTSC). -/
def clock (pal : Bool) : Nat := if pal then 7600489 else 7670454

/-- The pair sounds within `d` cents of the pitch `n` (in cents above MIDI key 0) in equal temperament with
key 69 at 440 Hz: with `f = u · clock / (144 · 2^21)`, `2^(n-6900-d) ≤ (f / 440)^1200 ≤ 2^(n-6900+d)`. -/
def InTune (pal : Bool) (x : Nat × Nat) (n d : Nat) : Prop :=
  (units x * clock pal) ^ 1200 * 2 ^ 6900 ≤ (440 * 144 * 2 ^ 21) ^ 1200 * 2 ^ (n + d) ∧
  (440 * 144 * 2 ^ 21) ^ 1200 * 2 ^ n ≤ (units x * clock pal) ^ 1200 * 2 ^ (6900 + d)

/-- Channel 3 special mode, data sheet: low and high frequency registers of operators 1, 2 and 3 (operator 4
uses the channel's own 0xA2/0xA6). -/
def smRegs : Nat → Nat × Nat
  | 0 => (0xA9, 0xAD)
  | 1 => (0xAA, 0xAE)
  | _ => (0xA8, 0xAC)

/-- Block and F-number of a special-mode operator as the chip decodes them. -/
def smFreq (out : List Synth.Ev) (o : Nat) : Nat × Nat :=
  (Synth.ymReg out 0 (smRegs o).2 / 8 % 8,
    Synth.ymReg out 0 (smRegs o).2 % 8 * 256 + Synth.ymReg out 0 (smRegs o).1 % 256)

/-- Registers a special-mode operator may change: its frequency and its total level (channel 3). -/
def smOwns (o : Nat) : List (Nat × Nat) :=
  [(0, (smRegs o).1), (0, (smRegs o).2), (0, 0x42 + Synth.opOffset o)]

end Mdmi.Fm
