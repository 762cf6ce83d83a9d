import Verif.Proofs.SynthReq
import Verif.Spec.Example
/-! C36: raw register writes. -/
namespace Mdmi.Props
open Mdmi Mdmi.Midi
open Mdmi.Synth (ymReg keyed)

/-- The register writes of a trace, newest first: part, register, value. -/
def ymWrites (out : List Synth.Ev) : List (Nat × Nat × Nat) :=
  out.filterMap fun e => match e with | .ym p r d => some (p, r, d) | _ => none

/-- **C36**.  Commands 08 and 09 with four nibbles make exactly one register write, to part 0 or 1, to the address given
by the first two nibbles, of the value given by the last two.  No other register changes; MIDI channels, voices,
configuration, presets, the PSG, the drivers' own settings and replies are as they were. -/
theorem C36_raw_write (env : Env) (s : St) (part a b c d junk : Nat) (hp : part < 2) (ha : a < 16) (hb : b < 16)
    (hc : c < 16) (hd : d < 16) :
    let t := step env s (.sysex [0x00, 0x22, 0x77, 0x08 + part, a, b, c, d] junk)
    ymWrites t.fm.synth.out = (part, 16 * a + b, 16 * c + d) :: ymWrites s.fm.synth.out ∧
    (∀ p r, ymReg t.fm.synth.out p r =
      if p = part ∧ r = 16 * a + b then 16 * c + d else ymReg s.fm.synth.out p r) ∧
    t.dev = s.dev ∧ t.chan = s.chan ∧ t.cfg = s.cfg ∧ t.dynamic = s.dynamic ∧ t.psg = s.psg ∧ t.out = s.out ∧
    t.log = s.log ∧ t.fault = s.fault ∧ t.fm.ch = s.fm.ch ∧ t.fm.user = s.fm.user ∧ t.fm.mem = s.fm.mem ∧
    t.fm.synth.ch = s.fm.synth.ch ∧ t.fm.synth.vol = s.fm.synth.vol ∧
    t.fm.synth.lfoEnable = s.fm.synth.lfoEnable ∧ t.fm.synth.lfoFrequency = s.fm.synth.lfoFrequency ∧
    t.fm.synth.specialMode = s.fm.synth.specialMode ∧ t.fm.synth.dacEnable = s.fm.synth.dacEnable ∧
    t.fm.synth.fault = s.fm.synth.fault := by
  have nib : ∀ x y, x < 16 → y < 16 → (x * 16 ||| y) % 256 = 16 * x + y := by
    intro x y hx hy
    rw [Nat.mul_comm, ← Nat.two_pow_add_eq_or_of_lt (i := 4) hy]
    omega
  have e : step env s (.sysex [0x00, 0x22, 0x77, 0x08 + part, a, b, c, d] junk) =
      fmCall env s (.synth (.directWrite part (16 * a + b) (16 * c + d))) := by
    rw [← nib a b ha hb, ← nib c d hc hd]
    rcases (by omega : part = 0 ∨ part = 1) with rfl | rfl <;> rfl
  simp only [e]
  simp only [fmCall, Fm.step, Fm.call, Synth.step, Synth.directWrite]
  refine ⟨?_, ?_, ?_⟩
  · cases h1 : s.fm.synth.dacEnable <;> cases h2 : s.fm.synth.busTaken <;>
      simp [Synth.writeRegSafe, Synth.releaseZ80Bus, Synth.emit, h1, h2, ymWrites]
  · intro p r
    rw [Synth.write_reg]
    simp only [eq_comm]
  · cases h1 : s.fm.synth.dacEnable <;> cases h2 : s.fm.synth.busTaken <;>
      simp [Synth.writeRegSafe, Synth.releaseZ80Bus, Synth.emit, h1, h2]

/-- **C36** (only these).  Other payload lengths write nothing and are reported. -/
theorem C36_wrong_length (env : Env) (s : St) (part junk : Nat) (hp : part < 2) (l : List Nat) (hl : l.length ≠ 4) :
    step env s (.sysex ([0x00, 0x22, 0x77, 0x08 + part] ++ l) junk) =
      { s with log := .badLength (0x08 + part) l.length :: s.log } := by
  rcases (by omega : part = 0 ∨ part = 1) with rfl | rfl <;>
    simp [step, sysex, commandLength, hl, say, show ¬(l.length + 1 + 1 + 1 + 1 < 4) by omega]

-- F-number and key of channel 5 by raw writes, while another note sounds
example : let m : Op := (.sysex [0x00, 0x22, 0x77, 0x08, 2, 8, 15, 5] 0)
    let s := step (Ex.env .static) (Ex.after .static [.noteOn 0 60 100]) m
    ymReg s.fm.synth.out 0 0x28 = 0xF5 ∧ keyed s.fm.synth.out 4 = true ∧ keyed s.fm.synth.out 0 = true ∧
    keyed s.fm.synth.out 1 = false := by decide +kernel
example : let m : Op := (.sysex [0x00, 0x22, 0x77, 0x09, 11, 4, 12, 1] 0)
    let s := step (Ex.env .static) (Ex.after .static []) m
    ymReg s.fm.synth.out 1 0xB4 = 0xC1 ∧ ymReg s.fm.synth.out 0 0xB4 = 0xD2 := by decide +kernel

end Mdmi.Props
