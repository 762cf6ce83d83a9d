import Verif.Proofs.SynthBank
/-! C41: Z80 bus discipline of the YM2612 driver. -/
namespace Mdmi.Props
open Mdmi Mdmi.Synth

/-- **C41** (histories).  From either bus state, initialisation followed by any calls with any arguments:
every YM2612 write happens while the 68k owns the bus, every release comes straight after latching the
DAC data register, the driver knows who owns the bus, and the 68k owns it whenever the DAC is disabled. -/
theorem C41_every_write_owns_the_bus (b : Bool) (p0 : FmPreset) (ops : List Op) :
    let s := hist b p0 ops
    busOk b s.out ∧ busOwned b s.out = s.busTaken ∧ (s.dacEnable = false → s.busTaken = true) := by
  rw [show hist b p0 ops = _ from hist_run b p0 ops]
  have h := run_bus (init_bus (b := b) (s := boot b) (p := p0) trivial) ops
  exact ⟨h.ok, h.owned, h.held⟩

/-- **C41** (each call, from any state in which the PCM driver runs or the bus is held; the bus itself may
be in either state while it runs).  What a call adds to the trace respects the bus, and every call other
than initialisation and switching the DAC leaves the bus as it found it. -/
theorem C41_each_call_restores_the_bus (s : Synth.St) (op : Op) (h : s.dacEnable = false → s.busTaken = true) :
    ∃ evs, (Synth.step s op).out = evs ++ s.out ∧ busOk s.busTaken evs ∧
      busOwned s.busTaken evs = (Synth.step s op).busTaken ∧
      ((∀ p, op ≠ .init p) → (∀ b, op ≠ .enableDac b) → (Synth.step s op).busTaken = s.busTaken) := by
  obtain ⟨⟨e, h1, h2, h3⟩, _, h4⟩ := step_rel s op h
  exact ⟨e, h1, h2, h3, h4⟩

/-- `busOk` unfolded: at any point of the trace where a register is written the bus is owned. -/
theorem C41_busOk_meaning (b : Bool) (newer older : List Ev) (p r d : Nat)
    (h : busOk b (newer ++ .ym p r d :: older)) : busOwned b older = true := by
  induction newer with
  | nil => exact h.1
  | cons e rest ih =>
    cases e <;> simp only [List.cons_append, busOk] at h
    case ym => exact ih h.2
    case latchDac => exact ih h.2
    case relBus => exact ih h.2
    all_goals exact ih h

-- non-vacuity: DAC on, then a key-on: request, write, latch, release
example (s : Synth.St) (h : s.dacEnable = true) (hb : s.busTaken = false) :
    (Synth.step s (.noteOn 1)).out = [.relBus, .latchDac, .ym 0 0x28 0xF1, .reqBus] ++ s.out := by
  simp [Synth.step, Synth.noteOn, writeRegSafe, releaseZ80Bus, emit, keyOnOffRegOffset, h, hb]
example (s : Synth.St) (h : s.dacEnable = true) (hb : s.busTaken = true) :
    (Synth.step s (.noteOn 1)).out = [.ym 0 0x28 0xF1, .reqBus] ++ s.out := by
  simp [Synth.step, Synth.noteOn, writeRegSafe, emit, keyOnOffRegOffset, h, hb]

end Mdmi.Props
