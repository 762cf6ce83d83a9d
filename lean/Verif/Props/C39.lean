import Verif.Proofs.MidiReset
import Verif.Props.C31
import Verif.Props.C38
/-! C39: the system reset. -/
namespace Mdmi.Props
open Mdmi Mdmi.Midi
open Mdmi.Synth (FmPreset FmChannel chipChannel chipOperator keyed ymReg)

variable {env : Env} {s : St}

/-- A MIDI channel as after power-on: volume 127, program 0, pan and bend in the middle, bend range two semitones, no
held notes, no portamento, automatic device selection, no fine tuning, no parameter selected. -/
def FreshChannel (m : Chan) : Prop :=
  m.volume = 127 ∧ m.program = 0 ∧ m.pan = 64 ∧ m.pitchBend = 0x2000 ∧ m.range = ⟨2, 0⟩ ∧ m.stack.top = -1 ∧
    m.portamento = false ∧ m.interval = 47 ∧ m.deviceSelect = 0 ∧ m.fineTune = 0 ∧ m.rpn = 0x7F7F ∧ m.lastVelocity = 0

/-- A voice as after power-on: not sounding, on the MIDI channel with its number (on none in dynamic mode), wired to the
chip channel of its number. -/
def FreshVoice (dynamic : Bool) (i : Nat) (d : Dev) : Prop :=
  d.noteOn = false ∧ d.pitch = 0 ∧ d.cents = 0 ∧ d.glide = 0 ∧ d.pitchBend = 0x2000 ∧
    d.volume = 127 ∧ d.program = 0 ∧ d.pan = 64 ∧ d.midiChannel = (if dynamic then 127 else i) ∧
    (i < 6 → d.ops = .fm ∧ d.num = i) ∧ (6 ≤ i → i < 10 → d.ops = .psg ∧ d.num + 6 = i) ∧
    (10 ≤ i → d.ops = .sm ∧ d.num + 10 = i)

/-- Channels, voices and configuration as after power-on. -/
structure AsPoweredOn (env : Env) (t : St) : Prop where
  channels : ∀ c < 16, FreshChannel (t.chan c)
  voices : ∀ i < 13, FreshVoice (env.mode == .dynamic) i (t.dev i)
  dynamic : t.dynamic = (env.mode == .dynamic)
  mode : t.cfg.pref = env.mode
  nonGm : t.cfg.disableNonGm = false
  stick : t.cfg.stick = false
  invert : t.cfg.invert = false

/-- The full statement of C39. -/
def C39_statement (env : Env) : Prop :=
  ∀ s, Reached env s → AsPoweredOn env (step env s .reset) ∧
    (∀ i < 6, keyed (step env s .reset).fm.synth.out i = false) ∧
    ∀ n < 4, Psg.chipAtt (step env s .reset).psg.out n = 15

/-- **C39** (state and FM), from every state.  After a reset all MIDI channels, voices and configuration have their
power-on values, and no FM channel is keyed on.  Missing from the full statement: the PSG channels
(`C39_psg_untouched`), which makes it false (`C39_violated`). -/
theorem C39_reset_partial (he : env.Ok) (s : St) :
    AsPoweredOn env (step env s .reset) ∧ ∀ i < 6, keyed (step env s .reset).fm.synth.out i = false := by
  simp only [step]
  obtain ⟨h1, h2, h3, h4⟩ := reset_state env s
  have k := reset_keyInv he s
  have off : ∀ i < 6, keyed (reset env s).fm.synth.out i = false := fun i hi => by
    have := k.on i hi
    rw [h2 i (by omega)] at this
    cases h : keyed (reset env s).fm.synth.out i with
    | false => rfl
    | true => exact absurd (this h) (by simp [resetDev])
  generalize reset env s = t at *
  refine ⟨⟨fun c hc => ?_, fun i hi => ?_, h3, by rw [h4], by rw [h4], by rw [h4], by rw [h4]⟩, off⟩
  · rw [h1 c hc]; exact ⟨rfl, rfl, rfl, rfl, rfl, rfl, rfl, rfl, rfl, rfl, rfl, rfl⟩
  · rw [h2 i hi]
    refine ⟨rfl, rfl, rfl, rfl, rfl, rfl, rfl, rfl, rfl, fun h => ?_, fun h h' => ?_, fun h => ?_⟩
    · simp [resetDev, show i ≤ 5 by omega]
    · simp [resetDev, show ¬ i ≤ 5 by omega, show i ≤ 9 by omega]; omega
    · simp [resetDev, show ¬ i ≤ 5 by omega, show ¬ i ≤ 9 by omega]; omega

/-- **C39** (as after power-on).  Reset, whatever came before, gives the channels, voices and configuration that
switching the device on gives. -/
theorem C39_like_power_on (s : St) (b : Bool) (m : Sram.Mem) :
    let t := step env s .reset
    let u := boot env b m
    (∀ c < 16, t.chan c = u.chan c) ∧ (∀ i < 13, t.dev i = u.dev i) ∧ t.dynamic = u.dynamic ∧ t.cfg = u.cfg := by
  obtain ⟨h1, h2, h3, h4⟩ := reset_state env s
  obtain ⟨k1, k2, k3, k4⟩ := reset_state env (powerOn env b m)
  simp only [step, boot]
  exact ⟨fun c hc => (h1 c hc).trans (k1 c hc).symm, fun i hi => (h2 i hi).trans (k2 i hi).symm, h3.trans k3.symm,
    h4.trans k4.symm⟩

/-- **C39** (FM chip, no preset stored as program 0).  After a reset every FM channel has the built-in preset of program
0 at full volume on both outputs, the low frequency oscillator runs at its lowest rate, and special mode and sample
playback are off — also after raw register writes. -/
theorem C39_fm_chip_partial (he : env.Ok) (hs : Reached env s) {q : FmPreset} (hq : env.fm.presets[0]? = some q)
    (hn : env.fm.sram = true → ∀ p, Sram.loadProgram s.fm.mem 0 ≠ .ok p) :
    let t := step env s .reset
    (∀ i < 6, SoundsLike t.fm.synth.out i q 127 ∧ PannedTo 64 t.fm.synth.out i) ∧
      ymReg t.fm.synth.out 0 0x22 = 8 ∧ ymReg t.fm.synth.out 0 0x27 = 0 ∧ ymReg t.fm.synth.out 0 0x2B = 0 := by
  obtain ⟨tame, hs⟩ := hs.ok he
  have r := reset_fm he hs
  have ca := fun i (hi : i < 6) => reset_cached (P := True) (D := False) (s := s) he hi (fun _ => hn) (fun _ h => h.elim)
  obtain ⟨-, h2, -, -⟩ := reset_state env s
  have hu : (reset env s).fm.user 0 = none := by
    rw [(reset_users he hs).2 0 (by omega)]
    split
    · rename_i h
      have := hn h
      unfold Fm.held
      generalize Sram.loadProgram s.fm.mem 0 = r at this ⊢
      cases r with
      | ok q => exact absurd rfl (this q)
      | empty => rfl
      | badChecksum => rfl
    · rfl
  simp only [step]
  generalize reset env s = t at *
  refine ⟨fun i hi => ?_, r.lfo, r.mode, r.dac⟩
  have c := ca i hi
  have e : Synth.extractPreset t.fm.synth i = q := c.prog ⟨trivial, fun h => h.elim⟩ q
    ⟨by rw [h2 i (by omega)]; show 0 < 128; omega, .inr ⟨by rw [h2 i (by omega)]; exact hu, by rw [h2 i (by omega)]; exact hq⟩⟩
  have cs := r.inv.ch i hi
  have tl := r.tl i hi
  have vol := r.vol i hi (by rw [c.vol, h2 i (by omega)]; rfl)
  have e1 := congrArg FmPreset.algorithm e
  have e2 := congrArg FmPreset.feedback e
  have e3 := congrArg FmPreset.ams e
  have e4 := congrArg FmPreset.fms e
  have e5 := congrArg FmPreset.ops e
  simp only [Synth.extractPreset] at e1 e2 e3 e4 e5
  refine ⟨⟨?_, fun o ho => ?_⟩, ?_⟩
  · have k := cs.chip
    have k' := congrArg FmChannel.stereo k
    simp only [FmChannel.timbre] at k'
    rw [k, k']
    simp only [FmChannel.timbre, e1, e2, e3, e4, e5]
  · have := tl.chip cs.ok ho
    rw [vol, e1, e5] at this
    exact this
  · have k := sides_eq hi r.inv c
    rw [h2 i (by omega)] at k
    exact k

/-- **C39** (user presets).  After a reset the user presets are the valid ones of the preset memory, which is unchanged;
on a cartridge without memory all are gone. -/
theorem C39_user_presets (he : env.Ok) (hs : Reached env s) (n : Nat) (hn : n < 128) :
    let t := step env s .reset
    t.fm.mem = s.fm.mem ∧ (env.fm.sram = false → t.fm.user n = none) ∧
      (env.fm.sram = true → ∀ p, t.fm.user n = some p ↔ Sram.loadProgram s.fm.mem n = .ok p) := by
  obtain ⟨tame, hs⟩ := hs.ok he
  obtain ⟨h1, h2⟩ := reset_users he hs
  simp only [step]
  refine ⟨h1, fun h => by rw [h2 n hn, h]; rfl, fun h p => ?_⟩
  rw [h2 n hn, if_pos h]
  unfold Fm.held
  generalize Sram.loadProgram s.fm.mem n = r
  cases r <;> simp [Fm.userOf]

/-- **C39** (PSG).  A reset writes nothing to the PSG: its channels are as loud, and as high, as before. -/
theorem C39_psg_untouched (he : env.Ok) (s : St) (n : Nat) :
    Psg.chipAtt (step env s .reset).psg.out n = Psg.chipAtt s.psg.out n ∧
      Psg.chipTone (step env s .reset).psg.out n = Psg.chipTone s.psg.out n := by
  simp only [step]
  rw [reset_psg he.psg s]
  exact ⟨rfl, rfl⟩

/-- **C39** is false: a PSG note sounds on after the reset, and the engine has forgotten it — neither its note-off nor
All Notes Off ends it. -/
theorem C39_violated : ∃ env, Env.Ok env ∧ ¬C39_statement env ∧
    (let s := run env (boot env true Ex.mem) [.noteOn 6 60 100, .reset, .noteOff 6 60, .cc 6 123 0, .psgTick];
      Psg.chipAtt s.psg.out 0 ≠ 15 ∧ (s.psg.ch 0).noteOn = false) := by
  refine ⟨Ex.env .static, Ex.env_ok _, fun h => ?_, by decide +kernel⟩
  have := (h (Ex.after .static [.noteOn 6 60 100])
    ⟨true, Ex.mem, [.noteOn 6 60 100], by simp [Op.Wf], by simp [Op.enablesDac], rfl⟩).2.2 0 (by omega)
  revert this
  decide +kernel

/-- A busy state: notes on FM and PSG, changed settings, remapped voices; after the reset FM is silent and the settings
are back, the PSG note is still there. -/
example : let ops : List Op := [.program 0 7, .noteOn 0 60 100, .cc 1 7 20, .noteOn 6 60 100, .remap 3 8, .cc 0 10 0, .reset]
    let s := Ex.after .static ops.dropLast
    let t := Ex.after .static ops
    keyed s.fm.synth.out 0 = true ∧ keyed t.fm.synth.out 0 = false ∧ (s.chan 1).volume = 20 ∧ (t.chan 1).volume = 127 ∧
      (s.dev 8).midiChannel = 3 ∧ (t.dev 8).midiChannel = 8 ∧ Psg.chipAtt t.psg.out 0 = Psg.chipAtt s.psg.out 0 ∧
      (∀ p, Sram.loadProgram s.fm.mem 0 ≠ .ok p) ∧ (chipChannel s.fm.synth.out 0).algorithm = 7 ∧
      (chipChannel t.fm.synth.out 0).algorithm = 0 ∧ ¬PannedTo 64 s.fm.synth.out 0 ∧ PannedTo 64 t.fm.synth.out 0 := by
  refine ⟨by decide +kernel, by decide +kernel, by decide +kernel, by decide +kernel, by decide +kernel, by decide +kernel,
    by decide +kernel, fun p h => ?_, by decide +kernel, by decide +kernel, by decide +kernel, by decide +kernel⟩
  revert h
  have : Sram.loadProgram (Ex.after .static [.program 0 7, .noteOn 0 60 100, .cc 1 7 20, .noteOn 6 60 100, .remap 3 8, .cc 0 10 0]).fm.mem 0 = .empty := by
    decide +kernel
  intro h
  rw [show ([Op.program 0 7, .noteOn 0 60 100, .cc 1 7 20, .noteOn 6 60 100, .remap 3 8, .cc 0 10 0, .reset] : List Op).dropLast =
    [.program 0 7, .noteOn 0 60 100, .cc 1 7 20, .noteOn 6 60 100, .remap 3 8, .cc 0 10 0] from rfl, this] at h
  cases h

end Mdmi.Props
