import Verif.Proofs.MidiCtl
import Verif.Props.C39
/-! C40: Reset All Controllers. -/
namespace Mdmi.Props
open Mdmi Mdmi.Midi
open Mdmi.Synth (keyed)

variable {env : Env} {s : St}

/-- The full statement of C40: controller 121 on channel `c` gives the channel its power-on settings and leaves the
other channels, the voices they play, the mapping mode and the preference for it, and the chips outside the channel's
voices as they were. -/
def C40_statement (env : Env) : Prop :=
  ∀ s, Reached env s → ∀ c v, c < 16 → v < 128 → let t := step env s (.cc c 121 v)
    FreshChannel (t.chan c) ∧ (∀ d, d ≠ c → t.chan d = s.chan d) ∧
    (∀ i < 13, (s.dev i).midiChannel ≠ c → t.dev i = s.dev i) ∧ t.dynamic = s.dynamic ∧ t.cfg = s.cfg ∧
    ChipFrame (fun i => (s.dev i).midiChannel = c) s t

private theorem setDynamicMode_chips (s : St) (m : Mode) :
    (setDynamicMode s m).fm = s.fm ∧ (setDynamicMode s m).psg = s.psg := by
  cases m <;> exact ⟨rfl, rfl⟩

private theorem settled (he : env.Ok) (h : Reached env s) : Settled s := by
  obtain ⟨b, m, ops, hw, h | h, rfl⟩ := h
  · exact run_settled (tame := false) he ops _ (boot_ok he b m) (reset_settled _) hw (fun _ => h) (by simp)
  · exact run_settled (tame := true) he ops _ (boot_ok he b m) (reset_settled _) hw (by simp) (fun _ => h)

private theorem cc121_step {c : Nat} (hc : c < 16) (v : Nat) :
    step env s (.cc c 121 v) = emit (resetAllControllers env s c) (.changedCc c 121 v) := by
  simp only [step, if_pos hc, cc, ccSwitch_121]

/-- **C40** (channels and chips).  Controller 121 gives its channel the power-on settings, changes no other channel, and
writes to the chips for the voices of its channel only.  Of a voice of another channel only the mapping changes: every
voice goes back to the MIDI channel with its number (to none in dynamic mode).  Of the configuration only the preference
for a mapping mode changes: it becomes the mode in force.  Missing from the full statement: mappings and preference
stay (false: `C40_violated`; see `C40_default_mapping_partial`). -/
theorem C40_other_channels_partial (he : env.Ok) (hs : Reached env s) {c v : Nat} (hc : c < 16) :
    let t := step env s (.cc c 121 v)
    FreshChannel (t.chan c) ∧ (∀ d, d ≠ c → t.chan d = s.chan d) ∧
    (∀ i < 13, (s.dev i).midiChannel ≠ c → t.dev i = { s.dev i with midiChannel := if s.dynamic then 127 else i }) ∧
    t.dynamic = s.dynamic ∧ t.cfg = { s.cfg with pref := if s.dynamic then .dynamic else .static } ∧
    ChipFrame (fun i => (s.dev i).midiChannel = c) s t := by
  obtain ⟨tame, ok⟩ := hs.ok he
  obtain ⟨h1, h2, h3, -, h5⟩ := resetAllControllers_state env s c
  have p := (resetAllControllers_path he ok hc).frame.chip
  have q : (resetAllControllers env s c).fm = (foreach (setChan s c fun _ => freshChan) c (initDev env)).fm ∧
      (resetAllControllers env s c).psg = (foreach (setChan s c fun _ => freshChan) c (initDev env)).psg := by
    unfold resetAllControllers
    exact setDynamicMode_chips _ _
  rw [cc121_step hc]
  generalize foreach (setChan s c fun _ => freshChan) c (initDev env) = b at *
  generalize resetAllControllers env s c = t at *
  refine ⟨?_, fun d hd => ?_, fun i hi hn => ?_, h2, h3, ⟨fun x y k => ?_, fun n hn k => ?_, fun n hn k => ?_, fun n hn k => ?_⟩⟩
  · show FreshChannel (t.chan c)
    rw [h1]; simp only [setChan_chan, upd_self]
    exact ⟨rfl, rfl, rfl, rfl, rfl, rfl, rfl, rfl, rfl, rfl, rfl, rfl⟩
  · show t.chan d = _
    rw [h1]; simp only [setChan_chan, Psg.upd_other _ _ _ _ hd]
  · show t.dev i = _
    rw [h5 i hi, if_neg hn]
  · show Synth.ymReg t.fm.synth.out x y = _
    rw [q.1]; exact p.reg x y k
  · show keyed t.fm.synth.out n = _
    rw [q.1]; exact p.key n hn k
  · show Psg.chipTone t.psg.out n = _
    rw [q.2]; exact p.tone n hn k
  · show Psg.chipAtt t.psg.out n = _
    rw [q.2]; exact p.att n hn k

/-- **C40** where nothing was remapped.  In static mode chosen by the user, with every voice of another channel on the
MIDI channel with its number, the full statement holds. -/
theorem C40_default_mapping_partial (he : env.Ok) (hs : Reached env s) {c v : Nat} (hc : c < 16)
    (hp : s.cfg.pref = .static) (hm : ∀ i < 13, (s.dev i).midiChannel ≠ c → (s.dev i).midiChannel = i) :
    let t := step env s (.cc c 121 v)
    FreshChannel (t.chan c) ∧ (∀ d, d ≠ c → t.chan d = s.chan d) ∧
    (∀ i < 13, (s.dev i).midiChannel ≠ c → t.dev i = s.dev i) ∧ t.dynamic = s.dynamic ∧ t.cfg = s.cfg ∧
    ChipFrame (fun i => (s.dev i).midiChannel = c) s t := by
  have d : s.dynamic = false := by
    have := settled he hs
    rw [Settled, hp] at this
    exact this (by simp)
  obtain ⟨h1, h2, h3, h4, h5, h6⟩ := C40_other_channels_partial (v := v) he hs hc
  refine ⟨h1, h2, fun i hi hn => ?_, h4, ?_, h6⟩
  · rw [h3 i hi hn, d]
    have := hm i hi hn
    generalize s.dev i = x at *
    cases x; simp_all
  · rw [h5, d, if_neg (by simp), ← hp]

/-- **C40** (preference).  Unless the preference is Auto, controller 121 changes nothing of the configuration. -/
theorem C40_preference_partial (he : env.Ok) (hs : Reached env s) {c v : Nat} (hc : c < 16) (hp : s.cfg.pref ≠ .auto) :
    (step env s (.cc c 121 v)).cfg = s.cfg := by
  have k := settled he hs hp
  obtain ⟨-, -, -, -, h5, -⟩ := C40_other_channels_partial (v := v) he hs hc
  rw [h5, k]
  generalize s.cfg = g at *
  obtain ⟨p, a, b, c⟩ := g
  cases p <;> simp_all

/-- **C40** (voices of the channel).  A voice that played the channel counts as silent, whatever it was playing, is put
back to its own kind of sound, and takes the settings of the MIDI channel with the voice's number — those of the reset
channel only if that is its number too. -/
theorem C40_own_voices (s : St) {c v i : Nat} (hc : c < 16) (hi : i < 13) (hm : (s.dev i).midiChannel = c) :
    let t := step env s (.cc c 121 v)
    let d := t.dev i
    d.noteOn = false ∧ d.pitch = 0 ∧ d.cents = 0 ∧ d.glide = 0 ∧ d.midiChannel = (if s.dynamic then 127 else i) ∧
      d.volume = (t.chan i).volume ∧ d.pan = (t.chan i).pan ∧ d.program = (t.chan i).program ∧
      d.pitchBend = (t.chan i).pitchBend ∧
      (i < 6 → d.ops = .fm ∧ d.num = i) ∧ (6 ≤ i → i < 10 → d.ops = .psg ∧ d.num + 6 = i) ∧
      (10 ≤ i → d.ops = .sm ∧ d.num + 10 = i) := by
  obtain ⟨h1, h2, h3, -, h5⟩ := resetAllControllers_state env s c
  have k := h5 i hi
  rw [if_pos hm] at k
  rw [cc121_step hc]
  simp only [emit]
  generalize resetAllControllers env s c = t at *
  rw [k, h1]
  generalize (setChan s c fun _ => freshChan).chan = ch
  refine ⟨rfl, rfl, rfl, rfl, rfl, rfl, rfl, rfl, rfl, fun h => ?_, fun h h' => ?_, fun h => ?_⟩
  · simp [freshOn, Dev.sync, resetDev, show i ≤ 5 by omega]
  · simp [freshOn, Dev.sync, resetDev, show ¬ i ≤ 5 by omega, show i ≤ 9 by omega]; omega
  · simp [freshOn, Dev.sync, resetDev, show ¬ i ≤ 5 by omega, show ¬ i ≤ 9 by omega]; omega

/-- **C40** (keys).  Controller 121 keys no FM channel on or off: a sounding note of the channel sounds on, though by
`C40_own_voices` the engine counts the voice as silent. -/
theorem C40_keys (s : St) {c v : Nat} (hc : c < 16) (n : Nat) :
    keyed (step env s (.cc c 121 v)).fm.synth.out n = keyed s.fm.synth.out n := by
  obtain ⟨-, -, -, h4, -⟩ := resetAllControllers_state env s c
  rw [cc121_step hc]
  generalize resetAllControllers env s c = t at *
  exact h4 n

/-- **C40** is false.  Remapping: the voice another channel was given is taken away.  Preference: Auto becomes the mode
in force.  Notes: in dynamic mode, controller 121 on a channel that plays nothing leaves the note of another channel
sounding for good; and a note of the channel itself cannot be ended either. -/
theorem C40_violated :
    (∀ m, Env.Ok (Ex.env m) ∧ ¬C40_statement (Ex.env m)) ∧
    ((Ex.after .static [.remap 0 3, .cc 5 121 0]).dev 3).midiChannel = 3 ∧
    (Ex.after .auto []).cfg.pref = .auto ∧ (Ex.after .auto [.cc 5 121 0]).cfg.pref = .static ∧
    keyed (Ex.after .dynamic [.noteOn 0 60 100, .cc 5 121 0, .noteOff 0 60, .cc 0 123 0]).fm.synth.out 0 = true ∧
    keyed (Ex.after .static [.noteOn 0 60 100, .cc 0 121 0, .noteOff 0 60]).fm.synth.out 0 = true := by
  refine ⟨fun m => ⟨Ex.env_ok m, fun h => ?_⟩, by decide +kernel, by decide +kernel, by decide +kernel, by decide +kernel,
    by decide +kernel⟩
  have := (h (Ex.after m [.sysex [0, 0x22, 0x77, 3, 0] 0, .remap 0 3])
    ⟨true, Ex.mem, _, by simp [Op.Wf], by simp [Op.enablesDac], rfl⟩ 5 0 (by omega) (by omega)).2.2.1 3 (by omega)
  revert this
  cases m <;> decide +kernel

/-- A reached state with changed settings on two channels: controller 121 on channel 1 resets that one, voice included,
and leaves the note and settings of the other. -/
example : let ops : List Op := [.program 1 7, .cc 1 7 20, .cc 1 10 0, .cc 2 7 30, .noteOn 2 60 100]
    let s := Ex.after .static ops
    let t := step (Ex.env .static) s (.cc 1 121 0)
    (s.chan 1).volume = 20 ∧ (t.chan 1).volume = 127 ∧ (s.dev 1).program = 7 ∧ (t.dev 1).program = 0 ∧
      (t.chan 2).volume = 30 ∧ (t.dev 2).noteOn = true ∧ keyed t.fm.synth.out 2 = true ∧
      (Synth.chipChannel s.fm.synth.out 1).algorithm = 7 ∧ (Synth.chipChannel t.fm.synth.out 1).algorithm = 0 := by
  decide +kernel

end Mdmi.Props
