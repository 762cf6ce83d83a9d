import Verif.Proofs.MidiNote
import Verif.Spec.Example
/-! C12: note-off releases the note on every voice of its channel and touches no other channel. -/
namespace Mdmi.Props
open Mdmi Mdmi.Midi

/-- Voice `i` sounds pitch `p` for MIDI channel `c`, or is on its way to it. -/
def SoundsFor (s : St) (c p i : Nat) : Prop :=
  (s.dev i).midiChannel = c ∧ (s.dev i).noteOn = true ∧
    if (s.dev i).glide = 0 then (s.dev i).pitch = p else (s.dev i).glide = p

/-- No voice of `c` was left mid-glide by switching portamento off. -/
def NoStaleGlide (s : St) (c : Nat) : Prop :=
  (s.chan c).portamento = true ∨ ∀ i, i < 13 → (s.dev i).midiChannel = c → (s.dev i).noteOn = true → (s.dev i).glide = 0

private theorem playing_iff {d : Dev} {p : Nat} (hg : d.glide < 256) :
    isPlaying d p = true ↔ d.noteOn = true ∧ if d.glide = 0 then d.pitch = p else d.glide = p := by
  unfold isPlaying
  by_cases h : d.glide = 0
  · simp [h]
  · simp [h, Nat.mod_eq_of_lt hg]

/-- **C12**, the released note, in every state with an intact note stack.  Full statement: without
`hp`; it is false (`C12_not_released`): a glide interrupted by switching portamento off stays the voice's target. -/
theorem C12_note_off_releases_partial (env : Env) (s : St) (c p : Nat) (hc : c < 16) (hst : StackOk (s.chan c).stack)
    (hg : ∀ i, i < 13 → (s.dev i).glide < 256)
    (hp : NoStaleGlide s c) (i : Nat) (hi : i < 13) : ¬SoundsFor (step env s (.noteOff c p)) c p i := by
  simp only [step, hc, if_true]
  have e := noteOff_eff (env := env) (p := p) hst.rep
  have ei := e.dev i
  intro h
  unfold SoundsFor at h
  rw [ei] at h
  generalize hn : (((held (s.chan c).stack).filter (· ≠ p)).getLastD 0) = next at *
  have nm : next ≠ 0 → next ∈ (held (s.chan c).stack).filter (· ≠ p) := by
    intro h0
    rw [← hn] at h0 ⊢
    exact getLastD_mem h0
  by_cases hh : i < 13 ∧ Hit s c p i
  · rw [if_pos hh] at h
    have ho := isPlaying_on hh.2.2
    unfold released at h
    split at h
    · rename_i hs
      have := nm hs.2
      simp only [List.mem_filter, ne_eq, decide_not, Bool.not_eq_eq_eq_not, Bool.not_true, decide_eq_false_iff_not] at this
      split at h
      · simp only [hs.2, if_false] at h
        exact this.2 h.2.2
      · rename_i hpo
        have g0 : (s.dev i).glide = 0 := by
          rcases hp with h | h
          · exact absurd h hpo
          · exact h i hi hh.2.1 ho
        simp only [g0, if_true] at h
        exact this.2 h.2.2
    · simp at h
  · rw [if_neg hh] at h
    exact hh ⟨hi, h.1, (playing_iff (hg i hi)).2 h.2⟩

/-- **C12**, everything else, in every state with an intact note stack: device channels that did not sound the note
for this channel, the other MIDI channels, and this channel but its note stack, stay as they are. -/
theorem C12_others_kept (env : Env) (s : St) (c p : Nat) (hc : c < 16) (hst : StackOk (s.chan c).stack)
    (hg : ∀ i, i < 13 → (s.dev i).glide < 256) :
    let t := step env s (.noteOff c p)
    (∀ i, i < 13 → ¬SoundsFor s c p i → t.dev i = s.dev i) ∧ (∀ k, k ≠ c → t.chan k = s.chan k) ∧
    t.chan c = { s.chan c with stack := (t.chan c).stack } := by
  simp only [step, hc, if_true]
  have e := noteOff_eff (env := env) (p := p) hst.rep
  refine ⟨fun i hi h => ?_, e.other, e.chan⟩
  rw [e.dev i, if_neg]
  rintro ⟨_, h1, h2⟩
  exact h ⟨h1, (playing_iff (hg i hi)).1 h2⟩

/-- **C12**, chips and configuration, in every reachable state: only voices of the channel are written to. -/
theorem C12_other_channels_keep_sounding (env : Env) (he : env.Ok) (s : St) (hs : Reached env s) (c p : Nat)
    (hw : Op.Wf (.noteOff c p)) :
    ChipFrame (fun i => (s.dev i).midiChannel = c) s (step env s (.noteOff c p)) ∧
    (step env s (.noteOff c p)).cfg = s.cfg ∧ (step env s (.noteOff c p)).dynamic = s.dynamic ∧
    (step env s (.noteOff c p)).out = s.out := by
  obtain ⟨tame, hs⟩ := hs.ok he
  simp only [step, hw.1, if_true]
  have f : Frame env _ _ (fun _ => False) (fun _ => False) s (noteOff env s c p) := (noteOff_path he hs hw.1).1.frame
  exact ⟨f.chip, f.cfg, f.dynamic, f.out⟩

/-- **C12** in every reachable state, with the one hypothesis the code needs. -/
theorem C12_reached_note_off_partial (env : Env) (he : env.Ok) (s : St) (hs : Reached env s) (c p : Nat)
    (hw : Op.Wf (.noteOff c p)) (hp : NoStaleGlide s c) :
    let t := step env s (.noteOff c p)
    (∀ i, i < 13 → ¬SoundsFor t c p i) ∧ (∀ i, i < 13 → ¬SoundsFor s c p i → t.dev i = s.dev i) ∧
    (∀ k, k ≠ c → t.chan k = s.chan k) := by
  obtain ⟨tame, ho⟩ := hs.ok he
  obtain ⟨l, hr, -⟩ := (ho.chan c hw.1).stack
  have hg : ∀ i, i < 13 → (s.dev i).glide < 256 := fun i hi => by have := (ho.dev i hi).glide; have := top_le tame; omega
  have k := C12_others_kept env s c p hw.1 (Midi.Rep.ok hr) hg
  exact ⟨C12_note_off_releases_partial env s c p hw.1 (Midi.Rep.ok hr) hg hp, k.1, k.2.1⟩

/-- **C12** (negation).  Portamento on, note 60, note 64 (the voice glides towards 64), portamento off, note 64
released: the voice returns to 60 but keeps the target, so it still counts as sounding 64, and when 60 is released
it goes on sounding with its chip channel keyed. -/
theorem C12_not_released :
    let s := Ex.after .static [.cc 0 65 127, .noteOn 0 60 100, .noteOn 0 64 100, .cc 0 65 0]
    let t := step (Ex.env .static) s (.noteOff 0 64)
    let u := step (Ex.env .static) t (.noteOff 0 60)
    SoundsFor t 0 64 0 ∧ (u.dev 0).noteOn = true ∧ (u.dev 0).pitch = 60 ∧ Synth.keyed u.fm.synth.out 0 = true := by
  unfold SoundsFor; decide +kernel

/-! ### Examples -/

/-- Two voices of channel 1 sounding the same key are both released, a third voice of the channel is not. -/
example : let s := Ex.after .static [.remap 0 1, .remap 0 2, .noteOn 0 60 100, .noteOn 0 60 90, .noteOn 0 67 90]
    let t := step (Ex.env .static) s (.noteOff 0 60)
    SoundsFor s 0 60 0 ∧ SoundsFor s 0 60 1 ∧ SoundsFor s 0 67 2 ∧ (t.dev 0).noteOn = false ∧ (t.dev 1).noteOn = false ∧
    SoundsFor t 0 67 2 ∧ Synth.keyed t.fm.synth.out 1 = false ∧ Synth.keyed t.fm.synth.out 2 = true := by
  unfold SoundsFor; decide +kernel

/-- Releasing the sounding one of two held notes returns to the other. -/
example : let s := Ex.after .static [.noteOn 0 60 100, .noteOn 0 64 100]
    let t := step (Ex.env .static) s (.noteOff 0 64)
    SoundsFor s 0 64 0 ∧ SoundsFor t 0 60 0 ∧ t.dev 1 = s.dev 1 := by
  unfold SoundsFor; decide +kernel

end Mdmi.Props
