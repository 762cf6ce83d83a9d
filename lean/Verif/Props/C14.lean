import Verif.Props.C12
import Verif.Proofs.MidiKeyInv
/-! C14: changing the mapping under a sounding note. -/
namespace Mdmi.Props
open Mdmi Mdmi.Midi

/-- Messages that change the mapping: the remap call and exclusive message, the mapping-mode message, the polyphonic
controller. -/
def remaps : Op → Bool
  | .remap _ _ => true
  | .cc _ k _ => k == 84
  | .sysex d _ => decide (d.take 4 ∈ [[0, 0x22, 0x77, 0], [0, 0x22, 0x77, 3]])
  | _ => false

/-- Only the mapping differs. -/
private structure Moved (s t : St) : Prop where
  dev : ∀ i, (t.dev i).noteOn = (s.dev i).noteOn ∧ (t.dev i).pitch = (s.dev i).pitch ∧ (t.dev i).glide = (s.dev i).glide
  chan : t.chan = s.chan
  fm : t.fm = s.fm
  psg : t.psg = s.psg

private theorem Moved.refl {s : St} : Moved s s := ⟨fun _ => ⟨rfl, rfl, rfl⟩, rfl, rfl, rfl⟩
private theorem Moved.trans {s t u : St} (h : Moved s t) (k : Moved t u) : Moved s u :=
  ⟨fun i => ⟨(k.dev i).1.trans (h.dev i).1, (k.dev i).2.1.trans (h.dev i).2.1, (k.dev i).2.2.trans (h.dev i).2.2⟩,
    k.chan.trans h.chan, k.fm.trans h.fm, k.psg.trans h.psg⟩

private theorem setDev_moved {s : St} {i c : Nat} : Moved s (setDev s i fun d => { d with midiChannel := c }) := by
  refine ⟨fun j => ?_, rfl, rfl, rfl⟩
  rw [setDev_dev]
  by_cases e : j = i
  · subst e; simp
  · simp [Psg.upd_other _ _ _ _ e]

private theorem remap_moved {s : St} (c i : Nat) : Moved s (remap s c i) := by
  unfold remap
  split
  · exact ⟨fun _ => ⟨rfl, rfl, rfl⟩, rfl, rfl, rfl⟩
  split
  · split
    · exact setDev_moved
    · exact .refl
  split
  · exact ⟨fun _ => ⟨rfl, rfl, rfl⟩, rfl, rfl, rfl⟩
  · exact setDev_moved

private theorem applyDynamicMode_moved {s t : St} (h1 : t.dev = s.dev) (h2 : t.chan = s.chan) (h3 : t.fm = s.fm)
    (h4 : t.psg = s.psg) : Moved s (applyDynamicMode t) := by
  refine ⟨fun j => ?_, h2, h3, h4⟩
  simp only [applyDynamicMode, h1]
  split <;> exact ⟨rfl, rfl, rfl⟩

private theorem setDynamicMode_moved {s : St} (m : Mode) : Moved s (setDynamicMode s m) := by
  unfold setDynamicMode
  cases m
  · exact applyDynamicMode_moved rfl rfl rfl rfl
  · exact applyDynamicMode_moved rfl rfl rfl rfl
  · exact ⟨fun _ => ⟨rfl, rfl, rfl⟩, rfl, rfl, rfl⟩

private theorem setPolyphonic_moved {s : St} (e : Bool) : Moved s (setPolyphonic s e) := by
  unfold setPolyphonic
  simp only
  split
  · exact List.foldlRecOn (motive := Moved s) _ _ (setDynamicMode_moved _) fun t h i _ => h.trans (remap_moved 0 i)
  · exact setDynamicMode_moved _

private theorem step_moved {env : Env} {s : St} {op : Op} (h : remaps op = true) : Moved s (step env s op) := by
  have say : ∀ m, Moved s (say s m) := fun m => ⟨fun _ => ⟨rfl, rfl, rfl⟩, rfl, rfl, rfl⟩
  cases op with
  | remap c i => exact remap_moved c i
  | cc c k v =>
    simp only [remaps, beq_iff_eq] at h; subst h
    simp only [step]; split
    · exact (setPolyphonic_moved _).trans ⟨fun _ => ⟨rfl, rfl, rfl⟩, rfl, rfl, rfl⟩
    · exact ⟨fun _ => ⟨rfl, rfl, rfl⟩, rfl, rfl, rfl⟩
  | sysex d j =>
    simp only [remaps, List.mem_cons, List.not_mem_nil, or_false, decide_eq_true_eq] at h
    simp only [step]
    rcases h with e | e
    · rw [sysex_cmd e]
      simp only [commandLength]
      split
      · exact say _
      · exact remap_moved _ _
    · rw [sysex_cmd e]
      simp only [commandLength]
      split
      · exact say _
      · exact setDynamicMode_moved _
  | _ => cases h

/-- **C14**, what does hold, in every reachable state: changing the mapping silences nothing and touches no chip, and
the note is released by a note-off on the MIDI channel its voice belongs to *now*; for voices that keep their MIDI
channel that is the note-off the player sends.  Full statement: the note-off on the original channel releases the
note wherever its voice went; false (`C14_remap_strands`, `C14_mode_strands`, `C14_polyphonic_strands`,
`C14_reset_controllers_strands`). -/
theorem C14_release_on_new_channel_partial (env : Env) (he : env.Ok) (s : St) (hs : Reached env s) (op : Op)
    (hop : remaps op = true) (i c p c' : Nat) (hi : i < 13) (h : SoundsFor s c p i)
    (hm : ((step env s op).dev i).midiChannel = c') (hc : c' < 16) (hg : NoStaleGlide (step env s op) c') :
    let t := step env s op
    SoundsFor t c' p i ∧ ¬SoundsFor (step env t (.noteOff c' p)) c' p i ∧ t.fm = s.fm ∧ t.psg = s.psg := by
  have m := step_moved (env := env) (s := s) hop
  obtain ⟨tame, ho⟩ := hs.ok he
  obtain ⟨l, hr, -⟩ := (ho.chan c' hc).stack
  rw [← m.chan] at hr
  refine ⟨⟨hm, ?_, ?_⟩, ?_, m.fm, m.psg⟩
  · rw [(m.dev i).1]; exact h.2.1
  · rw [(m.dev i).2.1, (m.dev i).2.2]; exact h.2.2
  · refine C12_note_off_releases_partial env _ c' p hc (Midi.Rep.ok hr) (fun j hj => ?_) hg i hi
    rw [(m.dev j).2.2]
    have := (ho.dev j hj).glide; have := top_le tame; omega

/-- **C14** (negation), remapping: the voice of note 60 moves to channel 6; the note-off on channel 1 misses it. -/
theorem C14_remap_strands :
    let s := Ex.after .static [.noteOn 0 60 100, .sysex [0, 0x22, 0x77, 0, 5, 0] 0, .noteOff 0 60]
    (s.dev 0).noteOn = true ∧ Synth.keyed s.fm.synth.out 0 = true := by
  decide +kernel

/-- **C14** (negation), switching to dynamic mode. -/
theorem C14_mode_strands :
    let s := Ex.after .static [.noteOn 0 60 100, .sysex [0, 0x22, 0x77, 3, 1] 0, .noteOff 0 60]
    (s.dev 0).noteOn = true ∧ Synth.keyed s.fm.synth.out 0 = true := by
  decide +kernel

/-- **C14** (negation), the polyphonic controller, here on another channel. -/
theorem C14_polyphonic_strands :
    let s := Ex.after .static [.noteOn 3 60 100, .cc 0 84 127, .noteOff 3 60]
    (s.dev 3).noteOn = true ∧ Synth.keyed s.fm.synth.out 3 = true := by
  decide +kernel

/-- **C14** (negation), reset all controllers: the voice no longer counts as sounding, so its key stays on. -/
theorem C14_reset_controllers_strands :
    let s := Ex.after .static [.noteOn 0 60 100, .cc 0 121 0, .noteOff 0 60]
    (s.dev 0).noteOn = false ∧ Synth.keyed s.fm.synth.out 0 = true := by
  decide +kernel

/-! ### Examples -/

/-- The moved note is released on its new channel. -/
example : let s := Ex.after .static [.noteOn 0 60 100, .remap 5 0]
    let t := step (Ex.env .static) s (.noteOff 5 60)
    SoundsFor s 5 60 0 ∧ (t.dev 0).noteOn = false ∧ Synth.keyed t.fm.synth.out 0 = false := by
  unfold SoundsFor; decide +kernel

/-- A voice that stays where it is. -/
example : let s := Ex.after .static [.noteOn 1 60 100, .remap 5 0]
    let t := step (Ex.env .static) s (.noteOff 1 60)
    SoundsFor s 1 60 1 ∧ (t.dev 1).noteOn = false := by
  unfold SoundsFor; decide +kernel

end Mdmi.Props
