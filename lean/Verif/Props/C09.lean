import Verif.Proofs.MidiNote
import Verif.Spec.Example
/-! C09: device select. -/
namespace Mdmi.Props
open Mdmi Mdmi.Midi

/-- The voices a device select value stands for (README: automatic, FM, PSG tone, PSG noise): device channels 0 to 5 are
FM, 6 to 8 PSG tone, 9 PSG noise. -/
def ChosenBy (select i : Nat) : Prop :=
  if select = 0 then i ≤ 8 else if select = 1 then i ≤ 5 else if select = 2 then 6 ≤ i ∧ i ≤ 8 else i = 9

/-- The programs that sound like a square wave. -/
def SquareProgram (n : Nat) : Prop := n = 80 ∨ n = 89 ∨ n = 99

/-
Full statement (violated, see `C09_violated_square` and `C09_violated_stick`):
  ∀ env s c p v, c < 16 → v ≠ 0 → s.dynamic = true → ∀ i,
    (step env s (.noteOn c p v)).dev i ≠ s.dev i → ChosenBy (s.chan c).deviceSelect i
-/

private theorem minMax_chosen (s : St) (c i : Nat) :
    ((minMax s c).1 ≤ i ∧ i ≤ (minMax s c).2) → ChosenBy (s.chan c).deviceSelect i := by
  unfold minMax ChosenBy
  split <;> rename_i h <;> intro k <;> simp_all
  omega

/-- Where dynamic mode places a note. -/
private theorem findFree_where {s : St} {c i : Nat} (hd : s.dynamic = true) (h : findFree s c = some i) :
    ChosenBy (s.chan c).deviceSelect i ∨
    (SquareProgram (s.chan c).program ∧ (i = 6 ∨ i = 7)) ∨
    (s.cfg.stick = true ∧ ∃ a, a < 13 ∧ (s.dev a).midiChannel = c ∧
      if (s.dev a).ops = .fm then i ≤ 5 else 6 ≤ i ∧ i ≤ 8) := by
  have q := minMax_chosen s c i
  unfold findFree at h
  revert h q
  rcases minMax s c with ⟨lo, hi⟩
  intro h q
  simp only [hd, Bool.not_true, Bool.false_eq_true, if_false] at h q
  split at h
  · rename_i j hj
    simp only [Option.some.injEq] at h; subst h
    exact .inl (q (mem_span.1 (List.mem_of_find?_eq_some hj)))
  · split at h
    · rename_i j hj
      simp only [Option.some.injEq] at h; subst h
      unfold findFreePsgSquare at hj
      split at hj
      · rename_i hp
        have := List.mem_of_find?_eq_some hj
        simp at this
        exact .inr (.inl ⟨hp, this⟩)
      · cases hj
    · split at h
      · rename_i j hj
        simp only [Option.some.injEq] at h; subst h
        unfold findDeviceSpecific at hj
        split at hj
        · rename_i hst
          split at hj
          · cases hj
          · rename_i a ha
            refine .inr (.inr ⟨hst, a, (devByMidi_some ha).1, (devByMidi_some ha).2, ?_⟩)
            split at hj
            · rename_i hf; rw [if_pos hf]; exact (findInSpan_some hj).2.1
            · rename_i hf; rw [if_neg hf]; exact ⟨(findInSpan_some hj).1, (findInSpan_some hj).2.1⟩
        · have := findInSpan_some hj
          exact .inl (q ⟨this.1, this.2.1⟩)
      · unfold findAnyFree at h
        have := List.mem_of_find?_eq_some h
        simp [List.mem_range'_1] at this
        exact .inl (q (by omega))

/-- **C09** (partial: with the exceptions the code makes).  In dynamic mode, in every state, a note changes only
voices its channel's device select stands for; except that the square-wave programs 80, 89 and 99 may go to the first
two PSG voices, and that a channel told to keep to its kind of voice may go to any voice of the kind it has. -/
theorem C09_placement_partial (env : Env) (s : St) (c p v : Nat) (hc : c < 16) (hv : v ≠ 0) (hd : s.dynamic = true)
    (i : Nat) (hi : (step env s (.noteOn c p v)).dev i ≠ s.dev i) :
    ChosenBy (s.chan c).deviceSelect i ∨
    (SquareProgram (s.chan c).program ∧ (i = 6 ∨ i = 7)) ∨
    (s.cfg.stick = true ∧ ∃ a, a < 13 ∧ (s.dev a).midiChannel = c ∧
      if (s.dev a).ops = .fm then i ≤ 5 else 6 ≤ i ∧ i ≤ 8) := by
  simp only [step, hc, if_true] at hi
  refine findFree_where hd (Decidable.byContradiction fun h => hi (noteOn_dev hc hv h))

/-- **C09** (partial: other programs, and without the setting to keep to a kind of voice).  On the chips: only
registers, keys, tones and attenuations of the voices the device select stands for change. -/
theorem C09_device_select_partial (env : Env) (he : env.Ok) (s : St) (hs : Reached env s) (c p v : Nat)
    (hw : Op.Wf (.noteOn c p v)) (hv : v ≠ 0) (hd : s.dynamic = true)
    (hp : ¬SquareProgram (s.chan c).program) (hk : s.cfg.stick = false) :
    ChipFrame (ChosenBy (s.chan c).deviceSelect) s (step env s (.noteOn c p v)) := by
  obtain ⟨tame, hs⟩ := hs.ok he
  simp only [step, hw.1, if_true]
  refine ((noteOn_path he hs hw.1 (lt_top hw.2.1) hw.2.2 hv).mono (fun i h => ?_) (fun _ h => h)
    (fun _ h => h) (fun _ h => h)).frame.chip
  rcases findFree_where hd h with h | ⟨h, _⟩ | ⟨h, _⟩
  · exact h
  · exact absurd h hp
  · rw [hk] at h; cases h

/-- **C09** is violated: with FM selected, a note of program 80 is played by the PSG. -/
theorem C09_violated_square : ∃ (s : St) (i : Nat), Reached (Ex.env .dynamic) s ∧ s.dynamic = true ∧
    (s.chan 0).deviceSelect = 1 ∧ (step (Ex.env .dynamic) s (.noteOn 0 60 100)).dev i ≠ s.dev i ∧
    ¬ChosenBy 1 i ∧ Psg.chipAtt (step (Ex.env .dynamic) s (.noteOn 0 60 100)).psg.out 0 ≠ Psg.chipAtt s.psg.out 0 :=
  ⟨Ex.after .dynamic [.cc 0 86 32, .program 0 80], 6,
    ⟨true, Ex.mem, _, by simp [Op.Wf], .inl (by simp [Op.enablesDac]), rfl⟩, by decide +kernel, by decide +kernel,
    by decide +kernel, by simp [ChosenBy], by decide +kernel⟩

/-- **C09** is violated: with PSG tone selected, a channel that keeps to its kind of voice is played on FM. -/
theorem C09_violated_stick : ∃ (s : St) (i : Nat), Reached (Ex.env .dynamic) s ∧ s.dynamic = true ∧
    (s.chan 0).deviceSelect = 2 ∧ (step (Ex.env .dynamic) s (.noteOn 0 64 100)).dev i ≠ s.dev i ∧ ¬ChosenBy 2 i ∧
    Synth.keyed (step (Ex.env .dynamic) s (.noteOn 0 64 100)).fm.synth.out 1 ≠ Synth.keyed s.fm.synth.out 1 :=
  ⟨Ex.after .dynamic [.sysex [0x00, 0x22, 0x77, 0x05, 1] 0, .noteOn 0 60 100, .noteOn 0 62 100, .noteOff 0 62, .noteOff 0 60, .noteOn 0 60 100, .cc 0 86 64], 1,
    ⟨true, Ex.mem, _, by simp [Op.Wf], .inl (by simp [Op.enablesDac]), rfl⟩, by decide +kernel, by decide +kernel,
    by decide +kernel, by simp [ChosenBy], by decide +kernel⟩

/-! ### Examples -/

/-- Each selection in turn. -/
example : (Ex.after .dynamic [.cc 0 86 32, .noteOn 0 60 100]).dev 0 ≠ (Ex.start .dynamic).dev 0 ∧
    (Ex.after .dynamic [.cc 0 86 64, .noteOn 0 60 100]).dev 6 ≠ (Ex.start .dynamic).dev 6 ∧
    (Ex.after .dynamic [.cc 0 86 127, .noteOn 0 60 100]).dev 9 ≠ (Ex.start .dynamic).dev 9 := by decide +kernel

end Mdmi.Props
