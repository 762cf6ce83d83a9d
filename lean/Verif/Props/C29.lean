import Verif.Proofs.SynthBank
/-! C29: calls for an FM channel write only that channel's registers. -/
namespace Mdmi.Props
open Mdmi Mdmi.Synth

/-- **C29** (ownership).  From any state whatsoever, every register write a call for channel `c` makes
belongs to channel `c` by the data sheet's register map. -/
theorem C29_writes_only_own_registers (s : Synth.St) (op : Op) (c : Nat) (h : op.chan = some c) (hc : c < 6) :
    ∃ evs, (Synth.step s op).out = evs ++ s.out ∧
      ∀ part reg data, .ym part reg data ∈ evs → owner part reg data = some c := by
  obtain ⟨evs, e, k⟩ := (step_owner s h hc).evs
  refine ⟨evs, e, fun p r d hm => ?_⟩
  rcases k _ hm with ⟨p', r', d', he, ho⟩ | he | he | he
  · cases he; exact ho
  · cases he
  · cases he
  · cases he

/-- **C29** (frame).  The other channels' registers and keys are as before. -/
theorem C29_other_channels_unchanged (s : Synth.St) (op : Op) (c c' : Nat) (h : op.chan = some c)
    (hc : c < 6) (hc' : c' < 6) (hne : c ≠ c') :
    chipChannel (Synth.step s op).out c' = chipChannel s.out c' ∧
    keyed (Synth.step s op).out c' = keyed s.out c' :=
  owner_frame hc' (step_owner s h hc) hne

/-- **C29** (injectivity).  Setting two parameters of different banks (another channel, another operator
or another register group of the data sheet) never writes the same register. -/
theorem C29_registers_distinct (s s' : Synth.St) (op op' : Op) (k k' : Nat × Nat × Nat)
    (h : op.bank = some k) (h' : op'.bank = some k') (hne : k ≠ k')
    (evs evs' : List Ev) (he : (Synth.step s op).out = evs ++ s.out)
    (he' : (Synth.step s' op').out = evs' ++ s'.out)
    (part reg data data' : Nat) (hm : .ym part reg data ∈ evs) : .ym part reg data' ∉ evs' := by
  intro hm'
  obtain ⟨e, q, g⟩ := (step_bank s h).evs
  obtain ⟨e', q', g'⟩ := (step_bank s' h').evs
  rw [he] at q; rw [he'] at q'
  have := List.append_cancel_right q; subst this
  have := List.append_cancel_right q'; subst this
  rcases g _ hm with ⟨p1, r1, d1, w, b⟩ | w | w | w
  · cases w
    rcases g' _ hm' with ⟨p2, r2, d2, w, b'⟩ | w | w | w
    · cases w; exact hne (bank_inj b b')
    all_goals cases w
  all_goals cases w

-- non-vacuity: channel 5, operator 2 (third), detune: part 1, register 0x30 + 4 + 2
example : (Synth.step (boot true) (.detune 5 2 3)).out = [.ym 1 0x36 0x30] ∧ owner 1 0x36 0x30 = some 5 ∧
    (Synth.step (boot true) (.detune 5 1 3)).out = [.ym 1 0x3A 0x30] ∧
    (Synth.step (boot true) (.noteOn 3)).out = [.ym 0 0x28 0xF4] ∧ owner 0 0x28 0xF4 = some 3 := by
  decide +kernel

end Mdmi.Props
