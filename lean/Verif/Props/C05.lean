import Verif.Proofs.MidiStep
import Verif.Spec.Example
/-! C05: no undefined behaviour on valid MIDI. -/
namespace Mdmi.Props
open Mdmi Mdmi.Midi

/-- No undefined behaviour has happened so far, in the engine or in a device. -/
def NoUb (s : St) : Prop := s.fault = false ∧ s.psg.fault = false ∧ s.fm.synth.fault = false

/-- A system exclusive message that makes the engine read past its payload: an envelope of odd length. -/
def ReadsPastEnd (d : List Nat) : Prop :=
  d.take 4 = [0x00, 0x22, 0x77, 0x06] ∧ d.length % 2 = 1

/-
Full statement (violated, see `C05_violated_dac` and `C05_violated_envelope`):
  ∀ env, env.Ok → ∀ b m ops, (∀ op ∈ ops, op.Wf) →
    NoUb (run env (boot env b m) ops) ∧ ∀ d j j', Wf (.sysex d j) → Wf (.sysex d j') →
      sysex env s d j = sysex env s d j'
-/

/-- **C05** (partial: sample playback and detuning not combined).  From start-up, no history of well-formed
messages, remaps, resets and frame ticks causes undefined behaviour, unless it both switches channel 6 to samples
(CC 78) and moves pitches off the keys (pitch bend, CC 85). -/
theorem C05_no_ub_partial (env : Env) (he : env.Ok) (b : Bool) (m : Sram.Mem) (ops : List Op)
    (hw : ∀ op ∈ ops, op.Wf) (h : (∀ op ∈ ops, ¬op.enablesDac) ∨ (∀ op ∈ ops, ¬op.detunes)) :
    NoUb (run env (boot env b m) ops) := by
  rcases h with h | h
  · have := run_ok (tame := false) he ops _ (boot_ok he b m) hw (fun _ => h) (by simp)
    exact ⟨this.fault, this.psg.nofault, this.fm.synth.fault⟩
  · have := run_ok (tame := true) he ops _ (boot_ok he b m) hw (by simp) (fun _ => h)
    exact ⟨this.fault, this.psg.nofault, this.fm.synth.fault⟩

/-- **C05** (partial: envelopes of even length).  No other system exclusive message depends on the byte after its
payload, which was never received. -/
theorem C05_no_indeterminate_read_partial (env : Env) (s : St) (d : List Nat) (h : ¬ReadsPastEnd d) (j j' : Nat) :
    sysex env s d j = sysex env s d j' := by
  have ev : ∀ l : List Nat, l.length % 2 = 0 → envelopeBytes j l = envelopeBytes j' l := by
    intro l
    fun_induction envelopeBytes j l with
    | case1 => intro _; rfl
    | case2 => intro h; simp at h
    | case3 a b rest ih =>
      intro h
      simp only [List.length_cons] at h
      simp only [envelopeBytes]
      rw [ih (by omega)]
  have hh : ∀ c e, (c = 6 → e.length % 2 = 0) → handler env s c e j = handler env s c e j' := by
    intro c e h
    by_cases hc : c = 6
    · subst hc
      simp only [handler, loadPsgEnvelope, ev e (h rfl)]
    · unfold handler
      split <;> first | rfl | exact absurd rfl hc
  unfold sysex
  split
  · rfl
  split
  · rfl
  split
  · rfl
  rename_i h4 h5 h6
  have key : d.getD 3 0 = 6 → (d.drop 4).length % 2 = 0 := by
    intro h3
    simp only [List.length_drop]
    have : d.take 4 = [0x00, 0x22, 0x77, 0x06] := by
      match d, h4, h6, h3 with
      | a :: b :: c :: e :: t, _, h6, h3 =>
        simp only [List.take_succ_cons, List.take_zero, ne_eq, Decidable.not_not, List.cons.injEq, and_true] at h6
        simp only [List.getD_eq_getElem?_getD] at h3
        simp_all
    have hodd : ¬d.length % 2 = 1 := fun hp => h ⟨this, hp⟩
    omega
  simp only
  split
  · rfl
  · split
    · rfl
    · exact hh _ _ key
  · exact hh _ _ key

/-- **C05** is violated: with channel 6 playing samples, key 127 bent up indexes the sample table out of bounds. -/
theorem C05_violated_dac : ¬ ∀ (env : Env), env.Ok → ∀ b m ops, (∀ op ∈ ops, op.Wf) →
    NoUb (run env (boot env b m) ops) := by
  intro h
  have := (h (Ex.env .static) (Ex.env_ok _) true Ex.mem [.cc 5 78 127, .bend 5 16383, .noteOn 5 127 100]
    (by simp [Op.Wf])).2.2
  exact absurd this (by decide +kernel)

/-- **C05** is violated: an envelope of odd length is completed with a byte that was never received. -/
theorem C05_violated_envelope : ∃ d, Op.Wf (.sysex d 0) ∧ Op.Wf (.sysex d 1) ∧
    (sysex (Ex.env .static) (Ex.start .static) d 0).psg.userBuf 0 ≠
      (sysex (Ex.env .static) (Ex.start .static) d 1).psg.userBuf 0 :=
  ⟨[0x00, 0x22, 0x77, 0x06, 0x03], by simp [Op.Wf], by simp [Op.Wf], by decide +kernel⟩

/-- A history with samples, notes, bends within range on another channel, store and dump; it sounds. -/
example :
    let s := Ex.after .static [.cc 5 78 127, .noteOn 5 127 100, .program 0 40, .noteOn 0 60 90, .noteOff 5 127, .tick]
    (s.dev 0).noteOn = true ∧ (s.dev 5).ops = .dac ∧ Synth.keyed s.fm.synth.out 0 = true := by decide +kernel

example : ∀ op ∈ ([.cc 5 78 127, .noteOn 5 127 100, .program 0 40, .noteOn 0 60 90, .noteOff 5 127, .tick] : List Op),
    op.Wf ∧ ¬op.detunes := by simp [Op.Wf, Op.detunes]

end Mdmi.Props
