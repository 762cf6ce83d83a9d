import Verif.Proofs.MidiMild
/-!
# Keys: which calls key an FM channel on or off, in every state
-/
namespace Mdmi.Synth

/-- Calls that leave every key as it is. -/
def Op.keyless : Op → Bool
  | .init _ | .noteOn _ | .noteOff _ | .directWrite _ _ _ => false
  | _ => true

theorem step_keyless (s : St) {op : Op} (h : op.keyless = true) (n : Nat) :
    keyed (step s op).out n = keyed s.out n := by
  by_cases hd : ∃ b, op = .enableDac b
  · obtain ⟨b, rfl⟩ := hd
    have w : ∀ t : St, keyed (writeDacReg t).out n = keyed t.out n := fun t =>
      ((Reach.refl (P := fun p r _ => ¬(p = 0 ∧ r = 0x28)) (s := t)).write
        (d := if t.dacEnable then 0x80 else 0) (by simp)).key (fun d h => absurd ⟨rfl, rfl⟩ h)
    simp only [step, enableDac]
    rw [w]
    simp only
    split
    · rfl
    split <;> rfl
  · refine (step_reach (P := fun p r _ => ¬(p = 0 ∧ r = 0x28)) s op ?_ ?_ ?_ ?_ ?_ ?_ ?_ ?_).key
      (fun d h => absurd ⟨rfl, rfl⟩ h)
    · rintro p rfl; cases h
    · rintro b rfl; exact hd ⟨b, rfl⟩
    · intro c _
      refine ⟨fun b o d hb _ => ?_, fun b d hb => ?_⟩
      · unfold IsOpBase at hb; omega
      · omega
    · intro c o f b d _ _ hb; omega
    · rintro c d - (rfl | rfl) <;> cases h
    · intro r d _ hr; omega
    · intro r d _ hr; omega
    · rintro p r d rfl; cases h

theorem step_noteOff_key (s : St) {c n : Nat} (hc : c < 6) (hn : n < 6) :
    keyed (step s (.noteOff c)).out n = if c = n then false else keyed s.out n :=
  (step_chip (s := s) (op := .noteOff c) ⟨by simp [Op.chan, hc], by simp [Op.oper], trivial⟩ hn).2

theorem step_noteOn_key (s : St) {c n : Nat} (hc : c < 6) (hn : n < 6) :
    keyed (step s (.noteOn c)).out n = if c = n then true else keyed s.out n :=
  (step_chip (s := s) (op := .noteOn c) ⟨by simp [Op.chan, hc], by simp [Op.oper], trivial⟩ hn).2

end Mdmi.Synth

namespace Mdmi.Fm
open Mdmi.Synth (keyed)

/-- Calls that leave every key as it is. -/
def Op.keyless : Op → Bool
  | .reset | .noteOn _ _ _ _ | .noteOff _ | .allNotesOff _ => false
  | .synth o => o.keyless
  | _ => true

theorem call_keyless (s : St) {o : Synth.Op} (h : o.keyless = true) (n : Nat) :
    keyed (call s o).synth.out n = keyed s.synth.out n := Synth.step_keyless s.synth h n

private theorem noKey {a b : List Synth.Ev} (h : Synth.Wrote (fun _ _ _ => False) a b) (n : Nat) :
    keyed b n = keyed a n := h.key fun _ h => h.elim

theorem step_keyless (env : Env) (s : St) {op : Op} (h : op.keyless = true) (n : Nat) :
    keyed (step env s op).synth.out n = keyed s.synth.out n := by
  cases op with
  | reset | noteOn | noteOff | allNotesOff => cases h
  | volume c v =>
    simp only [step, channelVolume, guardCh]; split
    · exact call_keyless _ rfl n
    · rfl
  | program c p =>
    simp only [step, program]; split
    · split
      · exact call_keyless _ rfl n
      · split
        · exact call_keyless _ rfl n
        · rfl
    · rfl
  | percussive c b => simp only [step, percussive, guardCh]; split <;> rfl
  | pan c x =>
    simp only [step, pan, guardCh]; split
    · split
      · exact call_keyless _ rfl n
      split <;> exact call_keyless _ rfl n
    · rfl
  | pitch c p x =>
    simp only [step, pitch, guardCh]; split
    · exact call_keyless _ rfl n
    · rfl
  | store k p =>
    simp only [step, storePreset]; split
    · exact noKey (sramSave_wrote env _ k p) n
    · rfl
  | clear k =>
    simp only [step, clearPreset]; split
    · exact noKey (sramClear_wrote env _ k) n
    · rfl
  | storeFrom c k =>
    simp only [step, storePresetFromChannel, guardCh, storePreset]; split
    · split
      · exact noKey (sramSave_wrote env _ k _) n
      · rfl
    · rfl
  | smNoteOn o p x v =>
    simp only [step, smNoteOn]
    rw [call_keyless _ rfl]
    unfold smPitch; split
    · exact call_keyless _ rfl n
    · rfl
  | smPitch o p x =>
    simp only [step, smPitch]; split
    · exact call_keyless _ rfl n
    · rfl
  | smReset => rfl
  | dacNoteOn p =>
    simp only [step, dacNoteOn]; split
    · split <;> rfl
    · rfl
  | dacNoteOff => rfl
  | synth o => exact Synth.step_keyless s.synth h n

theorem noteOff_key (env : Env) (s : St) {c n : Nat} (hc : c < 6) (hn : n < 6) :
    keyed (step env s (.noteOff c)).synth.out n = if c = n then false else keyed s.synth.out n :=
  Synth.step_noteOff_key s.synth hc hn

theorem allNotesOff_key (env : Env) (s : St) {c n : Nat} (hc : c < 6) (hn : n < 6) :
    keyed (step env s (.allNotesOff c)).synth.out n = if c = n then false else keyed s.synth.out n :=
  Synth.step_noteOff_key s.synth hc hn

theorem noteOn_key (env : Env) (s : St) {c p v n : Nat} {x : Int} (hc : c < 6) (hn : n < 6) (h : c ≠ n) :
    keyed (step env s (.noteOn c p x v)).synth.out n = keyed s.synth.out n := by
  have k : ∀ t : St, keyed (call t (.noteOn c)).synth.out n = keyed t.synth.out n := fun t => by
    simp only [call]; rw [Synth.step_noteOn_key _ hc hn, if_neg h]
  simp only [step, noteOn]
  split
  · rfl
  simp only [guardCh, hc, if_true]
  split
  · split
    · rfl
    · rw [k, setSynthPitch, call_keyless _ rfl]
      simp only
      rw [call_keyless _ rfl]
      exact call_keyless _ rfl n
  · rw [k, setSynthPitch, call_keyless _ rfl]
    exact call_keyless ({ s with ch := _ } : St) rfl n

theorem reset_key (env : Env) (he : env.Ok) (s : St) {n : Nat} (hn : n < 6) :
    keyed (step env s .reset).synth.out n = false := by
  obtain ⟨p, hp, hpo⟩ := presetOf he (n := 0) (by omega)
  simp only [step, reset, hp, call]
  exact (Synth.step_chip (op := .init p) ⟨by simp [Synth.Op.chan], by simp [Synth.Op.oper], hpo⟩ hn).2

end Mdmi.Fm
