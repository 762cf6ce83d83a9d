import Verif.Proofs.MidiReset
import Verif.Proofs.MidiFmVol
/-! # The velocity of an FM channel changes only when the channel is keyed on -/
namespace Mdmi.Synth

theorem keyOns_append (a b : List Ev) (c : Nat) : keyOns (a ++ b) c = keyOns a c + keyOns b c := by
  induction a with
  | nil => simp [keyOns]
  | cons e l ih => cases e <;> simp only [List.cons_append, keyOns, ih] <;> omega

theorem Wrote.keyOns {P : Nat → Nat → Nat → Prop} {a b : List Ev} (h : Wrote P a b) (c : Nat) :
    Synth.keyOns a c ≤ Synth.keyOns b c := by
  obtain ⟨evs, e, -⟩ := h
  rw [e, keyOns_append]; omega

theorem noteOn_keyOns (s : St) {c : Nat} (hc : c < 6) : keyOns s.out c < keyOns (step s (.noteOn c)).out c := by
  have k : (0 = 0 ∧ 0x28 = 0x28 ∧ (0xF0 + keyOnOffRegOffset c) % 256 % 8 = [0, 1, 2, 4, 5, 6].getD c 8 ∧
      (0xF0 + keyOnOffRegOffset c) % 256 / 16 ≠ 0) := by
    match c, hc with
    | 0, _ | 1, _ | 2, _ | 3, _ | 4, _ | 5, _ => decide
  simp only [step, noteOn]
  cases h1 : s.dacEnable <;> cases h2 : s.busTaken <;>
    simp only [writeRegSafe, releaseZ80Bus, emit, h1, h2, if_true, Bool.true_eq_false, if_false, keyOns] <;>
    rw [if_pos ⟨trivial, trivial, k.2.2⟩] <;> omega

end Mdmi.Synth

namespace Mdmi.Fm
open Mdmi.Synth (Wrote keyOns)

private theorem play_keyOns (env : Env) {s : St} {c : Nat} (hc : c < 6) (p v : Nat) (x : Int) (P : St → St)
    (hP : keyOns s.synth.out c ≤ keyOns (P s).synth.out c) :
    keyOns s.synth.out c < keyOns
      (let s := P s
       let s := { s with ch := upd s.ch c { s.ch c with velocity := v } }
       let s := call s (.volume c (effectiveVolume (s.ch c)))
       let s := { s with ch := upd s.ch c { s.ch c with pitch := p, cents := x } }
       let s := setSynthPitch env s c
       call s (.noteOn c)).synth.out c := by
  refine Nat.lt_of_le_of_lt hP ?_
  generalize P s = s
  simp only
  refine Nat.lt_of_le_of_lt ?_ (Synth.noteOn_keyOns _ hc)
  refine Nat.le_trans ?_ ((call_wrote _ rfl hc).keyOns c)
  exact (call_wrote ({ s with ch := upd s.ch c { s.ch c with velocity := v } } : St) rfl hc).keyOns c

/-- Each call keeps the velocity of a channel or keys it on. -/
theorem step_velocity (env : Env) (s : St) {op : Op} (hl : op.Legal) (h1 : op ≠ .reset) (h2 : ∀ p, op ≠ .synth (.init p)) {i : Nat}
    (hi : i < 6) : keyOns s.synth.out i ≤ keyOns (step env s op).synth.out i ∧
      (((step env s op).ch i).velocity = (s.ch i).velocity ∨ keyOns s.synth.out i < keyOns (step env s op).synth.out i) := by
  refine ⟨(step_wrote env s hl h1 h2).keyOns i, ?_⟩
  cases op with
  | reset => exact absurd rfl h1
  | noteOn c p x v =>
    have hc := hl.1
    simp only [step, noteOn]
    split
    · exact .inl rfl
    simp only [guardCh, hc, if_true]
    by_cases e : i = c
    · subst e
      split
      · split
        · exact .inl rfl
        · exact .inr (play_keyOns env (s := s) hc _ v x (fun s => call s _) ((call_wrote s rfl hc).keyOns i))
      · exact .inr (play_keyOns env (s := s) hc p v x (fun s => s) (Nat.le_refl _))
    · left
      split
      · split
        · rfl
        · simp only [call, setSynthPitch]; rw [Psg.upd_other _ _ _ _ e, Psg.upd_other _ _ _ _ e]
      · simp only [call, setSynthPitch]; rw [Psg.upd_other _ _ _ _ e, Psg.upd_other _ _ _ _ e]
  | noteOff c | allNotesOff c => exact .inl rfl
  | volume c v =>
    left
    simp only [step, channelVolume, guardCh]
    split
    · simp only [call, upd]; split
      · rename_i e; rw [e]
      · rfl
    · rfl
  | program c p =>
    left
    simp only [step, program]
    repeat' split
    all_goals rfl
  | percussive c v =>
    left
    simp only [step, percussive, guardCh]
    split
    · simp only [upd]; split
      · rename_i e; rw [e]
      · rfl
    · rfl
  | pan c v =>
    left
    simp only [step, pan, guardCh]
    repeat' split
    all_goals first | rfl | (simp only [call, upd]; split <;> first | rfl | (rename_i e; rw [e]))
  | pitch c p x =>
    left
    simp only [step, pitch, guardCh]
    repeat' split
    all_goals first | rfl | (simp only [call, setSynthPitch, upd]; split <;> first | rfl | (rename_i e; rw [e]))
  | store n p => left; simp only [step, storePreset]; split <;> first | (rw [(sramSave_ch ..).1]) | rfl
  | clear n =>
    left
    simp only [step, clearPreset, sramClear]
    repeat' split
    all_goals first | rfl | (rw [(sramDisable_ch ..).1]; rfl)
  | storeFrom c n =>
    left
    simp only [step, storePresetFromChannel, storePreset, guardCh]
    repeat' split
    all_goals first | rfl | (rw [(sramSave_ch ..).1])
  | smNoteOn o p x v =>
    left
    simp only [step, smNoteOn, smPitch]; split <;> rfl
  | smPitch o p x =>
    left
    simp only [step, smPitch]; split <;> rfl
  | smReset => exact .inl rfl
  | dacNoteOn p =>
    left
    simp only [step, dacNoteOn]; repeat' split
    all_goals rfl
  | dacNoteOff => exact .inl rfl
  | synth o => exact .inl rfl

end Mdmi.Fm

namespace Mdmi.Midi
open Mdmi.Synth (keyOns)

variable {env : Env} {s : St}

theorem FmBy.velocity {P : Fm.Op → Prop} {f g : Fm.St} (a : FmBy env P f g) (h : ∀ o, P o → o ≠ .reset ∧ ∀ p, o ≠ .synth (.init p))
    {i : Nat} (hi : i < 6) : keyOns f.synth.out i ≤ keyOns g.synth.out i ∧
      ((g.ch i).velocity = (f.ch i).velocity ∨ keyOns f.synth.out i < keyOns g.synth.out i) := by
  obtain ⟨l, hl, rfl⟩ := a
  induction l generalizing f with
  | nil => exact ⟨Nat.le_refl _, .inl rfl⟩
  | cons o l ih =>
    have k := hl o (by simp)
    obtain ⟨a1, a2⟩ := Fm.step_velocity env.fm f k.2 (h o k.1).1 (h o k.1).2 hi
    obtain ⟨b1, b2⟩ := ih (f := Fm.step env.fm f o) fun x hx => hl x (by simp [hx])
    have e : Fm.run env.fm f (o :: l) = Fm.run env.fm (Fm.step env.fm f o) l := rfl
    rw [e]
    refine ⟨Nat.le_trans a1 b1, ?_⟩
    rcases b2 with b2 | b2
    · rcases a2 with a2 | a2
      · exact .inl (b2.trans a2)
      · exact .inr (Nat.lt_of_lt_of_le a2 b1)
    · exact .inr (Nat.lt_of_le_of_lt a1 b2)

private theorem fmParam_not_init {inv : Bool} {n k v : Nat} {p : Synth.FmPreset} : fmParam inv n k v ≠ some (.init p) := by
  unfold fmParam
  repeat' split
  all_goals simp

theorem makes_quiet {op : Op} (h : op ≠ .reset) {o : Fm.Op} (k : op.makes o) : o ≠ .reset ∧ ∀ p, o ≠ .synth (.init p) := by
  refine ⟨?_, ?_⟩
  · rintro rfl; exact h k
  · rintro p rfl
    rcases k with ⟨p', r, d, e, -⟩ | ⟨c, n, v, -, k⟩
    · cases e
    · rcases k with ⟨-, e, k⟩ | ⟨-, k⟩ | ⟨inv, n', k⟩
      · cases k
      · cases k
      · exact fmParam_not_init k

/-- In every history the velocity of an FM channel stays the same until the channel is keyed on again. -/
theorem run_velocity (he : env.Ok) {tame : Bool} {i : Nat} (hi : i < 6) (ops : List Op) : ∀ s : St, Ok env tame s →
    (∀ op ∈ ops, op.Wf ∧ op ≠ .reset ∧ (tame = false → ¬op.enablesDac) ∧ (tame = true → ¬op.detunes)) →
    keyOns s.fm.synth.out i ≤ keyOns (run env s ops).fm.synth.out i ∧
      (((run env s ops).fm.ch i).velocity = (s.fm.ch i).velocity ∨
        keyOns s.fm.synth.out i < keyOns (run env s ops).fm.synth.out i) := by
  induction ops with
  | nil => intro s _ _; exact ⟨Nat.le_refl _, .inl rfl⟩
  | cons op ops ih =>
    intro s ok h
    obtain ⟨h1, h2, h3, h4⟩ := h op (by simp)
    obtain ⟨a1, a2⟩ := (step_fmBy he ok h1 h3 h4).velocity (fun o => makes_quiet h2) hi
    obtain ⟨b1, b2⟩ := ih (step env s op) (step_ok he ok h1 h3 h4) fun o ho => h o (by simp [ho])
    have e : run env s (op :: ops) = run env (step env s op) ops := rfl
    rw [e]
    refine ⟨Nat.le_trans a1 b1, ?_⟩
    rcases b2 with b2 | b2
    · rcases a2 with a2 | a2
      · exact .inl (b2.trans a2)
      · exact .inr (Nat.lt_of_lt_of_le a2 b1)
    · exact .inr (Nat.lt_of_le_of_lt a1 b2)

end Mdmi.Midi
