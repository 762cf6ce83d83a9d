import Verif.Proofs.MidiKey
/-!
# Which calls change the velocity a driver remembers
-/
namespace Mdmi.Fm

/-- Calls that leave the velocity of FM channel `n` as it is. -/
def Op.strikes (n : Nat) : Op → Bool
  | .reset => true
  | .noteOn c _ _ _ => c == n
  | _ => false

private theorem disable_ch (s : St) : (sramDisable s).ch = s.ch := by unfold sramDisable; split <;> rfl

private theorem save_ch (env : Env) (s : St) (n : Nat) (p : Synth.FmPreset) : (sramSave env s n p).ch = s.ch := by
  unfold sramSave; split
  · rfl
  · simp only; rw [disable_ch]; rfl

theorem step_strikes (env : Env) (s : St) {op : Op} {i : Nat} (h : op.strikes i = false) :
    ((step env s op).ch i).velocity = (s.ch i).velocity := by
  cases op with
  | reset => cases h
  | noteOn c p x v =>
    have e : i ≠ c := by simp only [Op.strikes, beq_eq_false_iff_ne, ne_eq] at h; exact fun x => h x.symm
    simp only [step, noteOn]
    split
    · rfl
    simp only [guardCh]
    split
    · split
      · split
        · rfl
        · simp only [call, setSynthPitch]; rw [Psg.upd_other _ _ _ _ e, Psg.upd_other _ _ _ _ e]
      · simp only [call, setSynthPitch]; rw [Psg.upd_other _ _ _ _ e, Psg.upd_other _ _ _ _ e]
    · rfl
  | noteOff c | allNotesOff c => rfl
  | volume c v =>
    simp only [step, channelVolume, guardCh]
    split
    · simp only [call, upd]; split
      · rename_i e; rw [e]
      · rfl
    · rfl
  | program c p =>
    simp only [step, program]
    repeat' split
    all_goals rfl
  | percussive c v =>
    simp only [step, percussive, guardCh]
    split
    · simp only [upd]; split
      · rename_i e; rw [e]
      · rfl
    · rfl
  | pan c v =>
    simp only [step, pan, guardCh]
    repeat' split
    all_goals first | rfl | (simp only [call, upd]; split <;> first | rfl | (rename_i e; rw [e]))
  | pitch c p x =>
    simp only [step, pitch, guardCh]
    repeat' split
    all_goals first | rfl | (simp only [call, setSynthPitch, upd]; split <;> first | rfl | (rename_i e; rw [e]))
  | store n p => simp only [step, storePreset]; split <;> first | (rw [save_ch]) | rfl
  | clear n =>
    simp only [step, clearPreset, sramClear]
    repeat' split
    all_goals first | rfl | (rw [disable_ch]; rfl)
  | storeFrom c n =>
    simp only [step, storePresetFromChannel, storePreset, guardCh]
    repeat' split
    all_goals first | rfl | (rw [save_ch])
  | smNoteOn o p x v => simp only [step, smNoteOn, smPitch]; split <;> rfl
  | smPitch o p x => simp only [step, smPitch]; split <;> rfl
  | smReset => rfl
  | dacNoteOn p =>
    simp only [step, dacNoteOn]; repeat' split
    all_goals rfl
  | dacNoteOff => rfl
  | synth o => rfl

theorem Op.keyless_strikes {op : Op} (h : op.keyless = true) (i : Nat) : op.strikes i = false := by
  cases op <;> first | rfl | cases h

end Mdmi.Fm

namespace Mdmi.Psg

/-- Calls that leave the velocity of PSG channel `n` as it is. -/
def Op.strikes (n : Nat) : Op → Bool
  | .reset => true
  | .noteOn c _ _ _ => c == n
  | _ => false

private theorem tone_vel (n : Nat) (o : Out) (f : Nat) : (applyTone n o f).1.velocity = o.1.velocity := by
  unfold applyTone; split <;> rfl

private theorem att_vel (n : Nat) (o : Out) (a : Nat) : (applyAttenuation n o a).1.velocity = o.1.velocity := by
  unfold applyAttenuation; split <;> rfl

private theorem off_vel (n : Nat) (o : Out) : (noteOffChan n o).1.velocity = o.1.velocity := att_vel ..

private theorem level_vel {env : Env} {buf : Nat → Nat} {n : Nat} {o p : Out} (h : applyLevel env buf n o = some p) :
    p.1.velocity = o.1.velocity := by
  unfold applyLevel at h
  split at h
  · cases h
  split at h
  · cases h
  simp only at h
  split at h
  · cases h
  · injection h with h; rw [← h, att_vel, tone_vel]

theorem envelopeStep_vel {env : Env} {buf : Nat → Nat} {n : Nat} {c : Chan} {p : Out} (h : applyEnvelopeStep env buf n c = some p) :
    p.1.velocity = c.velocity := by
  unfold applyEnvelopeStep at h
  obtain ⟨a, ha, h⟩ := Option.bind_eq_some_iff.1 h
  obtain ⟨b, hb, h⟩ := Option.bind_eq_some_iff.1 h
  have e1 : a.velocity = c.velocity := by
    unfold stepLoopStart at ha
    split at ha
    · cases ha
    · injection ha with ha; rw [← ha]; split <;> rfl
  have e2 : b.velocity = a.velocity := by
    unfold stepLoopEnd at hb
    repeat' split at hb
    all_goals first | cases hb; done | (injection hb with hb; rw [← hb]; repeat' split) <;> rfl
  rw [← e1, ← e2]
  repeat' split at h
  all_goals first
    | cases h; done
    | exact level_vel h
    | (injection h with h; rw [← h, off_vel])

private theorem onChan_vel {s : St} {n : Nat} {f : Chan → Option Out} (i : Nat)
    (h : ∀ p, f (s.ch n) = some p → i = n → p.1.velocity = (s.ch n).velocity) : ((onChan s n f).ch i).velocity = (s.ch i).velocity := by
  unfold onChan
  split
  · split
    · rfl
    · rename_i c evs e
      by_cases k : i = n
      · have := h _ e k
        rw [k]; simpa using this
      · simp only; rw [upd_other _ _ _ _ k]
  · rfl

theorem noteOn_vel {env : Env} {s : St} {n p v : Nat} {x : Int} (hp : 45 ≤ p) (hn : n < 4)
    (hf : (noteOn env s n p x v).fault = false) : ((noteOn env s n p x v).ch n).velocity = v := by
  unfold noteOn at hf ⊢
  rw [if_neg (by omega)] at hf ⊢
  unfold onChan at hf ⊢
  rw [if_pos hn] at hf ⊢
  split at hf
  · cases hf
  · rename_i c evs e
    simp only [upd, if_true]
    unfold noteOnChan at e
    obtain ⟨a, ha, e⟩ := Option.bind_eq_some_iff.1 e
    have : c.velocity = a.velocity := envelopeStep_vel e
    rw [this]
    unfold initEnvelope at ha
    repeat' split at ha
    all_goals first | (injection ha with ha; rw [← ha]) | cases ha

private theorem tick_vel (env : Env) (i : Nat) (l : List Nat) : ∀ s : St,
    ((l.foldl (fun s n => onChan s n (tickChan env s.userBuf n)) s).ch i).velocity = (s.ch i).velocity := by
  induction l with
  | nil => intro s; rfl
  | cons n l ih =>
    intro s
    rw [List.foldl_cons, ih]
    refine onChan_vel i fun p h _ => ?_
    unfold tickChan at h
    split at h
    · obtain ⟨b, -, h⟩ := Option.bind_eq_some_iff.1 h
      rw [envelopeStep_vel h]; split <;> rfl
    · injection h with h; rw [← h]

theorem step_strikes (env : Env) (s : St) {op : Op} {i : Nat} (h : op.strikes i = false) :
    ((step env s op).ch i).velocity = (s.ch i).velocity := by
  have off : ∀ n, ((noteOff s n).ch i).velocity = (s.ch i).velocity := fun n => by
    refine onChan_vel i fun p h _ => ?_
    unfold releaseChan at h
    repeat' split at h
    all_goals (injection h with h; rw [← h])
    exact off_vel ..
  cases op with
  | reset => cases h
  | noteOn n p x v =>
    simp only [step, noteOn]
    split
    · rfl
    · refine onChan_vel i fun q _ e => ?_
      simp [Op.strikes, e] at h
  | noteOff n => exact off n
  | allNotesOff n => exact off n
  | volume n v =>
    refine onChan_vel i fun p h _ => ?_
    unfold volumeChan at h
    simp only at h
    split at h
    · obtain ⟨b, -, h⟩ := Option.bind_eq_some_iff.1 h
      obtain ⟨a, -, h⟩ := Option.bind_eq_some_iff.1 h
      injection h with h; rw [← h, att_vel]
    · injection h with h; rw [← h]
  | program n p => exact onChan_vel i fun p h _ => by injection h with h; rw [← h]
  | pitch n p x =>
    refine onChan_vel i fun p h _ => ?_
    unfold pitchChan at h
    obtain ⟨b, -, h⟩ := Option.bind_eq_some_iff.1 h
    obtain ⟨a, -, h⟩ := Option.bind_eq_some_iff.1 h
    injection h with h; rw [← h, tone_vel]
  | tick => exact tick_vel env i _ s
  | loadEnvelope e => simp only [step, loadEnvelope]; split <;> rfl

end Mdmi.Psg
