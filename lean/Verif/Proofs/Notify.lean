import Verif.Model.Notify
import Verif.Proofs.SynthReq
import Verif.Proofs.MidiFmRun
/-! What is displayed of the driver changes only with a notification. -/
namespace Mdmi.Synth
open Mdmi.Ui (Note)

/-- Global LFO settings. -/
def St.lfo (s : St) : Nat × Nat := (s.lfoEnable, s.lfoFrequency)

section
variable (s : St) (p r d c op b : Nat)
theorem lfo_of {t : St} (h : Same s t) : t.lfo = s.lfo := by unfold St.lfo; rw [h.lfoEnable, h.lfoFrequency]
@[simp] theorem writeRegSafe_lfo : (writeRegSafe s p r d).lfo = s.lfo := lfo_of _ (write_same ..)
@[simp] theorem writeChannelReg_lfo : (writeChannelReg s c b d).lfo = s.lfo := writeRegSafe_lfo ..
@[simp] theorem writeOperatorReg_lfo : (writeOperatorReg s c op b d).lfo = s.lfo := writeChannelReg_lfo ..
@[simp] theorem ub_lfo : (ub s).lfo = s.lfo := rfl
@[simp] theorem wOctave_lfo : (writeOctaveAndFrequency s c).lfo = s.lfo := by
  unfold writeOctaveAndFrequency guardCh; split <;> simp
@[simp] theorem wAlg_lfo : (writeAlgorithmAndFeedback s c).lfo = s.lfo := by
  unfold writeAlgorithmAndFeedback guardCh; split <;> simp
@[simp] theorem wStereo_lfo : (writeStereoAmsFms s c).lfo = s.lfo := by
  unfold writeStereoAmsFms guardCh; split <;> simp
@[simp] theorem wMd_lfo : (writeOperatorMultipleAndDetune s c op).lfo = s.lfo := by
  unfold writeOperatorMultipleAndDetune guardOp; split <;> simp
@[simp] theorem wAr_lfo : (writeOperatorRateScalingAndAttackRate s c op).lfo = s.lfo := by
  unfold writeOperatorRateScalingAndAttackRate guardOp; split <;> simp
@[simp] theorem wDr_lfo : (writeOperatorAmplitudeModulationAndDecayRate s c op).lfo = s.lfo := by
  unfold writeOperatorAmplitudeModulationAndDecayRate guardOp; split <;> simp
@[simp] theorem wSr_lfo : (writeOperatorSustainRate s c op).lfo = s.lfo := by
  unfold writeOperatorSustainRate guardOp; split <;> simp
@[simp] theorem wRr_lfo : (writeOperatorReleaseRateAndSustainLevel s c op).lfo = s.lfo := by
  unfold writeOperatorReleaseRateAndSustainLevel guardOp; split <;> simp
@[simp] theorem wSsg_lfo : (writeOperatorSsgEg s c op).lfo = s.lfo := by
  unfold writeOperatorSsgEg guardOp; split <;> simp
@[simp] theorem wTl_lfo : (writeOperatorTotalLevel s c op).lfo = s.lfo := by
  unfold writeOperatorTotalLevel guardOp; split
  · dsimp only; split <;> simp
  · simp
@[simp] theorem updateOperator_lfo : (updateOperator s c op).lfo = s.lfo := by simp [updateOperator]
@[simp] theorem updateChannel_lfo : (updateChannel s c).lfo = s.lfo := by
  simp [updateChannel, show List.range 4 = [0, 1, 2, 3] from rfl]
@[simp] theorem writeDacReg_lfo : (writeDacReg s).lfo = s.lfo := writeRegSafe_lfo ..
@[simp] theorem writeSpecialModeReg_lfo : (writeSpecialModeReg s).lfo = s.lfo := writeRegSafe_lfo ..
@[simp] theorem enableDac_lfo (e : Bool) : (enableDac s e).lfo = s.lfo := by
  unfold enableDac; simp only [writeDacReg_lfo]; split
  · rfl
  · split <;> rfl
@[simp] theorem specialModeVolume_lfo (x : Nat) : (specialModeVolume s op x).lfo = s.lfo := by
  unfold specialModeVolume guardOp; split
  · dsimp only; split
    · rfl
    · split
      · rfl
      · split <;> simp
  · rfl
@[simp] theorem onOp_lfo (f : Operator → Operator) : (onOp s c op f).lfo = s.lfo := by
  unfold onOp; split <;> rfl
@[simp] theorem onCh_lfo (f : FmChannel → FmChannel) : (onCh s c f).lfo = s.lfo := by
  unfold onCh; split <;> rfl
end

/-- What the panel shows of a channel. -/
def St.face (s : St) (c : Nat) : Nat × Nat × Nat × Nat × Nat × Ops4 :=
  ((s.ch c).algorithm, (s.ch c).feedback, (s.ch c).stereo, (s.ch c).ams, (s.ch c).fms, (s.ch c).ops)

theorem face_of {s t : St} (h : t.ch = s.ch) (c : Nat) : t.face c = s.face c := by unfold St.face; rw [h]

theorem onCh_other (s : St) {c k : Nat} (f : FmChannel → FmChannel) (h : k ≠ c) : (onCh s c f).ch k = s.ch k := by
  unfold onCh; split
  · exact Psg.upd_other _ _ _ _ h
  · rfl
theorem onOp_other (s : St) {c op k : Nat} (f : Operator → Operator) (h : k ≠ c) : (onOp s c op f).ch k = s.ch k := by
  unfold onOp; split
  · exact Psg.upd_other _ _ _ _ h
  · rfl

/-- A notification that concerns channel `c`. -/
def Hit (c : Nat) (l : List (Nat × Note)) : Prop := ∃ n ∈ l, n.1 = c ∨ n.2 = .lfo

theorem hit_one (c : Nat) : Hit c [(c, Note.channel)] := ⟨(c, .channel), by simp, .inl rfl⟩

/-- Nothing displayed of channel `c` changed. -/
def Still (c : Nat) (s t : St) : Prop := t.face c = s.face c ∧ t.lfo = s.lfo

theorem step_told (s : St) (o : Op) (h : ∀ p, o ≠ .init p) (c : Nat) : Hit c (notified s o) ∨ Still c s (step s o) := by
  have ch : ∀ (k : Nat) (t : St), notified s o = [(k, .channel)] → (c ≠ k → (step s o).ch c = s.ch c) →
      (step s o).lfo = s.lfo → Hit c (notified s o) ∨ Still c s (step s o) := by
    intro k _ e h1 h2
    by_cases hk : c = k
    · subst hk; rw [e]; exact .inl (hit_one _)
    · exact .inr ⟨by unfold St.face; rw [h1 hk], h2⟩
  cases o with
  | init p => exact absurd rfl (h p)
  | noteOn k => exact .inr ⟨face_of (writeRegSafe_ch ..) c, writeRegSafe_lfo ..⟩
  | noteOff k => exact .inr ⟨face_of (writeRegSafe_ch ..) c, writeRegSafe_lfo ..⟩
  | directWrite p r d => exact .inr ⟨face_of (writeRegSafe_ch ..) c, writeRegSafe_lfo ..⟩
  | pitch k o f =>
    refine .inr ⟨?_, by simp [step, pitch]⟩
    unfold St.face
    by_cases hk : c = k
    · subst hk
      simp only [step, pitch, wOctave_ch]
      unfold onCh
      split
      · simp only [Psg.upd_same]
      · rfl
    · simp only [step, pitch, wOctave_ch]
      rw [onCh_other _ _ hk]
  | volume k x =>
    refine .inr ?_
    simp only [step, volume, guardCh]
    split
    · split
      · exact ⟨rfl, rfl⟩
      · constructor
        · exact face_of (by simp [show List.range 4 = [0, 1, 2, 3] from rfl]) c
        · simp [show List.range 4 = [0, 1, 2, 3] from rfl]; rfl
    · exact ⟨rfl, rfl⟩
  | stereo k x => exact ch k s rfl (fun hk => by simp only [step, stereo, wStereo_ch]; exact onCh_other _ _ hk) (by simp [step, stereo])
  | algorithm k x => exact ch k s rfl (fun hk => by simp only [step, algorithm, wAlg_ch]; exact onCh_other _ _ hk) (by simp [step, algorithm])
  | feedback k x => exact ch k s rfl (fun hk => by simp only [step, feedback, wAlg_ch]; exact onCh_other _ _ hk) (by simp [step, feedback])
  | ams k x => exact ch k s rfl (fun hk => by simp only [step, ams, wStereo_ch]; exact onCh_other _ _ hk) (by simp [step, ams])
  | fms k x => exact ch k s rfl (fun hk => by simp only [step, fms, wStereo_ch]; exact onCh_other _ _ hk) (by simp [step, fms])
  | multiple k op x => exact ch k s rfl (fun hk => by simp only [step, operatorMultiple, wMd_ch]; exact onOp_other _ _ hk) (by simp [step, operatorMultiple])
  | detune k op x => exact ch k s rfl (fun hk => by simp only [step, operatorDetune, wMd_ch]; exact onOp_other _ _ hk) (by simp [step, operatorDetune])
  | rateScaling k op x => exact ch k s rfl (fun hk => by simp only [step, operatorRateScaling, wAr_ch]; exact onOp_other _ _ hk) (by simp [step, operatorRateScaling])
  | attackRate k op x => exact ch k s rfl (fun hk => by simp only [step, operatorAttackRate, wAr_ch]; exact onOp_other _ _ hk) (by simp [step, operatorAttackRate])
  | sustainRate k op x => exact ch k s rfl (fun hk => by simp only [step, operatorSustainRate, wSr_ch]; exact onOp_other _ _ hk) (by simp [step, operatorSustainRate])
  | releaseRate k op x => exact ch k s rfl (fun hk => by simp only [step, operatorReleaseRate, wRr_ch]; exact onOp_other _ _ hk) (by simp [step, operatorReleaseRate])
  | sustainLevel k op x => exact ch k s rfl (fun hk => by simp only [step, operatorSustainLevel, wRr_ch]; exact onOp_other _ _ hk) (by simp [step, operatorSustainLevel])
  | ssgEg k op x => exact ch k s rfl (fun hk => by simp only [step, operatorSsgEg, wSsg_ch]; exact onOp_other _ _ hk) (by simp [step, operatorSsgEg])
  | decayRate k op x => exact ch k s rfl (fun hk => by simp only [step, operatorDecayRate, wDr_ch]; exact onOp_other _ _ hk) (by simp [step, operatorDecayRate])
  | am k op x => exact ch k s rfl (fun hk => by simp only [step, operatorAm, wDr_ch]; exact onOp_other _ _ hk) (by simp [step, operatorAm])
  | totalLevel k op x =>
    by_cases e : ((s.ch k).ops.get op).totalLevel = x
    · refine .inr ?_
      simp only [step, operatorTotalLevel, guardOp]
      split
      · exact ⟨rfl, rfl⟩
      · exact ⟨rfl, rfl⟩
    · refine ch k s (by simp only [notified, if_neg e]) (fun hk => ?_) ?_
      · simp only [step, operatorTotalLevel, guardOp]
        split
        · rw [wTl_ch]; exact onOp_other _ _ hk
        · rfl
      · simp only [step, operatorTotalLevel, guardOp]
        split
        · simp
        · rfl
  | enableLfo x => exact .inl ⟨(0, .lfo), by simp [notified], .inr rfl⟩
  | lfoFrequency x => exact .inl ⟨(0, .lfo), by simp [notified], .inr rfl⟩
  | preset k p =>
    refine ch k s rfl (fun hk => ?_) ?_
    · simp only [step, preset, guardCh]
      split
      · rw [updateChannel_ch]; exact onCh_other _ _ hk
      · rfl
    · simp only [step, preset, guardCh]
      split
      · simp
      · rfl
  | specialMode e => exact .inr ⟨face_of (writeSpecialModeReg_ch _) c, writeSpecialModeReg_lfo _⟩
  | specialModePitch op o f =>
    exact .inr ⟨face_of (by simp [step, specialModePitch]) c, by simp [step, specialModePitch]⟩
  | specialModeVolume op x => exact .inr ⟨face_of (specialModeVolume_ch s op x) c, specialModeVolume_lfo ..⟩
  | enableDac e => exact .inr ⟨face_of (enableDac_ch s e) c, enableDac_lfo ..⟩

theorem Still.refl (c : Nat) (s : St) : Still c s s := ⟨rfl, rfl⟩
theorem Still.trans {c : Nat} {s t u : St} (h : Still c s t) (k : Still c t u) : Still c s u :=
  ⟨k.1.trans h.1, k.2.trans h.2⟩

end Mdmi.Synth

namespace Mdmi.Fm
open Mdmi.Synth (Hit Still FmPreset)

/-- Calls that do not reinitialise the driver. -/
def Op.Keeps : Op → Prop
  | .reset => False
  | .synth o => ∀ p, o ≠ .init p
  | _ => True

theorem sramEnable_still (c : Nat) (s : St) : Still c s.synth (sramEnable s).synth := ⟨rfl, rfl⟩
theorem sramDisable_still (c : Nat) (s : St) : Still c s.synth (sramDisable s).synth := by
  unfold sramDisable; split <;> exact ⟨rfl, rfl⟩
theorem sramSave_still (env : Env) (c : Nat) (s : St) (n : Nat) (p : FmPreset) : Still c s.synth (sramSave env s n p).synth := by
  unfold sramSave
  split
  · exact .refl _ _
  · exact (sramEnable_still c s).trans (sramDisable_still c _)
theorem sramClear_still (env : Env) (c : Nat) (s : St) (n : Nat) : Still c s.synth (sramClear env s n).synth := by
  unfold sramClear
  split
  · exact .refl _ _
  · exact (sramEnable_still c s).trans (sramDisable_still c _)
theorem store_still (env : Env) (c : Nat) (s : St) (n : Nat) (p : FmPreset) : Still c s.synth (storePreset env s n p).synth := by
  unfold storePreset
  split
  · exact sramSave_still env c _ n p
  · exact ⟨rfl, rfl⟩

theorem call_silent {s : St} {o : Synth.Op} (h : ∀ p, o ≠ .init p) (e : Synth.notified s.synth o = []) (c : Nat) :
    Still c s.synth (call s o).synth := by
  rcases Synth.step_told s.synth o h c with ⟨n, hn, _⟩ | k
  · rw [e] at hn; simp at hn
  · exact k

theorem volume_silent (c : Nat) (s : St) (k x : Nat) : Still c s.synth (call s (.volume k x)).synth :=
  call_silent (by simp) rfl c
theorem pitch_silent (c : Nat) (s : St) (k o f : Nat) : Still c s.synth (call s (.pitch k o f)).synth :=
  call_silent (by simp) rfl c
theorem noteOn_silent (c : Nat) (s : St) (k : Nat) : Still c s.synth (call s (.noteOn k)).synth :=
  call_silent (by simp) rfl c

theorem step_told (env : Env) (s : St) (o : Op) (h : o.Keeps) (c : Nat) :
    Hit c (notified env s o) ∨ Still c s.synth (step env s o).synth := by
  have ub' : Still c s.synth (ub s).synth := ⟨rfl, rfl⟩
  cases o with
  | reset => exact h.elim
  | synth o => exact Synth.step_told s.synth o h c
  | noteOff k => exact .inr (call_silent (by simp) rfl c)
  | allNotesOff k => exact .inr (call_silent (by simp) rfl c)
  | smReset => exact .inr ⟨rfl, rfl⟩
  | percussive k b =>
    refine .inr ?_
    simp only [step, percussive, guardCh]
    split <;> exact ⟨rfl, rfl⟩
  | dacNoteOn p =>
    refine .inr ?_
    simp only [step, dacNoteOn]
    split
    · split <;> exact ⟨rfl, rfl⟩
    · exact ub'
  | dacNoteOff => exact .inr ⟨rfl, rfl⟩
  | smPitch o p x =>
    refine .inr ?_
    simp only [step, smPitch]
    split
    · exact call_silent (by simp) rfl c
    · exact ub'
  | smNoteOn o p x v =>
    refine .inr ?_
    simp only [step, smNoteOn]
    refine Still.trans ?_ (call_silent (by simp) rfl c)
    unfold smPitch
    split
    · exact call_silent (by simp) rfl c
    · exact ub'
  | store n p => exact .inr (store_still env c s n p)
  | clear n =>
    refine .inr ?_
    simp only [step, clearPreset]
    split
    · exact sramClear_still env c _ n
    · exact ub'
  | storeFrom k n =>
    refine .inr ?_
    simp only [step, storePresetFromChannel, guardCh]
    split
    · exact store_still env c s n _
    · exact ub'
  | volume k v =>
    refine .inr ?_
    simp only [step, channelVolume, guardCh]
    split
    · exact call_silent (by simp) rfl c
    · exact ub'
  | pitch k p x =>
    refine .inr ?_
    simp only [step, pitch, guardCh]
    split
    · exact call_silent (by simp) rfl c
    · exact ub'
  | pan k x =>
    by_cases hk : c = k
    · subst hk
      simp only [notified, step, pan, guardCh]
      split
      · exact .inl (Synth.hit_one c)
      · exact .inr ub'
    · refine .inr ?_
      have st : ∀ (t : St) v, t.synth = s.synth → Still c s.synth (call t (.stereo k v)).synth := by
        intro t v e
        rcases Synth.step_told t.synth (.stereo k v) (by simp) c with ⟨n, hn, h⟩ | q
        · simp only [Synth.notified, List.mem_singleton] at hn
          subst hn
          rcases h with h | h
          · exact absurd h.symm hk
          · cases h
        · rw [e] at q; unfold call; rw [e]; exact q
      simp only [step, pan, guardCh]
      split
      · split
        · exact st _ _ rfl
        · split
          · exact st _ _ rfl
          · exact st _ _ rfl
      · exact ub'
  | program k p =>
    have pr : ∀ (q : FmPreset), notified env s (.program k p) = [(k, .channel)] →
        Hit c (notified env s (.program k p)) ∨ Still c s.synth (call s (.preset k q)).synth := by
      intro q e
      rw [e]
      exact Synth.step_told s.synth (.preset k q) (by simp) c
    simp only [step, program]
    split
    · rename_i hp
      split
      · rename_i q hq
        exact pr q (by simp [notified, hp, hq])
      · rename_i hq
        split
        · rename_i q hq'
          exact pr q (by simp [notified, hp, hq'])
        · exact .inr ub'
    · exact .inr ub'
  | noteOn k p x v =>
    simp only [step, noteOn]
    split
    · exact .inr (.refl _ _)
    · rename_i hp
      unfold guardCh
      split
      · simp only
        split
        · rename_i hpc
          split
          · exact .inr ub'
          · rename_i pp hpp
            have e : notified env s (.noteOn k p x v) = [(k, .channel)] := by
              simp [notified, hp, hpc, hpp]
            rw [e]
            refine (Synth.step_told s.synth (.preset k pp.preset) (by simp) c).imp id fun st => ?_
            exact ((st.trans (volume_silent c _ k _)).trans (pitch_silent c _ k _ _)).trans (noteOn_silent c _ k)
        · exact .inr (((volume_silent c { s with ch := upd s.ch k { s.ch k with velocity := v } } k _).trans
            (pitch_silent c _ k _ _)).trans (noteOn_silent c _ k))
      · exact .inr ub'

/-- Either nothing displayed of a channel changed, or a notification told of it. -/
theorem told_or_still (env : Env) (c : Nat) (l : List Op) (h : ∀ o ∈ l, o.Keeps) : ∀ s,
    Hit c (told env s l) ∨ Still c s.synth (run env s l).synth := by
  induction l with
  | nil => exact fun s => .inr (.refl _ _)
  | cons o l ih =>
    intro s
    have more : ∀ {a b : List (Nat × Ui.Note)}, Hit c a ∨ Hit c b → Hit c (a ++ b) := by
      rintro a b (⟨n, hn, h⟩ | ⟨n, hn, h⟩)
      · exact ⟨n, by simp [hn], h⟩
      · exact ⟨n, by simp [hn], h⟩
    rcases step_told env s o (h o (by simp)) c with a | a
    · exact .inl (more (.inl a))
    · rcases ih (fun o ho => h o (by simp [ho])) (step env s o) with b | b
      · exact .inl (more (.inr b))
      · exact .inr (a.trans b)

end Mdmi.Fm

namespace Mdmi.Midi

/-- The calls a message other than a system reset makes keep the driver's state. -/
theorem makes_keeps {op : Op} {o : Fm.Op} (hr : op ≠ .reset) (h : op.makes o) : o.Keeps := by
  cases o with
  | reset => exact absurd h hr
  | synth q =>
    intro p e
    subst e
    rcases h with ⟨_, _, _, e, _⟩ | ⟨c, k, v, _, h⟩
    · cases e
    · rcases h with ⟨_, _, e⟩ | ⟨_, e⟩ | ⟨inv, n, e⟩
      · cases e
      · cases e
      · unfold fmParam at e
        repeat' split at e
        all_goals simp at e
  | _ => trivial

end Mdmi.Midi
