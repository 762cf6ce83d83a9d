import Verif.Spec.Sample
import Verif.Proofs.SynthSync
import Verif.Model.MidiFm
/-! # Driver calls that leave samples alone -/
namespace Mdmi.Synth

/-- The sample plays on, and the DAC stays on or off. -/
structure Calm (s t : St) : Prop where
  play : sample t.out = sample s.out
  dac : t.dacEnable = s.dacEnable

theorem Calm.refl (s : St) : Calm s s := ⟨rfl, rfl⟩
theorem Calm.trans {s t u : St} (h : Calm s t) (k : Calm t u) : Calm s u := ⟨k.play.trans h.play, k.dac.trans h.dac⟩

theorem ub_calm (s : St) : Calm s (ub s) := ⟨rfl, rfl⟩

theorem writeRegSafe_calm (s : St) (p r d : Nat) : Calm s (writeRegSafe s p r d) := by
  unfold writeRegSafe
  split
  · exact ⟨rfl, rfl⟩
  · simp only
    split <;> exact ⟨rfl, rfl⟩

theorem writeChannelReg_calm (s : St) (c b d : Nat) : Calm s (writeChannelReg s c b d) := writeRegSafe_calm ..
theorem writeOperatorReg_calm (s : St) (c o b d : Nat) : Calm s (writeOperatorReg s c o b d) := writeRegSafe_calm ..
theorem writeGlobalLfo_calm (s : St) : Calm s (writeGlobalLfo s) := writeRegSafe_calm ..

theorem onCh_calm (s : St) (c : Nat) (f) : Calm s (onCh s c f) := by
  unfold onCh; split <;> exact ⟨rfl, rfl⟩
theorem onOp_calm (s : St) (c o : Nat) (f) : Calm s (onOp s c o f) := by
  unfold onOp; split <;> exact ⟨rfl, rfl⟩
theorem guardCh_calm {s : St} {c : Nat} {k : St → St} (h : Calm s (k s)) : Calm s (guardCh s c k) := by
  unfold guardCh; split
  · exact h
  · exact ⟨rfl, rfl⟩
theorem guardOp_calm {s : St} {c o : Nat} {k : St → St} (h : Calm s (k s)) : Calm s (guardOp s c o k) := by
  unfold guardOp; split
  · exact h
  · exact ⟨rfl, rfl⟩

theorem fold_calm {f : St → Nat → St} (h : ∀ s i, Calm s (f s i)) (l : List Nat) : ∀ s, Calm s (l.foldl f s) := by
  induction l with
  | nil => exact Calm.refl
  | cons a l ih => exact fun s => (h s a).trans (ih _)

theorem writeOctaveAndFrequency_calm (s : St) (c : Nat) : Calm s (writeOctaveAndFrequency s c) :=
  guardCh_calm ((writeChannelReg_calm ..).trans (writeChannelReg_calm ..))
theorem writeAlgorithmAndFeedback_calm (s : St) (c : Nat) : Calm s (writeAlgorithmAndFeedback s c) :=
  guardCh_calm (writeChannelReg_calm ..)
theorem writeStereoAmsFms_calm (s : St) (c : Nat) : Calm s (writeStereoAmsFms s c) := guardCh_calm (writeChannelReg_calm ..)
theorem writeOperatorTotalLevel_calm (s : St) (c o : Nat) : Calm s (writeOperatorTotalLevel s c o) := by
  refine guardOp_calm ?_
  split
  · exact ⟨rfl, rfl⟩
  · exact writeOperatorReg_calm ..
theorem multipleAndDetune_calm (s : St) (c o : Nat) : Calm s (writeOperatorMultipleAndDetune s c o) := by
  unfold writeOperatorMultipleAndDetune
  exact guardOp_calm (writeOperatorReg_calm ..)
theorem rateScalingAndAttackRate_calm (s : St) (c o : Nat) : Calm s (writeOperatorRateScalingAndAttackRate s c o) := by
  unfold writeOperatorRateScalingAndAttackRate
  exact guardOp_calm (writeOperatorReg_calm ..)
theorem amplitudeModulationAndDecayRate_calm (s : St) (c o : Nat) : Calm s (writeOperatorAmplitudeModulationAndDecayRate s c o) := by
  unfold writeOperatorAmplitudeModulationAndDecayRate
  exact guardOp_calm (writeOperatorReg_calm ..)
theorem sustainRate_calm (s : St) (c o : Nat) : Calm s (writeOperatorSustainRate s c o) := by
  unfold writeOperatorSustainRate
  exact guardOp_calm (writeOperatorReg_calm ..)
theorem releaseRateAndSustainLevel_calm (s : St) (c o : Nat) : Calm s (writeOperatorReleaseRateAndSustainLevel s c o) := by
  unfold writeOperatorReleaseRateAndSustainLevel
  exact guardOp_calm (writeOperatorReg_calm ..)
theorem ssgEg_calm (s : St) (c o : Nat) : Calm s (writeOperatorSsgEg s c o) := by
  unfold writeOperatorSsgEg
  exact guardOp_calm (writeOperatorReg_calm ..)

theorem updateOperator_calm (s : St) (c o : Nat) : Calm s (updateOperator s c o) := by
  unfold updateOperator
  refine Calm.trans ?_ (ssgEg_calm ..)
  refine Calm.trans ?_ (writeOperatorTotalLevel_calm ..)
  refine Calm.trans ?_ (releaseRateAndSustainLevel_calm ..)
  refine Calm.trans ?_ (sustainRate_calm ..)
  refine Calm.trans ?_ (amplitudeModulationAndDecayRate_calm ..)
  refine Calm.trans ?_ (rateScalingAndAttackRate_calm ..)
  exact multipleAndDetune_calm ..

theorem updateChannel_calm (s : St) (c : Nat) : Calm s (updateChannel s c) := by
  unfold updateChannel
  refine Calm.trans ?_ (fold_calm (fun s o => updateOperator_calm s c o) _ _)
  exact (writeAlgorithmAndFeedback_calm ..).trans (writeStereoAmsFms_calm ..)

/-- Calls that switch the DAC. -/
def Op.switchesDac : Op → Prop
  | .init _ | .enableDac _ => True
  | _ => False

theorem step_calm (s : St) {op : Op} (h : ¬op.switchesDac) : Calm s (step s op) := by
  cases op <;> simp only [step]
  case init => exact absurd trivial h
  case enableDac => exact absurd trivial h
  case noteOn => exact writeRegSafe_calm ..
  case noteOff => exact writeRegSafe_calm ..
  case directWrite => exact writeRegSafe_calm ..
  case pitch => unfold pitch; exact (onCh_calm ..).trans (writeOctaveAndFrequency_calm ..)
  case volume c x =>
    unfold volume
    refine guardCh_calm ?_
    split
    · exact Calm.refl s
    · exact Calm.trans (t := { s with vol := upd s.vol c x }) ⟨rfl, rfl⟩
        (fold_calm (fun s o => writeOperatorTotalLevel_calm s c o) _ _)
  case stereo => unfold stereo; exact (onCh_calm ..).trans (writeStereoAmsFms_calm ..)
  case ams => unfold ams; exact (onCh_calm ..).trans (writeStereoAmsFms_calm ..)
  case fms => unfold fms; exact (onCh_calm ..).trans (writeStereoAmsFms_calm ..)
  case algorithm => unfold algorithm; exact (onCh_calm ..).trans (writeAlgorithmAndFeedback_calm ..)
  case feedback => unfold feedback; exact (onCh_calm ..).trans (writeAlgorithmAndFeedback_calm ..)
  case totalLevel =>
    unfold operatorTotalLevel
    refine guardOp_calm ?_
    split
    · exact Calm.refl s
    · exact (onOp_calm ..).trans (writeOperatorTotalLevel_calm ..)
  case multiple => unfold operatorMultiple; exact (onOp_calm ..).trans (multipleAndDetune_calm ..)
  case detune => unfold operatorDetune; exact (onOp_calm ..).trans (multipleAndDetune_calm ..)
  case rateScaling => unfold operatorRateScaling; exact (onOp_calm ..).trans (rateScalingAndAttackRate_calm ..)
  case attackRate => unfold operatorAttackRate; exact (onOp_calm ..).trans (rateScalingAndAttackRate_calm ..)
  case sustainRate => unfold operatorSustainRate; exact (onOp_calm ..).trans (sustainRate_calm ..)
  case releaseRate => unfold operatorReleaseRate; exact (onOp_calm ..).trans (releaseRateAndSustainLevel_calm ..)
  case ssgEg => unfold operatorSsgEg; exact (onOp_calm ..).trans (ssgEg_calm ..)
  case sustainLevel => unfold operatorSustainLevel; exact (onOp_calm ..).trans (releaseRateAndSustainLevel_calm ..)
  case decayRate => unfold operatorDecayRate; exact (onOp_calm ..).trans (amplitudeModulationAndDecayRate_calm ..)
  case am => unfold operatorAm; exact (onOp_calm ..).trans (amplitudeModulationAndDecayRate_calm ..)
  case enableLfo x =>
    unfold enableLfo; exact Calm.trans (t := { s with lfoEnable := x % 2 }) ⟨rfl, rfl⟩ (writeGlobalLfo_calm ..)
  case lfoFrequency x =>
    unfold globalLfoFrequency; exact Calm.trans (t := { s with lfoFrequency := x % 8 }) ⟨rfl, rfl⟩ (writeGlobalLfo_calm ..)
  case specialMode b =>
    unfold setSpecialMode writeSpecialModeReg
    exact Calm.trans (t := { s with specialMode := b }) ⟨rfl, rfl⟩ (writeRegSafe_calm ..)
  case preset => unfold preset; exact guardCh_calm ((onCh_calm ..).trans (updateChannel_calm ..))
  case specialModePitch => unfold specialModePitch; exact (writeRegSafe_calm ..).trans (writeRegSafe_calm ..)
  case specialModeVolume =>
    unfold specialModeVolume
    refine guardOp_calm ?_
    split
    · exact Calm.refl s
    · split
      · exact ⟨rfl, rfl⟩
      · split
        · exact ⟨rfl, rfl⟩
        · exact writeOperatorReg_calm ..

/-- Switching the DAC off ends the sample; switching it on when it is on already does not. -/
theorem enableDac_sample (s : St) (b : Bool) : (enableDac s b).dacEnable = b ∧
    sample (enableDac s b).out = if b = true ∧ s.dacEnable = true then sample s.out else none := by
  unfold enableDac writeDacReg
  simp only
  have k := writeRegSafe_calm
  constructor
  · rw [(k ..).dac]
  · rw [(k ..).play]
    cases b <;> cases s.dacEnable <;> rfl

theorem init_sample (s : St) (p : FmPreset) : (init s p).dacEnable = false ∧ sample (init s p).out = none := by
  unfold init
  simp only
  have k1 := writeGlobalLfo_calm ((List.range 6).foldl (initChannel p) (writeSpecialModeReg (enableDac (initGlobal s) false)))
  have k0 : ∀ s c, Calm s (initChannel p s c) := fun s c => by
    unfold initChannel noteOff
    refine Calm.trans ?_ (updateChannel_calm ..)
    refine Calm.trans ?_ (onCh_calm ..)
    refine Calm.trans ?_ (writeRegSafe_calm ..)
    exact ⟨rfl, rfl⟩
  have k2 := fold_calm k0 (List.range 6) (writeSpecialModeReg (enableDac (initGlobal s) false))
  have k3 : Calm (enableDac (initGlobal s) false) (writeSpecialModeReg (enableDac (initGlobal s) false)) := writeRegSafe_calm ..
  obtain ⟨e1, e2⟩ := enableDac_sample (initGlobal s) false
  have k := (k3.trans k2).trans k1
  exact ⟨k.dac.trans e1, k.play.trans (by rw [e2]; simp)⟩

end Mdmi.Synth

namespace Mdmi.Fm
open Mdmi.Synth (Calm sample)

/-- Calls that switch the DAC or start or stop samples. -/
def Op.samples : Op → Prop
  | .reset | .dacNoteOn _ | .dacNoteOff => True
  | .synth o => o.switchesDac
  | _ => False

theorem guard_calm {s : St} {c : Nat} {k : St → St} (h : Calm s.synth (k s).synth) : Calm s.synth (guardCh s c k).synth := by
  unfold guardCh; split
  · exact h
  · exact ⟨rfl, rfl⟩

theorem sramDisable_calm {a : Synth.St} {s : St} (h : Calm a s.synth) : Calm a (sramDisable s).synth := by
  unfold sramDisable; split
  · exact ⟨h.play, h.dac⟩
  · exact h

theorem sramSave_calm {a : Synth.St} (env : Env) {s : St} (n : Nat) (p) (h : Calm a s.synth) :
    Calm a (sramSave env s n p).synth := by
  unfold sramSave; split
  · exact h
  · exact sramDisable_calm ⟨h.play, h.dac⟩

theorem sramClear_calm {a : Synth.St} (env : Env) {s : St} (n : Nat) (h : Calm a s.synth) :
    Calm a (sramClear env s n).synth := by
  unfold sramClear; split
  · exact h
  · exact sramDisable_calm ⟨h.play, h.dac⟩

theorem step_calm (env : Env) (s : St) {op : Op} (h : ¬op.samples) : Calm s.synth (step env s op).synth := by
  have cl : ∀ {t : St} {o : Synth.Op}, Calm s.synth t.synth → ¬o.switchesDac → Calm s.synth (call t o).synth :=
    fun {t} _ k ho => k.trans (Synth.step_calm t.synth ho)
  have r := Calm.refl s.synth
  cases op with
  | reset | dacNoteOn | dacNoteOff => exact absurd trivial h
  | noteOn c p x v =>
    simp only [step, noteOn]
    split
    · exact r
    · refine guard_calm ?_
      split
      · split
        · exact ⟨rfl, rfl⟩
        · simp only [setSynthPitch, call]
          refine Calm.trans ?_ (Synth.step_calm _ (by exact id))
          refine Calm.trans ?_ (Synth.step_calm _ (by exact id))
          refine Calm.trans ?_ (Synth.step_calm _ (by exact id))
          exact Synth.step_calm _ (by exact id)
      · simp only [setSynthPitch, call]
        refine Calm.trans ?_ (Synth.step_calm _ (by exact id))
        refine Calm.trans ?_ (Synth.step_calm _ (by exact id))
        exact Synth.step_calm _ (by exact id)
  | noteOff c => exact cl r (by exact id)
  | allNotesOff c => exact cl r (by exact id)
  | volume c v => exact guard_calm (cl r (by exact id))
  | program c n =>
    simp only [step, program]
    split
    · split
      · exact cl r (by exact id)
      · split
        · exact cl r (by exact id)
        · exact ⟨rfl, rfl⟩
    · exact ⟨rfl, rfl⟩
  | percussive c v => exact guard_calm r
  | pan c x =>
    refine guard_calm ?_
    dsimp only
    split
    · exact cl r (by exact id)
    · split <;> exact cl r (by exact id)
  | pitch c p x => exact guard_calm (cl r (by exact id))
  | smNoteOn o p x v =>
    simp only [step, smNoteOn, smPitch]; split
    · exact cl (cl r (by exact id)) (by exact id)
    · exact cl (t := ub s) ⟨rfl, rfl⟩ (by exact id)
  | smPitch o p x =>
    simp only [step, smPitch]; split
    · exact cl r (by exact id)
    · exact ⟨rfl, rfl⟩
  | smReset => exact r
  | store n p =>
    simp only [step, storePreset]; split
    · exact sramSave_calm _ _ _ r
    · exact ⟨rfl, rfl⟩
  | clear n =>
    simp only [step, clearPreset]; split
    · exact sramClear_calm _ _ r
    · exact ⟨rfl, rfl⟩
  | storeFrom c n =>
    refine guard_calm ?_
    simp only [storePreset]; split
    · exact sramSave_calm _ _ _ r
    · exact ⟨rfl, rfl⟩
  | synth o => exact cl r h

theorem reset_sample {env : Env} (h : env.presets ≠ []) (s : St) : (reset env s).synth.dacEnable = false ∧
    sample (reset env s).synth.out = none := by
  unfold reset
  cases e : env.presets with
  | nil => exact absurd e h
  | cons p l => simp only [List.getElem?_cons_zero, call, Synth.step]; exact Synth.init_sample _ p

end Mdmi.Fm
