import Verif.Proofs.SynthTrace
/-! The driver's parameters are what the calls asked for. -/
namespace Mdmi.Synth

section
variable (s : St) (p r d c op b : Nat)

@[simp] theorem writeRegSafe_ch : (writeRegSafe s p r d).ch = s.ch := (write_same ..).ch
@[simp] theorem writeRegSafe_vol : (writeRegSafe s p r d).vol = s.vol := (write_same ..).vol
@[simp] theorem writeChannelReg_ch : (writeChannelReg s c b d).ch = s.ch := writeRegSafe_ch ..
@[simp] theorem writeChannelReg_vol : (writeChannelReg s c b d).vol = s.vol := writeRegSafe_vol ..
@[simp] theorem writeOperatorReg_ch : (writeOperatorReg s c op b d).ch = s.ch := writeChannelReg_ch ..
@[simp] theorem writeOperatorReg_vol : (writeOperatorReg s c op b d).vol = s.vol := writeChannelReg_vol ..
@[simp] theorem ub_ch : (ub s).ch = s.ch := rfl
@[simp] theorem ub_vol : (ub s).vol = s.vol := rfl

@[simp] theorem wOctave_ch : (writeOctaveAndFrequency s c).ch = s.ch := by
  unfold writeOctaveAndFrequency guardCh; split <;> simp
@[simp] theorem wOctave_vol : (writeOctaveAndFrequency s c).vol = s.vol := by
  unfold writeOctaveAndFrequency guardCh; split <;> simp
@[simp] theorem wAlg_ch : (writeAlgorithmAndFeedback s c).ch = s.ch := by
  unfold writeAlgorithmAndFeedback guardCh; split <;> simp
@[simp] theorem wAlg_vol : (writeAlgorithmAndFeedback s c).vol = s.vol := by
  unfold writeAlgorithmAndFeedback guardCh; split <;> simp
@[simp] theorem wStereo_ch : (writeStereoAmsFms s c).ch = s.ch := by
  unfold writeStereoAmsFms guardCh; split <;> simp
@[simp] theorem wStereo_vol : (writeStereoAmsFms s c).vol = s.vol := by
  unfold writeStereoAmsFms guardCh; split <;> simp
@[simp] theorem wMd_ch : (writeOperatorMultipleAndDetune s c op).ch = s.ch := by
  unfold writeOperatorMultipleAndDetune guardOp; split <;> simp
@[simp] theorem wMd_vol : (writeOperatorMultipleAndDetune s c op).vol = s.vol := by
  unfold writeOperatorMultipleAndDetune guardOp; split <;> simp
@[simp] theorem wAr_ch : (writeOperatorRateScalingAndAttackRate s c op).ch = s.ch := by
  unfold writeOperatorRateScalingAndAttackRate guardOp; split <;> simp
@[simp] theorem wAr_vol : (writeOperatorRateScalingAndAttackRate s c op).vol = s.vol := by
  unfold writeOperatorRateScalingAndAttackRate guardOp; split <;> simp
@[simp] theorem wDr_ch : (writeOperatorAmplitudeModulationAndDecayRate s c op).ch = s.ch := by
  unfold writeOperatorAmplitudeModulationAndDecayRate guardOp; split <;> simp
@[simp] theorem wDr_vol : (writeOperatorAmplitudeModulationAndDecayRate s c op).vol = s.vol := by
  unfold writeOperatorAmplitudeModulationAndDecayRate guardOp; split <;> simp
@[simp] theorem wSr_ch : (writeOperatorSustainRate s c op).ch = s.ch := by
  unfold writeOperatorSustainRate guardOp; split <;> simp
@[simp] theorem wSr_vol : (writeOperatorSustainRate s c op).vol = s.vol := by
  unfold writeOperatorSustainRate guardOp; split <;> simp
@[simp] theorem wRr_ch : (writeOperatorReleaseRateAndSustainLevel s c op).ch = s.ch := by
  unfold writeOperatorReleaseRateAndSustainLevel guardOp; split <;> simp
@[simp] theorem wRr_vol : (writeOperatorReleaseRateAndSustainLevel s c op).vol = s.vol := by
  unfold writeOperatorReleaseRateAndSustainLevel guardOp; split <;> simp
@[simp] theorem wSsg_ch : (writeOperatorSsgEg s c op).ch = s.ch := by
  unfold writeOperatorSsgEg guardOp; split <;> simp
@[simp] theorem wSsg_vol : (writeOperatorSsgEg s c op).vol = s.vol := by
  unfold writeOperatorSsgEg guardOp; split <;> simp
@[simp] theorem wTl_ch : (writeOperatorTotalLevel s c op).ch = s.ch := by
  unfold writeOperatorTotalLevel guardOp; split
  · dsimp only; split <;> simp
  · simp
@[simp] theorem wTl_vol : (writeOperatorTotalLevel s c op).vol = s.vol := by
  unfold writeOperatorTotalLevel guardOp; split
  · dsimp only; split <;> simp
  · simp
@[simp] theorem updateOperator_ch : (updateOperator s c op).ch = s.ch := by simp [updateOperator]
@[simp] theorem updateOperator_vol : (updateOperator s c op).vol = s.vol := by simp [updateOperator]
@[simp] theorem updateChannel_ch : (updateChannel s c).ch = s.ch := by
  simp [updateChannel, show List.range 4 = [0, 1, 2, 3] from rfl]
@[simp] theorem updateChannel_vol : (updateChannel s c).vol = s.vol := by
  simp [updateChannel, show List.range 4 = [0, 1, 2, 3] from rfl]
@[simp] theorem writeGlobalLfo_ch : (writeGlobalLfo s).ch = s.ch := writeRegSafe_ch ..
@[simp] theorem writeGlobalLfo_vol : (writeGlobalLfo s).vol = s.vol := writeRegSafe_vol ..
@[simp] theorem writeDacReg_ch : (writeDacReg s).ch = s.ch := writeRegSafe_ch ..
@[simp] theorem writeDacReg_vol : (writeDacReg s).vol = s.vol := writeRegSafe_vol ..
@[simp] theorem writeSpecialModeReg_ch : (writeSpecialModeReg s).ch = s.ch := writeRegSafe_ch ..
@[simp] theorem writeSpecialModeReg_vol : (writeSpecialModeReg s).vol = s.vol := writeRegSafe_vol ..
@[simp] theorem enableDac_ch (e : Bool) : (enableDac s e).ch = s.ch := by
  unfold enableDac; simp only [writeDacReg_ch]; split
  · rfl
  · split <;> rfl
@[simp] theorem enableDac_vol (e : Bool) : (enableDac s e).vol = s.vol := by
  unfold enableDac; simp only [writeDacReg_vol]; split
  · rfl
  · split <;> rfl
@[simp] theorem specialModeVolume_ch (x : Nat) : (specialModeVolume s op x).ch = s.ch := by
  unfold specialModeVolume guardOp; split
  · dsimp only; split
    · rfl
    · split
      · rfl
      · split <;> simp
  · rfl
@[simp] theorem specialModeVolume_vol (x : Nat) : (specialModeVolume s op x).vol = s.vol := by
  unfold specialModeVolume guardOp; split
  · dsimp only; split
    · rfl
    · split
      · rfl
      · split <;> simp
  · rfl
@[simp] theorem onOp_vol (f : Operator → Operator) : (onOp s c op f).vol = s.vol := by
  unfold onOp; split <;> rfl
@[simp] theorem onCh_vol (f : FmChannel → FmChannel) : (onCh s c f).vol = s.vol := by
  unfold onCh; split <;> rfl
end

theorem onOp_ch {s : St} {c op : Nat} {f : Operator → Operator} (hc : c < 6) (ho : op < 4) (c' : Nat) :
    (onOp s c op f).ch c' = Op.request.oper c' (s.ch c') c op f := by
  simp only [onOp, hc, ho, and_self, if_true, Op.request.oper, upd, @eq_comm _ c' c]
  split
  · rename_i e; subst e
    simp only [Ops4.set, Ops4.get, FmChannel.mk.injEq, true_and]
    match op, ho with
    | 0, _ => rfl
    | 1, _ => rfl
    | 2, _ => rfl
    | 3, _ => rfl
  · rfl

theorem onCh_ch {s : St} {c : Nat} {f : FmChannel → FmChannel} (hc : c < 6) (c' : Nat) :
    (onCh s c f).ch c' = if c = c' then f (s.ch c') else s.ch c' := by
  simp only [onCh, hc, if_true, upd, @eq_comm _ c' c]
  split
  · rename_i e; rw [e]
  · rfl

theorem step_vol_out (s : St) (c : Nat) :
    ((List.range 4).foldl (fun s op => writeOperatorTotalLevel s c op) s).ch = s.ch ∧
    ((List.range 4).foldl (fun s op => writeOperatorTotalLevel s c op) s).vol = s.vol := by
  simp [show List.range 4 = [0, 1, 2, 3] from rfl]

theorem initChannel_ch (p : FmPreset) (s : St) {k : Nat} (hk : k < 6) (c : Nat) :
    (initChannel p s k).ch c = (if k = c then presetToChannel p else s.ch c) ∧
    (initChannel p s k).vol c = (if c = k then 127 else s.vol c) := by
  constructor
  · simp only [initChannel, updateChannel_ch, onCh_ch hk]
    simp [noteOff]
  · simp [initChannel, noteOff, upd]

theorem init_ch (p : FmPreset) (s : St) {c : Nat} (hc : c < 6) :
    (init s p).ch c = presetToChannel p ∧ (init s p).vol c = 127 := by
  simp only [init, show List.range 6 = [0, 1, 2, 3, 4, 5] from rfl, List.foldl_cons, List.foldl_nil,
    writeGlobalLfo_ch, writeGlobalLfo_vol, initChannel_ch p _ (show 0 < 6 by omega),
    initChannel_ch p _ (show 1 < 6 by omega), initChannel_ch p _ (show 2 < 6 by omega),
    initChannel_ch p _ (show 3 < 6 by omega), initChannel_ch p _ (show 4 < 6 by omega),
    initChannel_ch p _ (show 5 < 6 by omega)]
  constructor
  · grind
  · grind

/-- One call changes the driver's parameters as requested. -/
theorem step_request_ok {s : St} (h : ∀ c < 6, (s.ch c).Ok) {op : Op} (hl : op.Legal) {c' : Nat} (hc' : c' < 6) :
    (step s op).ch c' = op.request c' (s.ch c') ∧ (step s op).vol c' = op.requestVol c' (s.vol c') := by
  obtain ⟨hc, ho, hx⟩ := hl
  cases op with
  | init p =>
    have i := init_ch p s hc'
    simp only [step, i.1, i.2, Op.request, Op.requestVol, presetToChannel, and_self]
  | totalLevel c op x =>
    have h1 := hc c rfl; have h2 := ho op rfl
    simp only [step, operatorTotalLevel, guardOp, h1, h2, and_self, if_true]
    split
    · rename_i e
      have k := (get_ok (h c h1).ops op).totalLevel
      refine ⟨?_, rfl⟩
      simp only [Op.request, Op.request.oper]
      split
      · rename_i e'; subst e'
        rw [e] at k
        have e3 : x % 128 = x := Nat.mod_eq_of_lt k
        rw [e3, ← e]
        match op, h2 with
        | 0, _ => rfl
        | 1, _ => rfl
        | 2, _ => rfl
        | 3, _ => rfl
      · rfl
    · exact ⟨by rw [wTl_ch, onOp_ch h1 h2]; rfl, by simp [Op.requestVol]⟩
  | volume c x =>
    have h1 := hc c rfl
    simp only [step, volume, guardCh, h1, if_true]
    split
    · rename_i e
      refine ⟨rfl, ?_⟩
      simp only [Op.requestVol]; split
      · rename_i e'; rw [← e', e]
      · rfl
    · refine ⟨by rw [(step_vol_out _ c).1]; rfl, ?_⟩
      rw [(step_vol_out _ c).2]
      simp only [upd, Op.requestVol, @eq_comm _ c' c]
  | preset c p =>
    have h1 := hc c rfl
    simp only [step, preset, guardCh, h1, if_true, updateChannel_ch, updateChannel_vol, onCh_ch h1, onCh_vol]
    exact ⟨rfl, rfl⟩
  | specialModeVolume op x => exact ⟨by simp [step, Op.request], by simp [step, Op.requestVol]⟩
  | specialModePitch op o f =>
    exact ⟨by simp [step, specialModePitch, Op.request], by simp [step, specialModePitch, Op.requestVol]⟩
  | noteOn c => exact ⟨by simp [step, noteOn, Op.request], by simp [step, noteOn, Op.requestVol]⟩
  | noteOff c => exact ⟨by simp [step, noteOff, Op.request], by simp [step, noteOff, Op.requestVol]⟩
  | enableLfo x => exact ⟨by simp [step, enableLfo, Op.request], by simp [step, enableLfo, Op.requestVol]⟩
  | lfoFrequency x =>
    exact ⟨by simp [step, globalLfoFrequency, Op.request], by simp [step, globalLfoFrequency, Op.requestVol]⟩
  | specialMode x =>
    exact ⟨by simp [step, setSpecialMode, Op.request], by simp [step, setSpecialMode, Op.requestVol]⟩
  | enableDac x => exact ⟨by simp [step, Op.request], by simp [step, Op.requestVol]⟩
  | directWrite p r d => exact hx.elim
  | pitch c o f =>
    exact ⟨by simp [step, pitch, Op.request, onCh_ch (hc c rfl)], by simp [step, pitch, Op.requestVol]⟩
  | stereo c x =>
    exact ⟨by simp [step, stereo, Op.request, onCh_ch (hc c rfl)], by simp [step, stereo, Op.requestVol]⟩
  | algorithm c x =>
    exact ⟨by simp [step, algorithm, Op.request, onCh_ch (hc c rfl)], by simp [step, algorithm, Op.requestVol]⟩
  | feedback c x =>
    exact ⟨by simp [step, feedback, Op.request, onCh_ch (hc c rfl)], by simp [step, feedback, Op.requestVol]⟩
  | ams c x => exact ⟨by simp [step, ams, Op.request, onCh_ch (hc c rfl)], by simp [step, ams, Op.requestVol]⟩
  | fms c x => exact ⟨by simp [step, fms, Op.request, onCh_ch (hc c rfl)], by simp [step, fms, Op.requestVol]⟩
  | multiple c op x =>
    exact ⟨by simp [step, operatorMultiple, Op.request, onOp_ch (hc c rfl) (ho op rfl)],
      by simp [step, operatorMultiple, Op.requestVol]⟩
  | detune c op x =>
    exact ⟨by simp [step, operatorDetune, Op.request, onOp_ch (hc c rfl) (ho op rfl)],
      by simp [step, operatorDetune, Op.requestVol]⟩
  | rateScaling c op x =>
    exact ⟨by simp [step, operatorRateScaling, Op.request, onOp_ch (hc c rfl) (ho op rfl)],
      by simp [step, operatorRateScaling, Op.requestVol]⟩
  | attackRate c op x =>
    exact ⟨by simp [step, operatorAttackRate, Op.request, onOp_ch (hc c rfl) (ho op rfl)],
      by simp [step, operatorAttackRate, Op.requestVol]⟩
  | sustainRate c op x =>
    exact ⟨by simp [step, operatorSustainRate, Op.request, onOp_ch (hc c rfl) (ho op rfl)],
      by simp [step, operatorSustainRate, Op.requestVol]⟩
  | releaseRate c op x =>
    exact ⟨by simp [step, operatorReleaseRate, Op.request, onOp_ch (hc c rfl) (ho op rfl)],
      by simp [step, operatorReleaseRate, Op.requestVol]⟩
  | ssgEg c op x =>
    exact ⟨by simp [step, operatorSsgEg, Op.request, onOp_ch (hc c rfl) (ho op rfl)],
      by simp [step, operatorSsgEg, Op.requestVol]⟩
  | sustainLevel c op x =>
    exact ⟨by simp [step, operatorSustainLevel, Op.request, onOp_ch (hc c rfl) (ho op rfl)],
      by simp [step, operatorSustainLevel, Op.requestVol]⟩
  | decayRate c op x =>
    exact ⟨by simp [step, operatorDecayRate, Op.request, onOp_ch (hc c rfl) (ho op rfl)],
      by simp [step, operatorDecayRate, Op.requestVol]⟩
  | am c op x =>
    exact ⟨by simp [step, operatorAm, Op.request, onOp_ch (hc c rfl) (ho op rfl)],
      by simp [step, operatorAm, Op.requestVol]⟩

theorem step_request {s : St} (h : Inv s) {op : Op} (hl : op.Legal) {c' : Nat} (hc' : c' < 6) :
    (step s op).ch c' = op.request c' (s.ch c') ∧ (step s op).vol c' = op.requestVol c' (s.vol c') :=
  step_request_ok (fun c hc => (h.ch c hc).ok) hl hc'

theorem run_request {s : St} (h : Inv s) (ops : List Op) (hl : ∀ op ∈ ops, op.Legal) {c : Nat} (hc : c < 6) :
    (run s ops).ch c = ops.foldl (Op.request c) (s.ch c) ∧
    (run s ops).vol c = ops.foldl (Op.requestVol c) (s.vol c) := by
  induction ops generalizing s with
  | nil => exact ⟨rfl, rfl⟩
  | cons op rest ih =>
    have g := step_request h (hl op (by simp)) hc
    simp only [List.foldl_cons, ← g.1, ← g.2]
    exact ih (step_inv h (hl op (by simp))) (fun o ho => hl o (by simp [ho]))

/-- The global parameters: LFO enable, LFO frequency, special mode, DAC. -/
def glob (s : St) : Nat × Nat × Bool × Bool := (s.lfoEnable, s.lfoFrequency, s.specialMode, s.dacEnable)

section
variable (s : St) (p r d c op b : Nat)
@[simp] theorem writeRegSafe_glob : glob (writeRegSafe s p r d) = glob s := by
  have e := write_same s p r d
  simp [glob, e.lfoEnable, e.lfoFrequency, e.specialMode, e.dacEnable]
@[simp] theorem writeChannelReg_glob : glob (writeChannelReg s c b d) = glob s := by
  simp [writeChannelReg, writeOperatorReg, writeGlobalLfo, writeDacReg, writeSpecialModeReg]
@[simp] theorem writeOperatorReg_glob : glob (writeOperatorReg s c op b d) = glob s := by
  simp [writeChannelReg, writeOperatorReg, writeGlobalLfo, writeDacReg, writeSpecialModeReg]
@[simp] theorem ub_glob : glob (ub s) = glob s := rfl
@[simp] theorem wOctave_glob : glob (writeOctaveAndFrequency s c) = glob s := by
  unfold writeOctaveAndFrequency guardCh; split <;> simp
@[simp] theorem wAlg_glob : glob (writeAlgorithmAndFeedback s c) = glob s := by
  unfold writeAlgorithmAndFeedback guardCh; split <;> simp
@[simp] theorem wStereo_glob : glob (writeStereoAmsFms s c) = glob s := by
  unfold writeStereoAmsFms guardCh; split <;> simp
@[simp] theorem wMd_glob : glob (writeOperatorMultipleAndDetune s c op) = glob s := by
  unfold writeOperatorMultipleAndDetune guardOp; split <;> simp
@[simp] theorem wAr_glob : glob (writeOperatorRateScalingAndAttackRate s c op) = glob s := by
  unfold writeOperatorRateScalingAndAttackRate guardOp; split <;> simp
@[simp] theorem wDr_glob : glob (writeOperatorAmplitudeModulationAndDecayRate s c op) = glob s := by
  unfold writeOperatorAmplitudeModulationAndDecayRate guardOp; split <;> simp
@[simp] theorem wSr_glob : glob (writeOperatorSustainRate s c op) = glob s := by
  unfold writeOperatorSustainRate guardOp; split <;> simp
@[simp] theorem wRr_glob : glob (writeOperatorReleaseRateAndSustainLevel s c op) = glob s := by
  unfold writeOperatorReleaseRateAndSustainLevel guardOp; split <;> simp
@[simp] theorem wSsg_glob : glob (writeOperatorSsgEg s c op) = glob s := by
  unfold writeOperatorSsgEg guardOp; split <;> simp
@[simp] theorem wTl_glob : glob (writeOperatorTotalLevel s c op) = glob s := by
  unfold writeOperatorTotalLevel guardOp; split
  · dsimp only; split <;> simp
  · simp
@[simp] theorem updateOperator_glob : glob (updateOperator s c op) = glob s := by simp [updateOperator]
@[simp] theorem updateChannel_glob : glob (updateChannel s c) = glob s := by
  simp [updateChannel, show List.range 4 = [0, 1, 2, 3] from rfl]
@[simp] theorem writeGlobalLfo_glob : glob (writeGlobalLfo s) = glob s := by
  simp [writeChannelReg, writeOperatorReg, writeGlobalLfo, writeDacReg, writeSpecialModeReg]
@[simp] theorem writeDacReg_glob : glob (writeDacReg s) = glob s := by
  simp [writeChannelReg, writeOperatorReg, writeGlobalLfo, writeDacReg, writeSpecialModeReg]
@[simp] theorem writeSpecialModeReg_glob : glob (writeSpecialModeReg s) = glob s := by
  simp [writeChannelReg, writeOperatorReg, writeGlobalLfo, writeDacReg, writeSpecialModeReg]
@[simp] theorem specialModeVolume_glob (x : Nat) : glob (specialModeVolume s op x) = glob s := by
  unfold specialModeVolume guardOp; split
  · dsimp only; split
    · rfl
    · split
      · rfl
      · split <;> simp
  · rfl
@[simp] theorem onOp_glob (f : Operator → Operator) : glob (onOp s c op f) = glob s := by
  unfold onOp; split <;> rfl
@[simp] theorem onCh_glob (f : FmChannel → FmChannel) : glob (onCh s c f) = glob s := by
  unfold onCh; split <;> rfl
end

/-- The globals are as requested. -/
theorem step_glob {s : St} {op : Op} (hl : op.Legal) : glob (step s op) = op.requestGlobal (glob s) := by
  obtain ⟨hc, ho, hx⟩ := hl
  have hfold : ∀ c (t : St), glob ((List.range 4).foldl (fun s op => writeOperatorTotalLevel s c op) t) = glob t := by
    intro c t; simp [show List.range 4 = [0, 1, 2, 3] from rfl]
  have hinit : ∀ p t k, glob (initChannel p t k) = glob t := by
    intro p t k; simp [initChannel, noteOff]; rfl
  cases op with
  | init p =>
    simp only [step, init, writeGlobalLfo_glob, show List.range 6 = [0, 1, 2, 3, 4, 5] from rfl,
      List.foldl_cons, List.foldl_nil, hinit, writeSpecialModeReg_glob]
    simp only [enableDac, writeDacReg_glob]
    rfl
  | volume c x =>
    simp only [step, volume, guardCh]
    split
    · split
      · rfl
      · rw [hfold]; rfl
    · rfl
  | totalLevel c op x =>
    simp only [step, operatorTotalLevel, guardOp]
    split
    · split
      · rfl
      · simp [Op.requestGlobal]
    · rfl
  | preset c p =>
    simp only [step, preset, guardCh]
    split
    · simp [Op.requestGlobal]
    · rfl
  | enableDac b =>
    simp only [step, enableDac, writeDacReg_glob]
    cases b <;> cases h : s.dacEnable <;> simp [Op.requestGlobal, glob, emit]
  | directWrite p r d => exact hx.elim
  | enableLfo x => simp only [step, enableLfo, writeGlobalLfo_glob]; rfl
  | lfoFrequency x => simp only [step, globalLfoFrequency, writeGlobalLfo_glob]; rfl
  | specialMode x => simp only [step, setSpecialMode, writeSpecialModeReg_glob]; rfl
  | specialModeVolume op x => simp [step, Op.requestGlobal]
  | specialModePitch op o f => simp [step, specialModePitch, Op.requestGlobal]
  | noteOn c => simp [step, noteOn, Op.requestGlobal]
  | noteOff c => simp [step, noteOff, Op.requestGlobal]
  | pitch c o f => simp [step, pitch, Op.requestGlobal]
  | stereo c x => simp [step, stereo, Op.requestGlobal]
  | algorithm c x => simp [step, algorithm, Op.requestGlobal]
  | feedback c x => simp [step, feedback, Op.requestGlobal]
  | ams c x => simp [step, ams, Op.requestGlobal]
  | fms c x => simp [step, fms, Op.requestGlobal]
  | multiple c op x => simp [step, operatorMultiple, Op.requestGlobal]
  | detune c op x => simp [step, operatorDetune, Op.requestGlobal]
  | rateScaling c op x => simp [step, operatorRateScaling, Op.requestGlobal]
  | attackRate c op x => simp [step, operatorAttackRate, Op.requestGlobal]
  | sustainRate c op x => simp [step, operatorSustainRate, Op.requestGlobal]
  | releaseRate c op x => simp [step, operatorReleaseRate, Op.requestGlobal]
  | ssgEg c op x => simp [step, operatorSsgEg, Op.requestGlobal]
  | sustainLevel c op x => simp [step, operatorSustainLevel, Op.requestGlobal]
  | decayRate c op x => simp [step, operatorDecayRate, Op.requestGlobal]
  | am c op x => simp [step, operatorAm, Op.requestGlobal]

theorem run_glob {s : St} (ops : List Op) (hl : ∀ op ∈ ops, op.Legal) :
    glob (run s ops) = ops.foldl Op.requestGlobal (glob s) := by
  induction ops generalizing s with
  | nil => rfl
  | cons op rest ih =>
    rw [List.foldl_cons, ← step_glob (hl op (by simp))]
    exact ih (fun o ho => hl o (by simp [ho]))

theorem write_key (s : St) (p r d c : Nat) : keyed (writeRegSafe s p r d).out c =
    if p = 0 ∧ r = 0x28 ∧ d % 8 = [0, 1, 2, 4, 5, 6].getD c 8 then decide (d / 16 ≠ 0) else keyed s.out c := by
  cases h1 : s.dacEnable <;> cases h2 : s.busTaken <;>
    simp [writeRegSafe, releaseZ80Bus, emit, h1, h2, keyed]

theorem keyNum {c c' : Nat} (hc : c < 6) (hc' : c' < 6) :
    (keyOnOffRegOffset c % 8 = [0, 1, 2, 4, 5, 6].getD c' 8 ↔ c = c') ∧ keyOnOffRegOffset c < 8 := by
  have h : ∀ a b : Fin 6, (keyOnOffRegOffset a.val % 8 = [0, 1, 2, 4, 5, 6].getD b.val 8 ↔ a.val = b.val) ∧
      keyOnOffRegOffset a.val < 8 := by decide
  exact h ⟨c, hc⟩ ⟨c', hc'⟩

/-- The 0xA0/0xA4 registers of channel `c` and key-on/off are the only ones kept out. -/
def otherThan (c : Nat) (p r _d : Nat) : Prop :=
  ¬ (p = c / 3 ∧ (r = 0xA0 + c % 3 ∨ r = 0xA4 + c % 3)) ∧ ¬ (p = 0 ∧ r = 0x28)

theorem otherThan_chan {c c' : Nat} (hc : c < 6) (hc' : c' < 6) : ChanP (otherThan c) c' := by
  constructor
  · intro b op d hb ho
    have := @opOffset_lt op
    have : opOffset op % 4 = 0 := by
      match op, ho with
      | 0, _ => rfl
      | 1, _ => rfl
      | 2, _ => rfl
      | 3, _ => rfl
    unfold IsOpBase at hb; unfold otherThan; omega
  · intro b d hb; unfold otherThan; omega

theorem init_chip {s : St} {p : FmPreset} {c : Nat} (hc : c < 6) :
    chReg (init s p).out 0xA0 c = chReg s.out 0xA0 c ∧ chReg (init s p).out 0xA4 c = chReg s.out 0xA4 c ∧
    keyed (init s p).out c = false := by
  have r := init_reach (P := fun p r d => otherThan c p r d ∨ (p = 0 ∧ r = 0x28)) (s := s) (p := p)
    (fun c' hc' => ⟨fun b op d hb ho => .inl ((otherThan_chan hc hc').op b op d hb ho),
      fun b d hb => .inl ((otherThan_chan hc hc').ch b d hb)⟩)
    (fun _ _ => .inr ⟨rfl, rfl⟩) (fun d => .inl (by unfold otherThan; omega))
    (fun d => .inl (by unfold otherThan; omega))
  have e : ∀ r', r' ≠ 0x2B → ymReg (enableDac (initGlobal s) false).out (c / 3) r' = ymReg s.out (c / 3) r' := by
    intro r' hr
    unfold enableDac writeDacReg
    rw [write_reg]
    simp only [show ¬ (0 = c / 3 ∧ 0x2B = r') by omega, if_false]
    simp [emit, initGlobal, ymReg]
  refine ⟨?_, ?_, ?_⟩
  · rw [chReg, r.reg (by unfold otherThan; omega), e _ (by omega)]; rfl
  · rw [chReg, r.reg (by unfold otherThan; omega), e _ (by omega)]; rfl
  · have hi : ∀ t k, k < 6 → keyed (initChannel p t k).out c = if k = c then false else keyed t.out c := by
      intro t k hk
      have q := (Reach.refl (P := otherThan k)).onCh (s := noteOff { t with vol := upd t.vol k 0x7F } k)
        (c := k) (f := fun _ => presetToChannel p) |>.updCh (otherThan_chan hk hk)
      unfold initChannel
      simp only
      rw [q.key (by unfold otherThan; omega), noteOff, write_key]
      have n := keyNum hk hc
      simp only [true_and, n.1]
      split
      · simp; omega
      · rfl
    unfold init writeGlobalLfo
    simp only [write_key, show List.range 6 = [0, 1, 2, 3, 4, 5] from rfl, List.foldl_cons, List.foldl_nil,
      hi _ 0 (by omega), hi _ 1 (by omega), hi _ 2 (by omega), hi _ 3 (by omega), hi _ 4 (by omega),
      hi _ 5 (by omega)]
    simp
    omega

theorem pitch_chip {s : St} {c o f c' : Nat} (hc : c < 6) (hc' : c' < 6) :
    (chipChannel (pitch s c o f).out c').freq =
      if c = c' then (o % 8, f % 2048) else (chipChannel s.out c').freq := by
  simp only [pitch, onCh, hc, if_true, writeOctaveAndFrequency, guardCh, Psg.upd_same]
  have r1 := fun b' (hb : IsChBase b') => @chanWrite_chReg
      { s with ch := upd s.ch c { s.ch c with octave := o % 8, freqNumber := f % 2048 } }
      c 0xA4 (((f % 2048) >>> 8) ||| ((o % 8) <<< 3)) c' b' hc hc' (by simp [IsChBase]) hb
  have r2 := fun b' (hb : IsChBase b') => @chanWrite_chReg
      (writeChannelReg { s with ch := upd s.ch c { s.ch c with octave := o % 8, freqNumber := f % 2048 } }
        c 0xA4 (((f % 2048) >>> 8) ||| ((o % 8) <<< 3)))
      c 0xA0 (f % 2048) c' b' hc hc' (by simp [IsChBase]) hb
  simp only [FmChannel.freq, chipChannel, r2 0xA4 (by simp [IsChBase]), r2 0xA0 (by simp [IsChBase]),
    r1 0xA4 (by simp [IsChBase]), r1 0xA0 (by simp [IsChBase])]
  have e := freq_or (a := f % 2048 / 256) (b := o % 8) (by omega) (by omega)
  rw [Nat.shiftRight_eq_div_pow]
  simp only [show (2:Nat) ^ 8 = 256 from rfl, e]
  by_cases ec : c = c'
  · simp only [ec, if_true, and_true, and_self]
    simp only [Prod.mk.injEq]
    simp
    omega
  · simp [ec]

/-- The chip's frequency and key state after a call. -/
theorem step_chip {s : St} {op : Op} (hl : op.Legal) {c : Nat} (hc : c < 6) :
    (chipChannel (step s op).out c).freq = op.requestFreq c (chipChannel s.out c).freq ∧
    keyed (step s op).out c = op.requestKey c (keyed s.out c) := by
  obtain ⟨h6, ho, hx⟩ := hl
  have frame : ∀ P, Reach P s (step s op) → (∀ p r d, P p r d → otherThan c p r d) →
      (chipChannel (step s op).out c).freq = (chipChannel s.out c).freq ∧
      keyed (step s op).out c = keyed s.out c := by
    intro P r hP
    refine ⟨?_, r.key fun d h => absurd (hP _ _ _ h) (by unfold otherThan; omega)⟩
    simp only [FmChannel.freq, chipChannel, chReg]
    rw [r.reg fun d h => absurd (hP _ _ _ h) (by unfold otherThan; omega),
      r.reg fun d h => absurd (hP _ _ _ h) (by unfold otherThan; omega)]
  have gen : (∀ p, op ≠ .init p) → (∀ b, op ≠ .enableDac b) → (∀ k, op ≠ .noteOn k) → (∀ k, op ≠ .noteOff k) →
      (∀ k o f, op ≠ .pitch k o f) → (∀ p r d, op ≠ .directWrite p r d) →
      (chipChannel (step s op).out c).freq = (chipChannel s.out c).freq ∧
      keyed (step s op).out c = keyed s.out c := by
    intro h1 h2 h3 h4 h5 h7
    refine frame (otherThan c) (step_reach s op h1 h2 (fun k hk => otherThan_chan hc (h6 k hk))
      (fun k o f _ _ e => absurd e (h5 k o f)) ?_ ?_ ?_ (fun p r d e => absurd e (h7 p r d))) (fun _ _ _ h => h)
    · intro k d _ e _; rcases e with e | e
      · exact absurd e (h3 k)
      · exact absurd e (h4 k)
    · intro r d _ _ _ _; unfold otherThan; omega
    · intro r d _ _; unfold otherThan; omega
  cases op with
  | init p =>
    obtain ⟨a, b, k⟩ := init_chip (s := s) (p := p) hc
    refine ⟨?_, k⟩
    simp only [FmChannel.freq, chipChannel, step, a, b, Op.requestFreq]
  | noteOn k =>
    have n := keyNum (h6 k rfl) hc
    constructor
    · simp only [FmChannel.freq, chipChannel, step, noteOn, chReg, write_reg]
      simp only [show ∀ b, ¬ (0 = c / 3 ∧ 0x28 = 0xA0 + b) from fun b => by omega,
        show ∀ b, ¬ (0 = c / 3 ∧ 0x28 = 0xA4 + b) from fun b => by omega, if_false]
      rfl
    · simp only [step, noteOn, write_key, Op.requestKey, true_and]
      have e : (0xF0 + keyOnOffRegOffset k) % 256 = 0xF0 + keyOnOffRegOffset k := by omega
      have e2 : (0xF0 + keyOnOffRegOffset k) % 8 = keyOnOffRegOffset k % 8 := by omega
      rw [e, e2]
      simp only [n.1]
      split
      · simp; omega
      · rfl
  | noteOff k =>
    have n := keyNum (h6 k rfl) hc
    constructor
    · simp only [FmChannel.freq, chipChannel, step, noteOff, chReg, write_reg]
      simp only [show ∀ b, ¬ (0 = c / 3 ∧ 0x28 = 0xA0 + b) from fun b => by omega,
        show ∀ b, ¬ (0 = c / 3 ∧ 0x28 = 0xA4 + b) from fun b => by omega, if_false]
      rfl
    · simp only [step, noteOff, write_key, Op.requestKey, true_and]
      simp only [n.1]
      split
      · simp; omega
      · rfl
  | pitch k o f =>
    refine ⟨pitch_chip (h6 k rfl) hc, ?_⟩
    refine (step_reach (P := fun _ r _ => r ≠ 0x28) s (.pitch k o f) (by simp) (by simp) (fun k' hk => ?_) ?_ ?_ ?_ ?_ ?_).key ?_
    · constructor
      · intro b op d hb _; unfold IsOpBase at hb; omega
      · intro b d hb; omega
    · intro c o f b d _ _ hb; omega
    · simp
    · intro r d _ _ _ _; omega
    · intro r d _ _; omega
    · simp
    · simp
  | enableDac b =>
    have e : ∀ p r, ¬ (0 = p ∧ 0x2B = r) → ymReg (enableDac s b).out p r = ymReg s.out p r := by
      intro p r hr
      unfold enableDac writeDacReg
      rw [write_reg]
      simp only [hr, if_false]
      split
      · simp [emit, ymReg]
      · split <;> simp [emit, ymReg]
    constructor
    · simp only [FmChannel.freq, chipChannel, step, chReg]
      rw [e _ _ (by omega), e _ _ (by omega)]; rfl
    · show keyed (enableDac s b).out c = keyed s.out c
      unfold enableDac writeDacReg
      rw [write_key]
      simp only [show ¬ (0x2B = 0x28) by omega, false_and, and_false, if_false]
      split
      · simp [emit, keyed]
      · split <;> simp [emit, keyed]
  | directWrite p r d => exact hx.elim
  | _ => exact gen (by simp) (by simp) (by simp) (by simp) (by simp) (by simp)

theorem run_chip {s : St} (ops : List Op) (hl : ∀ op ∈ ops, op.Legal) {c : Nat} (hc : c < 6) :
    (chipChannel (run s ops).out c).freq = ops.foldl (Op.requestFreq c) (chipChannel s.out c).freq ∧
    keyed (run s ops).out c = ops.foldl (Op.requestKey c) (keyed s.out c) := by
  induction ops generalizing s with
  | nil => exact ⟨rfl, rfl⟩
  | cons op rest ih =>
    have g := step_chip (s := s) (hl op (by simp)) hc
    simp only [List.foldl_cons, ← g.1, ← g.2]
    exact ih (fun o ho => hl o (by simp [ho]))

/-- Loading a preset writes all total levels of the channel. -/
theorem preset_tl {s : St} (h : Inv s) {p : FmPreset} (hp : p.Ok) {c : Nat} (hc : c < 6) :
    TlSync (step s (.preset c p)) c := by
  have hok : (({ s with ch := upd s.ch c { presetToChannel p with stereo := (s.ch c).stereo } } : St).ch c).Ok := by
    rw [show ({ s with ch := upd s.ch c { presetToChannel p with stereo := (s.ch c).stereo } } : St).ch c =
      { presetToChannel p with stereo := (s.ch c).stereo } from Psg.upd_same ..]
    exact presetToChannel_ok hp (h.chOk hc).stereo
  have u := updateChannel_updated (s := { s with ch := upd s.ch c { presetToChannel p with stereo := (s.ch c).stereo } })
    hc hok (h.ch c hc).vol
  simp only [step, preset, guardCh, onCh, hc, if_true]
  exact u.tl hc

theorem hist_run (b : Bool) (p0 : FmPreset) (ops : List Op) :
    hist b p0 ops = run (init (boot b) p0) ops := by
  simp only [hist, run, List.foldl_cons, step]

theorem hist_inv {b : Bool} {p0 : FmPreset} (hp : p0.Ok) (ops : List Op) (hl : ∀ op ∈ ops, op.Legal) :
    Inv (hist b p0 ops) := by
  rw [hist_run]; exact run_inv (init_inv hp (by simp only [boot])) ops hl

theorem hist_req {b : Bool} {p0 : FmPreset} (hp : p0.Ok) (ops : List Op) (hl : ∀ op ∈ ops, op.Legal)
    {c : Nat} (hc : c < 6) : (hist b p0 ops).ch c = requested c p0 ops ∧
      (hist b p0 ops).vol c = ops.foldl (Op.requestVol c) 127 := by
  have h := run_request (init_inv (s := boot b) hp (by simp only [boot])) ops hl hc
  rw [(init_ch p0 (boot b) hc).1, (init_ch p0 (boot b) hc).2] at h
  rw [hist_run]
  exact ⟨h.1.trans (by simp only [requested, List.foldl_cons, Op.request, presetToChannel]), h.2⟩

end Mdmi.Synth
