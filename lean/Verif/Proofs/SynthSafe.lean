import Verif.Proofs.SynthReq
/-! Memory safety of the driver, whatever the chip holds: also with raw register writes. -/
namespace Mdmi.Synth

/-- The driver's own state is within bounds. -/
structure Safe (s : St) : Prop where
  fault : s.fault = false
  ok : ∀ c < 6, (s.ch c).Ok
  vol : ∀ c < 6, s.vol c < 128
  lfo : s.lfoEnable < 2 ∧ s.lfoFrequency < 8

/-- Legal calls and raw register writes. -/
def Op.Valid (op : Op) : Prop := op.Legal ∨ ∃ p r d, op = .directWrite p r d

section
variable (s : St) (p r d c op b : Nat)

@[simp] theorem writeRegSafe_fault : (writeRegSafe s p r d).fault = s.fault := (write_same ..).fault
@[simp] theorem writeChannelReg_fault : (writeChannelReg s c b d).fault = s.fault := writeRegSafe_fault ..
@[simp] theorem writeOperatorReg_fault : (writeOperatorReg s c op b d).fault = s.fault := writeChannelReg_fault ..
theorem writeOctaveAndFrequency_fault (hc : c < 6) : (writeOctaveAndFrequency s c).fault = s.fault := by
  simp [writeOctaveAndFrequency, guardCh, hc]
theorem writeAlgorithmAndFeedback_fault (hc : c < 6) : (writeAlgorithmAndFeedback s c).fault = s.fault := by
  simp [writeAlgorithmAndFeedback, guardCh, hc]
theorem writeStereoAmsFms_fault (hc : c < 6) : (writeStereoAmsFms s c).fault = s.fault := by
  simp [writeStereoAmsFms, guardCh, hc]
theorem writeOperatorMultipleAndDetune_fault (hc : c < 6) (ho : op < 4) : (writeOperatorMultipleAndDetune s c op).fault = s.fault := by
  simp [writeOperatorMultipleAndDetune, guardOp, hc, ho]
theorem writeOperatorRateScalingAndAttackRate_fault (hc : c < 6) (ho : op < 4) : (writeOperatorRateScalingAndAttackRate s c op).fault = s.fault := by
  simp [writeOperatorRateScalingAndAttackRate, guardOp, hc, ho]
theorem writeOperatorAmplitudeModulationAndDecayRate_fault (hc : c < 6) (ho : op < 4) : (writeOperatorAmplitudeModulationAndDecayRate s c op).fault = s.fault := by
  simp [writeOperatorAmplitudeModulationAndDecayRate, guardOp, hc, ho]
theorem writeOperatorSustainRate_fault (hc : c < 6) (ho : op < 4) : (writeOperatorSustainRate s c op).fault = s.fault := by
  simp [writeOperatorSustainRate, guardOp, hc, ho]
theorem writeOperatorReleaseRateAndSustainLevel_fault (hc : c < 6) (ho : op < 4) : (writeOperatorReleaseRateAndSustainLevel s c op).fault = s.fault := by
  simp [writeOperatorReleaseRateAndSustainLevel, guardOp, hc, ho]
theorem writeOperatorSsgEg_fault (hc : c < 6) (ho : op < 4) : (writeOperatorSsgEg s c op).fault = s.fault := by
  simp [writeOperatorSsgEg, guardOp, hc, ho]

theorem scale_some {v tl : Nat} (hv : v < 128) : ∃ x, scaleTotalLevel v tl = some x := by
  have h : v < volumeToTotalLevels.length := by
    rw [show volumeToTotalLevels.length = 128 from by decide +kernel]; exact hv
  unfold scaleTotalLevel
  rw [List.getElem?_eq_getElem h]
  exact ⟨_, rfl⟩

theorem effTl_some {tl : Nat} (hv : s.vol c < 128) : ∃ x, effectiveTotalLevel s c op tl = some x := by
  unfold effectiveTotalLevel; split
  · exact scale_some hv
  · exact ⟨_, rfl⟩

theorem writeOperatorTotalLevel_fault (hc : c < 6) (ho : op < 4) (hv : s.vol c < 128) :
    (writeOperatorTotalLevel s c op).fault = s.fault := by
  obtain ⟨x, hx⟩ := effTl_some s c op (tl := ((s.ch c).ops.get op).totalLevel) hv
  simp [writeOperatorTotalLevel, guardOp, hc, ho, hx]

theorem updateOperator_fault (hc : c < 6) (ho : op < 4) (hv : s.vol c < 128) :
    (updateOperator s c op).fault = s.fault := by
  unfold updateOperator
  simp only
  rw [writeOperatorSsgEg_fault _ _ _ hc ho, writeOperatorTotalLevel_fault _ _ _ hc ho (by simpa using hv),
    writeOperatorReleaseRateAndSustainLevel_fault _ _ _ hc ho, writeOperatorSustainRate_fault _ _ _ hc ho,
    writeOperatorAmplitudeModulationAndDecayRate_fault _ _ _ hc ho,
    writeOperatorRateScalingAndAttackRate_fault _ _ _ hc ho, writeOperatorMultipleAndDetune_fault _ _ _ hc ho]

theorem updateChannel_fault (hc : c < 6) (hv : s.vol c < 128) : (updateChannel s c).fault = s.fault := by
  unfold updateChannel
  simp only [show List.range 4 = [0, 1, 2, 3] from rfl, List.foldl_cons, List.foldl_nil]
  rw [updateOperator_fault _ _ _ hc (by omega) (by simpa using hv),
    updateOperator_fault _ _ _ hc (by omega) (by simpa using hv),
    updateOperator_fault _ _ _ hc (by omega) (by simpa using hv),
    updateOperator_fault _ _ _ hc (by omega) (by simpa using hv),
    writeStereoAmsFms_fault _ _ hc, writeAlgorithmAndFeedback_fault _ _ hc]

@[simp] theorem writeGlobalLfo_fault : (writeGlobalLfo s).fault = s.fault := writeRegSafe_fault ..
@[simp] theorem writeDacReg_fault : (writeDacReg s).fault = s.fault := writeRegSafe_fault ..
@[simp] theorem writeSpecialModeReg_fault : (writeSpecialModeReg s).fault = s.fault := writeRegSafe_fault ..
@[simp] theorem enableDac_fault (e : Bool) : (enableDac s e).fault = s.fault := by
  unfold enableDac; simp only [writeDacReg_fault]; split
  · rfl
  · split <;> rfl
theorem onCh_fault {c : Nat} (f : FmChannel → FmChannel) (hc : c < 6) : (onCh s c f).fault = s.fault := by
  simp [onCh, hc]
theorem onOp_fault {c op : Nat} (f : Operator → Operator) (hc : c < 6) (ho : op < 4) :
    (onOp s c op f).fault = s.fault := by
  simp [onOp, hc, ho]
end

theorem init_fault (s : St) (p : FmPreset) : (init s p).fault = s.fault := by
  have one : ∀ t : St, ∀ c, c < 6 → (initChannel p t c).fault = t.fault := by
    intro t c hc
    have hv : (onCh (noteOff { t with vol := upd t.vol c 0x7F } c) c fun _ => presetToChannel p).vol c < 128 := by
      simp [onCh_vol, noteOff, upd]
    have := updateChannel_fault (onCh (noteOff { t with vol := upd t.vol c 0x7F } c) c fun _ => presetToChannel p)
      c hc hv
    rw [onCh_fault _ _ hc] at this
    unfold initChannel
    simp only
    rw [this]
    simp [noteOff]
  unfold init
  simp only [show List.range 6 = [0, 1, 2, 3, 4, 5] from rfl, List.foldl_cons, List.foldl_nil, writeGlobalLfo_fault]
  rw [one _ 5 (by omega), one _ 4 (by omega), one _ 3 (by omega), one _ 2 (by omega), one _ 1 (by omega),
    one _ 0 (by omega)]
  simp [initGlobal]

theorem get_okS {o : Ops4} (h : o.Ok) (i : Nat) : (o.get i).Ok := get_ok h i

theorem request_ok {c : Nat} {x : FmChannel} (hx : x.Ok) {op : Op} (hl : op.Legal) : (op.request c x).Ok := by
  obtain ⟨h1, h2, h3, h4, h5, h6, h7, h8⟩ := hx
  have oper : ∀ (c' i : Nat) (f : Operator → Operator), (∀ o : Operator, o.Ok → (f o).Ok) → (Op.request.oper c x c' i f).Ok := by
    intro c' i f hf
    obtain ⟨k0, k1, k2, k3⟩ := h8
    unfold Op.request.oper
    split
    · refine ⟨h1, h2, h3, h4, h5, h6, h7, ?_⟩
      simp only
      split
      · exact ⟨hf _ k0, k1, k2, k3⟩
      · exact ⟨k0, hf _ k1, k2, k3⟩
      · exact ⟨k0, k1, hf _ k2, k3⟩
      · exact ⟨k0, k1, k2, hf _ k3⟩
    · exact ⟨h1, h2, h3, h4, h5, h6, h7, ⟨k0, k1, k2, k3⟩⟩
  obtain ⟨_, _, hx⟩ := hl
  cases op <;> simp only [Op.request] <;>
    first
    | exact ⟨h1, h2, h3, h4, h5, h6, h7, h8⟩
    | (apply oper; intro o ho; obtain ⟨a1, a2, a3, a4, a5, a6, a7, a8, a9, a10, a11⟩ := ho
       constructor <;> first | assumption | (simp only; omega))
    | skip
  case init p => exact ⟨hx.algorithm, hx.feedback, by simp, hx.ams, hx.fms, by simp, by simp, hx.ops⟩
  case preset c' p =>
    split
    · exact ⟨hx.algorithm, hx.feedback, h3, hx.ams, hx.fms, by simp, by simp, hx.ops⟩
    · exact ⟨h1, h2, h3, h4, h5, h6, h7, h8⟩
  all_goals
    split
    · constructor <;> first | assumption | (simp only; omega)
    · exact ⟨h1, h2, h3, h4, h5, h6, h7, h8⟩

theorem Safe.step {s : St} (h : Safe s) {op : Op} (hl : op.Valid) : Safe (step s op) := by
  rcases hl with hl | ⟨p, r, d, rfl⟩
  · have rq : ∀ c < 6, (Synth.step s op).ch c = op.request c (s.ch c) ∧ (Synth.step s op).vol c = op.requestVol c (s.vol c) :=
      fun c hc => step_request_ok h.ok hl hc
    refine ⟨?_, ?_, ?_, ?_⟩
    · obtain ⟨hc, ho, hx⟩ := hl
      cases op with
      | init p => exact (init_fault s p).trans h.fault
      | directWrite p r d => exact hx.elim
      | volume c x =>
        have h1 := hc c rfl
        simp only [Synth.step, volume, guardCh, h1, if_true]
        split
        · exact h.fault
        · have hv : (upd s.vol c x) c < 128 := by rw [Psg.upd_same]; exact hx
          simp only [show List.range 4 = [0, 1, 2, 3] from rfl, List.foldl_cons, List.foldl_nil]
          rw [writeOperatorTotalLevel_fault _ _ _ h1 (by omega) (by simpa using hv),
            writeOperatorTotalLevel_fault _ _ _ h1 (by omega) (by simpa using hv),
            writeOperatorTotalLevel_fault _ _ _ h1 (by omega) (by simpa using hv),
            writeOperatorTotalLevel_fault _ _ _ h1 (by omega) (by simpa using hv)]
          exact h.fault
      | preset c p =>
        have h1 := hc c rfl
        simp only [Synth.step, preset, guardCh, h1, if_true]
        rw [updateChannel_fault _ _ h1 (by simpa using h.vol c h1), onCh_fault _ _ h1]
        exact h.fault
      | totalLevel c op x =>
        have h1 := hc c rfl; have h2 := ho op rfl
        simp only [Synth.step, operatorTotalLevel, guardOp, h1, h2, and_self, if_true]
        split
        · exact h.fault
        · rw [writeOperatorTotalLevel_fault _ _ _ h1 h2 (by simpa using h.vol c h1), onOp_fault _ _ h1 h2]
          exact h.fault
      | specialModeVolume op x =>
        have h2 := ho op rfl
        obtain ⟨y, hy⟩ := scale_some (tl := ((s.ch 2).ops.get op).totalLevel) hx
        obtain ⟨z, hz⟩ := effTl_some s 2 op (tl := y) (h.vol 2 (by omega))
        simp only [Synth.step, specialModeVolume, guardOp, h2, and_true, show (2 : Nat) < 6 by omega, if_true, hy, hz]
        split
        · exact h.fault
        · simp [h.fault]
      | _ =>
        first
        | (simp [Synth.step, noteOn, noteOff, enableLfo, globalLfoFrequency, setSpecialMode, specialModePitch]; exact h.fault)
        | (have h1 := hc _ rfl
           simp [Synth.step, pitch, stereo, algorithm, feedback, ams, fms, writeOctaveAndFrequency_fault,
             writeAlgorithmAndFeedback_fault, writeStereoAmsFms_fault, onCh_fault, h1]; exact h.fault)
        | (have h1 := hc _ rfl; have h2 := ho _ rfl
           simp [Synth.step, operatorMultiple, operatorDetune, operatorRateScaling, operatorAttackRate,
             operatorSustainRate, operatorReleaseRate, operatorSsgEg, operatorSustainLevel, operatorDecayRate,
             operatorAm, writeOperatorMultipleAndDetune_fault, writeOperatorRateScalingAndAttackRate_fault,
             writeOperatorAmplitudeModulationAndDecayRate_fault, writeOperatorSustainRate_fault,
             writeOperatorReleaseRateAndSustainLevel_fault, writeOperatorSsgEg_fault, onOp_fault, h1, h2]
           exact h.fault)
    · intro c hc; rw [(rq c hc).1]; exact request_ok (h.ok c hc) hl
    · intro c hc; rw [(rq c hc).2]
      have := h.vol c hc
      obtain ⟨_, _, hx⟩ := hl
      cases op <;> simp only [Op.requestVol] <;> first | exact this | (split <;> first | exact hx | exact this) | omega
    · have g := step_glob (s := s) hl
      have h' := h.lfo
      have : (Synth.step s op).lfoEnable = (op.requestGlobal (glob s)).1 ∧
          (Synth.step s op).lfoFrequency = (op.requestGlobal (glob s)).2.1 := by rw [← g]; exact ⟨rfl, rfl⟩
      rw [this.1, this.2]
      cases op <;> simp only [Op.requestGlobal, glob] <;> omega
  · refine ⟨?_, ?_, ?_, ?_⟩
    · simp [Synth.step, directWrite, h.fault]
    · simp only [Synth.step, directWrite, writeRegSafe_ch]; exact h.ok
    · simp only [Synth.step, directWrite, writeRegSafe_vol]; exact h.vol
    · have := (write_same s p r d)
      simp only [Synth.step, directWrite]
      rw [this.lfoEnable, this.lfoFrequency]; exact h.lfo

end Mdmi.Synth
