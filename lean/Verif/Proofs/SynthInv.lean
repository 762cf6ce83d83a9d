import Verif.Proofs.SynthSync
/-! Every call preserves the invariant; initialisation establishes it. -/
namespace Mdmi.Synth
open Mdmi.Psg (upd_same upd_other)

/-- Writes to a global register below 0x30 keep every channel synchronised. -/
theorem ChSync.global {s s' : St} {c : Nat} (h : ChSync s c) (hch : s'.ch = s.ch)
    (hvol : s'.vol = s.vol) (hout : s'.out = s.out) (p r d : Nat) (hr : r < 0x30) :
    ChSync (writeRegSafe s' p r d) c := by
  have e := write_same s' p r d
  refine ⟨by rw [e.ch, hch]; exact h.ok, by rw [e.vol, hvol]; exact h.vol, ?_, ?_, ?_⟩
  · rw [write_chReg_other (by simp [IsChBase]) (by omega), e.ch, hch, hout]; exact h.b0
  · rw [write_chReg_other (by simp [IsChBase]) (by omega), e.ch, hch, hout]; exact h.b4
  · intro op ho
    refine ⟨fun b hb hb' => ?_⟩
    rw [write_opReg_other hb (by omega), e.ch, hch, hout]
    exact (h.ops op ho).reg b hb hb'

theorem shl3_or {a b : Nat} (ha : a < 2) (hb : b < 8) : (a <<< 3) ||| b = a * 8 + b := by
  have : ∀ a : Fin 2, ∀ b : Fin 8, (a.val <<< 3) ||| b.val = a.val * 8 + b.val := by decide
  exact this ⟨a, ha⟩ ⟨b, hb⟩

theorem Inv.lfoWrite {s : St} (h : Inv s) {a b : Nat} (ha : a < 2) (hb : b < 8) :
    Inv (writeGlobalLfo { s with lfoEnable := a, lfoFrequency := b }) := by
  have e := write_same { s with lfoEnable := a, lfoFrequency := b } 0 0x22 ((a <<< 3) ||| b)
  refine ⟨e.fault.trans h.fault, fun c hc => (h.ch c hc).global (s' := { s with lfoEnable := a, lfoFrequency := b }) rfl rfl rfl
    0 0x22 _ (by omega), ?_, ?_, ?_, ?_⟩
  · rw [writeGlobalLfo, e.lfoEnable, e.lfoFrequency]; exact ⟨ha, hb⟩
  · rw [writeGlobalLfo, e.lfoEnable, e.lfoFrequency, write_reg]; simpa using shl3_or ha hb
  · rw [writeGlobalLfo, e.specialMode, write_reg]; simpa using h.r27
  · rw [writeGlobalLfo, e.dacEnable, write_reg]; simpa using h.r2B

theorem Inv.smWrite {s : St} (h : Inv s) (b : Bool) :
    Inv (writeSpecialModeReg { s with specialMode := b }) := by
  have e := write_same { s with specialMode := b } 0 0x27 (if b then 64 else 0)
  refine ⟨e.fault.trans h.fault, fun c hc => (h.ch c hc).global (s' := { s with specialMode := b }) rfl rfl rfl
    0 0x27 _ (by omega), ?_, ?_, ?_, ?_⟩
  · rw [writeSpecialModeReg, e.lfoEnable, e.lfoFrequency]; exact h.lfo
  · rw [writeSpecialModeReg, e.lfoEnable, e.lfoFrequency, write_reg]; simpa using h.r22
  · rw [writeSpecialModeReg, e.specialMode, write_reg]; simp
  · rw [writeSpecialModeReg, e.dacEnable, write_reg]; simpa using h.r2B

theorem ymReg_cons_other {out : List Ev} {e : Ev} (h : ∀ p r d, e ≠ .ym p r d) :
    ymReg (e :: out) = ymReg out := by
  funext p r
  cases e <;> first | rfl | exact absurd rfl (h _ _ _)

/-- States with the same registers. -/
theorem ChSync.regs {s s' : St} {c : Nat} (h : ChSync s c) (hch : s'.ch c = s.ch c)
    (hvol : s'.vol c = s.vol c) (hout : ymReg s'.out = ymReg s.out) : ChSync s' c := by
  refine ⟨by rw [hch]; exact h.ok, by rw [hvol]; exact h.vol, ?_, ?_, ?_⟩
  · rw [hch]; simpa only [chReg, hout] using h.b0
  · rw [hch]; simpa only [chReg, hout] using h.b4
  · intro op ho
    refine ⟨fun b hb hb' => ?_⟩
    rw [hch]; simpa only [opReg, hout] using (h.ops op ho).reg b hb hb'

/-- What `synth_enable_dac` does before its register write. -/
theorem enableDac_pre (s : St) (b : Bool) : ∃ s' : St, enableDac s b = writeDacReg { s' with dacEnable := b } ∧
    s'.ch = s.ch ∧ s'.vol = s.vol ∧ s'.lfoEnable = s.lfoEnable ∧ s'.lfoFrequency = s.lfoFrequency ∧
    s'.specialMode = s.specialMode ∧ s'.fault = s.fault ∧ ymReg s'.out = ymReg s.out := by
  refine ⟨_, rfl, ?_⟩
  split
  · exact ⟨rfl, rfl, rfl, rfl, rfl, rfl, ymReg_cons_other (by simp)⟩
  · split
    · exact ⟨rfl, rfl, rfl, rfl, rfl, rfl,
        (ymReg_cons_other (by simp)).trans (ymReg_cons_other (by simp))⟩
    · exact ⟨rfl, rfl, rfl, rfl, rfl, rfl, rfl⟩

theorem Inv.dacWrite {s : St} (h : Inv s) (b : Bool) : Inv (enableDac s b) := by
  obtain ⟨s', e1, a1, a2, a3, a4, a5, a6, a7⟩ := enableDac_pre s b
  have e := write_same { s' with dacEnable := b } 0 0x2B (if b then 0x80 else 0)
  rw [e1]
  refine ⟨by rw [writeDacReg, e.fault]; exact a6.trans h.fault, fun c hc => ?_, ?_, ?_, ?_, ?_⟩
  · exact ((h.ch c hc).regs (s' := { s' with dacEnable := b }) (by simp [a1]) (by simp [a2]) a7).global
      rfl rfl rfl _ _ _ (by omega)
  · rw [writeDacReg, e.lfoEnable, e.lfoFrequency, a3, a4]; exact h.lfo
  · rw [writeDacReg, e.lfoEnable, e.lfoFrequency, write_reg, a3, a4, a7]; simpa using h.r22
  · rw [writeDacReg, e.specialMode, write_reg, a5, a7]; simpa using h.r27
  · rw [writeDacReg, e.dacEnable, write_reg]; simp

/-- `preset` synchronises the channel. -/
theorem Inv.updateCh {s : St} (h : Inv s) {c : Nat} (x : FmChannel) (hc : c < 6) (hx : x.Ok) :
    Inv (updateChannel { s with ch := upd s.ch c x } c) := by
  have ec : ({ s with ch := upd s.ch c x } : St).ch c = x := upd_same ..
  have hok : (({ s with ch := upd s.ch c x } : St).ch c).Ok := by rw [ec]; exact hx
  have u := updateChannel_updated (s := { s with ch := upd s.ch c x }) hc hok (h.ch c hc).vol
  refine ⟨u.same.fault.trans h.fault, fun c' hc' => ?_, ?_, ?_, ?_, ?_⟩
  · by_cases e : c = c'
    · subst e; exact u.sync hc hok (h.ch c hc).vol
    · exact u.other e hc' ((h.ch c' hc').regs (upd_other _ _ _ _ (fun h => e h.symm)) rfl rfl)
  · rw [u.same.lfoEnable, u.same.lfoFrequency]; exact h.lfo
  · rw [u.global _ (by omega), u.same.lfoEnable, u.same.lfoFrequency]; exact h.r22
  · rw [u.global _ (by omega), u.same.specialMode]; exact h.r27
  · rw [u.global _ (by omega), u.same.dacEnable]; exact h.r2B

theorem presetToChannel_ok {p : FmPreset} (h : p.Ok) {st : Nat} (hs : st < 4) :
    ({ presetToChannel p with stereo := st } : FmChannel).Ok :=
  ⟨h.algorithm, h.feedback, hs, h.ams, h.fms, by simp [presetToChannel], by simp [presetToChannel], h.ops⟩

/-- After the loop of `synth_init` up to channel `k`. -/
structure InitK (p : FmPreset) (k : Nat) (s : St) : Prop where
  fault : s.fault = false
  lfo : s.lfoEnable = 1 ∧ s.lfoFrequency = 0
  dac : s.dacEnable = false ∧ s.specialMode = false
  r27 : ymReg s.out 0 0x27 = 0
  r2B : ymReg s.out 0 0x2B = 0
  ch : ∀ c < k, ChSync s c ∧ s.ch c = presetToChannel p ∧ s.vol c = 127

theorem initChannel_initK {p : FmPreset} (hp : p.Ok) {k : Nat} {s : St} (hk : k < 6)
    (h : InitK p k s) : InitK p (k + 1) (initChannel p s k) := by
  have e := write_same { s with vol := upd s.vol k 127 } 0 0x28 (keyOnOffRegOffset k)
  have er := fun p' r' => write_reg { s with vol := upd s.vol k 127 } 0 0x28 (keyOnOffRegOffset k) p' r'
  have hother : ∀ c < k, ChSync (noteOff { s with vol := upd s.vol k 127 } k) c := by
    intro c hc
    have g := (h.ch c hc).1
    have g' : ChSync { s with vol := upd s.vol k 127 } c :=
      g.regs rfl (upd_other _ _ _ _ (show c ≠ k by omega)) rfl
    exact g'.global rfl rfl rfl _ _ _ (by omega)
  unfold initChannel
  have eo : noteOff { s with vol := upd s.vol k 127 } k =
    writeRegSafe { s with vol := upd s.vol k 127 } 0 0x28 (keyOnOffRegOffset k) := rfl
  rw [← eo] at e
  simp only [← eo] at er
  simp only
  generalize noteOff { s with vol := upd s.vol k 127 } k = t at *
  rw [show onCh t k (fun _ => presetToChannel p) = { t with ch := upd t.ch k (presetToChannel p) } by
    simp [onCh, hk]]
  have hok : (({ t with ch := upd t.ch k (presetToChannel p) } : St).ch k).Ok := by
    rw [show ({ t with ch := upd t.ch k (presetToChannel p) } : St).ch k = presetToChannel p from upd_same ..]
    exact presetToChannel_ok hp (st := 3) (by omega)
  have hv : ({ t with ch := upd t.ch k (presetToChannel p) } : St).vol k = 127 := by
    show t.vol k = 127
    rw [e.vol]; exact upd_same ..
  have u := updateChannel_updated (s := { t with ch := upd t.ch k (presetToChannel p) }) hk hok
    (by rw [hv]; omega)
  refine ⟨u.same.fault.trans (e.fault.trans h.fault), ?_, ?_, ?_, ?_, ?_⟩
  · rw [u.same.lfoEnable, u.same.lfoFrequency]
    exact ⟨e.lfoEnable.trans h.lfo.1, e.lfoFrequency.trans h.lfo.2⟩
  · rw [u.same.dacEnable, u.same.specialMode]
    exact ⟨e.dacEnable.trans h.dac.1, e.specialMode.trans h.dac.2⟩
  · rw [u.global _ (by omega)]; show ymReg t.out 0 0x27 = 0; rw [er]; simpa using h.r27
  · rw [u.global _ (by omega)]; show ymReg t.out 0 0x2B = 0; rw [er]; simpa using h.r2B
  · intro c hc
    by_cases ec : c = k
    · subst ec
      exact ⟨u.sync hk hok (by rw [hv]; omega), by rw [u.same.ch]; exact upd_same .., by rw [u.same.vol]; exact hv⟩
    · have hck : c < k := by omega
      have e1 : upd t.ch k (presetToChannel p) c = t.ch c := upd_other _ _ _ _ ec
      refine ⟨u.other (fun h => ec h.symm) (by omega) ((hother c hck).regs e1 rfl rfl), ?_, ?_⟩
      · rw [u.same.ch]; show upd t.ch k (presetToChannel p) c = _
        rw [e1, e.ch]; exact (h.ch c hck).2.1
      · rw [u.same.vol]; show t.vol c = 127
        rw [e.vol]; show upd s.vol k 127 c = 127
        rw [upd_other _ _ _ _ ec]; exact (h.ch c hck).2.2

/-- `synth_init` from any state establishes the invariant. -/
theorem init_initK {p : FmPreset} (hp : p.Ok) {s : St} (hf : s.fault = false) :
    InitK p 6 (init s p) ∧ ymReg (init s p).out 0 0x22 = 8 := by
  obtain ⟨s', e1, a1, a2, a3, a4, a5, a6, a7⟩ := enableDac_pre (initGlobal s) false
  have e := write_same { s' with dacEnable := false } 0 0x2B 0
  have er := fun p' r' => write_reg { s' with dacEnable := false } 0 0x2B 0 p' r'
  have i0 : InitK p 0 (writeSpecialModeReg (enableDac (initGlobal s) false)) := by
    rw [e1]
    have e2 := write_same (writeRegSafe { s' with dacEnable := false } 0 0x2B 0) 0 0x27 0
    have er2 := fun p' r' => write_reg (writeRegSafe { s' with dacEnable := false } 0 0x2B 0) 0 0x27 0 p' r'
    have ew : writeSpecialModeReg (writeDacReg { s' with dacEnable := false }) =
        writeRegSafe (writeRegSafe { s' with dacEnable := false } 0 0x2B 0) 0 0x27 0 := by
      have : (writeDacReg { s' with dacEnable := false }).specialMode = false := by
        show (writeRegSafe { s' with dacEnable := false } 0 0x2B 0).specialMode = false
        rw [e.specialMode]; exact a5
      simp only [writeSpecialModeReg, this]; rfl
    rw [ew]
    refine ⟨?_, ⟨?_, ?_⟩, ⟨?_, ?_⟩, ?_, ?_, by intro c hc; omega⟩
    · rw [e2.fault, e.fault]; exact a6.trans hf
    · rw [e2.lfoEnable, e.lfoEnable]; exact a3
    · rw [e2.lfoFrequency, e.lfoFrequency]; exact a4
    · rw [e2.dacEnable, e.dacEnable]
    · rw [e2.specialMode, e.specialMode]; exact a5
    · rw [er2]; simp
    · rw [er2, er]; simp
  have i6 : InitK p 6 ((List.range 6).foldl (initChannel p)
      (writeSpecialModeReg (enableDac (initGlobal s) false))) := by
    simp only [show List.range 6 = [0, 1, 2, 3, 4, 5] from rfl, List.foldl_cons, List.foldl_nil]
    exact initChannel_initK hp (by omega) <| initChannel_initK hp (by omega) <|
      initChannel_initK hp (by omega) <| initChannel_initK hp (by omega) <|
      initChannel_initK hp (by omega) <| initChannel_initK hp (by omega) i0
  unfold init
  simp only
  generalize (List.range 6).foldl (initChannel p)
      (writeSpecialModeReg (enableDac (initGlobal s) false)) = t at *
  have e3 := write_same t 0 0x22 ((t.lfoEnable <<< 3) ||| t.lfoFrequency)
  have er3 := fun p' r' => write_reg t 0 0x22 ((t.lfoEnable <<< 3) ||| t.lfoFrequency) p' r'
  refine ⟨⟨?_, ?_, ?_, ?_, ?_, ?_⟩, ?_⟩
  · rw [writeGlobalLfo, e3.fault]; exact i6.fault
  · rw [writeGlobalLfo, e3.lfoEnable, e3.lfoFrequency]; exact i6.lfo
  · rw [writeGlobalLfo, e3.dacEnable, e3.specialMode]; exact i6.dac
  · rw [writeGlobalLfo, er3]; simpa using i6.r27
  · rw [writeGlobalLfo, er3]; simpa using i6.r2B
  · intro c hc
    refine ⟨(i6.ch c hc).1.global rfl rfl rfl _ _ _ (by omega), ?_, ?_⟩
    · rw [writeGlobalLfo, e3.ch]; exact (i6.ch c hc).2.1
    · rw [writeGlobalLfo, e3.vol]; exact (i6.ch c hc).2.2
  · rw [writeGlobalLfo, er3, i6.lfo.1, i6.lfo.2]; rfl

theorem init_inv {p : FmPreset} (hp : p.Ok) {s : St} (hf : s.fault = false) : Inv (init s p) := by
  obtain ⟨i, r⟩ := init_initK hp hf
  refine ⟨i.fault, fun c hc => (i.ch c hc).1, ?_, ?_, ?_, ?_⟩
  · rw [i.lfo.1, i.lfo.2]; omega
  · rw [r, i.lfo.1, i.lfo.2]
  · rw [i.r27, i.dac.2]; simp
  · rw [i.r2B, i.dac.1]; simp

theorem Inv.volLoop {s : St} (h : Inv s) {c : Nat} (hc : c < 6) :
    Inv ((List.range 4).foldl (fun s op => writeOperatorTotalLevel s c op) s) := by
  simp only [show List.range 4 = [0, 1, 2, 3] from rfl, List.foldl_cons, List.foldl_nil]
  exact (((h.writeTl hc (by omega)).writeTl hc (by omega)).writeTl hc (by omega)).writeTl hc (by omega)

theorem Inv.setVol {s : St} (h : Inv s) {c v : Nat} (hv : v < 128) :
    Inv { s with vol := upd s.vol c v } := by
  refine ⟨h.fault, fun c' hc' => ?_, h.lfo, h.r22, h.r27, h.r2B⟩
  have g := h.ch c' hc'
  refine ⟨g.ok, ?_, g.b0, g.b4, fun op ho => ⟨(g.ops op ho).reg⟩⟩
  simp only [upd]; split
  · exact hv
  · exact g.vol

/-- Every legal call preserves the invariant. -/
theorem step_inv {s : St} (h : Inv s) {op : Op} (hl : op.Legal) : Inv (step s op) := by
  obtain ⟨hc, ho, hx⟩ := hl
  cases op with
  | init p => exact init_inv hx h.fault
  | noteOn c => exact h.write_other _ _ _ (by omega)
  | noteOff c => exact h.write_other _ _ _ (by omega)
  | pitch c o f =>
    have hc := hc c rfl
    have k := h.chOk hc
    have g := h.chanWrite (c := c) (b := 0xA4)
      (d := ((f % 2048) >>> 8) ||| ((o % 8) <<< 3))
      { s.ch c with octave := o % 8, freqNumber := f % 2048 } hc (by simp [IsChBase])
      ⟨k.algorithm, k.feedback, k.stereo, k.ams, k.fms, by simp only; omega, by simp only; omega, k.ops⟩ rfl
      (fun _ => ⟨rfl, rfl⟩) (fun _ => ⟨rfl, rfl, rfl⟩) (by simp) (by simp)
    have g' := g.chanWrite (c := c) (b := 0xA0) (d := f % 2048) _ hc (by simp [IsChBase]) (g.chOk hc)
      rfl (fun _ => ⟨rfl, rfl⟩) (fun _ => ⟨rfl, rfl, rfl⟩) (by simp) (by simp)
    rw [upd_self] at g'
    simpa only [step, pitch, onCh, hc, if_true, writeOctaveAndFrequency, guardCh, upd_same] using g'
  | volume c x =>
    have hc := hc c rfl
    simp only [step, volume, guardCh, hc, if_true]
    split
    · exact h
    · exact (h.setVol hx).volLoop hc
  | stereo c x =>
    have hc := hc c rfl
    have k := h.chOk hc
    have g := h.chanWrite (c := c) (b := 0xB4) (d := (x % 4) * 64 + (s.ch c).ams * 16 + (s.ch c).fms)
      { s.ch c with stereo := x % 4 } hc (by simp [IsChBase])
      ⟨k.algorithm, k.feedback, by simp only; omega, k.ams, k.fms, k.octave, k.freqNumber, k.ops⟩ rfl
      (fun _ => ⟨rfl, rfl⟩) (by simp) (by simp) (fun _ => rfl)
    simpa only [step, stereo, onCh, hc, if_true, writeStereoAmsFms, guardCh, upd_same] using g
  | ams c x =>
    have hc := hc c rfl
    have k := h.chOk hc
    have g := h.chanWrite (c := c) (b := 0xB4) (d := (s.ch c).stereo * 64 + (x % 4) * 16 + (s.ch c).fms)
      { s.ch c with ams := x % 4 } hc (by simp [IsChBase])
      ⟨k.algorithm, k.feedback, k.stereo, by simp only; omega, k.fms, k.octave, k.freqNumber, k.ops⟩ rfl
      (fun _ => ⟨rfl, rfl⟩) (by simp) (by simp) (fun _ => rfl)
    simpa only [step, ams, onCh, hc, if_true, writeStereoAmsFms, guardCh, upd_same] using g
  | fms c x =>
    have hc := hc c rfl
    have k := h.chOk hc
    have g := h.chanWrite (c := c) (b := 0xB4) (d := (s.ch c).stereo * 64 + (s.ch c).ams * 16 + x % 8)
      { s.ch c with fms := x % 8 } hc (by simp [IsChBase])
      ⟨k.algorithm, k.feedback, k.stereo, k.ams, by simp only; omega, k.octave, k.freqNumber, k.ops⟩ rfl
      (fun _ => ⟨rfl, rfl⟩) (by simp) (by simp) (fun _ => rfl)
    simpa only [step, fms, onCh, hc, if_true, writeStereoAmsFms, guardCh, upd_same] using g
  | algorithm c x =>
    have hc := hc c rfl
    have k := h.chOk hc
    have g := h.chanWrite (c := c) (b := 0xB0) (d := (s.ch c).feedback * 8 + x % 8)
      { s.ch c with algorithm := x % 8 } hc (by simp [IsChBase])
      ⟨by simp only; omega, k.feedback, k.stereo, k.ams, k.fms, k.octave, k.freqNumber, k.ops⟩ rfl
      (by simp) (fun _ => ⟨rfl, rfl, rfl⟩) (fun _ => rfl) (by simp)
    simpa only [step, algorithm, onCh, hc, if_true, writeAlgorithmAndFeedback, guardCh, upd_same] using g
  | feedback c x =>
    have hc := hc c rfl
    have k := h.chOk hc
    have g := h.chanWrite (c := c) (b := 0xB0) (d := (x % 8) * 8 + (s.ch c).algorithm)
      { s.ch c with feedback := x % 8 } hc (by simp [IsChBase])
      ⟨k.algorithm, by simp only; omega, k.stereo, k.ams, k.fms, k.octave, k.freqNumber, k.ops⟩ rfl
      (by simp) (fun _ => ⟨rfl, rfl, rfl⟩) (fun _ => rfl) (by simp)
    simpa only [step, feedback, onCh, hc, if_true, writeAlgorithmAndFeedback, guardCh, upd_same] using g
  | totalLevel c op x =>
    have hc := hc c rfl
    have ho := ho op rfl
    simp only [step, operatorTotalLevel, guardOp, hc, ho, and_self, if_true]
    split
    · exact h
    · have k := h.chOk hc
      have e := @get_set (s.ch c).ops op op { (s.ch c).ops.get op with totalLevel := x % 128 } ho ho
      rw [if_pos rfl] at e
      have h' : Inv (onOp s c op fun o => { o with totalLevel := x % 128 }) := by
        simp only [onOp, hc, ho, and_self, if_true]
        refine ⟨h.fault, fun c' hc' => ?_, h.lfo, h.r22, h.r27, h.r2B⟩
        have g := h.ch c' hc'
        by_cases ec : c' = c
        · subst c'
          refine ⟨?_, g.vol, ?_, ?_, fun op' ho' => ⟨fun b hb hb4 => ?_⟩⟩ <;> simp only [upd_same]
          · have ko := get_ok k.ops op
            exact ⟨k.algorithm, k.feedback, k.stereo, k.ams, k.fms, k.octave, k.freqNumber,
              set_ok k.ops op ⟨ko.1, ko.2, ko.3, ko.4, ko.5, ko.6, ko.7, ko.8, ko.9,
                by simp only; omega, ko.11⟩⟩
          · exact g.b0
          · exact g.b4
          · have := (g.ops op' ho').reg b hb hb4
            rw [get_set ho ho']
            split
            · rename_i e1; subst e1; exact this
            · exact this
        · exact g.regs (upd_other _ _ _ _ ec) rfl rfl
      exact h'.writeTl hc ho
  | multiple c op x =>
    have hc := hc c rfl
    have ho := ho op rfl
    have g := h.operSet (c := c) (op := op) (b := 0x30)
      (d := enc 0x30 { (s.ch c).ops.get op with multiple := x % 16 })
      (fun o => { o with multiple := x % 16 }) hc ho (by simp [IsOpBase])
      (fun k => ⟨by simp only; omega, k.2, k.3, k.4, k.5, k.6, k.7, k.8, k.9, k.10, k.11⟩)
      (fun b' _ _ hb => by simp [enc, hb]) (fun _ => rfl)
    simpa only [step, operatorMultiple, writeOperatorMultipleAndDetune, guardOp, hc, ho, and_self,
      if_true, onOp, upd_same, get_set ho ho, enc] using g
  | detune c op x =>
    have hc := hc c rfl
    have ho := ho op rfl
    have g := h.operSet (c := c) (op := op) (b := 0x30)
      (d := enc 0x30 { (s.ch c).ops.get op with detune := x % 8 })
      (fun o => { o with detune := x % 8 }) hc ho (by simp [IsOpBase])
      (fun k => ⟨k.1, by simp only; omega, k.3, k.4, k.5, k.6, k.7, k.8, k.9, k.10, k.11⟩)
      (fun b' _ _ hb => by simp [enc, hb]) (fun _ => rfl)
    simpa only [step, operatorDetune, writeOperatorMultipleAndDetune, guardOp, hc, ho, and_self,
      if_true, onOp, upd_same, get_set ho ho, enc] using g
  | rateScaling c op x =>
    have hc := hc c rfl
    have ho := ho op rfl
    have g := h.operSet (c := c) (op := op) (b := 0x50)
      (d := enc 0x50 { (s.ch c).ops.get op with rateScaling := x % 4 })
      (fun o => { o with rateScaling := x % 4 }) hc ho (by simp [IsOpBase])
      (fun k => ⟨k.1, k.2, k.3, by simp only; omega, k.5, k.6, k.7, k.8, k.9, k.10, k.11⟩)
      (fun b' _ _ hb => by simp [enc, hb]) (fun _ => rfl)
    simpa only [step, operatorRateScaling, writeOperatorRateScalingAndAttackRate, guardOp, hc, ho,
      and_self, if_true, onOp, upd_same, get_set ho ho, enc, Nat.reduceEqDiff, if_false] using g
  | attackRate c op x =>
    have hc := hc c rfl
    have ho := ho op rfl
    have g := h.operSet (c := c) (op := op) (b := 0x50)
      (d := enc 0x50 { (s.ch c).ops.get op with attackRate := x % 32 })
      (fun o => { o with attackRate := x % 32 }) hc ho (by simp [IsOpBase])
      (fun k => ⟨k.1, k.2, by simp only; omega, k.4, k.5, k.6, k.7, k.8, k.9, k.10, k.11⟩)
      (fun b' _ _ hb => by simp [enc, hb]) (fun _ => rfl)
    simpa only [step, operatorAttackRate, writeOperatorRateScalingAndAttackRate, guardOp, hc, ho,
      and_self, if_true, onOp, upd_same, get_set ho ho, enc, Nat.reduceEqDiff, if_false] using g
  | sustainRate c op x =>
    have hc := hc c rfl
    have ho := ho op rfl
    have g := h.operSet (c := c) (op := op) (b := 0x70)
      (d := enc 0x70 { (s.ch c).ops.get op with sustainRate := x % 32 })
      (fun o => { o with sustainRate := x % 32 }) hc ho (by simp [IsOpBase])
      (fun k => ⟨k.1, k.2, k.3, k.4, k.5, k.6, k.7, by simp only; omega, k.9, k.10, k.11⟩)
      (fun b' _ _ hb => by simp [enc, hb]) (fun _ => rfl)
    simpa only [step, operatorSustainRate, writeOperatorSustainRate, guardOp, hc, ho,
      and_self, if_true, onOp, upd_same, get_set ho ho, enc, Nat.reduceEqDiff, if_false] using g
  | releaseRate c op x =>
    have hc := hc c rfl
    have ho := ho op rfl
    have g := h.operSet (c := c) (op := op) (b := 0x80)
      (d := enc 0x80 { (s.ch c).ops.get op with releaseRate := x % 16 })
      (fun o => { o with releaseRate := x % 16 }) hc ho (by simp [IsOpBase])
      (fun k => ⟨k.1, k.2, k.3, k.4, k.5, k.6, k.7, k.8, by simp only; omega, k.10, k.11⟩)
      (fun b' _ _ hb => by simp [enc, hb]) (fun _ => rfl)
    simpa only [step, operatorReleaseRate, writeOperatorReleaseRateAndSustainLevel, guardOp, hc, ho,
      and_self, if_true, onOp, upd_same, get_set ho ho, enc, Nat.reduceEqDiff, if_false] using g
  | ssgEg c op x =>
    have hc := hc c rfl
    have ho := ho op rfl
    have g := h.operSet (c := c) (op := op) (b := 0x90)
      (d := enc 0x90 { (s.ch c).ops.get op with ssgEg := x % 16 })
      (fun o => { o with ssgEg := x % 16 }) hc ho (by simp [IsOpBase])
      (fun k => ⟨k.1, k.2, k.3, k.4, k.5, k.6, k.7, k.8, k.9, k.10, by simp only; omega⟩)
      (fun b' hb4 h4 hb => by
        rcases hb4 with rfl | rfl | rfl | rfl | rfl | rfl | rfl <;> first | rfl | (exact absurd rfl hb) | (exact absurd rfl h4)) (fun _ => rfl)
    simpa only [step, operatorSsgEg, writeOperatorSsgEg, guardOp, hc, ho,
      and_self, if_true, onOp, upd_same, get_set ho ho, enc, Nat.reduceEqDiff, if_false] using g
  | sustainLevel c op x =>
    have hc := hc c rfl
    have ho := ho op rfl
    have g := h.operSet (c := c) (op := op) (b := 0x80)
      (d := enc 0x80 { (s.ch c).ops.get op with sustainLevel := x % 16 })
      (fun o => { o with sustainLevel := x % 16 }) hc ho (by simp [IsOpBase])
      (fun k => ⟨k.1, k.2, k.3, k.4, k.5, k.6, by simp only; omega, k.8, k.9, k.10, k.11⟩)
      (fun b' _ _ hb => by simp [enc, hb]) (fun _ => rfl)
    simpa only [step, operatorSustainLevel, writeOperatorReleaseRateAndSustainLevel, guardOp, hc, ho,
      and_self, if_true, onOp, upd_same, get_set ho ho, enc, Nat.reduceEqDiff, if_false] using g
  | decayRate c op x =>
    have hc := hc c rfl
    have ho := ho op rfl
    have g := h.operSet (c := c) (op := op) (b := 0x60)
      (d := enc 0x60 { (s.ch c).ops.get op with decayRate := x % 32 })
      (fun o => { o with decayRate := x % 32 }) hc ho (by simp [IsOpBase])
      (fun k => ⟨k.1, k.2, k.3, k.4, by simp only; omega, k.6, k.7, k.8, k.9, k.10, k.11⟩)
      (fun b' _ _ hb => by simp [enc, hb]) (fun _ => rfl)
    simpa only [step, operatorDecayRate, writeOperatorAmplitudeModulationAndDecayRate, guardOp, hc, ho,
      and_self, if_true, onOp, upd_same, get_set ho ho, enc, Nat.reduceEqDiff, if_false] using g
  | am c op x =>
    have hc := hc c rfl
    have ho := ho op rfl
    have g := h.operSet (c := c) (op := op) (b := 0x60)
      (d := enc 0x60 { (s.ch c).ops.get op with am := x % 2 })
      (fun o => { o with am := x % 2 }) hc ho (by simp [IsOpBase])
      (fun k => ⟨k.1, k.2, k.3, k.4, k.5, by simp only; omega, k.7, k.8, k.9, k.10, k.11⟩)
      (fun b' _ _ hb => by simp [enc, hb]) (fun _ => rfl)
    simpa only [step, operatorAm, writeOperatorAmplitudeModulationAndDecayRate, guardOp, hc, ho,
      and_self, if_true, onOp, upd_same, get_set ho ho, enc, Nat.reduceEqDiff, if_false] using g
  | enableLfo x => exact h.lfoWrite (a := x % 2) (b := s.lfoFrequency) (by omega) h.lfo.2
  | lfoFrequency x => exact h.lfoWrite (a := s.lfoEnable) (b := x % 8) h.lfo.1 (by omega)
  | preset c p =>
    have hc := hc c rfl
    have g := h.updateCh (c := c) { presetToChannel p with stereo := (s.ch c).stereo } hc
      (presetToChannel_ok hx (h.chOk hc).stereo)
    simpa only [step, preset, guardCh, onCh, hc, if_true] using g
  | specialMode e => exact h.smWrite e
  | specialModePitch op o f =>
    exact (h.write_other _ _ _ (by omega)).write_other _ _ _ (by omega)
  | specialModeVolume op x =>
    have ho := ho op rfl
    have g := h.ch 2 (by omega)
    have ht := (get_ok g.ok.ops op).totalLevel
    simp only [step, specialModeVolume, guardOp, ho, show (2 : Nat) < 6 by omega, and_self, if_true]
    split
    · exact h
    · simp only [scaleTotalLevel_eq hx ht]
      rw [effectiveTotalLevel_eq g.ok.algorithm g.vol ho (by omega)]
      exact h.tlWrite _ (by omega) ho
  | directWrite p r d => exact hx.elim
  | enableDac e => exact h.dacWrite e

theorem run_inv {s : St} (h : Inv s) (ops : List Op) (hl : ∀ op ∈ ops, op.Legal) :
    Inv (run s ops) := by
  induction ops generalizing s with
  | nil => exact h
  | cons op rest ih =>
    exact ih (step_inv h (hl op (by simp))) (fun o ho => hl o (by simp [ho]))

end Mdmi.Synth
