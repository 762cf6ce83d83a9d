import Verif.Proofs.Synth
/-! The invariant that relates the chip's registers to the driver's parameters. -/
namespace Mdmi.Synth
open Mdmi.Psg (upd_same upd_other)

/-- Register contents of each operator group (without total level). -/
def enc (b : Nat) (o : Operator) : Nat :=
  if b = 0x30 then o.multiple + o.detune * 16
  else if b = 0x50 then o.attackRate + o.rateScaling * 64
  else if b = 0x60 then o.decayRate + o.am * 128
  else if b = 0x70 then o.sustainRate
  else if b = 0x80 then o.releaseRate + o.sustainLevel * 16
  else o.ssgEg

structure OpSync (s : St) (c op : Nat) : Prop where
  reg : ∀ b, IsOpBase b → b ≠ 0x40 → opReg s.out b c op = enc b ((s.ch c).ops.get op)

structure ChSync (s : St) (c : Nat) : Prop where
  ok : (s.ch c).Ok
  vol : s.vol c < 128
  b0 : chReg s.out 0xB0 c = (s.ch c).feedback * 8 + (s.ch c).algorithm
  b4 : chReg s.out 0xB4 c = (s.ch c).stereo * 64 + (s.ch c).ams * 16 + (s.ch c).fms
  ops : ∀ op < 4, OpSync s c op

structure Inv (s : St) : Prop where
  fault : s.fault = false
  ch : ∀ c < 6, ChSync s c
  lfo : s.lfoEnable < 2 ∧ s.lfoFrequency < 8
  r22 : ymReg s.out 0 0x22 = s.lfoEnable * 8 + s.lfoFrequency
  r27 : ymReg s.out 0 0x27 = if s.specialMode then 64 else 0
  r2B : ymReg s.out 0 0x2B = if s.dacEnable then 128 else 0

theorem get_ok {o : Ops4} (h : o.Ok) (i : Nat) : (o.get i).Ok := by
  unfold Ops4.get; split
  · exact h.o0
  · exact h.o1
  · exact h.o2
  · exact h.o3

theorem set_ok {o : Ops4} (h : o.Ok) (i : Nat) {x : Operator} (hx : x.Ok) : (o.set i x).Ok := by
  unfold Ops4.set; split
  · exact ⟨hx, h.o1, h.o2, h.o3⟩
  · exact ⟨h.o0, hx, h.o2, h.o3⟩
  · exact ⟨h.o0, h.o1, hx, h.o3⟩
  · exact ⟨h.o0, h.o1, h.o2, hx⟩

theorem get_set {o : Ops4} {i j : Nat} {x : Operator} (hi : i < 4) (hj : j < 4) :
    (o.set i x).get j = if i = j then x else o.get j := by
  match i, j with
  | 0, 0 | 1, 1 | 2, 2 | 3, 3 => rfl
  | 0, 1 | 0, 2 | 0, 3 | 1, 0 | 1, 2 | 1, 3 | 2, 0 | 2, 1 | 2, 3 | 3, 0 | 3, 1 | 3, 2 => rfl
  | a + 4, _ => omega
  | _, b + 4 => omega

theorem enc_lt {o : Operator} (h : o.Ok) (b : Nat) : enc b o < 256 := by
  have := h.multiple; have := h.detune; have := h.attackRate; have := h.rateScaling
  have := h.decayRate; have := h.am; have := h.sustainRate; have := h.releaseRate
  have := h.sustainLevel; have := h.ssgEg
  unfold enc
  repeat' split
  all_goals omega

/-- A write that touches none of the parameter, LFO, mode and DAC enable registers. -/
theorem Inv.write_other {s : St} (h : Inv s) (p r d : Nat)
    (hr : (r < 0x30 ∧ r ≠ 0x22 ∧ r ≠ 0x27 ∧ r ≠ 0x2B) ∨ (0xA8 ≤ r ∧ r < 0xB0)) :
    Inv (writeRegSafe s p r d) := by
  have e := write_same s p r d
  refine ⟨e.fault.trans h.fault, ?_, ?_, ?_, ?_, ?_⟩
  · intro c hc
    have g := h.ch c hc
    refine ⟨by rw [e.ch]; exact g.ok, by rw [e.vol]; exact g.vol, ?_, ?_, ?_⟩
    · rw [write_chReg_other (by simp [IsChBase]) (by omega), e.ch]; exact g.b0
    · rw [write_chReg_other (by simp [IsChBase]) (by omega), e.ch]; exact g.b4
    · intro op ho
      refine ⟨fun b hb hb' => ?_⟩
      rw [write_opReg_other hb (by omega), e.ch]
      exact (g.ops op ho).reg b hb hb'
  · rw [e.lfoEnable, e.lfoFrequency]; exact h.lfo
  · rw [write_reg, if_neg (by omega), e.lfoEnable, e.lfoFrequency]; exact h.r22
  · rw [write_reg, if_neg (by omega), e.specialMode]; exact h.r27
  · rw [write_reg, if_neg (by omega), e.dacEnable]; exact h.r2B

/-- Operator register writes do not touch the global registers. -/
theorem operWrite_global {s : St} {c op b d r : Nat} (ho : op < 4) (hb : IsOpBase b)
    (hr : r < 0x30) : ymReg (writeOperatorReg s c op b d).out 0 r = ymReg s.out 0 r := by
  have h1 := @opOffset_lt op
  simp only [writeOperatorReg, writeChannelReg, write_reg, regOperatorIndex_eq ho]
  rw [if_neg]
  unfold IsOpBase at hb; omega

theorem chanWrite_global {s : St} {c b d r : Nat} (hb : IsChBase b)
    (hr : r < 0x30) : ymReg (writeChannelReg s c b d).out 0 r = ymReg s.out 0 r := by
  simp only [writeChannelReg, write_reg]
  rw [if_neg]
  unfold IsChBase at hb; omega

/-- An operator register write after a change `s.ch c ↦ x` of the driver's parameters. -/
theorem Inv.operWrite {s : St} (h : Inv s) {c op b d : Nat} (x : FmChannel) (hc : c < 6)
    (ho : op < 4) (hb : IsOpBase b) (hx : x.Ok)
    (hch : x.feedback = (s.ch c).feedback ∧ x.algorithm = (s.ch c).algorithm ∧
      x.stereo = (s.ch c).stereo ∧ x.ams = (s.ch c).ams ∧ x.fms = (s.ch c).fms)
    (hoth : ∀ op' < 4, op' ≠ op → x.ops.get op' = (s.ch c).ops.get op')
    (henc : ∀ b', IsOpBase b' → b' ≠ 0x40 → b' ≠ b →
      enc b' (x.ops.get op) = enc b' ((s.ch c).ops.get op))
    (hd : b ≠ 0x40 → d = enc b (x.ops.get op)) :
    Inv (writeOperatorReg { s with ch := upd s.ch c x } c op b d) := by
  have e := operWrite_same { s with ch := upd s.ch c x } c op b d
  refine ⟨e.fault.trans h.fault, ?_, ?_, ?_, ?_, ?_⟩
  · intro c' hc'
    have g := h.ch c' hc'
    have ec : (writeOperatorReg { s with ch := upd s.ch c x } c op b d).ch c' =
        if c' = c then x else s.ch c' := by rw [e.ch]; rfl
    refine ⟨?_, ?_, ?_, ?_, ?_⟩
    · rw [ec]; split
      · exact hx
      · exact g.ok
    · rw [e.vol]; exact g.vol
    · rw [operWrite_chReg hc ho hb (by simp [IsChBase]), ec]
      split
      · rename_i e1; subst e1; rw [hch.1, hch.2.1]; exact g.b0
      · exact g.b0
    · rw [operWrite_chReg hc ho hb (by simp [IsChBase]), ec]
      split
      · rename_i e1; subst e1; rw [hch.2.2.1, hch.2.2.2.1, hch.2.2.2.2]; exact g.b4
      · exact g.b4
    · intro op' ho'
      refine ⟨fun b' hb' hb4 => ?_⟩
      have g' := (g.ops op' ho').reg b' hb' hb4
      rw [operWrite_opReg hc ho hb hc' ho' hb', ec]
      split
      · rename_i e1
        obtain ⟨rfl, rfl, rfl⟩ := e1
        rw [if_pos rfl, hd hb4]
        exact Nat.mod_eq_of_lt (enc_lt (get_ok hx.ops op) b)
      · rename_i e1
        split
        · rename_i e2; subst e2
          by_cases e3 : op' = op
          · subst e3
            rw [henc b' hb' hb4 (by rintro rfl; exact e1 ⟨rfl, rfl, rfl⟩)]; exact g'
          · rw [hoth op' ho' e3]; exact g'
        · exact g'
  · rw [e.lfoEnable, e.lfoFrequency]; exact h.lfo
  · rw [operWrite_global ho hb (by omega), e.lfoEnable, e.lfoFrequency]; exact h.r22
  · rw [operWrite_global ho hb (by omega), e.specialMode]; exact h.r27
  · rw [operWrite_global ho hb (by omega), e.dacEnable]; exact h.r2B

/-- A channel register write after a change `s.ch c ↦ x`. -/
theorem Inv.chanWrite {s : St} (h : Inv s) {c b d : Nat} (x : FmChannel) (hc : c < 6)
    (hb : IsChBase b) (hx : x.Ok) (hops : x.ops = (s.ch c).ops)
    (h0 : b ≠ 0xB0 → x.feedback = (s.ch c).feedback ∧ x.algorithm = (s.ch c).algorithm)
    (h4 : b ≠ 0xB4 → x.stereo = (s.ch c).stereo ∧ x.ams = (s.ch c).ams ∧ x.fms = (s.ch c).fms)
    (d0 : b = 0xB0 → d = x.feedback * 8 + x.algorithm)
    (d4 : b = 0xB4 → d = x.stereo * 64 + x.ams * 16 + x.fms) :
    Inv (writeChannelReg { s with ch := upd s.ch c x } c b d) := by
  have e := chanWrite_same { s with ch := upd s.ch c x } c b d
  refine ⟨e.fault.trans h.fault, ?_, ?_, ?_, ?_, ?_⟩
  · intro c' hc'
    have g := h.ch c' hc'
    have ec : (writeChannelReg { s with ch := upd s.ch c x } c b d).ch c' =
        if c' = c then x else s.ch c' := by rw [e.ch]; rfl
    refine ⟨?_, ?_, ?_, ?_, ?_⟩
    · rw [ec]; split
      · exact hx
      · exact g.ok
    · rw [e.vol]; exact g.vol
    · rw [chanWrite_chReg hc hc' hb (by simp [IsChBase]), ec]
      split
      · rename_i e1
        obtain ⟨rfl, rfl⟩ := e1
        rw [if_pos rfl, d0 rfl]
        have := hx.feedback; have := hx.algorithm; omega
      · rename_i e1
        split
        · rename_i e2; subst e2
          obtain ⟨a1, a2⟩ := h0 (by rintro rfl; exact e1 ⟨rfl, rfl⟩)
          rw [a1, a2]; exact g.b0
        · exact g.b0
    · rw [chanWrite_chReg hc hc' hb (by simp [IsChBase]), ec]
      split
      · rename_i e1
        obtain ⟨rfl, rfl⟩ := e1
        rw [if_pos rfl, d4 rfl]
        have := hx.stereo; have := hx.ams; have := hx.fms; omega
      · rename_i e1
        split
        · rename_i e2; subst e2
          obtain ⟨a1, a2, a3⟩ := h4 (by rintro rfl; exact e1 ⟨rfl, rfl⟩)
          rw [a1, a2, a3]; exact g.b4
        · exact g.b4
    · intro op' ho'
      refine ⟨fun b' hb' hb4 => ?_⟩
      have g' := (g.ops op' ho').reg b' hb' hb4
      rw [chanWrite_opReg hc hb hb', ec]
      split
      · rename_i e2; subst e2; rw [hops]; exact g'
      · exact g'
  · rw [e.lfoEnable, e.lfoFrequency]; exact h.lfo
  · rw [chanWrite_global hb (by omega), e.lfoEnable, e.lfoFrequency]; exact h.r22
  · rw [chanWrite_global hb (by omega), e.specialMode]; exact h.r27
  · rw [chanWrite_global hb (by omega), e.dacEnable]; exact h.r2B

theorem upd_self {α : Type} (f : Nat → α) (i : Nat) : upd f i (f i) = f := by
  funext j; simp only [upd]; split
  · rename_i e; rw [e]
  · rfl

theorem Inv.chOk {s : St} (h : Inv s) {c : Nat} (hc : c < 6) : (s.ch c).Ok := (h.ch c hc).ok

/-- Setters of one operator parameter. -/
theorem Inv.operSet {s : St} (h : Inv s) {c op b d : Nat} (f : Operator → Operator) (hc : c < 6)
    (ho : op < 4) (hb : IsOpBase b)
    (hf : ((s.ch c).ops.get op).Ok → (f ((s.ch c).ops.get op)).Ok)
    (henc : ∀ b', IsOpBase b' → b' ≠ 0x40 → b' ≠ b →
      enc b' (f ((s.ch c).ops.get op)) = enc b' ((s.ch c).ops.get op))
    (hd : b ≠ 0x40 → d = enc b (f ((s.ch c).ops.get op))) :
    Inv (writeOperatorReg (onOp s c op f) c op b d) := by
  have k := h.chOk hc
  have e := @get_set (s.ch c).ops op op (f ((s.ch c).ops.get op)) ho ho
  rw [if_pos rfl] at e
  have := h.operWrite (c := c) (op := op) (b := b) (d := d)
    ({ s.ch c with ops := (s.ch c).ops.set op (f ((s.ch c).ops.get op)) }) hc ho hb
    ⟨k.algorithm, k.feedback, k.stereo, k.ams, k.fms, k.octave, k.freqNumber,
      set_ok k.ops op (hf (get_ok k.ops op))⟩
    ⟨rfl, rfl, rfl, rfl, rfl⟩
    (fun op' ho' hne => by rw [get_set ho ho', if_neg (Ne.symm hne)])
    (fun b' x y z => by rw [e]; exact henc b' x y z)
    (fun x => by rw [e]; exact hd x)
  simpa only [onOp, hc, ho, and_self, if_true] using this

theorem Inv.tlWrite {s : St} (h : Inv s) {c op : Nat} (d : Nat) (hc : c < 6) (ho : op < 4) :
    Inv (writeOperatorReg s c op 0x40 d) := by
  have := h.operWrite (c := c) (op := op) (b := 0x40) (d := d) (s.ch c) hc ho (by simp [IsOpBase])
    (h.chOk hc) ⟨rfl, rfl, rfl, rfl, rfl⟩ (fun _ _ _ => rfl) (fun _ _ _ _ => rfl) (by simp)
  rwa [upd_self] at this

/-- `volume_adjusted_total_level` never reads outside its table for 7-bit volumes and computes what it
should. -/
theorem scaleTotalLevel_eq {v tl : Nat} (hv : v < 128) (ht : tl < 128) :
    scaleTotalLevel v tl =
      some (127 - (127 - tl) * (127 - volumeToTotalLevels.getD v 0) / 127) := by
  have hl : volumeToTotalLevels.length = 128 := by decide +kernel
  have hm : ∀ x ∈ volumeToTotalLevels, x < 128 := by decide +kernel
  have hx : volumeToTotalLevels[v]? = some (volumeToTotalLevels[v]'(by omega)) :=
    List.getElem?_eq_getElem (by omega)
  have hlt := hm _ (List.getElem_mem (l := volumeToTotalLevels) (n := v) (by omega))
  simp only [scaleTotalLevel, hx, List.getD_eq_getElem?_getD, Option.getD_some]
  generalize volumeToTotalLevels[v]'(by omega) = t at *
  have e1 : toU8 (0x7F - (t : Int)) = 127 - t := by unfold toU8; omega
  have e2 : toU8 (0x7F - (tl : Int)) = 127 - tl := by unfold toU8; omega
  rw [e1, e2]
  have h3 : (127 - tl) * (127 - t) / 127 ≤ 127 := by
    have : (127 - tl) * (127 - t) ≤ 127 * 127 := Nat.mul_le_mul (by omega) (by omega)
    omega
  generalize (127 - tl) * (127 - t) / 127 = q at *
  have e3 : toU8 ((q : Nat) : Int) = q := by unfold toU8; omega
  rw [e3]
  congr 1
  unfold toU8; omega

theorem isOutputOperator_eq {a op : Nat} (ha : a < 8) (ho : op < 4) :
    isOutputOperator a op = decide (op ∈ carriers a) := by
  have : ∀ a : Fin 8, ∀ op : Fin 4,
      isOutputOperator a.val op.val = decide (op.val ∈ carriers a.val) := by decide
  exact this ⟨a, ha⟩ ⟨op, ho⟩

theorem effectiveTotalLevel_eq {s : St} {c op tl : Nat} (ha : (s.ch c).algorithm < 8)
    (hv : s.vol c < 128) (ho : op < 4) (ht : tl < 128) :
    effectiveTotalLevel s c op tl = some (wantTl (s.ch c).algorithm (s.vol c) op tl) := by
  simp only [effectiveTotalLevel, isOutputOperator_eq ha ho, wantTl, decide_eq_true_eq]
  split
  · exact scaleTotalLevel_eq hv ht
  · rfl

theorem Inv.writeTl_eq {s : St} (h : Inv s) {c op : Nat} (hc : c < 6) (ho : op < 4) :
    writeOperatorTotalLevel s c op = writeOperatorReg s c op 0x40
      (wantTl (s.ch c).algorithm (s.vol c) op ((s.ch c).ops.get op).totalLevel) := by
  have g := h.ch c hc
  simp only [writeOperatorTotalLevel, guardOp, hc, ho, and_self, if_true,
    effectiveTotalLevel_eq g.ok.algorithm g.vol ho (get_ok g.ok.ops op).totalLevel]

theorem Inv.writeTl {s : St} (h : Inv s) {c op : Nat} (hc : c < 6) (ho : op < 4) :
    Inv (writeOperatorTotalLevel s c op) := by
  rw [h.writeTl_eq hc ho]; exact h.tlWrite _ hc ho


theorem operWrite_ch {s : St} {c op b d : Nat} : (writeOperatorReg s c op b d).ch = s.ch :=
  (operWrite_same ..).ch
theorem operWrite_vol {s : St} {c op b d : Nat} : (writeOperatorReg s c op b d).vol = s.vol :=
  (operWrite_same ..).vol

/-- `update_channel`'s loop body is seven register writes. -/
theorem updateOperator_eq {s : St} {c op : Nat} (hc : c < 6) (ho : op < 4) (hok : (s.ch c).Ok)
    (hv : s.vol c < 128) :
    updateOperator s c op =
      writeOperatorReg (writeOperatorReg (writeOperatorReg (writeOperatorReg (writeOperatorReg
        (writeOperatorReg (writeOperatorReg s c op 0x30 (enc 0x30 ((s.ch c).ops.get op)))
        c op 0x50 (enc 0x50 ((s.ch c).ops.get op)))
        c op 0x60 (enc 0x60 ((s.ch c).ops.get op)))
        c op 0x70 (enc 0x70 ((s.ch c).ops.get op)))
        c op 0x80 (enc 0x80 ((s.ch c).ops.get op)))
        c op 0x40 (wantTl (s.ch c).algorithm (s.vol c) op ((s.ch c).ops.get op).totalLevel))
        c op 0x90 (enc 0x90 ((s.ch c).ops.get op)) := by
  have e := fun s' (h1 : s'.ch = s.ch) (h2 : s'.vol = s.vol) =>
    @effectiveTotalLevel_eq s' c op ((s.ch c).ops.get op).totalLevel
      (by rw [h1]; exact hok.algorithm) (by rw [h2]; exact hv) ho (get_ok hok.ops op).totalLevel
  simp only [updateOperator, writeOperatorMultipleAndDetune, writeOperatorRateScalingAndAttackRate,
    writeOperatorAmplitudeModulationAndDecayRate, writeOperatorSustainRate,
    writeOperatorReleaseRateAndSustainLevel, writeOperatorTotalLevel, writeOperatorSsgEg, guardOp,
    hc, ho, and_self, if_true, operWrite_ch, operWrite_vol, e, enc]
  simp

theorem updateOperator_same {s : St} {c op : Nat} (hc : c < 6) (ho : op < 4) (hok : (s.ch c).Ok)
    (hv : s.vol c < 128) : Same s (updateOperator s c op) := by
  rw [updateOperator_eq hc ho hok hv]
  exact (operWrite_same ..).trans <| (operWrite_same ..).trans <| (operWrite_same ..).trans <|
    (operWrite_same ..).trans <| (operWrite_same ..).trans <| (operWrite_same ..).trans <|
    operWrite_same ..

theorem wantTl_lt {a v op tl : Nat} (h : tl < 128) : wantTl a v op tl < 128 := by
  unfold wantTl; split <;> omega

theorem updateOperator_opReg {s : St} {c op c' op' b : Nat} (hc : c < 6) (ho : op < 4)
    (hok : (s.ch c).Ok) (hv : s.vol c < 128) (hc' : c' < 6) (ho' : op' < 4) (hb : IsOpBase b) :
    opReg (updateOperator s c op).out b c' op' =
      if c = c' ∧ op = op' then
        if b = 0x40 then wantTl (s.ch c).algorithm (s.vol c) op ((s.ch c).ops.get op).totalLevel
        else enc b ((s.ch c).ops.get op)
      else opReg s.out b c' op' := by
  have w := fun s d b0 (h : IsOpBase b0) =>
    @operWrite_opReg s c op b0 d c' op' b hc ho h hc' ho' hb
  rw [updateOperator_eq hc ho hok hv, w _ _ 0x90 (by simp [IsOpBase]), w _ _ 0x40 (by simp [IsOpBase]),
    w _ _ 0x80 (by simp [IsOpBase]), w _ _ 0x70 (by simp [IsOpBase]), w _ _ 0x60 (by simp [IsOpBase]),
    w _ _ 0x50 (by simp [IsOpBase]), w _ _ 0x30 (by simp [IsOpBase])]
  have l := enc_lt (get_ok hok.ops op)
  have l' := @wantTl_lt (s.ch c).algorithm (s.vol c) op _ (get_ok hok.ops op).totalLevel
  by_cases h : c = c' ∧ op = op'
  · obtain ⟨rfl, rfl⟩ := h
    rcases hb with rfl | rfl | rfl | rfl | rfl | rfl | rfl <;>
      simp [Nat.mod_eq_of_lt (l _)]
    omega
  · simp only [h, and_false, if_false]

theorem updateOperator_chReg {s : St} {c op c' b : Nat} (hc : c < 6) (ho : op < 4)
    (hok : (s.ch c).Ok) (hv : s.vol c < 128) (hb : IsChBase b) :
    chReg (updateOperator s c op).out b c' = chReg s.out b c' := by
  have w := fun s d b0 (h : IsOpBase b0) => @operWrite_chReg s c op b0 d c' b hc ho h hb
  rw [updateOperator_eq hc ho hok hv, w _ _ 0x90 (by simp [IsOpBase]), w _ _ 0x40 (by simp [IsOpBase]),
    w _ _ 0x80 (by simp [IsOpBase]), w _ _ 0x70 (by simp [IsOpBase]), w _ _ 0x60 (by simp [IsOpBase]),
    w _ _ 0x50 (by simp [IsOpBase]), w _ _ 0x30 (by simp [IsOpBase])]

theorem updateOperator_global {s : St} {c op r : Nat} (hc : c < 6) (ho : op < 4)
    (hok : (s.ch c).Ok) (hv : s.vol c < 128) (hr : r < 0x30) :
    ymReg (updateOperator s c op).out 0 r = ymReg s.out 0 r := by
  have w := fun s d b0 (h : IsOpBase b0) => @operWrite_global s c op b0 d r ho h hr
  rw [updateOperator_eq hc ho hok hv, w _ _ 0x90 (by simp [IsOpBase]), w _ _ 0x40 (by simp [IsOpBase]),
    w _ _ 0x80 (by simp [IsOpBase]), w _ _ 0x70 (by simp [IsOpBase]), w _ _ 0x60 (by simp [IsOpBase]),
    w _ _ 0x50 (by simp [IsOpBase]), w _ _ 0x30 (by simp [IsOpBase])]

/-- What `update_channel` does. -/
structure Updated (c : Nat) (s s' : St) : Prop where
  same : Same s s'
  opReg : ∀ c' < 6, ∀ op < 4, ∀ b, IsOpBase b → Synth.opReg s'.out b c' op =
    if c = c' then
      if b = 0x40 then wantTl (s.ch c).algorithm (s.vol c) op ((s.ch c).ops.get op).totalLevel
      else enc b ((s.ch c).ops.get op)
    else Synth.opReg s.out b c' op
  chReg : ∀ c' < 6, ∀ b, IsChBase b → Synth.chReg s'.out b c' =
    if c = c' ∧ b = 0xB0 then (s.ch c).feedback * 8 + (s.ch c).algorithm
    else if c = c' ∧ b = 0xB4 then (s.ch c).stereo * 64 + (s.ch c).ams * 16 + (s.ch c).fms
    else Synth.chReg s.out b c'
  global : ∀ r < 0x30, ymReg s'.out 0 r = ymReg s.out 0 r

theorem updateChannel_updated {s : St} {c : Nat} (hc : c < 6) (hok : (s.ch c).Ok)
    (hv : s.vol c < 128) : Updated c s (updateChannel s c) := by
  have e1 : writeAlgorithmAndFeedback s c =
      writeChannelReg s c 0xB0 ((s.ch c).feedback * 8 + (s.ch c).algorithm) := by
    simp only [writeAlgorithmAndFeedback, guardCh, hc, if_true]
  have e2 : ∀ s' : St, writeStereoAmsFms s' c =
      writeChannelReg s' c 0xB4 ((s'.ch c).stereo * 64 + (s'.ch c).ams * 16 + (s'.ch c).fms) := by
    intro s'; simp only [writeStereoAmsFms, guardCh, hc, if_true]
  have s1 := chanWrite_same s c 0xB0 ((s.ch c).feedback * 8 + (s.ch c).algorithm)
  have s2 := s1.trans (chanWrite_same (writeChannelReg s c 0xB0 ((s.ch c).feedback * 8 + (s.ch c).algorithm))
    c 0xB4 ((s.ch c).stereo * 64 + (s.ch c).ams * 16 + (s.ch c).fms))
  have r2 := fun c' (hc' : c' < 6) b (hb : IsChBase b) =>
    @chanWrite_chReg (writeChannelReg s c 0xB0 ((s.ch c).feedback * 8 + (s.ch c).algorithm))
      c 0xB4 ((s.ch c).stereo * 64 + (s.ch c).ams * 16 + (s.ch c).fms) c' b hc hc'
      (by simp [IsChBase]) hb
  have r1 := fun c' (hc' : c' < 6) b (hb : IsChBase b) =>
    @chanWrite_chReg s c 0xB0 ((s.ch c).feedback * 8 + (s.ch c).algorithm) c' b hc hc'
      (by simp [IsChBase]) hb
  have o2 := fun c' op b (hb : IsOpBase b) =>
    @chanWrite_opReg (writeChannelReg s c 0xB0 ((s.ch c).feedback * 8 + (s.ch c).algorithm))
      c 0xB4 ((s.ch c).stereo * 64 + (s.ch c).ams * 16 + (s.ch c).fms) c' op b hc
      (by simp [IsChBase]) hb
  have o1 := fun c' op b (hb : IsOpBase b) =>
    @chanWrite_opReg s c 0xB0 ((s.ch c).feedback * 8 + (s.ch c).algorithm) c' op b hc
      (by simp [IsChBase]) hb
  have g2 := fun r (hr : r < 0x30) =>
    @chanWrite_global (writeChannelReg s c 0xB0 ((s.ch c).feedback * 8 + (s.ch c).algorithm))
      c 0xB4 ((s.ch c).stereo * 64 + (s.ch c).ams * 16 + (s.ch c).fms) r (by simp [IsChBase]) hr
  have g1 := fun r (hr : r < 0x30) =>
    @chanWrite_global s c 0xB0 ((s.ch c).feedback * 8 + (s.ch c).algorithm) r (by simp [IsChBase]) hr
  have eu : updateChannel s c = updateOperator (updateOperator (updateOperator (updateOperator
      (writeChannelReg (writeChannelReg s c 0xB0 ((s.ch c).feedback * 8 + (s.ch c).algorithm))
      c 0xB4 ((s.ch c).stereo * 64 + (s.ch c).ams * 16 + (s.ch c).fms)) c 0) c 1) c 2) c 3 := by
    simp only [updateChannel, e1, e2, s1.ch, show List.range 4 = [0, 1, 2, 3] from rfl,
      List.foldl_cons, List.foldl_nil]
  rw [eu]
  generalize hs2 : writeChannelReg (writeChannelReg s c 0xB0 ((s.ch c).feedback * 8 + (s.ch c).algorithm))
      c 0xB4 ((s.ch c).stereo * 64 + (s.ch c).ams * 16 + (s.ch c).fms) = t at *
  have k0 : (t.ch c).Ok := by rw [s2.ch]; exact hok
  have v0 : t.vol c < 128 := by rw [s2.vol]; exact hv
  have m0 := updateOperator_same (s := t) (op := 0) hc (by omega) k0 v0
  have u0 := fun c' op' b => @updateOperator_opReg t c 0 c' op' b hc (by omega) k0 v0
  have x0 := fun c' b => @updateOperator_chReg t c 0 c' b hc (by omega) k0 v0
  have y0 := fun r => @updateOperator_global t c 0 r hc (by omega) k0 v0
  generalize updateOperator t c 0 = t0 at *
  have k1 : (t0.ch c).Ok := by rw [m0.ch]; exact k0
  have v1 : t0.vol c < 128 := by rw [m0.vol]; exact v0
  have m1 := updateOperator_same (s := t0) (op := 1) hc (by omega) k1 v1
  have u1 := fun c' op' b => @updateOperator_opReg t0 c 1 c' op' b hc (by omega) k1 v1
  have x1 := fun c' b => @updateOperator_chReg t0 c 1 c' b hc (by omega) k1 v1
  have y1 := fun r => @updateOperator_global t0 c 1 r hc (by omega) k1 v1
  generalize updateOperator t0 c 1 = t1 at *
  have k2 : (t1.ch c).Ok := by rw [m1.ch]; exact k1
  have v2 : t1.vol c < 128 := by rw [m1.vol]; exact v1
  have m2 := updateOperator_same (s := t1) (op := 2) hc (by omega) k2 v2
  have u2 := fun c' op' b => @updateOperator_opReg t1 c 2 c' op' b hc (by omega) k2 v2
  have x2 := fun c' b => @updateOperator_chReg t1 c 2 c' b hc (by omega) k2 v2
  have y2 := fun r => @updateOperator_global t1 c 2 r hc (by omega) k2 v2
  generalize updateOperator t1 c 2 = t2 at *
  have k3 : (t2.ch c).Ok := by rw [m2.ch]; exact k2
  have v3 : t2.vol c < 128 := by rw [m2.vol]; exact v2
  have m3 := updateOperator_same (s := t2) (op := 3) hc (by omega) k3 v3
  have u3 := fun c' op' b => @updateOperator_opReg t2 c 3 c' op' b hc (by omega) k3 v3
  have x3 := fun c' b => @updateOperator_chReg t2 c 3 c' b hc (by omega) k3 v3
  have y3 := fun r => @updateOperator_global t2 c 3 r hc (by omega) k3 v3
  generalize updateOperator t2 c 3 = t3 at *
  have c2 : t2.ch = s.ch := by rw [m2.ch, m1.ch, m0.ch, s2.ch]
  have c1 : t1.ch = s.ch := by rw [m1.ch, m0.ch, s2.ch]
  have c0 : t0.ch = s.ch := by rw [m0.ch, s2.ch]
  have d2 : t2.vol = s.vol := by rw [m2.vol, m1.vol, m0.vol, s2.vol]
  have d1 : t1.vol = s.vol := by rw [m1.vol, m0.vol, s2.vol]
  have d0 : t0.vol = s.vol := by rw [m0.vol, s2.vol]
  refine ⟨s2.trans (m0.trans (m1.trans (m2.trans m3))), ?_, ?_, ?_⟩
  · intro c' hc' op ho b hb
    rw [u3 c' op b hc' ho hb, u2 c' op b hc' ho hb, u1 c' op b hc' ho hb, u0 c' op b hc' ho hb,
      o2 c' op b hb, o1 c' op b hb, c2, c1, c0, s2.ch, d2, d1, d0, s2.vol]
    by_cases hcc : c = c'
    · subst hcc
      match op with
      | 0 | 1 | 2 | 3 => simp
      | n + 4 => omega
    · simp [hcc]
  · intro c' hc' b hb
    rw [x3 c' b hb, x2 c' b hb, x1 c' b hb, x0 c' b hb, r2 c' hc' b hb, r1 c' hc' b hb]
    have l1 : ((s.ch c).feedback * 8 + (s.ch c).algorithm) % 256 =
        (s.ch c).feedback * 8 + (s.ch c).algorithm := by
      have := hok.feedback; have := hok.algorithm; omega
    have l2 : ((s.ch c).stereo * 64 + (s.ch c).ams * 16 + (s.ch c).fms) % 256 =
        (s.ch c).stereo * 64 + (s.ch c).ams * 16 + (s.ch c).fms := by
      have := hok.stereo; have := hok.ams; have := hok.fms; omega
    rw [l1, l2]
    rcases hb with rfl | rfl | rfl | rfl <;> by_cases hcc : c = c' <;> simp [hcc]
  · intro r hr
    rw [y3 r hr, y2 r hr, y1 r hr, y0 r hr, g2 r hr, g1 r hr]

/-- `update_channel` synchronises its channel and leaves the others alone. -/
theorem Updated.sync {c : Nat} {s s' : St} (u : Updated c s s') (hc : c < 6) (hok : (s.ch c).Ok)
    (hv : s.vol c < 128) : ChSync s' c := by
  refine ⟨by rw [u.same.ch]; exact hok, by rw [u.same.vol]; exact hv, ?_, ?_, ?_⟩
  · rw [u.chReg c hc _ (by simp [IsChBase]), u.same.ch]; simp
  · rw [u.chReg c hc _ (by simp [IsChBase]), u.same.ch]; simp
  · intro op ho
    refine ⟨fun b hb hb4 => ?_⟩
    rw [u.opReg c hc op ho b hb, u.same.ch]; simp [hb4]

theorem Updated.other {c c' : Nat} {s s' : St} (u : Updated c s s') (hne : c ≠ c')
    (hc' : c' < 6) (h : ChSync s c') : ChSync s' c' := by
  refine ⟨by rw [u.same.ch]; exact h.ok, by rw [u.same.vol]; exact h.vol, ?_, ?_, ?_⟩
  · rw [u.chReg c' hc' _ (by simp [IsChBase]), u.same.ch]; simp [hne, h.b0]
  · rw [u.chReg c' hc' _ (by simp [IsChBase]), u.same.ch]; simp [hne, h.b4]
  · intro op ho
    refine ⟨fun b hb hb4 => ?_⟩
    rw [u.opReg c' hc' op ho b hb, u.same.ch]; simp [hne, (h.ops op ho).reg b hb hb4]

end Mdmi.Synth
