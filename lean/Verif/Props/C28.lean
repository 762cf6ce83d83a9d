import Verif.Proofs.SynthReq
/-! C28: the YM2612 registers match the parameters the driver was asked for and reports. -/
namespace Mdmi.Props
open Mdmi Mdmi.Synth

/-- **C28** (timbre).  After any legal history no undefined behaviour has occurred, and for each channel
the values last written to the chip decode to the parameters the calls asked for, which are also the
ones the driver reports: algorithm, feedback, panning, LFO sensitivities and every operator parameter
other than the total level. -/
theorem C28_timbre (b : Bool) (p0 : FmPreset) (hp : p0.Ok) (ops : List Op) (hl : ∀ op ∈ ops, op.Legal)
    (c : Nat) (hc : c < 6) :
    let s := hist b p0 ops
    s.fault = false ∧ s.ch c = requested c p0 ops ∧
    (chipChannel s.out c).timbre = (requested c p0 ops).timbre := by
  have i := hist_inv (b := b) hp ops hl
  have r := (hist_req (b := b) hp ops hl hc).1
  exact ⟨i.fault, r, by rw [← r]; exact (i.ch c hc).chip⟩

/-- **C28** (globals).  LFO enable and frequency, special mode and DAC enable on the chip are the last
requested ones. -/
theorem C28_globals (b : Bool) (p0 : FmPreset) (hp : p0.Ok) (ops : List Op) (hl : ∀ op ∈ ops, op.Legal) :
    let s := hist b p0 ops
    let g := ops.foldl Op.requestGlobal (1, 0, false, false)
    (s.lfoEnable, s.lfoFrequency, s.specialMode, s.dacEnable) = g ∧
    ymReg s.out 0 0x22 = g.1 * 8 + g.2.1 ∧ ymReg s.out 0 0x27 = (if g.2.2.1 then 0x40 else 0) ∧
    ymReg s.out 0 0x2B = (if g.2.2.2 then 0x80 else 0) := by
  have i := hist_inv (b := b) hp ops hl
  have e : Synth.glob (hist b p0 ops) = ops.foldl Op.requestGlobal (1, 0, false, false) := by
    have h0 : Synth.glob (Synth.init (boot b) p0) = (1, 0, false, false) :=
      step_glob (op := .init p0) ⟨by simp [Op.chan], by simp [Op.oper], hp⟩
    rw [← h0, hist_run]; exact run_glob ops hl
  simp only
  rw [← e]
  exact ⟨rfl, i.r22, i.r27, i.r2B⟩

/-- **C28** (keys and frequency).  A channel is keyed on exactly if the last of its key calls says so,
and the chip plays the frequency of the last pitch call. -/
theorem C28_keys_and_frequency (b : Bool) (p0 : FmPreset) (hp : p0.Ok) (ops : List Op)
    (hl : ∀ op ∈ ops, op.Legal) (c : Nat) (hc : c < 6) :
    let s := hist b p0 ops
    keyed s.out c = ops.foldl (Op.requestKey c) false ∧
    (chipChannel s.out c).freq = ops.foldl (Op.requestFreq c) (0, 0) := by
  have h := run_chip (s := boot b) (.init p0 :: ops) (by
    intro op h
    rcases List.mem_cons.1 h with rfl | h
    · exact ⟨by simp [Op.chan], by simp [Op.oper], hp⟩
    · exact hl op h) hc
  rw [show (chipChannel (boot b).out c).freq = (0, 0) by simp [boot, chipChannel, chReg, ymReg, FmChannel.freq],
    show keyed (boot b).out c = false by simp [boot, keyed]] at h
  exact ⟨h.2, h.1⟩

/-- **C28** (reported frequency; partial).  The frequency the driver reports is the chip's, unless it is
(0, 0) because a preset was loaded since the last pitch call. -/
theorem C28_reported_frequency_partial (b : Bool) (p0 : FmPreset) (hp : p0.Ok) (ops : List Op)
    (hl : ∀ op ∈ ops, op.Legal) (c : Nat) (hc : c < 6) :
    let s := hist b p0 ops
    (chipChannel s.out c).freq = (s.ch c).freq ∨ (s.ch c).freq = (0, 0) := by
  have i := hist_inv (b := b) hp ops hl
  have f0 : FreqOk (Synth.init (boot b) p0) c := .inr (by rw [(init_ch p0 (boot b) hc).1]; rfl)
  have k := run_freq (init_inv (s := boot b) hp (by simp only [boot])) ops hl hc f0
  rw [← hist_run] at k
  rcases k with h | h
  · exact .inl (h.chip (i.ch c hc).ok)
  · exact .inr h

/-- **C28** (total levels; partial: no change of algorithm and no special-mode volume on the channel since
the last preset load or initialisation).  The total level on the chip is the one asked for, on carriers
scaled by the channel's volume. -/
theorem C28_total_levels_partial (b : Bool) (p0 : FmPreset) (hp : p0.Ok) (pre post : List Op) (r : Op)
    (hl : ∀ op ∈ pre ++ r :: post, op.Legal) (c : Nat) (hc : c < 6)
    (hr : (∃ p, r = .init p) ∨ (∃ p, r = .preset c p))
    (hs : ∀ op ∈ post, ¬ op.staleTl c) (op : Nat) (ho : op < 4) :
    let s := hist b p0 (pre ++ r :: post)
    let x := requested c p0 (pre ++ r :: post)
    (chipOperator s.out c op).totalLevel =
      wantTl x.algorithm ((pre ++ r :: post).foldl (Op.requestVol c) 127) op (x.ops.get op).totalLevel := by
  have i := hist_inv (b := b) hp _ hl
  have q := hist_req (b := b) hp _ hl hc
  simp only
  rw [← q.1, ← q.2]
  refine TlSync.chip ?_ (i.ch c hc).ok ho
  have i1 := hist_inv (b := b) hp pre (fun o h => hl o (by simp [h]))
  have hlr := hl r (by simp)
  have i2 := step_inv i1 hlr
  have e : hist b p0 (pre ++ r :: post) = Synth.run (Synth.step (hist b p0 pre) r) post := by
    simp [hist, Synth.run, List.foldl_append]
  rw [e]
  refine run_tl i2 post (fun o h => hl o (by simp [h])) hc hs ?_
  rcases hr with ⟨p, rfl⟩ | ⟨p, rfl⟩
  · exact init_tl hlr.2.2 _ c hc
  · exact preset_tl i1 hlr.2.2 hc

private def op0 : Operator := ⟨1, 0, 31, 0, 5, 0, 2, 3, 7, 20, 0⟩
private def pr : FmPreset := ⟨0, 3, 0, 0, ⟨op0, op0, op0, op0⟩⟩

/-- The full statement is false for total levels: after the volume was lowered, switching to algorithm 7
makes every operator a carrier, but the levels already on the chip stay those of modulators. -/
theorem C28_algorithm_change_leaves_levels_stale :
    let ops : List Op := [.volume 0 64, .algorithm 0 7]
    let s := hist false pr ops
    s.fault = false ∧ (requested 0 pr ops).algorithm = 7 ∧
    (chipOperator s.out 0 0).totalLevel = 20 ∧
    wantTl 7 64 0 ((requested 0 pr ops).ops.get 0).totalLevel = 29 := by decide +kernel

/-- Likewise a special-mode note leaves the level of channel 3 that the parameters do not ask for. -/
theorem C28_special_mode_note_leaves_level_stale :
    let ops : List Op := [.specialModeVolume 3 0]
    let s := hist false pr ops
    (chipOperator s.out 2 3).totalLevel = 127 ∧
    wantTl 0 127 3 ((requested 2 pr ops).ops.get 3).totalLevel = 20 := by decide +kernel

/-- Loading a preset makes the driver report frequency (0, 0) while the chip still holds the old one. -/
theorem C28_preset_forgets_frequency :
    let s := hist false pr [.pitch 0 4 900, .preset 0 pr]
    (s.ch 0).freq = (0, 0) ∧ (chipChannel s.out 0).freq = (4, 900) := by decide +kernel

-- non-vacuity
example : let ops : List Op := [.attackRate 4 2 9, .volume 4 50, .preset 4 { pr with algorithm := 4 },
      .stereo 4 1, .detune 4 1 3, .totalLevel 4 3 40, .pitch 4 5 1000, .noteOn 4, .enableDac true, .multiple 4 0 12]
    let s := hist true pr ops
    s.fault = false ∧ (chipChannel s.out 4).freq = (5, 1000) ∧ keyed s.out 4 = true ∧ keyed s.out 3 = false ∧
    (chipChannel s.out 4).algorithm = 4 ∧ (chipChannel s.out 4).stereo = 1 ∧
    (chipOperator s.out 4 1).detune = 3 ∧ (chipOperator s.out 4 0).multiple = 12 ∧
    (chipOperator s.out 4 3).totalLevel = wantTl 4 50 3 40 ∧ wantTl 4 50 3 40 = 53 ∧
    (chipOperator s.out 4 2).totalLevel = 20 ∧ (chipOperator s.out 3 0).multiple = 1 := by decide +kernel
example : pr.Ok ∧ (Op.attackRate 4 2 9).Legal ∧ (Op.preset 4 pr).Legal := by
  have o : op0.Ok := by constructor <;> decide
  have p : pr.Ok := ⟨by decide, by decide, by decide, by decide, ⟨o, o, o, o⟩⟩
  exact ⟨p, ⟨by simp [Op.chan], by simp [Op.oper], trivial⟩, ⟨by simp [Op.chan], by simp [Op.oper], p⟩⟩

end Mdmi.Props
