import Verif.Proofs.MidiFmPitch
import Verif.Proofs.MidiFmVol
/-! Channel 3 special mode. -/
namespace Mdmi.Fm
open Mdmi.Synth (ymReg keyed writeRegSafe)

theorem smRegs_of {o : Nat} (h : o < 3) : smRegs o = (0xA8 + (o + 1) % 3, 0xAC + (o + 1) % 3) := by
  have : o = 0 ∨ o = 1 ∨ o = 2 := by omega
  rcases this with rfl | rfl | rfl <;> rfl

theorem smPitch_reg (s : Synth.St) (o b f p r : Nat) (ho : o < 3) :
    ymReg (Synth.specialModePitch s o b f).out p r =
      if p = 0 ∧ r = (smRegs o).1 then f % 256
      else if p = 0 ∧ r = (smRegs o).2 then ((f >>> 8) ||| (b <<< 3)) % 256 else ymReg s.out p r := by
  simp only [Synth.specialModePitch, Synth.write_reg, smRegs_of ho]
  simp only [eq_comm (a := p), eq_comm (a := r)]

theorem smPitch_key (s : Synth.St) (o b f c : Nat) :
    keyed (Synth.specialModePitch s o b f).out c = keyed s.out c := by
  simp only [Synth.specialModePitch, Synth.write_key]
  rw [if_neg (by omega), if_neg (by omega)]

theorem smPitch_freq (s : Synth.St) {o b f : Nat} (ho : o < 3) (hb : b < 8) (hf : f < 2048) :
    smFreq (Synth.specialModePitch s o b f).out o = (b, f) := by
  have e : (f >>> 8) ||| (b <<< 3) = b * 8 + f / 256 := by
    rw [Synth.freq_or (a := f >>> 8) (by rw [Nat.shiftRight_eq_div_pow]; omega) hb, Nat.shiftRight_eq_div_pow]
  simp only [smFreq, smPitch_reg _ _ _ _ _ _ ho, e]
  have h1 : ¬ (smRegs o).2 = (smRegs o).1 := by rw [smRegs_of ho]; simp only; omega
  simp only [h1, and_false, if_false, true_and, if_true]
  simp only [Prod.mk.injEq]; omega

/-- What a special-mode volume call writes. -/
theorem smVolume_reg {s : Synth.St} (h : Synth.Safe s) {o v : Nat} (ho : o < 3) (hv : v < 128) :
    (∀ p r, ymReg (Synth.specialModeVolume s o v).out p r =
      if o ∈ Synth.carriers (s.ch 2).algorithm ∧ p = 0 ∧ r = 0x42 + Synth.opOffset o then
        Synth.wantTl (s.ch 2).algorithm (s.vol 2) o
          (Synth.wantTl (s.ch 2).algorithm v o ((s.ch 2).ops.get o).totalLevel)
      else ymReg s.out p r) ∧
    ∀ c, keyed (Synth.specialModeVolume s o v).out c = keyed s.out c := by
  have g := h.ok 2 (by omega)
  have gv := h.vol 2 (by omega)
  have ht := (Synth.get_ok g.ops o).totalLevel
  have oo := @Synth.opOffset_lt o
  unfold Synth.specialModeVolume
  simp only [Synth.guardOp, show (2 : Nat) < 6 by omega, show o < 4 by omega, and_self, if_true,
    Synth.isOutputOperator_eq g.algorithm (show o < 4 by omega), Synth.scaleTotalLevel_eq hv ht]
  by_cases hm : o ∈ Synth.carriers (s.ch 2).algorithm
  · have e : decide (o ∈ Synth.carriers (s.ch 2).algorithm) ≠ false := by simp [hm]
    rw [if_neg e]
    have w : 127 - (127 - ((s.ch 2).ops.get o).totalLevel) * (127 - Synth.volumeToTotalLevels.getD v 0) / 127 =
        Synth.wantTl (s.ch 2).algorithm v o ((s.ch 2).ops.get o).totalLevel := by
      unfold Synth.wantTl; rw [if_pos hm]
    have wl := @Synth.wantTl_lt (s.ch 2).algorithm v o _ ht
    rw [w, Synth.effectiveTotalLevel_eq g.algorithm gv (by omega) wl]
    have wl2 := @Synth.wantTl_lt (s.ch 2).algorithm (s.vol 2) o _ wl
    generalize Synth.wantTl (s.ch 2).algorithm (s.vol 2) o _ = d at *
    constructor
    · intro p r
      simp only [Synth.writeOperatorReg, Synth.writeChannelReg, Synth.write_reg, hm, true_and,
        Synth.regOperatorIndex_eq (show o < 4 by omega), eq_comm (b := p), eq_comm (b := r)]
      have e1 : ((0x40 + Synth.opOffset o) % 256 + 2 % 3) % 256 = 0x42 + Synth.opOffset o := by omega
      rw [e1, Nat.mod_eq_of_lt (by omega : d < 256), if_neg (show ¬ 2 > 2 by omega)]
    · intro c
      simp only [Synth.writeOperatorReg, Synth.writeChannelReg, Synth.write_key,
        Synth.regOperatorIndex_eq (show o < 4 by omega)]
      rw [if_neg (by omega)]
  · have e : decide (o ∈ Synth.carriers (s.ch 2).algorithm) = false := by simp [hm]
    rw [if_pos e]
    exact ⟨fun p r => by simp [hm], fun _ => rfl⟩

end Mdmi.Fm
