import Verif.Model.Pitch
/-! Arithmetic of pitch/cents. -/
namespace Mdmi

theorem toU8_of {x : Int} (h0 : 0 ≤ x) (h : x < 256) : (toU8 x : Int) = x := by
  unfold toU8; omega

theorem toU8_nat {x : Nat} (h : x < 256) : toU8 (x : Int) = x := by unfold toU8; omega

theorem toS8_of {x : Int} (h0 : -128 ≤ x) (h : x < 128) : toS8 x = x := by unfold toS8; omega

theorem toS16_of {x : Int} (h0 : -32768 ≤ x) (h : x < 32768) : toS16 x = x := by unfold toS16; omega

theorem toU8_lt (x : Int) : toU8 x < 256 := by unfold toU8; omega

theorem pcShift_exact (pc : PitchCents) (add : Int)
    (h0 : 0 ≤ (pc.pitch : Int) * 100 + pc.cents + add)
    (h1 : (pc.pitch : Int) * 100 + pc.cents + add < 25600) :
    ((pcShift pc add).pitch : Int) * 100 + (pcShift pc add).cents =
        (pc.pitch : Int) * 100 + pc.cents + add ∧
      0 ≤ (pcShift pc add).cents ∧ (pcShift pc add).cents < 100 := by
  simp only [pcShift, toU8, toS8, toU16]
  omega

theorem pcShift_range (pc : PitchCents) (add : Int) :
    (pcShift pc add).pitch < 256 ∧ 0 ≤ (pcShift pc add).cents ∧ (pcShift pc add).cents < 100 := by
  simp only [pcShift, toU8, toS8, toU16]; omega

theorem pcShift_total (pc : PitchCents) (add : Int) (h0 : 0 ≤ 100 * (pc.pitch : Int) + pc.cents + add)
    (h1 : 100 * (pc.pitch : Int) + pc.cents + add < 32768) :
    100 * ((pcShift pc add).pitch : Int) + (pcShift pc add).cents = (100 * pc.pitch + pc.cents + add) % 25600 := by
  simp only [pcShift, toU8, toS8, toU16]
  rw [show (pc.pitch : Int) * 100 = 100 * pc.pitch by omega]
  generalize 100 * (pc.pitch : Int) + pc.cents + add = x at *
  have : x % 65536 = x := by omega
  rw [this]
  omega

end Mdmi
