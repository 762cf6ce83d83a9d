import Verif.Proofs.Pitch
/-! C20: pitch bend arithmetic. -/
namespace Mdmi.Props
open Mdmi

/-- Specification: the sounding pitch in cents above MIDI key 0.  `bend` is 0..16383 with 8192 the
centre, `rangeCents` the bend range in cents, `fine` the fine tune in cents. -/
def soundingCents (key : Nat) (cents : Int) (bend : Nat) (rangeCents : Int) (fine : Int) : Int :=
  100 * (key : Int) + cents + (((bend : Int) - 8192) * rangeCents).tdiv 8192 + fine

private theorem tdiv_bound (b r : Int) (hb0 : -8192 ≤ b) (hb1 : b ≤ 8191) (hr0 : 0 ≤ r)
    (hr1 : r ≤ 12827) : -12827 ≤ (b * r).tdiv 8192 ∧ (b * r).tdiv 8192 ≤ 12827 := by
  have h1 : b * r ≤ 8191 * r := Int.mul_le_mul_of_nonneg_right hb1 hr0
  have h2 : -8192 * r ≤ b * r := Int.mul_le_mul_of_nonneg_right hb0 hr0
  have h3 : (b * r).tdiv 8192 ≤ (8192 * r).tdiv 8192 := Int.tdiv_le_tdiv (by omega) (by omega)
  have h4 : (8192 * (-r)).tdiv 8192 ≤ (b * r).tdiv 8192 := Int.tdiv_le_tdiv (by omega) (by omega)
  rw [Int.mul_tdiv_cancel_left _ (by omega)] at h3 h4
  omega

/-- **C20** (partial).  For every key, current cents, bend, bend range and fine tune within MIDI
limits, as long as the bent pitch and the final pitch lie within `0 .. 25599` cents, the pitch sent to
the sound chip is exactly the key plus the bend (truncated toward zero) plus the fine tune.
Missing: outside that interval the code wraps, see `C20_low_bend_wraps`. -/
theorem C20_bend_exact_partial (key : Nat) (cents : Int) (bend : Nat) (range : PitchCents) 
    (fine : Int)
    (hb : bend < 16384)
    (hr : range.pitch < 128) (hr0 : 0 ≤ range.cents) (hr1 : range.cents < 128)
    (hb0 : 0 ≤ soundingCents key cents bend ((range.pitch : Int) * 100 + range.cents) 0)
    (hb1 : soundingCents key cents bend ((range.pitch : Int) * 100 + range.cents) 0 < 25600)
    (h0 : 0 ≤ soundingCents key cents bend ((range.pitch : Int) * 100 + range.cents) fine)
    (h1 : soundingCents key cents bend ((range.pitch : Int) * 100 + range.cents) fine < 25600) :
    ((effectivePitchCents key cents bend range fine).pitch : Int) * 100 +
        (effectivePitchCents key cents bend range fine).cents =
      soundingCents key cents bend ((range.pitch : Int) * 100 + range.cents) fine ∧
    0 ≤ (effectivePitchCents key cents bend range fine).cents ∧
    (effectivePitchCents key cents bend range fine).cents < 100 := by
  have hrange : toS16 ((range.pitch : Int) * 100 + range.cents) =
      (range.pitch : Int) * 100 + range.cents := toS16_of (by omega) (by omega)
  have hbd := tdiv_bound ((bend : Int) - 8192) ((range.pitch : Int) * 100 + range.cents)
    (by omega) (by omega) (by omega) (by omega)
  have hadd : toS16 ((((bend : Int) - 0x2000) * ((range.pitch : Int) * 100 + range.cents)).tdiv 8192)
      = (((bend : Int) - 8192) * ((range.pitch : Int) * 100 + range.cents)).tdiv 8192 :=
    toS16_of (by omega) (by omega)
  simp only [effectivePitchCents, pcBend, hrange, hadd]
  simp only [soundingCents] at *
  generalize (((bend : Int) - 8192) * ((range.pitch : Int) * 100 + range.cents)).tdiv 8192 = d at *
  have s1 := pcShift_exact ⟨key, cents⟩ d (by simp only; omega) (by simp only; omega)
  simp only at s1
  generalize hq : pcShift ⟨key, cents⟩ d = q at *
  have s2 := pcShift_exact q fine (by omega) (by omega)
  refine ⟨?_, s2.2⟩
  omega

/-- A centred bend and no fine tune change nothing. -/
theorem C20_centre_is_neutral (key : Nat) (cents : Int) (range : PitchCents)
    (hkey : key < 128) (hc0 : 0 ≤ cents) (hc1 : cents < 100) :
    effectivePitchCents key cents 8192 range 0 = ⟨key, cents⟩ := by
  have e : ∀ k : Nat, k < 128 → ∀ c : Int, 0 ≤ c → c < 100 → pcShift ⟨k, c⟩ 0 = ⟨k, c⟩ := by
    intro k hk c h1 h2
    have := pcShift_exact ⟨k, c⟩ 0 (by simp only; omega) (by simp only; omega)
    generalize pcShift ⟨k, c⟩ 0 = q at *
    obtain ⟨qp, qc⟩ := q
    simp only [PitchCents.mk.injEq] at *
    omega
  simp only [effectivePitchCents, pcBend]
  rw [show toS16 (((((8192 : Nat) : Int) - 0x2000) *
      toS16 ((range.pitch : Int) * 100 + range.cents)).tdiv 8192) = 0 by simp; decide]
  rw [e key hkey cents hc0 hc1, e key hkey cents hc0 hc1]

/-- A larger bend never gives a lower pitch (while both results are in range). -/
theorem C20_bend_monotone_partial (key : Nat) (cents : Int) (b1 b2 : Nat) (range : PitchCents)
    (fine : Int) (hle : b1 ≤ b2) (hb : b2 < 16384)
    (hr : range.pitch < 128) (hr0 : 0 ≤ range.cents) (hr1 : range.cents < 128)
    (hf0 : -64 ≤ fine) (hf1 : fine ≤ 63)
    (h0 : 64 ≤ soundingCents key cents b1 ((range.pitch : Int) * 100 + range.cents) 0)
    (h1 : soundingCents key cents b2 ((range.pitch : Int) * 100 + range.cents) 0 < 25536) :
    ((effectivePitchCents key cents b1 range fine).pitch : Int) * 100 +
        (effectivePitchCents key cents b1 range fine).cents ≤
      ((effectivePitchCents key cents b2 range fine).pitch : Int) * 100 +
        (effectivePitchCents key cents b2 range fine).cents := by
  have hm : (((b1 : Int) - 8192) * ((range.pitch : Int) * 100 + range.cents)).tdiv 8192 ≤
      (((b2 : Int) - 8192) * ((range.pitch : Int) * 100 + range.cents)).tdiv 8192 :=
    Int.tdiv_le_tdiv (by omega) (Int.mul_le_mul_of_nonneg_right (by omega) (by omega))
  have e1 := C20_bend_exact_partial key cents b1 range fine (by omega) hr hr0 hr1
    (by simp only [soundingCents] at *; omega) (by simp only [soundingCents] at *; omega)
    (by simp only [soundingCents] at *; omega) (by simp only [soundingCents] at *; omega)
  have e2 := C20_bend_exact_partial key cents b2 range fine hb hr hr0 hr1
    (by simp only [soundingCents] at *; omega) (by simp only [soundingCents] at *; omega)
    (by simp only [soundingCents] at *; omega) (by simp only [soundingCents] at *; omega)
  rw [e1.1, e2.1]
  simp only [soundingCents]; omega

/-- The full statement is false: bending key 1 down by 2 semitones gives pitch 142 instead of −1. -/
theorem C20_low_bend_wraps :
    effectivePitchCents 1 0 0 ⟨2, 0⟩ 0 = ⟨142, 36⟩ ∧ soundingCents 1 0 0 200 0 = -100 := by decide

/-- The full statement is also false at the top: the largest bend range wraps key 127 to pitch 0. -/
theorem C20_high_bend_wraps :
    (effectivePitchCents 127 99 16383 ⟨127, 127⟩ 0).pitch = 0 := by decide

-- non-vacuity: key 60, bend three quarters up with a 2.50 semitone range, fine tune −10
example : effectivePitchCents 60 0 14336 ⟨2, 50⟩ (-10) = ⟨61, 77⟩ ∧
    soundingCents 60 0 14336 250 (-10) = 6177 := by decide

end Mdmi.Props
