import Verif.Proofs.MidiFm
/-! Block and F-number of keys 11 to 106. -/
namespace Mdmi.Fm

/-- F-number `r` cents above the lowest key of an octave. -/
def fnum (pal : Bool) (r : Nat) : Nat := freqNum pal (11 + r / 100) ((r % 100 : Nat) : Int)

theorem pitchToOctave_of {p : Nat} (h : 11 ≤ p ∧ p ≤ 106) : pitchToOctave p = (p - 11) / 12 := by
  have e : ((p : Int) - 11) = ((p - 11 : Nat) : Int) := by omega
  unfold pitchToOctave
  rw [e, show (12 : Int) = ((12 : Nat) : Int) from rfl, ← Int.ofNat_tdiv]
  unfold toU8
  omega

theorem lookup_of (pal : Bool) {p : Nat} (o : Nat) (h : 11 ≤ p ∧ p ≤ 106) :
    lookupFreqNum pal p o = (if pal then freqsPal else freqsNtsc).getD ((p - 11) % 12 + o) 0 := by
  unfold lookupFreqNum toU8
  have : (((p : Int) - 11) % 256).toNat = p - 11 := by omega
  rw [this]

/-- The F-number depends on the place within the octave only. -/
theorem freqNum_of (pal : Bool) {p x : Nat} (h : 11 ≤ p ∧ p ≤ 106) (hx : x < 100) :
    freqNum pal p (x : Int) = fnum pal ((p - 11) % 12 * 100 + x) := by
  unfold fnum
  have e1 : ((p - 11) % 12 * 100 + x) / 100 = (p - 11) % 12 := by omega
  have e2 : ((p - 11) % 12 * 100 + x) % 100 = x := by omega
  rw [e1, e2]
  have h' : 11 ≤ 11 + (p - 11) % 12 ∧ 11 + (p - 11) % 12 ≤ 106 := by omega
  unfold freqNum
  rw [lookup_of pal 0 h, lookup_of pal 1 h, lookup_of pal 0 h', lookup_of pal 1 h']
  have e3 : (11 + (p - 11) % 12 - 11) % 12 = (p - 11) % 12 := by omega
  rw [e3]

def monoTable (pal : Bool) : Bool := (List.range 1199).all fun r => fnum pal r ≤ fnum pal (r + 1)
def strictTable (pal : Bool) : Bool := (List.range 1197).all fun r => fnum pal r < fnum pal (r + 3)
def endTable (pal : Bool) : Bool :=
  fnum pal 1199 ≤ 2 * fnum pal 0 && fnum pal 1197 < 2 * fnum pal 0 && fnum pal 1198 < 2 * fnum pal 1 &&
  fnum pal 1199 < 2 * fnum pal 2
def rangeTable (pal : Bool) : Bool := (List.range 1200).all fun r => 607 ≤ fnum pal r ∧ fnum pal r ≤ 1225

theorem monoTable_ok (pal : Bool) : monoTable pal = true := by cases pal <;> decide +kernel
theorem strictTable_ok (pal : Bool) : strictTable pal = true := by cases pal <;> decide +kernel
theorem endTable_ok (pal : Bool) : endTable pal = true := by cases pal <;> decide +kernel
theorem rangeTable_ok (pal : Bool) : rangeTable pal = true := by cases pal <;> decide +kernel

/-- The chip frequency of pitch `1100 + k` cents. -/
def at' (pal : Bool) (k : Nat) : Nat := fnum pal (k % 1200) * 2 ^ (k / 1200)

theorem at_succ (pal : Bool) (k : Nat) : at' pal k ≤ at' pal (k + 1) := by
  unfold at'
  by_cases h : k % 1200 = 1199
  · have e := endTable_ok pal
    simp only [endTable, Bool.and_eq_true, decide_eq_true_eq] at e
    have e1 : (k + 1) % 1200 = 0 := by omega
    have e2 : (k + 1) / 1200 = k / 1200 + 1 := by omega
    rw [h, e1, e2, Nat.pow_succ]
    calc fnum pal 1199 * 2 ^ (k / 1200) ≤ 2 * fnum pal 0 * 2 ^ (k / 1200) := Nat.mul_le_mul_right _ e.1.1.1
      _ = _ := by rw [Nat.mul_comm 2, Nat.mul_assoc, Nat.mul_comm 2]
  · have e1 : (k + 1) % 1200 = k % 1200 + 1 := by omega
    have e2 : (k + 1) / 1200 = k / 1200 := by omega
    rw [e1, e2]
    have := monoTable_ok pal
    simp only [monoTable, List.all_eq_true, List.mem_range, decide_eq_true_eq] at this
    exact Nat.mul_le_mul_right _ (this _ (by omega))

theorem at_three (pal : Bool) (k : Nat) : at' pal k < at' pal (k + 3) := by
  unfold at'
  have pos : 0 < 2 ^ (k / 1200) := Nat.pow_pos (by omega)
  by_cases h : k % 1200 < 1197
  · have e1 : (k + 3) % 1200 = k % 1200 + 3 := by omega
    have e2 : (k + 3) / 1200 = k / 1200 := by omega
    rw [e1, e2]
    have := strictTable_ok pal
    simp only [strictTable, List.all_eq_true, List.mem_range, decide_eq_true_eq] at this
    exact Nat.mul_lt_mul_of_pos_right (this _ h) pos
  · have e := endTable_ok pal
    simp only [endTable, Bool.and_eq_true, decide_eq_true_eq] at e
    have e2 : (k + 3) / 1200 = k / 1200 + 1 := by omega
    have fin : ∀ a b, fnum pal a < 2 * fnum pal b →
        fnum pal a * 2 ^ (k / 1200) < fnum pal b * 2 ^ (k / 1200 + 1) := by
      intro a b hab
      rw [Nat.pow_succ]
      calc fnum pal a * 2 ^ (k / 1200) < 2 * fnum pal b * 2 ^ (k / 1200) := Nat.mul_lt_mul_of_pos_right hab pos
        _ = _ := by rw [Nat.mul_comm 2, Nat.mul_assoc, Nat.mul_comm 2]
    rw [e2]
    have : k % 1200 = 1197 ∨ k % 1200 = 1198 ∨ k % 1200 = 1199 := by omega
    rcases this with h | h | h
    · rw [h, show (k + 3) % 1200 = 0 by omega]; exact fin _ _ e.1.1.2
    · rw [h, show (k + 3) % 1200 = 1 by omega]; exact fin _ _ e.1.2
    · rw [h, show (k + 3) % 1200 = 2 by omega]; exact fin _ _ e.2

theorem at_mono (pal : Bool) {k m : Nat} (h : k ≤ m) : at' pal k ≤ at' pal m := by
  induction m with
  | zero => rw [Nat.le_zero.1 h]; exact Nat.le_refl _
  | succ m ih =>
    by_cases e : k = m + 1
    · rw [e]; exact Nat.le_refl _
    · exact Nat.le_trans (ih (by omega)) (at_succ pal m)

theorem at_strict (pal : Bool) {k m : Nat} (h : k + 3 ≤ m) : at' pal k < at' pal m :=
  Nat.lt_of_lt_of_le (at_three pal k) (at_mono pal h)

theorem units_at (pal : Bool) {p x : Nat} (h : 11 ≤ p ∧ p ≤ 106) (hx : x < 100) :
    units (pitchToOctave p, freqNum pal p (x : Int)) = at' pal ((p - 11) * 100 + x) := by
  unfold units at'
  rw [pitchToOctave_of h, freqNum_of pal h hx]
  have e1 : ((p - 11) * 100 + x) % 1200 = (p - 11) % 12 * 100 + x := by omega
  have e2 : ((p - 11) * 100 + x) / 1200 = (p - 11) / 12 := by omega
  rw [e1, e2]

theorem freqNum_range (pal : Bool) {p x : Nat} (h : 11 ≤ p ∧ p ≤ 106) (hx : x < 100) :
    607 ≤ freqNum pal p (x : Int) ∧ freqNum pal p (x : Int) ≤ 1225 ∧ pitchToOctave p ≤ 7 := by
  rw [freqNum_of pal h hx, pitchToOctave_of h]
  have := rangeTable_ok pal
  simp only [rangeTable, List.all_eq_true, List.mem_range, decide_eq_true_eq] at this
  have := this ((p - 11) % 12 * 100 + x) (by omega)
  exact ⟨this.1, this.2, by omega⟩

def tuneTable (pal : Bool) : Bool := (List.range 1200).all fun r =>
  (fnum pal r * clock pal) ^ 1200 * 2 ^ 6900 ≤ (440 * 144 * 2 ^ 21) ^ 1200 * 2 ^ (1100 + r + 5) ∧
  (440 * 144 * 2 ^ 21) ^ 1200 * 2 ^ (1100 + r) ≤ (fnum pal r * clock pal) ^ 1200 * 2 ^ (6900 + 5)

theorem tuneTable_pal : tuneTable true = true := by decide +kernel
theorem tuneTable_ntsc : tuneTable false = true := by decide +kernel

def K : Nat := (440 * 144 * 2 ^ 21) ^ 1200

theorem lift_tune {u c b r n : Nat} (hn : n = 1100 + 1200 * b + r)
    (h1 : (u * c) ^ 1200 * 2 ^ 6900 ≤ K * 2 ^ (1100 + r + 5))
    (h2 : K * 2 ^ (1100 + r) ≤ (u * c) ^ 1200 * 2 ^ (6900 + 5)) :
    (u * 2 ^ b * c) ^ 1200 * 2 ^ 6900 ≤ K * 2 ^ (n + 5) ∧
    K * 2 ^ n ≤ (u * 2 ^ b * c) ^ 1200 * 2 ^ (6900 + 5) := by
  have e : ∀ A : Nat, (u * 2 ^ b * c) ^ 1200 * A = (u * c) ^ 1200 * A * 2 ^ (1200 * b) := by
    intro A
    rw [show u * 2 ^ b * c = (u * c) * 2 ^ b by rw [Nat.mul_right_comm], Nat.mul_pow, ← Nat.pow_mul,
      Nat.mul_comm b 1200, Nat.mul_right_comm]
  subst hn
  constructor
  · rw [e, show 1100 + 1200 * b + r + 5 = (1100 + r + 5) + 1200 * b by omega, Nat.pow_add, ← Nat.mul_assoc]
    exact Nat.mul_le_mul_right _ h1
  · rw [e, show 1100 + 1200 * b + r = (1100 + r) + 1200 * b by omega, Nat.pow_add, ← Nat.mul_assoc]
    exact Nat.mul_le_mul_right _ h2

theorem in_tune (pal : Bool) {p x : Nat} (h : 11 ≤ p ∧ p ≤ 106) (hx : x < 100) :
    InTune pal (pitchToOctave p, freqNum pal p (x : Int)) (100 * p + x) 5 := by
  unfold InTune
  rw [units_at pal h hx]
  have t : tuneTable pal = true := by cases pal; exact tuneTable_ntsc; exact tuneTable_pal
  simp only [tuneTable, List.all_eq_true, List.mem_range, decide_eq_true_eq] at t
  obtain ⟨t1, t2⟩ := t (((p - 11) * 100 + x) % 1200) (by omega)
  unfold at'
  exact lift_tune (n := 100 * p + x) (b := ((p - 11) * 100 + x) / 1200) (by omega) t1 t2

end Mdmi.Fm
