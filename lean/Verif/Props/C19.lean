import Verif.Proofs.Pitch
/-! C19: portamento glides. -/
namespace Mdmi.Props
open Mdmi

/-- Specification: position of a glide in cents. -/
def position (g : Glide) : Int := 100 * (g.pitch : Int) + g.cents

/-- A glide in progress, as `midi_note_on` and earlier ticks leave it: pitch and target are MIDI keys
(or the pitch between two keys), the target is not key 0 (which the code cannot tell from "no
glide"), and a downward glide aims at key 12 or above (see `C19_low_glide_jumps_up`). -/
structure GoodGlide (g : Glide) : Prop where
  pitch : g.pitch < 128
  cents0 : 0 ≤ g.cents
  cents1 : g.cents < 100
  target0 : 0 < g.target
  target : g.target < 128
  high : 12 ≤ g.target ∨ g.pitch < g.target

/-- **C19** (partial).  For every portamento time and every glide in progress, one frame tick either
* moves the pitch by exactly the interval, staying strictly on the same side of the target, or
* lands exactly on the target and ends the glide, which happens only when the target is at most one
  interval away (plus, gliding down, less than one semitone).
Missing: targets below key 12 approached from above, where the code wraps. -/
theorem C19_glide_tick_partial (time : Nat) (ht : time < 128) (g : Glide) (h : GoodGlide g)
    (hne : position g ≠ 100 * (g.target : Int)) :
    ∃ iv g', portaTimeToInterval[time]? = some iv ∧ glideStep iv g = some g' ∧
      ((g'.target = g.target ∧ 0 ≤ g'.cents ∧ g'.cents < 100 ∧
          ((position g < 100 * (g.target : Int) ∧ position g' = position g + iv ∧
              position g' < 100 * (g.target : Int)) ∨
           (100 * (g.target : Int) < position g ∧ position g' = position g - iv ∧
              100 * (g.target : Int) < position g'))) ∨
       (g'.target = 0 ∧ position g' = 100 * (g.target : Int) ∧
          ((position g < 100 * (g.target : Int) ∧ 100 * (g.target : Int) ≤ position g + iv) ∨
           (100 * (g.target : Int) < position g ∧
              position g - iv < 100 * (g.target : Int) + 100)))) := by
  have hiv : ∃ iv, portaTimeToInterval[time]? = some iv ∧ 1 ≤ iv ∧ iv ≤ 1145 := by
    have : ∀ t : Fin 128, ∃ iv, portaTimeToInterval[t.val]? = some iv ∧ 1 ≤ iv ∧ iv ≤ 1145 := by
      have h : ∀ t : Fin 128, (portaTimeToInterval[t.val]?.any fun iv => 1 ≤ iv ∧ iv ≤ 1145) = true := by
        decide +kernel
      intro t; have := h t
      simpa [Option.any_eq_true] using this
    exact this ⟨time, ht⟩
  obtain ⟨iv, hget, hiv1, hiv2⟩ := hiv
  obtain ⟨h1, h2, h3, h4, h5, h6⟩ := h
  obtain ⟨p, c, t⟩ := g
  simp only [position] at *
  refine ⟨iv, ?_⟩
  simp only [hget, true_and]
  have hstart : ¬ (t = 0 ∨ (t = p ∧ c = 0)) := by omega
  have e1 : toS16 (iv : Int) = iv := toS16_of (by omega) (by omega)
  have e2 : toS16 (0 - (iv : Int)) = -iv := by rw [toS16_of] <;> omega
  have e3 : toU8 (t : Int) = t := toU8_nat (by omega)
  by_cases hup : t > p
  · have s := pcShift_exact ⟨p, c⟩ iv (by simp only; omega) (by simp only; omega)
    simp only at s
    simp only [glideStep, hstart, if_false, hup, if_true, e1, e3]
    generalize pcShift ⟨p, c⟩ iv = q at *
    by_cases hq : q.pitch ≥ t
    · have : ((iv : Int) > 0 ∧ q.pitch ≥ t) ∨ ((iv : Int) < 0 ∧ q.pitch ≤ t) := by omega
      simp only [this, if_true]
      exact ⟨_, rfl, .inr ⟨rfl, by simp only; omega, .inl ⟨by omega, by omega⟩⟩⟩
    · have : ¬ (((iv : Int) > 0 ∧ q.pitch ≥ t) ∨ ((iv : Int) < 0 ∧ q.pitch ≤ t)) := by omega
      simp only [this, if_false]
      exact ⟨_, rfl, .inl ⟨rfl, by simp only; omega, by simp only; omega,
        .inl ⟨by omega, by simp only; omega, by simp only; omega⟩⟩⟩
  · have hdn : t < p ∨ (t = p ∧ c > 0) := by omega
    have s := pcShift_exact ⟨p, c⟩ (-iv) (by simp only; omega) (by simp only; omega)
    simp only at s
    simp only [glideStep, hstart, if_false, hup, hdn, if_true, e2, e3]
    generalize pcShift ⟨p, c⟩ (-iv) = q at *
    by_cases hq : q.pitch ≤ t
    · have : ((-(iv : Int)) > 0 ∧ q.pitch ≥ t) ∨ ((-(iv : Int)) < 0 ∧ q.pitch ≤ t) := by omega
      simp only [this, if_true]
      exact ⟨_, rfl, .inr ⟨rfl, by simp only; omega, .inr ⟨by omega, by omega⟩⟩⟩
    · have : ¬ (((-(iv : Int)) > 0 ∧ q.pitch ≥ t) ∨ ((-(iv : Int)) < 0 ∧ q.pitch ≤ t)) := by omega
      simp only [this, if_false]
      exact ⟨_, rfl, .inl ⟨rfl, by simp only; omega, by simp only; omega,
        .inr ⟨by omega, by simp only; omega, by simp only; omega⟩⟩⟩

/-- `n` frame ticks (`none` ticks leave the glide alone). -/
def glideTicks (iv : Nat) : Nat → Glide → Glide
  | 0, g => g
  | n + 1, g => glideTicks iv n ((glideStep iv g).getD g)

/-- **C19** termination (partial, same restriction): after at most `distance` ticks the pitch is
exactly the target and the glide has ended. -/
theorem C19_glide_arrives_partial (time : Nat) (ht : time < 128) (g : Glide) (h : GoodGlide g)
    (hne : position g ≠ 100 * (g.target : Int)) :
    ∃ iv n, portaTimeToInterval[time]? = some iv ∧
      n ≤ (position g - 100 * (g.target : Int)).natAbs ∧
      position (glideTicks iv n g) = 100 * (g.target : Int) ∧ (glideTicks iv n g).target = 0 := by
  obtain ⟨iv, _, hiv, _, _⟩ := C19_glide_tick_partial time ht g h hne
  refine ⟨iv, ?_⟩
  suffices H : ∀ d (g : Glide), GoodGlide g → position g ≠ 100 * (g.target : Int) →
      (position g - 100 * (g.target : Int)).natAbs ≤ d →
      ∃ n, n ≤ d ∧ position (glideTicks iv n g) = 100 * (g.target : Int) ∧
        (glideTicks iv n g).target = 0 by
    obtain ⟨n, a, b, c⟩ := H _ g h hne (Nat.le_refl _)
    exact ⟨n, hiv, a, b, c⟩
  intro d
  induction d with
  | zero => intro g h hne hd; omega
  | succ d ih =>
    intro g h hne hd
    obtain ⟨iv', g', hiv', e, hc⟩ := C19_glide_tick_partial time ht g h hne
    rw [hiv] at hiv'; cases hiv'
    have hpos : 1 ≤ iv := by
      have h : ∀ t : Fin 128, (portaTimeToInterval[t.val]?.any fun iv => 1 ≤ iv) = true := by
        decide +kernel
      have := h ⟨time, ht⟩
      simpa [hiv] using this
    rcases hc with ⟨c1, c2, c3, c4⟩ | ⟨c1, c2, _⟩
    · have hg' : GoodGlide g' := by
        obtain ⟨h1, h2, h3, h4, h5, h6⟩ := h
        simp only [position] at c4
        constructor <;> omega
      have hne' : position g' ≠ 100 * (g'.target : Int) := by rw [c1]; omega
      obtain ⟨n, a, b, c⟩ := ih g' hg' hne' (by rw [c1]; omega)
      exact ⟨n + 1, by omega, by simp [glideTicks, e, b, c1], by simp [glideTicks, e, c]⟩
    · exact ⟨1, by omega, by simp [glideTicks, e, c2], by simp [glideTicks, e, c1]⟩

/-- The full statement is false for low targets: gliding from key 11 down to key 1 at portamento time
0 first jumps up to pitch 142. -/
theorem C19_low_glide_jumps_up : glideStep 1145 ⟨11, 0, 1⟩ = some ⟨142, 91, 1⟩ := by decide

private theorem glideTicks_add (iv a b : Nat) (g : Glide) :
    glideTicks iv (a + b) g = glideTicks iv b (glideTicks iv a g) := by
  induction a generalizing g with
  | zero => simp [glideTicks]
  | succ a ih => rw [show a + 1 + b = (a + b) + 1 by omega]; simp [glideTicks, ih]

/-- It need not even terminate: from key 2 to key 1 at portamento time 8 (interval 768) the target is
still pending, and not reached, after every number of ticks. -/
theorem C19_glide_may_never_end :
    portaTimeToInterval[8]? = some 768 ∧
    ∀ n, (glideTicks 768 n ⟨2, 0, 1⟩).target = 1 ∧ position (glideTicks 768 n ⟨2, 0, 1⟩) ≠ 100 := by
  refine ⟨by decide, fun n => ?_⟩
  have hper : ∀ q, glideTicks 768 (56 * q) ⟨2, 0, 1⟩ = ⟨2, 0, 1⟩ := by
    intro q
    induction q with
    | zero => rfl
    | succ q ih =>
      rw [show 56 * (q + 1) = 56 * q + 56 by omega, glideTicks_add, ih]
      decide +kernel
  have hall : ∀ r : Fin 56, (glideTicks 768 r.val ⟨2, 0, 1⟩).target = 1 ∧
      position (glideTicks 768 r.val ⟨2, 0, 1⟩) ≠ 100 := by decide +kernel
  have := hall ⟨n % 56, Nat.mod_lt _ (by omega)⟩
  rw [← Nat.div_add_mod n 56, glideTicks_add, hper]
  exact this

/-- Gliding down ends early: one semitone at the slowest speed (1 cent per tick) is covered in a
single tick, while the same distance up takes 100. -/
theorem C19_downward_glide_ends_early :
    portaTimeToInterval[127]? = some 1 ∧ glideStep 1 ⟨61, 0, 60⟩ = some ⟨60, 0, 0⟩ ∧
    (glideTicks 1 99 ⟨60, 0, 61⟩) = ⟨60, 99, 61⟩ := by decide +kernel

-- non-vacuity
example : GoodGlide ⟨60, 50, 72⟩ ∧ position ⟨60, 50, 72⟩ ≠ 100 * (72 : Int) ∧
    glideStep 209 ⟨60, 50, 72⟩ = some ⟨62, 59, 72⟩ := by
  refine ⟨by constructor <;> decide, by decide, by decide⟩

end Mdmi.Props
