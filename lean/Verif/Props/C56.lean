import Verif.Model.UiLoad
/-! C56: load meter bounds. -/
namespace Mdmi.Props
open Mdmi Mdmi.UiLoad

/-- Specification of what is shown for `idle` idle polls and `busy` reads: the busy share in percent,
rounded down. -/
def busyShare (idle busy : Nat) : Nat := if idle + busy = 0 then 0 else 100 * busy / (idle + busy)

/-- Specification of a whole history: something is shown when at least 15 frames have passed since the
last time (`f` counts them); it is the busy share at that moment. -/
def shownPercents (f : Nat) : List (Nat × Nat × Nat) → List (Option Nat)
  | [] => []
  | (d, i, b) :: rest =>
    if f + d ≥ 15 then some (busyShare i b) :: shownPercents 0 rest
    else none :: shownPercents (f + d) rest

private theorem busyShare_le (i b : Nat) : busyShare i b ≤ 100 := by
  unfold busyShare
  split
  · omega
  · apply Nat.div_le_of_le_mul
    rw [Nat.mul_comm]
    exact Nat.mul_le_mul_right 100 (Nat.le_add_left b i)

private theorem loadPercent_eq (i b : Nat) : loadPercent i b = some (busyShare i b) := by
  have := busyShare_le i b
  unfold loadPercent
  unfold busyShare at *
  by_cases h : i + b = 0
  · simp [show i = 0 by omega, show b = 0 by omega]
  · have h' : ¬ (i = 0 ∧ b = 0) := by omega
    simp only [h, h', if_false] at *
    rw [Nat.mul_comm b 100, Nat.mod_eq_of_lt (by omega)]

/-- **C56.** For every history of frame updates (each covering fewer than 65000 frames) and counters:
nothing divides by zero, every refresh shows the busy share of that moment, and it lies in 0..100; the
text is at most 99 (two digits) and at most four LED tiles are lit. -/
theorem C56_load_meter (h : List (Nat × Nat × Nat)) (hd : ∀ e ∈ h, e.1 < 65000) :
    ∃ r, UiLoad.run UiLoad.init h = some r ∧ r.map (·.map (·.percent)) = shownPercents 0 h ∧
      ∀ s, some s ∈ r → s.percent ≤ 100 ∧ s.text = min s.percent 99 ∧ s.lit ≤ 4 ∧
        (s.lit = 0 ↔ s.percent = 0) ∧ (s.lit = 4 ↔ 75 ≤ s.percent) := by
  suffices H : ∀ (h : List (Nat × Nat × Nat)) (f : Nat), f < 15 → (∀ e ∈ h, e.1 < 65000) →
      ∃ r, UiLoad.run ⟨f, f, 0⟩ h = some r ∧ r.map (·.map (·.percent)) = shownPercents f h ∧
      ∀ s, some s ∈ r → s.percent ≤ 100 ∧ s.text = min s.percent 99 ∧ s.lit ≤ 4 ∧
        (s.lit = 0 ↔ s.percent = 0) ∧ (s.lit = 4 ↔ 75 ≤ s.percent) from H h 0 (by omega) hd
  intro h
  induction h with
  | nil => intro f _ _; exact ⟨[], rfl, rfl, by simp⟩
  | cons e h ih =>
    intro f hf hd
    obtain ⟨d, i, b⟩ := e
    have hd0 := hd (d, i, b) (by simp)
    have hd' : ∀ e ∈ h, e.1 < 65000 := fun e he => hd e (by simp [he])
    simp only at hd0
    have hmod : (f + d) % 65536 = f + d := Nat.mod_eq_of_lt (by omega)
    have hle := busyShare_le i b
    by_cases hge : f + d ≥ 15
    · obtain ⟨r, e1, e2, e3⟩ := ih 0 (by omega) hd'
      have hup : update ⟨f, f, 0⟩ d i b =
          some (some { percent := busyShare i b,
                       lit := (List.range 4).countP
                          (· < if busyShare i b = 0 then 0 else busyShare i b / 25 + 1),
                       text := if busyShare i b > 99 then 99 else busyShare i b }, ⟨0, 0, 0⟩) := by
        simp [update, hmod, hge, loadPercent_eq, updateLoad,
          Nat.mod_eq_of_lt (show busyShare i b < 65536 by omega)]
      refine ⟨_, by simp only [UiLoad.run, hup, e1, Option.map_some]; rfl, ?_, ?_⟩
      · simp [shownPercents, hge, e2]
      · intro s hs
        simp only [List.mem_cons, Option.some.injEq] at hs
        rcases hs with rfl | hs
        · refine ⟨hle, ?_, ?_⟩
          · simp only; split <;> omega
          · have hlit : ∀ p : Fin 101,
                (List.range 4).countP (· < if p.val = 0 then 0 else p.val / 25 + 1) ≤ 4 ∧
                ((List.range 4).countP (· < if p.val = 0 then 0 else p.val / 25 + 1) = 0 ↔
                  p.val = 0) ∧
                ((List.range 4).countP (· < if p.val = 0 then 0 else p.val / 25 + 1) = 4 ↔
                  75 ≤ p.val) := by decide +kernel
            exact hlit ⟨busyShare i b, by omega⟩
        · exact e3 s hs
    · obtain ⟨r, e1, e2, e3⟩ := ih (f + d) (by omega) hd'
      have hup : update ⟨f, f, 0⟩ d i b = some (none, ⟨f + d, f + d, 0⟩) := by
        simp [update, hmod, hge]
      refine ⟨none :: r, by simp only [UiLoad.run, hup, e1, Option.map_some], ?_, ?_⟩
      · simp [shownPercents, hge, e2]
      · intro s hs
        simp at hs
        exact e3 s hs

-- non-vacuity
example : (UiLoad.run UiLoad.init [(10, 5, 5), (5, 30, 90), (15, 0, 7), (20, 0, 0)]).map
    (·.map (·.map fun s => (s.percent, s.lit, s.text))) =
    some [none, some (75, 4, 75), some (100, 4, 99), some (0, 0, 0)] := by decide

end Mdmi.Props
