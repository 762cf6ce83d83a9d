import Verif.Proofs.LogConc
/-! C70: the log when the serial interrupt logs too. -/
namespace Mdmi.Props
open Mdmi Mdmi.LogConc

/-- **C70, full.** However the interrupt's messages fall into the main program's calls, no access is out of bounds and
what the main program fetches is what a queue of the nine newest entries returns for the calls in the order in which they
take effect; every call of the main program takes effect once, in the order made. -/
def C70_statement : Prop :=
  ∀ sched : List Act, Calm false start sched →
    ∃ s, run start sched = some s ∧ (s.pc = .idle →
      s.out = LogSpec.run [] (history start sched) ∧ owns start sched = programs start sched)

/-- **C70, partial.** The same when no interrupt comes while the main program is between choosing an entry and updating
the counters, and at most one between that and the use of the entry.  Missing: interrupts at the other statements, where
it fails, see below. -/
theorem C70_safe_interrupts_partial (sched : List Act) (h : Calm true start sched) :
    ∃ s, run start sched = some s ∧ (s.pc = .idle →
      s.out = LogSpec.run [] (history start sched) ∧ owns start sched = programs start sched) := by
  obtain ⟨s, e, ⟨g, hf, _⟩, _⟩ := Inv.run sched start [] Inv.start h
  refine ⟨s, e, fun hp => ⟨?_, ?_⟩⟩
  · rw [List.nil_append] at hf
    unfold LogConc.fin at hf
    rw [hp] at hf
    simp only [Option.some.injEq, Prod.mk.injEq] at hf
    exact hf.2
  · have := own_run sched e
    simpa [pending, hp, start] using this

private def ms (n : Nat) : List Act := List.replicate n .main
private def lg (k : Nat) : List Act := .call (.log .info [k]) :: ms 12
private def dq : List Act := .call .dequeue :: ms 8

/-- Nine messages, a tenth being logged, and the interrupt between `writeHead++` and its wrap. -/
def C70_overrun : List Act :=
  (List.range 9).flatMap lg ++ [.call (.log .info [9]), .main, .main, .irq [77]]

/-- The interrupt between choosing the entry and `writeHead++`. -/
def C70_lost : List Act := [.call (.log .info [1]), .main, .irq [77]] ++ ms 12 ++ dq ++ dq ++ dq

/-- The interrupt between `writeHead++` and the comparison of the heads. -/
def C70_doubled : List Act :=
  (List.range 10).flatMap lg ++ [.call (.log .info [10]), .main, .main, .main, .irq [77]] ++ ms 12 ++
    (List.range 12).flatMap fun _ => dq

/-- Decidable form of `Calm false`. -/
private def fits : Act → Bool
  | .call (.log _ m) => decide (m.length ≤ 39)
  | .irq m => decide (m.length ≤ 39)
  | _ => true

private theorem calm_of_fits (as : List Act) : ∀ s, as.all fits = true → Calm false s as := by
  induction as with
  | nil => intro s _; trivial
  | cons a as ih =>
    intro s h
    simp only [List.all_cons, Bool.and_eq_true] at h
    refine ⟨?_, fun t _ => ih t h.2⟩
    cases a with
    | main => trivial
    | irq m => exact ⟨by simpa [fits] using h.1, by simp⟩
    | call op => cases op with
      | log l m => simpa [fits] using h.1
      | dequeue => trivial

set_option maxRecDepth 20000 in
/-- The interrupt writes behind the last entry. -/
theorem C70_overrun_out_of_bounds : Calm false start C70_overrun ∧ run start C70_overrun = none :=
  ⟨calm_of_fits _ _ (by decide +kernel), by decide +kernel⟩

set_option maxRecDepth 20000 in
/-- The interrupt's warning is lost, and an entry never written is shown in its place. -/
theorem C70_warning_lost : Calm false start C70_lost ∧
    (run start C70_lost).map (fun s => (s.pc, s.out)) = some (.idle, [some ⟨.info, [1]⟩, some ⟨.info, []⟩, none]) ∧
    LogSpec.run [] (history start C70_lost) = [some ⟨.info, [1]⟩, some ⟨.warn, [77]⟩, none] :=
  ⟨calm_of_fits _ _ (by decide +kernel), by decide +kernel, by decide +kernel⟩

set_option maxRecDepth 20000 in
/-- The interrupt's warning is shown twice, the first time before older messages. -/
theorem C70_warning_doubled : Calm false start C70_doubled ∧
    (run start C70_doubled).map (fun s => (s.pc, s.out.count (some ⟨.warn, [77]⟩), s.out.idxOf (some ⟨.warn, [77]⟩))) =
      some (.idle, 2, 0) :=
  ⟨calm_of_fits _ _ (by decide +kernel), by decide +kernel⟩

/-- The full statement does not hold. -/
theorem C70_not_in_general : ¬ C70_statement := by
  intro h
  obtain ⟨s, e, _⟩ := h C70_overrun C70_overrun_out_of_bounds.1
  rw [C70_overrun_out_of_bounds.2] at e
  cases e

/-- Nine messages, an interrupt before the main program picks an entry, one while it writes it. -/
private def sched : List Act :=
  (List.range 9).flatMap lg ++ [.call (.log .info [9]), .irq [77], .main] ++ ms 4 ++
    [.main, .main, .main, .irq [78]] ++ ms 5 ++ dq ++ [.call .dequeue, .irq [79]] ++ ms 8

/-- Decidable form of `Calm true`. -/
private def calmB (s : Sys) : List Act → Bool
  | [] => true
  | a :: as => fits a && (match a with
      | .irq _ => (match s.pc with
        | .idle | .slot _ _ | .check | .front => true
        | .put _ _ _ | .fetch _ => s.cut == 0
        | _ => false)
      | _ => true) && match step s a with
      | none => true
      | some s' => calmB s' as

private theorem calm_of_calmB (as : List Act) : ∀ s, calmB s as = true → Calm true s as := by
  induction as with
  | nil => intro s _; trivial
  | cons a as ih =>
    intro s h
    simp only [calmB, Bool.and_eq_true] at h
    obtain ⟨⟨h1, h2⟩, h3⟩ := h
    refine ⟨?_, fun t e => ih t (by rw [e] at h3; exact h3)⟩
    cases a with
    | main => trivial
    | irq m =>
      refine ⟨by simpa [fits] using h1, fun _ => ?_⟩
      simp only at h2
      unfold Safe
      split at h2 <;> simp_all
    | call op => cases op with
      | log l m => simpa [fits] using h1
      | dequeue => trivial

set_option maxRecDepth 20000 in
example : Calm true start sched := calm_of_calmB _ _ (by decide +kernel)

set_option maxRecDepth 20000 in
example : (run start sched).map (fun s => (s.pc, s.out)) = some (.idle, [some ⟨.info, [3]⟩, some ⟨.info, [4]⟩]) := by
  decide +kernel

end Mdmi.Props
