import Verif.Proofs.Scheduler
/-! C47: frame handlers see every vertical blank. -/
namespace Mdmi.Props
open Mdmi Mdmi.Scheduler

/-- **C47** (partial: no vertical blank between computing the frame count and storing the frame
number).  For every number of handlers and every such schedule, whenever the scheduler is between two
ticks, the frame counts given to each frame handler plus the blanks still to be reported add up to the
blanks that occurred; the part still to be reported is `frame - previousFrame` (modulo the 16-bit
counter). -/
theorem C47_frames_add_up_partial (nt nf : Nat) (sched : List Act)
    (hq : quietDispatch nt nf init sched) (i : Nat) (hi : i < nf)
    (hidle : (run nt nf init sched).pc = .idle) :
    ∃ p, total i (run nt nf init sched).trace + p = vblanks sched ∧
      p % 65536 =
        ((run nt nf init sched).frame + 65536 - (run nt nf init sched).previousFrame) % 65536 := by
  obtain ⟨_, _, h⟩ := (Inv.init nf).run sched hq
  obtain ⟨p, a, b⟩ := h i hi
  refine ⟨p, by simpa using a, ?_⟩
  simpa [hidle] using b

/-- All frame handlers are given the same total. -/
theorem C47_handlers_agree_partial (nt nf : Nat) (sched : List Act)
    (hq : quietDispatch nt nf init sched) (i j : Nat) (hi : i < nf) (hj : j < nf)
    (hidle : (run nt nf init sched).pc = .idle) :
    total i (run nt nf init sched).trace % 65536 = total j (run nt nf init sched).trace % 65536 := by
  obtain ⟨p, a, b⟩ := C47_frames_add_up_partial nt nf sched hq i hi hidle
  obtain ⟨p', a', b'⟩ := C47_frames_add_up_partial nt nf sched hq j hj hidle
  omega

/-- One complete uninterrupted tick calls every tick handler once and, if `v` blanks are outstanding
(`0 < v < 65536`), every frame handler once with exactly `v`, leaving none outstanding. -/
theorem C47_uninterrupted_tick (nt nf : Nat) (s : St) (v : Nat) (hpc : s.pc = .idle)
    (hp : s.previousFrame < 65536) (hv : 0 < v) (hv' : v < 65536)
    (hf : s.frame = (s.previousFrame + v) % 65536) :
    run nt nf s (List.replicate (nt + nf + 6) .step) =
      { frame := s.frame, previousFrame := s.frame, ticks := (s.ticks + 1) % 65536, pc := .idle,
        trace := s.trace ++ (List.range nt).map .tick ++ (List.range nf).map (.frame · v) } := by
  obtain ⟨f, pf, tk, pc, tr⟩ := s
  simp only at *
  subst hpc
  have hne : f ≠ pf := by omega
  have hd : (f + 65536 - pf) % 65536 = v := by omega
  rw [show nt + nf + 6 = 1 + (nt + (3 + (nf + 2))) by omega]
  simp only [← List.replicate_append_replicate, run_add]
  rw [show run nt nf ⟨f, pf, tk, .idle, tr⟩ (List.replicate 1 .step) =
    ⟨f, pf, (tk + 1) % 65536, .tickHandlers nt, tr⟩ from rfl]
  rw [run_ticks nt nf nt _ rfl (Nat.le_refl _)]
  rw [show ∀ t tr, run nt nf ⟨f, pf, t, .tickHandlers 0, tr⟩ (List.replicate 3 .step) =
    ⟨f, pf, t, .frameHandlers v nf, tr⟩ from by
      intro t tr
      simp [run, act, List.replicate, tickStep, hne, hd]]
  rw [run_frames nt nf v nf _ rfl (Nat.le_refl _)]
  simp [run, act, List.replicate, tickStep, List.range_eq_range']

/-- The full statement is false: a vertical blank arriving while the frame handlers run is never
reported to any handler. -/
theorem C47_blank_during_handlers_is_lost :
    ∃ sched : List Act, vblanks sched = 2 ∧
      (run 2 6 init sched).pc = .idle ∧
      (run 2 6 init sched).frame = (run 2 6 init sched).previousFrame ∧
      ∀ i < 6, total i (run 2 6 init sched).trace = 1 := by
  refine ⟨[.vsync] ++ List.replicate 8 .step ++ [.vsync] ++ List.replicate 6 .step, ?_⟩
  decide +kernel

/-- Registering the firmware's two tick handlers and six frame handlers stays within the tables; one
more frame handler halts the machine. -/
theorem C47_handler_tables (n : Nat) (h : n ≤ 6) :
    (addHandler 6 n = none ↔ n = 6) ∧ (n < 6 → addHandler 6 n = some (n + 1)) := by
  unfold addHandler
  refine ⟨?_, ?_⟩
  · split <;> simp_all
  · intro h; rw [if_neg (by omega)]

-- non-vacuity: a quiet schedule with two blanks reported in two ticks
example : quietDispatch 1 2 init ([.vsync] ++ List.replicate 9 .step ++ [.vsync] ++ List.replicate 9 .step) ∧
    (run 1 2 init ([.vsync] ++ List.replicate 9 .step ++ [.vsync] ++ List.replicate 9 .step)).trace =
      [.tick 0, .frame 0 1, .frame 1 1, .tick 0, .frame 0 1, .frame 1 1] := by
  refine ⟨?_, by decide⟩
  simp [quietDispatch, List.replicate, tickStep, init, vsync, harmless]

end Mdmi.Props
