import Verif.Spec.Scheduler
/-! Invariant of the scheduler. -/
namespace Mdmi.Scheduler

theorem total_snoc (i : Nat) (t : List Ev) (e : Ev) :
    total i (t ++ [e]) = total i t + (match e with | .frame j d => if j = i then d else 0 | _ => 0) := by
  cases e <;> simp [total]

/-- `p` vertical blanks have not been handed out to handler `i` yet; `v` occurred in total. -/
structure Inv (nf : Nat) (s : St) (v : Nat) : Prop where
  fr : s.frame < 65536
  pf : s.previousFrame < 65536
  bal : ∀ i < nf, ∃ p, total i s.trace + p = v ∧
    (match s.pc with
      | .frameHandlers d k => d = (s.frame + 65536 - s.previousFrame) % 65536 ∧ k ≤ nf ∧
          p % 65536 = if nf - k ≤ i then d else 0
      | .save => p % 65536 = 0
      | _ => p % 65536 = (s.frame + 65536 - s.previousFrame) % 65536)

theorem Inv.init (nf) : Inv nf init 0 :=
  ⟨by simp [Scheduler.init], by simp [Scheduler.init], fun i _ => ⟨0, by simp [Scheduler.init, total]⟩⟩

theorem Inv.vsync {nf s v} (h : Inv nf s v) (hq : harmless s.pc = true) :
    Inv nf (vsync s) (v + 1) := by
  obtain ⟨h1, h2, h3⟩ := h
  refine ⟨by simp only [Scheduler.vsync]; omega, h2, fun i hi => ?_⟩
  obtain ⟨p, a, b⟩ := h3 i hi
  refine ⟨p + 1, by simp only [Scheduler.vsync]; omega, ?_⟩
  cases hp : s.pc <;> simp only [hp, harmless, Scheduler.vsync] at * <;> first | omega | simp at hq

theorem Inv.tickStep {nt nf s v} (h : Inv nf s v) : Inv nf (tickStep nt nf s) v := by
  obtain ⟨h1, h2, h3⟩ := h
  obtain ⟨f, pf, tk, pc, tr⟩ := s
  simp only at *
  cases pc with
  | idle => exact ⟨h1, h2, fun i hi => h3 i hi⟩
  | tickHandlers k =>
    cases k with
    | zero => exact ⟨h1, h2, fun i hi => h3 i hi⟩
    | succ k =>
      refine ⟨h1, h2, fun i hi => ?_⟩
      obtain ⟨p, a, b⟩ := h3 i hi
      exact ⟨p, by simpa [Scheduler.tickStep, total_snoc] using a, b⟩
  | compare =>
    refine ⟨h1, h2, fun i hi => ?_⟩
    obtain ⟨p, a, b⟩ := h3 i hi
    refine ⟨p, a, ?_⟩
    by_cases e : f = pf <;> simpa [Scheduler.tickStep, e] using b
  | delta =>
    refine ⟨h1, h2, fun i hi => ?_⟩
    obtain ⟨p, a, b⟩ := h3 i hi
    exact ⟨p, a, rfl, Nat.le_refl _, by simpa using b⟩
  | frameHandlers d k =>
    cases k with
    | zero =>
      refine ⟨h1, h2, fun i hi => ?_⟩
      obtain ⟨p, a, b⟩ := h3 i hi
      refine ⟨p, a, ?_⟩
      have hlt : ¬ nf ≤ i := by omega
      simpa [Scheduler.tickStep, hlt] using b.2.2
    | succ k =>
      refine ⟨h1, h2, fun i hi => ?_⟩
      obtain ⟨p, a, b1, b2, b3⟩ := h3 i hi
      by_cases e : nf - (k + 1) = i
      · have : nf - (k + 1) ≤ i := by omega
        rw [if_pos this] at b3
        have hdp : d ≤ p := by omega
        refine ⟨p - d, ?_, b1, by omega, ?_⟩
        · simp only [Scheduler.tickStep, total_snoc, e, if_true]; omega
        · have : ¬ nf - k ≤ i := by omega
          rw [if_neg this]; omega
      · refine ⟨p, ?_, b1, by omega, ?_⟩
        · simp only [Scheduler.tickStep, total_snoc, e, if_false]; omega
        · rw [b3]; split <;> split <;> omega
  | save =>
    refine ⟨h1, h1, fun i hi => ?_⟩
    obtain ⟨p, a, b⟩ := h3 i hi
    refine ⟨p, a, ?_⟩
    simp only [Scheduler.tickStep]; omega

theorem Inv.run {nt nf} (as : List Act) : ∀ {s v}, Inv nf s v → quietDispatch nt nf s as →
    Inv nf (run nt nf s as) (v + vblanks as) := by
  induction as with
  | nil => intro s v h _; simpa [vblanks, Scheduler.run] using h
  | cons a as ih =>
    intro s v h hq
    cases a with
    | vsync =>
      have := ih (h.vsync hq.1) hq.2
      simpa [Scheduler.run, act, vblanks, Nat.add_comm, Nat.add_left_comm, Nat.add_assoc] using this
    | step =>
      have := ih (h.tickStep (nt := nt)) hq
      simpa [Scheduler.run, act, vblanks] using this

theorem run_add (nt nf : Nat) (s : St) (a b : List Act) :
    run nt nf s (a ++ b) = run nt nf (run nt nf s a) b := by simp [Scheduler.run]

theorem run_ticks (nt nf k : Nat) : ∀ s : St, s.pc = .tickHandlers k → k ≤ nt →
    run nt nf s (List.replicate k .step) =
      { s with pc := .tickHandlers 0,
               trace := s.trace ++ (List.range' (nt - k) k).map .tick } := by
  induction k with
  | zero => intro s h _; cases s; simp_all [Scheduler.run]
  | succ k ih =>
    intro s h hk
    obtain ⟨f, pf, tk, pc, tr⟩ := s
    simp only at h; subst h
    have := ih ⟨f, pf, tk, .tickHandlers k, tr ++ [.tick (nt - (k + 1))]⟩ rfl (by omega)
    simp only [List.replicate_succ, Scheduler.run, List.foldl_cons, act, Scheduler.tickStep] at *
    rw [this]
    simp [List.range'_succ, show nt - k = nt - (k + 1) + 1 by omega]

theorem run_frames (nt nf d k : Nat) : ∀ s : St, s.pc = .frameHandlers d k → k ≤ nf →
    run nt nf s (List.replicate k .step) =
      { s with pc := .frameHandlers d 0,
               trace := s.trace ++ (List.range' (nf - k) k).map (.frame · d) } := by
  induction k with
  | zero => intro s h _; cases s; simp_all [Scheduler.run]
  | succ k ih =>
    intro s h hk
    obtain ⟨f, pf, tk, pc, tr⟩ := s
    simp only at h; subst h
    have := ih ⟨f, pf, tk, .frameHandlers d k, tr ++ [.frame (nf - (k + 1)) d]⟩ rfl (by omega)
    simp only [List.replicate_succ, Scheduler.run, List.foldl_cons, act, Scheduler.tickStep] at *
    rw [this]
    simp [List.range'_succ, show nf - k = nf - (k + 1) + 1 by omega]

end Mdmi.Scheduler
