import Verif.Spec.Comm
/-! Invariants of interface selection. -/
namespace Mdmi.Comm

theorem scan_some {s : St} {i k j : Nat} (h : scan s i k = some j) :
    i ≤ j ∧ j < i + k ∧ s.present j = true ∧ s.queue j ≠ [] ∧
      ∀ m, i ≤ m → m < j → ¬ (s.present m = true ∧ s.queue m ≠ []) := by
  induction k generalizing i with
  | zero => simp [scan] at h
  | succ k ih =>
    simp only [scan] at h
    split at h
    · rename_i hp
      simp at h; subst h
      simp at hp
      exact ⟨by omega, by omega, hp.1, hp.2, fun m _ _ => by omega⟩
    · rename_i hp
      obtain ⟨a, b, c, d, e⟩ := ih h
      refine ⟨by omega, by omega, c, d, fun m h1 h2 => ?_⟩
      by_cases hm : m = i
      · subst hm; simpa using hp
      · exact e m (by omega) h2

theorem scan_none {s : St} {i k : Nat} (h : scan s i k = none) :
    ∀ m, i ≤ m → m < i + k → ¬ (s.present m = true ∧ s.queue m ≠ []) := by
  induction k generalizing i with
  | zero => intro m _ _; omega
  | succ k ih =>
    simp only [scan] at h
    split at h
    · simp at h
    · rename_i hp
      intro m h1 h2
      by_cases hm : m = i
      · subst hm; simpa using hp
      · exact ih h m (by omega) (by omega)

/-- Invariant relating the state to the schedule `done` so far. -/
structure Inv (n : Nat) (s : St) (done : List Act) : Prop where
  iface : ∀ e ∈ s.trace, s.active = some e.iface
  idle : s.idle ≤ maxCount
  reads : s.reads ≤ maxCount
  lt : ∀ i, s.active = some i → i < n
  queue : ∀ i, (if s.active = some i then gotBytes s.trace else []) ++ s.queue i = arrivals i done

theorem arrivals_append (i a b) : arrivals i (a ++ b) = arrivals i a ++ arrivals i b := by
  simp [arrivals]

theorem gotBytes_append (a b) : gotBytes (a ++ b) = gotBytes a ++ gotBytes b := by simp [gotBytes]

theorem Inv.start (n) : Inv n start [] := by
  constructor <;> simp [Comm.start, arrivals]

theorem Inv.trace_nil {n s done} (h : Inv n s done) (ha : s.active = none) : s.trace = [] := by
  cases ht : s.trace with
  | nil => rfl
  | cons e t => have := h.iface e (by simp [ht]); rw [ha] at this; simp at this

theorem Inv.readReady {n s done} (h : Inv n s done) : Inv n (readReady n s).2 done ∧
    (readReady n s).2.trace = s.trace ∧ (readReady n s).2.queue = s.queue ∧
    ((readReady n s).1 = true → ∃ i, (readReady n s).2.active = some i ∧ s.queue i ≠ []) ∧
    (∀ i, s.active = some i → (readReady n s).2.active = some i) := by
  unfold Comm.readReady
  cases ha : s.active with
  | none =>
    cases hs : scan s 0 n with
    | none => exact ⟨h, rfl, rfl, by simp, by simp⟩
    | some i =>
      obtain ⟨_, b, _, d, _⟩ := scan_some hs
      have ht := h.trace_nil ha
      refine ⟨⟨?_, h.idle, h.reads, ?_, ?_⟩, rfl, rfl, fun _ => ⟨i, rfl, d⟩, by simp⟩
      · simp [ht]
      · intro j hj; simp at hj; omega
      · intro j
        have := h.queue j
        simp [ha] at this
        simp [ht, this, gotBytes]
  | some i =>
    simp only
    split
    · rename_i hq
      refine ⟨h, rfl, rfl, fun _ => ⟨i, ha, by simpa using hq⟩, by simp [ha]⟩
    · split
      · rename_i hb
        simp [countsInBounds] at hb
        refine ⟨⟨?_, ?_, h.reads, ?_, ?_⟩, rfl, rfl, by simp, by simp⟩
        · intro e he; exact ha ▸ h.iface e he
        · have := h.idle; simp only; simp only [maxCount] at *; omega
        · intro j hj; exact h.lt j (by rw [ha]; exact hj)
        · intro j; have := h.queue j; simpa only [ha] using this
      · exact ⟨h, rfl, rfl, by simp, by simp [ha]⟩

theorem Inv.step {n s done s'} (h : Inv n s done) (a : Act) (e : step n s a = some s') :
    Inv n s' (done ++ [a]) ∧ (∀ i, s.active = some i → s'.active = some i) := by
  cases a with
  | arrive i b =>
    simp [Comm.step] at e; subst e
    refine ⟨⟨h.iface, h.idle, h.reads, h.lt, ?_⟩, fun _ => id⟩
    intro j
    have := h.queue j
    by_cases hj : j = i
    · subst hj; simp [arrivals_append, ← this]; simp [arrivals]
    · have hj' : ¬ i = j := fun e => hj e.symm
      simp [arrivals_append, hj, ← this]; simp [arrivals, hj']
  | setPresent i p =>
    simp [Comm.step] at e; subst e
    exact ⟨⟨h.iface, h.idle, h.reads, h.lt, by
      intro j; have := h.queue j; simp [arrivals_append]; simpa [arrivals] using this⟩, fun _ => id⟩
  | setWriteReady i p =>
    simp [Comm.step] at e; subst e
    exact ⟨⟨h.iface, h.idle, h.reads, h.lt, by
      intro j; have := h.queue j; simp [arrivals_append]; simpa [arrivals] using this⟩, fun _ => id⟩
  | resetCounts =>
    simp [Comm.step, Comm.resetCounts] at e; subst e
    exact ⟨⟨h.iface, by simp, by simp, h.lt, by
      intro j; have := h.queue j; simp [arrivals_append]; simpa [arrivals] using this⟩, fun _ => id⟩
  | readReady =>
    simp [Comm.step] at e
    obtain ⟨r, _, _, _, st⟩ := h.readReady
    rw [e] at r st
    exact ⟨⟨r.iface, r.idle, r.reads, r.lt, by
      intro j; have := r.queue j; simp [arrivals_append]; simpa [arrivals] using this⟩, st⟩
  | tryWrite d =>
    simp [Comm.step, Comm.tryWrite] at e
    cases ha : s.active with
    | none => simp [ha] at e
    | some i =>
      simp [ha] at e
      split at e
      · simp at e; subst e
        refine ⟨⟨?_, h.idle, h.reads, fun j hj => h.lt j (by rw [ha]; exact hj), ?_⟩,
          fun _ => by simp⟩
        · intro ev hev
          simp at hev
          rcases hev with hev | rfl
          · exact ha ▸ h.iface ev hev
          · rfl
        · intro j; have := h.queue j
          rw [ha] at this
          simp only [arrivals_append, gotBytes_append]
          simpa [arrivals, gotBytes] using this
      · simp at e; subst e
        exact ⟨⟨h.iface, h.idle, h.reads, h.lt, by
          intro j; have := h.queue j; simp [arrivals_append]; simpa [arrivals] using this⟩,
          fun _ => by simp [ha]⟩
  | tryRead =>
    simp [Comm.step, Comm.tryRead] at e
    obtain ⟨r, rt, rq, rr, st⟩ := h.readReady
    cases hr : Comm.readReady n s with
    | mk b s1 =>
      simp only [hr] at e r rt rq rr st
      cases b with
      | false =>
        simp at e; subst e
        exact ⟨⟨r.iface, r.idle, r.reads, r.lt, by
          intro j; have := r.queue j; simp [arrivals_append]; simpa [arrivals] using this⟩, st⟩
      | true =>
        obtain ⟨i, ha, hq⟩ := rr rfl
        have hact : (if countsInBounds s1 = true then
            { s1 with reads := (s1.reads + 1) % 65536 } else s1).active = some i := by
          split <;> exact ha
        simp only [hact] at e
        simp at e; subst e
        rw [← rq] at hq
        obtain ⟨x, xs, hx⟩ := List.exists_cons_of_ne_nil hq
        have hrest : ∀ s2 : St, s2.active = some i → s2.queue = s1.queue → s2.trace = s1.trace →
            s2.idle ≤ maxCount → s2.reads ≤ maxCount →
            Inv n (driverRead s2 i) (done ++ [.tryRead]) := by
          intro s2 h1 h2 h3 h4 h5
          refine ⟨?_, h4, h5, ?_, ?_⟩
          · intro ev hev
            simp [driverRead, h3] at hev
            rcases hev with hev | rfl
            · simp only [driverRead, h1]; rw [← ha]; exact r.iface ev hev
            · exact h1
          · intro j hj; simp [driverRead, h1] at hj; subst hj; exact r.lt _ ha
          · intro j
            have := r.queue j
            by_cases hj : i = j
            · subst hj
              simp [ha, hx] at this
              simp [driverRead, h1, h2, h3, hx, gotBytes_append, arrivals_append]
              rw [← this]; simp [gotBytes, arrivals]
            · have hj' : ¬ j = i := fun e => hj e.symm
              simp [ha, hj] at this
              simp [driverRead, h1, h2, hj, hj', arrivals_append, this]
              simp [arrivals]
        refine ⟨?_, ?_⟩
        · split
          · rename_i hb
            simp [countsInBounds] at hb
            refine hrest _ ha rfl rfl r.idle ?_
            have := r.reads; simp only; simp only [maxCount] at *; omega
          · exact hrest _ ha rfl rfl r.idle r.reads
        · intro j hj
          have := st j hj
          rw [ha] at this; cases this
          split <;> exact ha

theorem Inv.run {n} (as : List Act) : ∀ {s done s'}, Inv n s done → run n s as = some s' →
    Inv n s' (done ++ as) ∧ (∀ i, s.active = some i → s'.active = some i) := by
  induction as with
  | nil => intro s done s' h e; simp [Comm.run] at e; subst e; exact ⟨by simpa using h, fun _ => id⟩
  | cons a as ih =>
    intro s done s' h e
    simp only [Comm.run] at e
    cases hs : Comm.step n s a with
    | none => simp [hs] at e
    | some s1 =>
      simp [hs] at e
      obtain ⟨h1, st⟩ := h.step a hs
      obtain ⟨h2, st2⟩ := ih h1 e
      exact ⟨by simpa using h2, fun i hi => st2 i (st i hi)⟩

end Mdmi.Comm
