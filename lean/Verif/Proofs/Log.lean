import Verif.Spec.Log
/-! Refinement of the log ring. -/
namespace Mdmi.Log

/-- `q` is what the log holds, oldest first. -/
structure Rep (s : St) (q : List Entry) : Prop where
  len : s.logs.length = 10
  count : s.count = q.length
  le : q.length ≤ 9
  rd : s.readHead < 10
  wr : s.writeHead = (s.readHead + q.length) % 10
  get : ∀ k (h : k < q.length), s.logs[(s.readHead + k) % 10]? = some q[k]

theorem Rep.init : Rep init [] := by
  constructor <;> simp [Log.init, maxEntries]

theorem incRead (s : St) (h : s.readHead < 10) (hc : 0 < s.count) (hc2 : s.count ≤ 65535) :
    incrementReadHead s =
      { s with readHead := (s.readHead + 1) % 10, count := s.count - 1 } := by
  have h1 : (if s.readHead + 1 = maxEntries then 0 else s.readHead + 1) = (s.readHead + 1) % 10 := by
    by_cases h : s.readHead + 1 = 10
    · simp [maxEntries, h]
    · simp [maxEntries, h]; omega
  have h2 : (s.count + 65535) % 65536 = s.count - 1 := by omega
  simp only [incrementReadHead, h1, h2]

theorem Rep.deq {s e q} (h : Rep s (e :: q)) :
    dequeue s = some (some e, { s with readHead := (s.readHead + 1) % 10, count := s.count - 1 }) ∧
    Rep { s with readHead := (s.readHead + 1) % 10, count := s.count - 1 } q := by
  obtain ⟨h1, h2, h3, h4, h5, h6⟩ := h
  simp at h2 h3 h5
  have hg := h6 0 (by simp)
  simp [Nat.mod_eq_of_lt h4] at hg
  refine ⟨?_, ?_⟩
  · have : ¬ s.count = 0 := by omega
    simp only [dequeue, this, if_false, hg]
    rw [incRead s h4 (by omega) (by omega)]
  · constructor
    · exact h1
    · simp only; omega
    · omega
    · simp only; omega
    · simp only; omega
    · intro k hk
      have := h6 (k + 1) (by simp; omega)
      simp at this
      simp only [Nat.mod_add_mod]
      rw [show s.readHead + 1 + k = s.readHead + (k + 1) by omega, this]

theorem Rep.logs {s q} (h : Rep s q) (l : Level) (m : List Nat) (hm : m.length ≤ 39) :
    ∃ s', log s l m = some s' ∧ Rep s' (LogSpec.newest 9 (q ++ [⟨l, m⟩])) := by
  obtain ⟨h1, h2, h3, h4, h5, h6⟩ := h
  have hw : s.writeHead < 10 := by omega
  have hinc : (if s.writeHead + 1 = maxEntries then 0 else s.writeHead + 1) =
      (s.writeHead + 1) % 10 := by
    by_cases h : s.writeHead + 1 = 10
    · simp [maxEntries, h]
    · simp [maxEntries, h]; omega
  by_cases hfull : q.length = 9
  · have hwr : (s.writeHead + 1) % 10 = s.readHead := by omega
    refine ⟨{ logs := s.logs.set s.writeHead ⟨l, m⟩, readHead := (s.readHead + 1) % 10,
              writeHead := s.readHead, count := 9 }, ?_, ?_⟩
    · simp only [log, incrementWriteHead, hinc, hwr, if_true]
      rw [incRead _ (by simpa using h4) (by simp only; omega) (by simp only; omega)]
      simp only [h1, h2, hfull, hw, true_and]
      have : m.length + 1 ≤ 40 := by omega
      simp [this]
    · have hq : q ≠ [] := by intro e; simp [e] at hfull
      obtain ⟨x, q', rfl⟩ := List.exists_cons_of_ne_nil hq
      have : LogSpec.newest 9 (x :: q' ++ [⟨l, m⟩]) = q' ++ [⟨l, m⟩] := by
        simp at hfull
        simp [LogSpec.newest, hfull]
      rw [this]
      simp at hfull h5 h2 h3
      constructor
      · simpa using h1
      · simp [hfull]
      · simp [hfull]
      · simp only; omega
      · simp [hfull]; omega
      · intro k hk
        simp at hk
        simp only [Nat.mod_add_mod]
        by_cases hkq : k < q'.length
        · have := h6 (k + 1) (by simp; omega)
          simp at this
          have hne : s.writeHead ≠ (s.readHead + 1 + k) % 10 := by omega
          rw [List.getElem?_set_ne hne,
            show s.readHead + 1 + k = s.readHead + (k + 1) by omega, this]
          simp [hkq]
        · have hk' : k = q'.length := by omega
          subst hk'
          have : (s.readHead + 1 + q'.length) % 10 = s.writeHead := by omega
          rw [this]
          have : s.writeHead < s.logs.length := by omega
          simp [this]
  · have hwr : ¬ (s.writeHead + 1) % 10 = s.readHead := by omega
    refine ⟨{ logs := s.logs.set s.writeHead ⟨l, m⟩, readHead := s.readHead,
              writeHead := (s.writeHead + 1) % 10, count := s.count + 1 }, ?_, ?_⟩
    · simp only [log, incrementWriteHead, hinc, hwr, if_false]
      have : m.length + 1 ≤ 40 := by omega
      simp only [h1, hw, this, and_self, if_true]
      have : (s.count + 1) % 65536 = s.count + 1 := by omega
      simp [this]
    · have : LogSpec.newest 9 (q ++ [⟨l, m⟩]) = q ++ [⟨l, m⟩] := by
        have : q.length + 1 - 9 = 0 := by omega
        simp [LogSpec.newest, this]
      rw [this]
      constructor
      · simpa using h1
      · simp; omega
      · simp; omega
      · exact h4
      · simp; omega
      · intro k hk
        simp at hk
        by_cases hkq : k < q.length
        · have := h6 k hkq
          have hne : s.writeHead ≠ (s.readHead + k) % 10 := by omega
          show (s.logs.set s.writeHead _)[(s.readHead + k) % 10]? = _
          rw [List.getElem?_set_ne hne, this]
          simp [hkq]
        · have hk' : k = q.length := by omega
          subst hk'
          show (s.logs.set s.writeHead _)[(s.readHead + q.length) % 10]? = _
          rw [← h5]
          have : s.writeHead < s.logs.length := by omega
          simp [this]

theorem Rep.run {s q} (h : Rep s q) (ops : List Op)
    (hm : ∀ l m, Op.log l m ∈ ops → m.length ≤ 39) : run s ops = some (LogSpec.run q ops) := by
  induction ops generalizing s q with
  | nil => rfl
  | cons op ops ih =>
    have hm' : ∀ l m, Op.log l m ∈ ops → m.length ≤ 39 := fun l m h => hm l m (by simp [h])
    cases op with
    | log l m =>
      obtain ⟨s', e, r⟩ := h.logs l m (hm l m (by simp))
      simp [Log.run, e, ih r hm', LogSpec.run]
    | dequeue =>
      cases q with
      | nil =>
        have : s.count = 0 := by simpa using h.count
        simp [Log.run, dequeue, this, ih h hm', LogSpec.run]
      | cons e q =>
        obtain ⟨e1, r⟩ := h.deq
        simp [Log.run, e1, ih r hm', LogSpec.run]

end Mdmi.Log
