import Verif.Proofs.Comm
/-! C45: communication source selection is sticky. -/
namespace Mdmi.Props
open Mdmi Mdmi.Comm

/-- **C45.** For every number of interfaces and every schedule of arrivals, polls, reads and writes
that does not write before a source is found: every byte read and every message sent belongs to one
and the same interface; what was read plus what that interface still holds is what arrived on it, in
order; bytes of all other interfaces stay untouched; both counters stay within their cap. -/
theorem C45_source_is_sticky (n : Nat) (sched : List Act) (s : St)
    (h : run n start sched = some s) :
    (∀ e ∈ s.trace, s.active = some e.iface) ∧
    (∀ i, s.active = some i → i < n ∧ gotBytes s.trace ++ s.queue i = arrivals i sched) ∧
    (∀ i, s.active ≠ some i → s.queue i = arrivals i sched) ∧
    s.idle ≤ 0x28F ∧ s.reads ≤ 0x28F := by
  obtain ⟨i, _⟩ := (Inv.start n).run sched h
  refine ⟨i.iface, fun j hj => ⟨i.lt j hj, ?_⟩, fun j hj => ?_, i.idle, i.reads⟩
  · simpa [hj] using i.queue j
  · simpa [hj] using i.queue j

/-- Once chosen, the source never changes. -/
theorem C45_source_never_changes (n : Nat) (sched more : List Act) (s s' : St) (i : Nat)
    (h : run n start sched = some s) (hi : s.active = some i) (h' : run n s more = some s') :
    s'.active = some i := by
  obtain ⟨inv, _⟩ := (Inv.start n).run sched h
  exact (inv.run more h').2 i hi

/-- The source chosen is the first present interface holding data; while there is none, polling
reports nothing and chooses nothing. -/
theorem C45_first_ready_source_is_chosen (n : Nat) (s s' : St) (r : Bool) (ha : s.active = none)
    (h : readReady n s = (r, s')) :
    (r = true → ∃ i, s'.active = some i ∧ i < n ∧ s.present i = true ∧ s.queue i ≠ [] ∧
      ∀ j < i, ¬ (s.present j = true ∧ s.queue j ≠ [])) ∧
    (r = false → s'.active = none ∧ ∀ j < n, ¬ (s.present j = true ∧ s.queue j ≠ [])) := by
  simp only [readReady, ha] at h
  cases hs : scan s 0 n with
  | none =>
    simp [hs] at h; obtain ⟨rfl, rfl⟩ := h
    exact ⟨by simp, fun _ => ⟨ha, fun j hj => scan_none hs j (by omega) (by omega)⟩⟩
  | some i =>
    simp [hs] at h; obtain ⟨rfl, rfl⟩ := h
    obtain ⟨_, b, c, d, e⟩ := scan_some hs
    exact ⟨fun _ => ⟨i, rfl, by omega, c, d, fun j hj => e j (by omega) hj⟩, by simp⟩

/-- Activity counting: a completed read counts one busy unit, an empty poll of the chosen source one
idle unit, and neither counts any more once either counter has reached the cap. -/
theorem C45_counting (n : Nat) (s s' : St) (i : Nat) (ha : s.active = some i)
    (hin : s.idle ≤ 0x28F) (hrd : s.reads ≤ 0x28F) (h : step n s .tryRead = some s') :
    s'.idle + s'.reads = s.idle + s.reads +
      (if s.idle = 0x28F ∨ s.reads = 0x28F then 0 else 1) ∧
    (s.queue i = [] → s'.reads = s.reads) ∧ (s.queue i ≠ [] → s'.idle = s.idle) := by
  simp only [step, tryRead, readReady, ha] at h
  cases hq : s.queue i with
  | nil =>
    simp [hq] at h
    by_cases hb : countsInBounds s = true
    · simp [hb] at h; subst h
      simp [countsInBounds, maxCount] at hb
      simp [hb]; omega
    · simp [hb] at h; subst h
      simp [countsInBounds, maxCount] at hb
      simp; omega
  | cons x xs =>
    simp [hq] at h
    by_cases hb : countsInBounds s = true
    · simp [hb, ha] at h; subst h
      simp [countsInBounds, maxCount] at hb
      simp [driverRead, hb]; omega
    · simp [hb, ha] at h; subst h
      simp [countsInBounds, maxCount] at hb
      simp [driverRead]; omega

/-- A message written while the chosen source can send goes out once, on that source, and nothing
else changes; while it cannot send, the caller waits and nothing is sent. -/
theorem C45_output_goes_to_source (n : Nat) (s : St) (i : Nat) (d : List Nat)
    (ha : s.active = some i) :
    ∃ s', step n s (.tryWrite d) = some s' ∧ s'.queue = s.queue ∧ s'.active = s.active ∧
      sentData s'.trace = sentData s.trace ++ (if s.writeReady i then [d] else []) ∧
      gotBytes s'.trace = gotBytes s.trace := by
  by_cases hw : s.writeReady i = true <;>
    simp [step, tryWrite, ha, hw, sentData, gotBytes]

/-- The reported mode is "discovery" exactly until a source has been found. -/
theorem C45_mode_is_discovery_until_found (n : Nat) (types : List Mode) (hl : types.length = n)
    (hd : Mode.discovery ∉ types) (sched : List Act) (s : St) (h : run n start sched = some s) :
    (mode types s = some .discovery ↔ s.active = none) ∧ mode types s ≠ none := by
  obtain ⟨inv, _⟩ := (Inv.start n).run sched h
  cases ha : s.active with
  | none => simp [mode, ha]
  | some i =>
    have hi := inv.lt i ha
    have hi' : i < types.length := by omega
    refine ⟨⟨fun hm => ?_, by simp⟩, by simp [mode, ha]; omega⟩
    simp [mode, ha] at hm
    exact absurd (List.mem_of_getElem? hm) hd

/-- The only undefined behaviour is writing before a source has been found. -/
theorem C45_undefined_only_when_writing_first (n : Nat) (s : St) (a : Act)
    (h : step n s a = none) : ∃ d, a = .tryWrite d ∧ s.active = none := by
  cases a with
  | tryWrite d =>
    refine ⟨d, rfl, ?_⟩
    cases ha : s.active with
    | none => rfl
    | some i => simp [step, tryWrite, ha] at h; split at h <;> simp at h
  | tryRead =>
    simp only [step, tryRead, readReady] at h
    cases ha : s.active with
    | some i =>
      simp only [ha] at h
      by_cases hq : s.queue i = []
      · by_cases hb : countsInBounds s = true <;> simp [hq, hb] at h
      · simp [hq] at h
        by_cases hb : countsInBounds s = true <;> simp [hb, ha] at h
    | none =>
      simp only [ha] at h
      cases hs : scan s 0 n with
      | none => simp [hs] at h
      | some i =>
        simp only [hs] at h
        by_cases hb : countsInBounds { s with active := some i } = true <;> simp [hb] at h
  | _ => simp [step] at h

/-- Writing before any source is selected dereferences NULL (e.g. a pong requested by a start-up MIDI
sequence). -/
theorem C45_write_before_selection_is_undefined : run 5 start [.tryWrite [0xF0, 0xF7]] = none := by
  decide

-- non-vacuity: interface 2 speaks first, interface 0 is ignored afterwards
example : (run 5 start [.setPresent 0 true, .setPresent 2 true, .setWriteReady 2 true, .arrive 2 0x90,
    .readReady, .arrive 0 0x80, .tryRead, .tryRead, .tryWrite [1]]).map
      (fun s => (s.trace, s.active, s.idle, s.reads)) =
    some ([.got 2 0x90, .sent 2 [1]], some 2, 1, 1) := by decide

end Mdmi.Props
