import Verif.Spec.NoteStack
/-! Refinement lemmas: note stack to list. -/
namespace Mdmi.NotePriority

/-- `l` is what the stack holds, oldest first. -/
structure Rep (s : Stack) (l : List Nat) : Prop where
  len : s.slot.length = 10
  le : l.length ≤ 10
  top : s.top = (l.length : Int) - 1
  get : ∀ k (h : k < l.length), s.slot[k]? = some l[k]

theorem Rep.init : Rep init [] := by
  constructor <;> simp [NotePriority.init, length]

theorem Rep.push {s l} (h : Rep s l) (p : Nat) :
    ∃ s', push s p = some s' ∧ Rep s' (if l.length = 10 then l else l ++ [p]) := by
  obtain ⟨h1, h2, h3, h4⟩ := h
  by_cases hl : l.length = 10
  · exact ⟨s, by simp [NotePriority.push, h3, hl, length], by simpa [hl] using ⟨h1, h2, h3, h4⟩⟩
  · have ht : ¬ s.top = (length : Int) - 1 := by simp [length, h3]; omega
    have hb : ¬ (s.top + 1 < 0 ∨ ((s.slot.length : Nat) : Int) ≤ s.top + 1) := by omega
    have hn : (s.top + 1).toNat = l.length := by omega
    refine ⟨_, by simp only [NotePriority.push, if_neg ht, store, if_neg hb]; rfl, ?_⟩
    simp only [hl, if_false]
    constructor
    · simpa using h1
    · simp; omega
    · simp; omega
    · intro k hk
      simp at hk
      by_cases hkl : k < l.length
      · have : l.length ≠ k := by omega
        simp [hn, List.getElem?_set_ne this, h4 k hkl, hkl]
      · have : k = l.length := by omega
        subst this
        have hlt : l.length < s.slot.length := by omega
        simp [hn, hlt]

theorem Rep.pop {s l} (h : Rep s l) :
    ∃ s', pop s = some ((NoteStack.popNewest l).1, s') ∧ Rep s' (NoteStack.popNewest l).2 := by
  obtain ⟨h1, h2, h3, h4⟩ := h
  by_cases hl : l = []
  · subst hl
    exact ⟨s, by simp [NotePriority.pop, h3, NoteStack.popNewest],
      ⟨h1, h2, h3, h4⟩⟩
  · have hpos : 0 < l.length := List.length_pos_iff.2 hl
    have ht : ¬ s.top = -1 := by omega
    have hneg : ¬ s.top < 0 := by omega
    have hn : s.top.toNat = l.length - 1 := by omega
    have hg := h4 (l.length - 1) (by omega)
    have hlast : l.getLastD 0 = l[l.length - 1] := by
      rw [List.getLastD_eq_getLast?, List.getLast?_eq_getElem?]
      simp [show l.length - 1 < l.length by omega]
    refine ⟨{ s with top := s.top - 1 }, ?_, ?_⟩
    · simp [NotePriority.pop, ht, load, hneg, hn, hg, NoteStack.popNewest]
      rw [← hlast, List.getLastD_eq_getLast?]
    · constructor
      · exact h1
      · simp [NoteStack.popNewest]; omega
      · simp [NoteStack.popNewest]; omega
      · intro k hk
        simp [NoteStack.popNewest] at hk
        simp [NoteStack.popNewest, h4 k (by omega)]

theorem removeLoop_ok (pitch : Nat) (l : List Nat) : ∀ (done : List Nat) (i : Nat) (s : Stack),
    s.slot.length = 10 → i + l.length ≤ 10 → done.length ≤ i →
    (∀ k (h : k < l.length), s.slot[i + k]? = some l[k]) →
    (∀ k (h : k < done.length), s.slot[k]? = some done[k]) →
    ∃ s', removeLoop pitch l.length i ((done.length : Int) - 1) s =
        some (((done ++ l.filter (· ≠ pitch)).length : Int) - 1, s') ∧ s'.slot.length = 10 ∧
      (∀ k (h : k < (done ++ l.filter (· ≠ pitch)).length),
        s'.slot[k]? = some (done ++ l.filter (· ≠ pitch))[k]) := by
  induction l with
  | nil =>
    intro done i s h1 _ _ _ h5
    exact ⟨s, by simp [removeLoop], h1, by simpa using h5⟩
  | cons x l ih =>
    intro done i s h1 h2 h3 h4 h5
    have hx := h4 0 (by simp)
    simp at hx h2
    have hi : ¬ ((i : Int) < 0) := by omega
    have hload : load s (i : Int) = some x := by simp [load, hx]
    have h4' : ∀ k (h : k < l.length), s.slot[i + 1 + k]? = some l[k] := by
      intro k hk
      have := h4 (k + 1) (by simp; omega)
      simpa [show i + (k + 1) = i + 1 + k by omega] using this
    by_cases hxp : x = pitch
    · obtain ⟨s', e, a, b⟩ := ih done (i + 1) s h1 (by omega) (by omega) h4' h5
      refine ⟨s', ?_, a, ?_⟩
      · simp only [List.length_cons, removeLoop, hload, hxp, if_true]
        simpa [hxp] using e
      · simpa [hxp] using b
    · have hw : ¬ (((done.length : Int) - 1 + 1 < 0) ∨
          ((s.slot.length : Nat) : Int) ≤ (done.length : Int) - 1 + 1) := by omega
      have hwn : ((done.length : Int) - 1 + 1).toNat = done.length := by omega
      obtain ⟨s', e, a, b⟩ := ih (done ++ [x]) (i + 1)
        { s with slot := s.slot.set done.length x } (by simpa using h1) (by omega)
        (by simp; omega)
        (by
          intro k hk
          have : done.length ≠ i + 1 + k := by omega
          simp [List.getElem?_set_ne this, h4' k hk])
        (by
          intro k hk
          simp at hk
          by_cases hkd : k < done.length
          · have : done.length ≠ k := by omega
            simp [List.getElem?_set_ne this, h5 k hkd, hkd]
          · have : k = done.length := by omega
            subst this
            have : done.length < s.slot.length := by omega
            simp [this])
      refine ⟨s', ?_, a, ?_⟩
      · simp only [List.length_cons, removeLoop, hload, hxp, if_false, store, if_neg hw, hwn]
        have e1 : (((done ++ [x]).length : Nat) : Int) - 1 = (done.length : Int) - 1 + 1 := by
          simp
        have e2 : ((i + 1 : Nat) : Int) = (i : Int) + 1 := by omega
        rw [e1, e2] at e
        rw [e]; simp [hxp]
      · simpa [hxp] using b

theorem Rep.remove {s l} (h : Rep s l) (p : Nat) :
    ∃ s', remove s p = some s' ∧ Rep s' (l.filter (· ≠ p)) := by
  obtain ⟨h1, h2, h3, h4⟩ := h
  obtain ⟨s', e, a, b⟩ := removeLoop_ok p l [] 0 s h1 (by omega) (by simp)
    (by simpa using h4) (by simp)
  have hn : (s.top + 1).toNat = l.length := by omega
  refine ⟨{ s' with top := ((l.filter (· ≠ p)).length : Int) - 1 }, ?_, a, ?_, ?_, ?_⟩
  · have e' : removeLoop p l.length 0 (-1) s =
        some (((l.filter (· ≠ p)).length : Int) - 1, s') := by simpa using e
    simp only [NotePriority.remove, hn, e']
  · exact Nat.le_trans (List.length_filter_le _ _) h2
  · rfl
  · intro k hk; simpa using b k (by simpa using hk)

theorem Rep.isFull {s l} (h : Rep s l) : isFull s = decide (l.length = 10) := by
  have := h.top
  simp only [NotePriority.isFull, length]
  congr 1
  exact propext ⟨fun e => by omega, fun e => by omega⟩

theorem Rep.count {s l} (h : Rep s l) : count s = l.length := by
  have := h.top; have := h.le
  simp only [NotePriority.count]; omega

theorem Rep.step {s l} (h : Rep s l) (op : Op) :
    ∃ s', step s op = some ((NoteStack.step l op).1, s') ∧ Rep s' (NoteStack.step l op).2 := by
  cases op with
  | push p =>
    obtain ⟨s', e, r⟩ := h.push p
    exact ⟨s', by simp [NotePriority.step, e, NoteStack.step], r⟩
  | pop =>
    obtain ⟨s', e, r⟩ := h.pop
    exact ⟨s', by simp [NotePriority.step, e, NoteStack.step], r⟩
  | remove p =>
    obtain ⟨s', e, r⟩ := h.remove p
    exact ⟨s', by simp [NotePriority.step, e, NoteStack.step], r⟩
  | isFull => exact ⟨s, by simp [NotePriority.step, h.isFull, NoteStack.step], h⟩
  | count => exact ⟨s, by simp [NotePriority.step, h.count, NoteStack.step], h⟩

theorem Rep.run {s l} (h : Rep s l) (ops : List Op) : run s ops = some (NoteStack.run l ops) := by
  induction ops generalizing s l with
  | nil => rfl
  | cons op ops ih =>
    obtain ⟨s', e, r⟩ := h.step op
    simp [NotePriority.run, NoteStack.run, e, ih r]

end Mdmi.NotePriority
