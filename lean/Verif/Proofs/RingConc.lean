import Verif.Model.RingConc
import Verif.Proofs.RingBuf
/-! Invariant of the concurrent ring. -/
namespace Mdmi.Fifo

theorem after_snoc {cap t q e q'} (h : after cap t = some q) (h' : next cap q e = some q') :
    after cap (t ++ [e]) = some q' := by
  simp [after] at h ⊢; simp [h, h']

theorem accepted_append (t t') : accepted (t ++ t') = accepted t ++ accepted t' := by
  induction t with
  | nil => rfl
  | cons e t ih => cases e <;> simp [accepted, ih]

theorem delivered_append (t t') : delivered (t ++ t') = delivered t ++ delivered t' := by
  induction t with
  | nil => rfl
  | cons e t ih => cases e <;> simp [delivered, ih]

theorem foldlM_split {cap} (t : List Ev) (q0 q : List Nat) (h : t.foldlM (next cap) q0 = some q) :
    q0 ++ accepted t = delivered t ++ q := by
  induction t generalizing q0 with
  | nil => simp at h; simp [accepted, delivered, h]
  | cons e t ih =>
    simp [List.foldlM_cons, Option.bind_eq_some_iff] at h
    obtain ⟨q1, h1, h2⟩ := h
    have := ih q1 h2
    cases e with
    | accept b =>
      simp [next] at h1; obtain ⟨_, rfl⟩ := h1
      simpa [accepted, delivered] using this
    | reject b =>
      simp [next] at h1; obtain ⟨_, rfl⟩ := h1
      simpa [accepted, delivered] using this
    | deliver b =>
      cases q0 with
      | nil => simp [next] at h1
      | cons x q0 =>
        simp [next] at h1; obtain ⟨rfl, rfl⟩ := h1
        simpa [accepted, delivered] using this
    | empty =>
      simp [next] at h1; obtain ⟨rfl, rfl⟩ := h1
      simpa [accepted, delivered] using this

theorem foldlM_length {cap} (t : List Ev) (q0 q : List Nat) (h0 : q0.length ≤ cap)
    (h : t.foldlM (next cap) q0 = some q) : q.length ≤ cap := by
  induction t generalizing q0 with
  | nil => simp at h; simpa [← h] using h0
  | cons e t ih =>
    simp [List.foldlM_cons, Option.bind_eq_some_iff] at h
    obtain ⟨q1, h1, h2⟩ := h
    refine ih q1 ?_ h2
    cases e with
    | accept b => simp [next] at h1; obtain ⟨_, rfl⟩ := h1; simp; omega
    | reject b => simp [next] at h1; obtain ⟨_, rfl⟩ := h1; exact h0
    | deliver b =>
      cases q0 with
      | nil => simp [next] at h1
      | cons x q0 => simp [next] at h1; obtain ⟨rfl, rfl⟩ := h1; simp at h0; omega
    | empty => simp [next] at h1; obtain ⟨rfl, rfl⟩ := h1; simp

end Mdmi.Fifo

namespace Mdmi.RingConc
open Mdmi.Ring

/-- Facts the producer's locals carry while the queue holds `q`. -/
def POk (rb : RingBuf) (st q : List Nat) : PPc → Prop
  | .idle | .loadHead _ => True
  | .loadTail _ nh => nh = (rb.head + 1) % rb.size
  | .loadHead2 _ nh => nh = (rb.head + 1) % rb.size ∧ q.length < rb.size - 1
  | .storeByte _ nh h => nh = (rb.head + 1) % rb.size ∧ q.length < rb.size - 1 ∧ h = rb.head
  | .storeHead b nh =>
    nh = (rb.head + 1) % rb.size ∧ q.length < rb.size - 1 ∧ st[rb.head]? = some b

/-- Facts the consumer's locals carry while the queue holds `q`. -/
def COk (rb : RingBuf) (q : List Nat) : CPc → Prop
  | .idle | .loadTail => True
  | .loadHead t => t = rb.tail
  | .loadTail2 => q ≠ []
  | .loadByte t => q ≠ [] ∧ t = rb.tail
  | .loadTail3 d => q.head? = some d
  | .storeTail d t => q.head? = some d ∧ t = rb.tail

/-- Invariant: the ring represents the queue determined by the history. -/
structure Inv (n : Nat) (s : Sys) (st q : List Nat) : Prop where
  rep : Rep s.rb st q
  size : s.rb.size = n
  pok : POk s.rb st q s.p
  cok : COk s.rb q s.c
  hist : Fifo.after (n - 1) s.trace = some q

theorem Inv.start (storage : List Nat) (n : Nat) (hn : 2 ≤ n) (h : n ≤ storage.length) :
    Inv n (start storage n) storage [] := by
  have : ¬ n < 2 := by omega
  exact ⟨Rep.init _ _ _ hn h, by simp [RingConc.start, Ring.init, this], trivial, trivial, rfl⟩

theorem Inv.prodStep {n s st q} (h : Inv n s st q) :
    ∃ s' st' q', prodStep s = some s' ∧ Inv n s' st' q' := by
  obtain ⟨rep, size, pok, cok, hist⟩ := h
  obtain ⟨rb, p, c, tr⟩ := s
  simp only at *
  have hl := rep.hlen
  have hh := rep.head_lt
  have hal := rep.halloc
  cases p with
  | idle => exact ⟨_, st, q, rfl, rep, size, pok, cok, hist⟩
  | loadHead b => exact ⟨_, st, q, rfl, rep, size, rfl, cok, hist⟩
  | loadTail b nh =>
    simp only [POk] at pok
    by_cases e : nh = rb.tail
    · have hf : q.length = rb.size - 1 := by rw [← rep.full_iff, ← pok, e]
      refine ⟨_, st, q, if_pos e, rep, size, trivial, cok, ?_⟩
      exact Fifo.after_snoc hist (by simp [Fifo.next, hf, size])
    · have hf : ¬ q.length = rb.size - 1 := by rw [← rep.full_iff, ← pok]; exact e
      exact ⟨_, st, q, if_neg e, rep, size,
        ⟨pok, by simp only; omega⟩, cok, hist⟩
  | loadHead2 b nh =>
    exact ⟨_, st, q, rfl, rep, size, ⟨pok.1, pok.2, rfl⟩, cok, hist⟩
  | storeByte b nh h =>
    obtain ⟨p1, p2, p3⟩ := pok
    subst p3
    have hlt : rb.head < st.length := by omega
    refine ⟨⟨{ rb with buf := some (st.set rb.head b) }, .storeHead b nh, c, tr⟩,
      st.set rb.head b, q, by simp [RingConc.prodStep, rep.hbuf, hlt], ?_, size,
      ⟨p1, p2, by simp [hlt]⟩, ?_, hist⟩
    · -- the stored byte is outside the queue's slots
      have ht := rep.htail
      refine ⟨rfl, rep.hsize, by simpa using rep.halloc, ht, hl, rep.hhead, ?_⟩
      intro k hk
      have hhd := rep.hhead
      rw [add_mod_cases _ _ _ ht (by omega)] at hhd
      have hne : rb.head ≠ (rb.tail + k) % rb.size := by
        rw [add_mod_cases _ _ _ ht (by omega)]
        split at hhd <;> split <;> omega
      show (st.set rb.head b)[(rb.tail + k) % rb.size]? = _
      rw [List.getElem?_set_ne hne]; exact rep.hget k hk
    · cases c <;> exact cok
  | storeHead b nh =>
    obtain ⟨p1, p2, p3⟩ := pok
    refine ⟨_, st, q ++ [b], rfl, ?_, size, trivial, ?_, ?_⟩
    · refine ⟨rep.hbuf, rep.hsize, rep.halloc, rep.htail, ?_, ?_, ?_⟩
      · simp; omega
      · simp [p1, rep.hhead, Nat.mod_add_mod]; congr 1
      · intro k hk
        simp at hk
        by_cases hkq : k < q.length
        · have := rep.hget k hkq
          simp [hkq, this]
        · have : k = q.length := by omega
          subst this
          simp [← rep.hhead, p3]
    · cases c <;> simp_all [COk]
    · exact Fifo.after_snoc hist (by simp [Fifo.next]; omega)

theorem Inv.consStep {n s st q} (h : Inv n s st q) :
    ∃ s' q', consStep s = some s' ∧ Inv n s' st q' := by
  obtain ⟨rep, size, pok, cok, hist⟩ := h
  obtain ⟨rb, p, c, tr⟩ := s
  simp only at *
  have hl := rep.hlen
  have ht := rep.htail
  have hs := rep.hsize
  cases c with
  | idle => exact ⟨_, q, rfl, rep, size, pok, cok, hist⟩
  | loadTail => exact ⟨_, q, rfl, rep, size, pok, rfl, hist⟩
  | loadHead t =>
    simp only [COk] at cok
    subst cok
    by_cases e : rb.tail = rb.head
    · have hq := rep.empty_iff.1 e
      subst hq
      refine ⟨_, [], if_pos e, rep, size, pok, trivial, ?_⟩
      exact Fifo.after_snoc hist (by simp [Fifo.next])
    · have hq : q ≠ [] := fun h => e (rep.empty_iff.2 h)
      exact ⟨_, q, if_neg e, rep, size, pok, hq, hist⟩
  | loadTail2 => exact ⟨_, q, rfl, rep, size, pok, ⟨cok, rfl⟩, hist⟩
  | loadByte t =>
    obtain ⟨c1, c2⟩ := cok
    subst c2
    cases q with
    | nil => exact absurd rfl c1
    | cons x q =>
      have hg := rep.hget 0 (by simp)
      simp [Nat.mod_eq_of_lt ht] at hg
      exact ⟨⟨rb, p, .loadTail3 x, tr⟩, x :: q, by simp [RingConc.consStep, rep.hbuf, hg], rep, size, pok, rfl, hist⟩
  | loadTail3 d => exact ⟨_, q, rfl, rep, size, pok, ⟨cok, rfl⟩, hist⟩
  | storeTail d t =>
    obtain ⟨c1, c2⟩ := cok
    subst c2
    cases q with
    | nil => simp at c1
    | cons x q =>
      simp at c1; subst c1
      have r := rep.read_cons.2
      refine ⟨_, q, rfl, r, size, ?_, trivial, Fifo.after_snoc hist (by simp [Fifo.next])⟩
      cases p with
      | idle => trivial
      | loadHead b => trivial
      | loadTail b nh => exact pok
      | loadHead2 b nh =>
        have := pok.2; simp at this
        exact ⟨pok.1, by simp only; omega⟩
      | storeByte b nh h =>
        have := pok.2.1; simp at this
        exact ⟨pok.1, by simp only; omega, pok.2.2⟩
      | storeHead b nh =>
        have := pok.2.1; simp at this
        exact ⟨pok.1, by simp only; omega, pok.2.2⟩

theorem Inv.step {n s st q} (h : Inv n s st q) (a : Act) :
    ∃ s' st' q', step s a = some s' ∧ Inv n s' st' q' := by
  cases a with
  | startWrite b =>
    refine ⟨_, st, q, rfl, ?_⟩
    split
    · exact ⟨h.rep, h.size, trivial, h.cok, h.hist⟩
    · exact h
  | prod => exact h.prodStep
  | startRead =>
    refine ⟨_, st, q, rfl, ?_⟩
    split
    · exact ⟨h.rep, h.size, h.pok, trivial, h.hist⟩
    · exact h
  | cons =>
    obtain ⟨s', q', e, i⟩ := h.consStep
    exact ⟨s', st, q', e, i⟩

theorem Inv.run {n s st q} (h : Inv n s st q) (as : List Act) :
    ∃ s' st' q', run s as = some s' ∧ Inv n s' st' q' := by
  induction as generalizing s st q with
  | nil => exact ⟨s, st, q, rfl, h⟩
  | cons a as ih =>
    obtain ⟨s1, st1, q1, e, i⟩ := h.step a
    obtain ⟨s2, st2, q2, e2, i2⟩ := ih i
    exact ⟨s2, st2, q2, by simp [RingConc.run, e, e2], i2⟩

end Mdmi.RingConc
