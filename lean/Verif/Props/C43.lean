import Verif.Proofs.RingConc
/-! C43: the ring buffer is safe between the interrupt and the main loop. -/
namespace Mdmi.Props
open Mdmi

/-- **C43.** For every interleaving of one producer and one consumer at the granularity of single
memory accesses: no access is out of bounds and the history of returned calls is one that a bounded
first-in first-out queue of capacity `n - 1` could show (so `FULL` is returned only when it is full,
`EMPTY` only when it is empty, and bytes come out in the order they went in). -/
theorem C43_interleaved_ring_is_fifo (storage : List Nat) (n : Nat) (hn : 2 ≤ n)
    (halloc : n ≤ storage.length) (sched : List RingConc.Act) :
    ∃ s q, RingConc.run (RingConc.start storage n) sched = some s ∧
      Fifo.after (n - 1) s.trace = some q := by
  obtain ⟨s, _, q, e, i⟩ := (RingConc.Inv.start storage n hn halloc).run sched
  exact ⟨s, q, e, i.hist⟩

/-- The bytes read are exactly a prefix of the bytes accepted, and at most `n - 1` are outstanding. -/
theorem C43_delivered_is_prefix_of_accepted (storage : List Nat) (n : Nat) (hn : 2 ≤ n)
    (halloc : n ≤ storage.length) (sched : List RingConc.Act) :
    ∃ s q, RingConc.run (RingConc.start storage n) sched = some s ∧
      Fifo.accepted s.trace = Fifo.delivered s.trace ++ q ∧ q.length ≤ n - 1 := by
  obtain ⟨s, q, e, h⟩ := C43_interleaved_ring_is_fifo storage n hn halloc sched
  exact ⟨s, q, e, by simpa using Fifo.foldlM_split _ _ _ h,
    Fifo.foldlM_length _ _ _ (by simp) h⟩

/-- Nothing is lost: after any schedule that leaves both sides idle, as many uninterrupted reads as
there are outstanding bytes hand out everything that was accepted. -/
theorem C43_nothing_is_lost (storage : List Nat) (n : Nat) (hn : 2 ≤ n)
    (halloc : n ≤ storage.length) (sched : List RingConc.Act) (s : RingConc.Sys)
    (hrun : RingConc.run (RingConc.start storage n) sched = some s)
    (hc : s.c = .idle) :
    ∃ k s', RingConc.run s (List.replicate k
        [.startRead, .cons, .cons, .cons, .cons, .cons, .cons]).flatten = some s' ∧
      Fifo.delivered s'.trace = Fifo.accepted s.trace := by
  obtain ⟨s0, st, q, e, i⟩ := (RingConc.Inv.start storage n hn halloc).run sched
  rw [hrun] at e; cases e
  clear hrun
  refine ⟨q.length, ?_⟩
  have key : ∀ (q : List Nat) (s : RingConc.Sys), RingConc.Inv n s st q → s.c = .idle →
      ∃ s', RingConc.run s (List.replicate q.length
        [RingConc.Act.startRead, .cons, .cons, .cons, .cons, .cons, .cons]).flatten = some s' ∧
        Fifo.delivered s'.trace = Fifo.delivered s.trace ++ q := by
    intro q
    induction q with
    | nil => intro s i hc; exact ⟨s, rfl, by simp⟩
    | cons x q ih =>
      intro s i hc
      have rep := i.rep
      have hne : ¬ s.rb.tail = s.rb.head := by rw [rep.empty_iff]; simp
      have hg := rep.hget 0 (by simp)
      simp [Nat.mod_eq_of_lt rep.htail] at hg
      have i1 : RingConc.Inv n { s with c := .storeTail x s.rb.tail } st (x :: q) :=
        ⟨i.rep, i.size, i.pok, ⟨rfl, rfl⟩, i.hist⟩
      obtain ⟨s1, q1, e1, i2⟩ := i1.consStep
      simp [RingConc.consStep] at e1
      have hs1 : s1.trace = s.trace ++ [.deliver x] := by rw [← e1]
      have hq1 : q1 = q := by
        have := i2.hist
        rw [hs1, Fifo.after_snoc i.hist (e := .deliver x) (q' := q) (by simp [Fifo.next])] at this
        exact (Option.some.inj this).symm
      subst hq1
      obtain ⟨s', e2, d⟩ := ih s1 i2 (by rw [← e1])
      refine ⟨s', ?_, ?_⟩
      · simp [List.replicate_succ, RingConc.run, RingConc.step, hc, RingConc.consStep, hne,
          rep.hbuf, hg]
        rw [← rep.hbuf, e1]; exact e2
      · rw [d, hs1]; simp [Fifo.delivered_append, Fifo.delivered]
  obtain ⟨s', e, d⟩ := key q s i hc
  refine ⟨s', e, ?_⟩
  rw [d]; have := Fifo.foldlM_split _ _ _ i.hist; simpa using this.symm

/-- The small-step producer, run without interruption, is `ring_buf_write` of the sequential model. -/
theorem C43_uninterrupted_write_agrees (s s' : RingConc.Sys) (b : Nat) (st : Ring.Status)
    (rb' : Ring.RingBuf) (hp : s.p = .idle) (hw : Ring.write s.rb b = some (st, rb'))
    (hst : st ≠ .error)
    (hr : RingConc.run s [.startWrite b, .prod, .prod, .prod, .prod, .prod] = some s') :
    s'.rb = rb' ∧ s'.p = .idle ∧ s'.trace = s.trace ++ [if st = .ok then .accept b else .reject b]
    := by
  obtain ⟨⟨buf, head, tail, size⟩, p, c, tr⟩ := s
  simp only at hp; subst hp
  cases buf with
  | none => simp [Ring.write] at hw; exact absurd hw.1.symm hst
  | some l =>
    by_cases h2 : size < 2
    · simp [Ring.write, h2] at hw; exact absurd hw.1.symm hst
    · by_cases hf : (head + 1) % size = tail
      · simp [Ring.write, h2, hf] at hw
        obtain ⟨rfl, rfl⟩ := hw
        simp [RingConc.run, RingConc.step, RingConc.prodStep, hf] at hr
        subst hr; simp
      · by_cases hh : head < l.length
        · simp [Ring.write, h2, hf, hh] at hw
          obtain ⟨rfl, rfl⟩ := hw
          simp [RingConc.run, RingConc.step, RingConc.prodStep, hf, hh] at hr
          subst hr; simp
        · simp [Ring.write, h2, hf, hh] at hw

/-- The small-step consumer, run without interruption, is `ring_buf_read` of the sequential model. -/
theorem C43_uninterrupted_read_agrees (s s' : RingConc.Sys) (st : Ring.Status) (d : Option Nat)
    (rb' : Ring.RingBuf) (hc : s.c = .idle) (hw : Ring.read s.rb = some (st, d, rb'))
    (hst : st ≠ .error)
    (hr : RingConc.run s [.startRead, .cons, .cons, .cons, .cons, .cons, .cons] = some s') :
    s'.rb = rb' ∧ s'.c = .idle ∧
      s'.trace = s.trace ++ [match d with | some x => .deliver x | none => .empty] := by
  obtain ⟨⟨buf, head, tail, size⟩, p, c, tr⟩ := s
  simp only at hc; subst hc
  cases buf with
  | none => simp [Ring.read] at hw; exact absurd hw.1.symm hst
  | some l =>
    by_cases h2 : size < 2
    · simp [Ring.read, h2] at hw; exact absurd hw.1.symm hst
    · by_cases hf : tail = head
      · simp [Ring.read, h2, hf] at hw
        obtain ⟨rfl, rfl, rfl⟩ := hw
        simp [RingConc.run, RingConc.step, RingConc.consStep, hf] at hr
        subst hr; simp
      · cases hg : l[tail]? with
        | none => simp [Ring.read, h2, hf, hg] at hw
        | some x =>
          simp [Ring.read, h2, hf, hg] at hw
          obtain ⟨rfl, rfl, rfl⟩ := hw
          simp [RingConc.run, RingConc.step, RingConc.consStep, hf, hg] at hr
          subst hr; simp

-- non-vacuity: the interrupt writes two bytes in the middle of a read; a third is turned away
example : (RingConc.run (RingConc.start [0, 0, 0] 3)
    [.startWrite 7, .prod, .prod, .prod, .prod, .prod, .startRead, .cons, .cons, .cons,
     .startWrite 8, .prod, .prod, .prod, .prod, .prod, .startWrite 9, .prod, .prod,
     .cons, .cons, .cons, .startRead, .cons]).map (·.trace) =
    some [.accept 7, .accept 8, .reject 9, .deliver 7] := by decide
example : Fifo.after 2 [.accept 7, .accept 8, .reject 9, .deliver 7] = some [8] := by decide

end Mdmi.Props
