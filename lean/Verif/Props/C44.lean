import Verif.Proofs.Serial
/-! C44: serial receive order and loss. -/
namespace Mdmi.Props
open Mdmi Mdmi.Serial

/-- **C44** (partial: the schedule must not take the interrupt inside the two-statement start-up
window, see `C44_early_interrupt_is_undefined`).  For every schedule of arrivals, interrupts, polls
and main-loop memory accesses from power-on:
* nothing undefined happens;
* every byte that arrived was taken from the UART in arrival order or is still pending there;
* the queue events are those of a first-in first-out queue of capacity 511, so bytes are delivered in
  arrival order and turned away only when exactly 511 are waiting;
* the main loop never reads from an empty buffer (which would inject a phantom zero byte). -/
theorem C44_serial_receive_partial (sched : List Act) (hinit : noEarlyIrq 0 sched) :
    ∃ s, run boot sched = some s ∧
      taken s.trace ++ s.pending = arrivals sched ∧
      (∃ q, Fifo.after 511 (queueEvents s.trace) = some q) ∧
      Fifo.Ev.empty ∉ queueEvents s.trace := by
  obtain ⟨s, e, i, t⟩ := Inv.run sched 0 boot boot_inv rfl hinit
  refine ⟨s, e, by simpa [boot, taken] using t, ?_⟩
  rcases i with ⟨_, _, _, _, h⟩ | ⟨_, st, q, h⟩
  · rw [h]; exact ⟨⟨[], rfl⟩, by simp [queueEvents]⟩
  · exact ⟨⟨q, h.hist⟩, h.noEmpty⟩

/-- Bytes arriving after start-up with room in the buffer are never lost: one interrupt moves all
pending bytes into the queue when they fit. -/
theorem C44_interrupt_accepts_what_fits (s : St) (st q : List Nat) (h : On s st q)
    (hph : s.phase = .running) (hfit : q.length + s.pending.length ≤ 511) :
    ∃ s', step s .irq = some s' ∧ s'.pending = [] ∧
      Fifo.after 511 (queueEvents s'.trace) = some (q ++ s.pending) := by
  have key : ∀ (pend : List Nat) (rb : Ring.RingBuf) (recv : Bool) (tr : List Ev) (st q : List Nat),
      Ring.Rep rb st q → rb.size = 512 → Fifo.after 511 (queueEvents tr) = some q →
      q.length + pend.length ≤ 511 →
      ∃ rb' recv' tr', updateBuffer rb recv tr pend = some (rb', recv', [], tr') ∧
        Fifo.after 511 (queueEvents tr') = some (q ++ pend) := by
    intro pend
    induction pend with
    | nil => intro rb recv tr st q _ _ h3 _; exact ⟨rb, recv, tr, rfl, by simpa using h3⟩
    | cons b rest ih =>
      intro rb recv tr st q h1 h2 h3 h4
      simp at h4
      obtain ⟨e, r⟩ := h1.write_ok b (by omega)
      obtain ⟨rb', recv', tr', e', a⟩ := ih _ true (tr ++ [.q (.accept b)]) _ (q ++ [b]) r h2
        (by
          have := Fifo.after_snoc h3 (e := .accept b) (q' := q ++ [b]) (by simp [Fifo.next]; omega)
          simpa [queueEvents] using this) (by simp; omega)
      exact ⟨rb', recv', tr', by simp [updateBuffer, e, e'], by simpa using a⟩
  obtain ⟨rb', recv', tr', e, a⟩ :=
    key s.pending s.rb s.recvData s.trace st q h.rep h.size h.hist hfit
  exact ⟨{ s with rb := rb', recvData := recv', pending := [], trace := tr' },
    by simp [step, irq, hph, e], rfl, a⟩

/-- A poll started while the main loop is idle with a byte waiting delivers the oldest one. -/
theorem C44_poll_delivers_oldest (s : St) (st : List Nat) (x : Nat) (q : List Nat)
    (h : On s st (x :: q)) (hph : s.phase = .running) (hpc : s.pc = .idle) :
    ∃ s', run s (.poll :: List.replicate 9 .main) = some s' ∧
      s'.trace = s.trace ++ [.q (.deliver x)] := by
  have hr : s.recvData = true := by
    cases hr : s.recvData with
    | true => rfl
    | false => have := h.recv hr; simp at this
  have rep := h.rep
  have hne : ¬ s.rb.tail = s.rb.head := by rw [rep.empty_iff]; simp
  have hg := rep.hget 0 (by simp)
  simp [Nat.mod_eq_of_lt rep.htail] at hg
  simp [run, step, hpc, hph, mainStep, hr, hne, RingConc.consStep, rep.hbuf, hg, List.replicate]

/-- Bytes waiting in the UART before start-up never reach the buffer: initialisation reads and drops all of
them, then the receiver is ready. -/
theorem C44_startup_discards_stale_bytes (bs : List Nat) :
    ∃ s, run boot (bs.map .arrive ++ List.replicate (bs.length + 3) .init) = some s ∧
      s.phase = .running ∧ s.pending = [] ∧ s.trace = bs.map .flush := by
  have arr : ∀ (l : List Nat) (s : St) (k : List Act),
      run s (l.map .arrive ++ k) = run { s with pending := s.pending ++ l } k := by
    intro l
    induction l with
    | nil => intro s k; simp
    | cons b l ih => intro s k; simp [run, step, ih]
  have fl : ∀ (l : List Nat) (s : St), s.phase = .flushing → s.pending = l →
      run s (List.replicate (l.length + 1) .init) =
        some { s with phase := .running, pending := [], trace := s.trace ++ l.map .flush } := by
    intro l
    induction l with
    | nil => intro s h1 h2; simp [run, step, init, h1, h2]
    | cons b l ih =>
      intro s h1 h2
      have : run s (List.replicate ((b :: l).length + 1) .init) =
          run (init s) (List.replicate (l.length + 1) .init) := rfl
      rw [this]
      have e : init s = { s with pending := l, trace := s.trace ++ [.flush b] } := by
        simp [init, h1, h2]
      rw [e, ih { s with pending := l, trace := s.trace ++ [.flush b] } h1 rfl]; simp
  rw [arr]
  have e : ∀ n, List.replicate (n + 3) Act.init = .init :: .init :: List.replicate (n + 1) .init := fun _ => rfl
  rw [e]
  exact ⟨_, fl bs _ rfl rfl, rfl, rfl, rfl⟩

/-- The full statement of C44 is false: an interrupt between `serial_init` and
`serial_setReadyToReceiveCallback` calls a NULL pointer. -/
theorem C44_early_interrupt_is_undefined : run boot [.init, .arrive 0x90, .irq] = none := by decide

-- non-vacuity: start-up with one stale byte, then two bytes, one delivered
example : noEarlyIrq 0 [.arrive 1, .init, .init, .init, .init, .arrive 0x90, .arrive 0x3C, .irq, .poll,
    .main, .main, .main, .main, .main, .main, .main, .main, .main] := by
  simp [noEarlyIrq]
example : (run boot [.arrive 1, .init, .init, .init, .init, .arrive 0x90, .arrive 0x3C, .irq, .poll,
    .main, .main, .main, .main, .main, .main, .main, .main, .main]).map (·.trace) =
    some [.flush 1, .q (.accept 0x90), .q (.accept 0x3C), .q (.deliver 0x90)] := by decide +kernel

end Mdmi.Props
