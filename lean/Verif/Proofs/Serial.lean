import Verif.Spec.Serial
import Verif.Proofs.RingConc
/-! Invariant of the serial receiver. -/
namespace Mdmi.Serial
open Mdmi.Ring

@[simp] theorem queueEvents_append (a b) : queueEvents (a ++ b) = queueEvents a ++ queueEvents b := by
  simp [queueEvents]
@[simp] theorem taken_append (a b) : taken (a ++ b) = taken a ++ taken b := by simp [taken]
@[simp] theorem arrivals_append (a b) : arrivals (a ++ b) = arrivals a ++ arrivals b := by
  simp [arrivals]

/-- Facts about the main loop's program counter while the queue holds `q`. -/
def PcOk (rb : RingBuf) (q : List Nat) : Pc → Prop
  | .idle | .chkRecv | .chkTail => True
  | .chkHead t => t = rb.tail
  | .rd c => RingConc.COk rb q c ∧ q ≠ []

/-- Invariant once the ring is initialised. -/
structure On (s : St) (st q : List Nat) : Prop where
  rep : Rep s.rb st q
  size : s.rb.size = 512
  hist : Fifo.after 511 (queueEvents s.trace) = some q
  pc : PcOk s.rb q s.pc
  recv : s.recvData = false → q = []
  noEmpty : Fifo.Ev.empty ∉ queueEvents s.trace

/-- Invariant. -/
def Inv (s : St) : Prop :=
  (s.phase = .off ∧ s.rb = Ring.zeroed ∧ s.recvData = false ∧ s.pc = .idle ∧ s.trace = []) ∨
  (s.phase ≠ .off ∧ ∃ st q, On s st q)

theorem boot_inv : Inv boot := .inl ⟨rfl, rfl, rfl, rfl, rfl⟩

theorem PcOk.write {rb : RingBuf} {q pc st'} (h : PcOk rb q pc) (b : Nat) :
    PcOk { rb with buf := some st', head := (rb.head + 1) % rb.size } (q ++ [b]) pc := by
  cases pc with
  | rd c =>
    obtain ⟨h1, h2⟩ := h
    refine ⟨?_, by simp⟩
    cases c <;> simp_all [RingConc.COk]
  | _ => exact h

theorem updateBuffer_ok (pend : List Nat) : ∀ (rb : RingBuf) (recv : Bool) (tr : List Ev)
    (st q : List Nat) (pc : Pc), Rep rb st q → rb.size = 512 →
    Fifo.after 511 (queueEvents tr) = some q → PcOk rb q pc → (recv = false → q = []) →
    Fifo.Ev.empty ∉ queueEvents tr →
    ∃ rb' recv' pend' tr' st' q', updateBuffer rb recv tr pend = some (rb', recv', pend', tr') ∧
      Rep rb' st' q' ∧ rb'.size = 512 ∧ Fifo.after 511 (queueEvents tr') = some q' ∧
      PcOk rb' q' pc ∧ (recv' = false → q' = []) ∧ Fifo.Ev.empty ∉ queueEvents tr' ∧
      taken tr' ++ pend' = taken tr ++ pend := by
  induction pend with
  | nil =>
    intro rb recv tr st q pc h1 h2 h3 h4 h5 h6
    exact ⟨rb, recv, [], tr, st, q, rfl, h1, h2, h3, h4, h5, h6, rfl⟩
  | cons b rest ih =>
    intro rb recv tr st q pc h1 h2 h3 h4 h5 h6
    have hs : ¬ rb.size < 2 := by omega
    by_cases hf : q.length = rb.size - 1
    · have hfull : (rb.head + 1) % rb.size = rb.tail := h1.full_iff.2 hf
      refine ⟨rb, true, rest, tr ++ [.q (.reject b)], st, q, ?_, h1, h2, ?_, h4, by simp, ?_, ?_⟩
      · simp [updateBuffer, Ring.write, h1.hbuf, hs, hfull]
      · have := Fifo.after_snoc h3 (e := .reject b) (q' := q) (by simp [Fifo.next]; omega)
        simpa [queueEvents] using this
      · simpa [queueEvents] using h6
      · simp [taken]
    · obtain ⟨e, r⟩ := h1.write_ok b hf
      have hl := h1.hlen
      obtain ⟨rb', recv', pend', tr', st', q', e', r1, r2, r3, r4, r5, r6, r7⟩ :=
        ih _ true (tr ++ [.q (.accept b)]) _ (q ++ [b]) pc r h2
          (by
            have := Fifo.after_snoc h3 (e := .accept b) (q' := q ++ [b])
              (by simp [Fifo.next]; omega)
            simpa [queueEvents] using this)
          (h4.write b) (by simp) (by simpa [queueEvents] using h6)
      refine ⟨rb', recv', pend', tr', st', q', ?_, r1, r2, r3, r4, r5, r6, ?_⟩
      · simp [updateBuffer, e, e']
      · rw [r7]; simp [taken]

theorem Inv.irq {s} (h : Inv s) (hp : s.phase ≠ .intOn) :
    ∃ s', irq s = some s' ∧ Inv s' ∧ s'.phase = s.phase ∧
      taken s'.trace ++ s'.pending = taken s.trace ++ s.pending := by
  rcases h with h | ⟨h0, st, q, h⟩
  · exact ⟨s, by simp [Serial.irq, h.1], .inl h, rfl, rfl⟩
  · obtain ⟨rb', recv', pend', tr', st', q', e, r1, r2, r3, r4, r5, r6, r7⟩ :=
      updateBuffer_ok s.pending s.rb s.recvData s.trace st q s.pc h.rep h.size h.hist h.pc h.recv
        h.noEmpty
    refine ⟨{ s with rb := rb', recvData := recv', pending := pend', trace := tr' }, ?_,
      .inr ⟨h0, st', q', ⟨r1, r2, r3, r4, r5, r6⟩⟩, rfl, r7⟩
    cases hph : s.phase <;> simp_all [Serial.irq]

theorem Inv.init {s} (h : Inv s) :
    Inv (init s) ∧ taken (init s).trace ++ (init s).pending = taken s.trace ++ s.pending := by
  rcases h with ⟨h1, h2, h3, h4, h5⟩ | ⟨h0, st, q, h⟩
  · refine ⟨.inr ⟨by simp [Serial.init, h1], ringBufArr, [], ?_⟩, by simp [Serial.init, h1]⟩
    have r := Rep.init s.rb ringBufArr 512 (by omega) (by rw [ringBufArr, List.length_replicate]; omega)
    constructor <;> simp_all [Serial.init, PcOk, queueEvents, Fifo.after, Ring.init]
  · obtain ⟨a1, a2, a3, a4, a5, a6⟩ := h
    cases hph : s.phase with
    | off => exact absurd hph h0
    | intOn =>
      exact ⟨.inr ⟨by simp [Serial.init, hph], st, q, by
        constructor <;> simpa [Serial.init, hph] using by assumption⟩, by simp [Serial.init, hph]⟩
    | running =>
      exact ⟨.inr ⟨by simp [Serial.init, hph], st, q, by
        constructor <;> simpa [Serial.init, hph] using by assumption⟩, by simp [Serial.init, hph]⟩
    | flushing =>
      cases hpe : s.pending with
      | nil =>
        exact ⟨.inr ⟨by simp [Serial.init, hph, hpe], st, q, by
          constructor <;> simpa [Serial.init, hph, hpe] using by assumption⟩,
          by simp [Serial.init, hph, hpe]⟩
      | cons b rest =>
        refine ⟨.inr ⟨by simp [Serial.init, hph, hpe], st, q, ?_⟩, by
          simp [Serial.init, hph, hpe, taken]⟩
        constructor
        · simpa [Serial.init, hph, hpe] using a1
        · simpa [Serial.init, hph, hpe] using a2
        · simpa [Serial.init, hph, hpe, queueEvents] using a3
        · simpa [Serial.init, hph, hpe] using a4
        · simpa [Serial.init, hph, hpe] using a5
        · simpa [Serial.init, hph, hpe, queueEvents] using a6

theorem Inv.mainStep {s} (h : Inv s) :
    ∃ s', mainStep s = some s' ∧ Inv s' ∧ s'.phase = s.phase ∧
      taken s'.trace ++ s'.pending = taken s.trace ++ s.pending := by
  rcases h with h | ⟨h0, st, q, h⟩
  · exact ⟨s, by simp [Serial.mainStep, h.2.2.2.1], .inl h, rfl, rfl⟩
  · obtain ⟨a1, a2, a3, a4, a5, a6⟩ := h
    obtain ⟨ph, rb, recv, pend, pc, tr⟩ := s
    simp only at *
    cases pc with
    | idle => exact ⟨_, rfl, .inr ⟨h0, st, q, ⟨a1, a2, a3, a4, a5, a6⟩⟩, rfl, rfl⟩
    | chkRecv =>
      refine ⟨_, rfl, .inr ⟨h0, st, q, ⟨a1, a2, a3, ?_, a5, a6⟩⟩, rfl, rfl⟩
      cases recv <;> trivial
    | chkTail => exact ⟨_, rfl, .inr ⟨h0, st, q, ⟨a1, a2, a3, rfl, a5, a6⟩⟩, rfl, rfl⟩
    | chkHead t =>
      simp only [PcOk] at a4
      subst a4
      refine ⟨_, rfl, .inr ⟨h0, st, q, ⟨a1, a2, a3, ?_, a5, a6⟩⟩, rfl, rfl⟩
      by_cases e : rb.tail = rb.head
      · simp [e, PcOk]
      · simp [e, PcOk, RingConc.COk]
        intro hq; exact e (a1.empty_iff.2 hq)
    | rd c =>
      obtain ⟨c1, c2⟩ := a4
      have i : RingConc.Inv 512 ⟨rb, .idle, c, queueEvents tr⟩ st q :=
        ⟨a1, a2, trivial, c1, a3⟩
      cases c with
      | idle => exact ⟨_, rfl, .inr ⟨h0, st, q, ⟨a1, a2, by simpa using a3, trivial, a5,
          by simpa using a6⟩⟩, rfl, by simp⟩
      | loadTail => exact ⟨_, rfl, .inr ⟨h0, st, q, ⟨a1, a2, by simpa using a3, ⟨rfl, c2⟩, a5,
          by simpa using a6⟩⟩, rfl, by simp⟩
      | loadHead t =>
        simp only [RingConc.COk] at c1
        subst c1
        have e : ¬ rb.tail = rb.head := fun e => c2 (a1.empty_iff.1 e)
        exact ⟨⟨ph, rb, recv, pend, .rd .loadTail2, tr⟩,
          by simp [Serial.mainStep, RingConc.consStep, e],
          .inr ⟨h0, st, q, ⟨a1, a2, a3, ⟨c2, c2⟩, a5, a6⟩⟩, rfl, rfl⟩
      | loadTail2 => exact ⟨_, rfl, .inr ⟨h0, st, q, ⟨a1, a2, by simpa using a3, ⟨⟨c2, rfl⟩, c2⟩,
          a5, by simpa using a6⟩⟩, rfl, by simp⟩
      | loadByte t =>
        obtain ⟨_, c1⟩ := c1
        subst c1
        cases q with
        | nil => exact absurd rfl c2
        | cons x q =>
          have hg := a1.hget 0 (by simp)
          simp [Nat.mod_eq_of_lt a1.htail] at hg
          exact ⟨⟨ph, rb, recv, pend, .rd (.loadTail3 x), tr⟩,
            by simp [Serial.mainStep, RingConc.consStep, a1.hbuf, hg],
            .inr ⟨h0, st, x :: q, ⟨a1, a2, a3, ⟨rfl, c2⟩, a5, a6⟩⟩, rfl, rfl⟩
      | loadTail3 d => exact ⟨_, rfl, .inr ⟨h0, st, q, ⟨a1, a2, by simpa using a3,
          ⟨⟨c1, rfl⟩, c2⟩, a5, by simpa using a6⟩⟩, rfl, by simp⟩
      | storeTail d t =>
        obtain ⟨c1, c3⟩ := c1
        subst c3
        cases q with
        | nil => exact absurd rfl c2
        | cons x q =>
          simp at c1; subst c1
          refine ⟨⟨ph, { rb with tail := (rb.tail + 1) % rb.size }, recv, pend, .idle,
              tr ++ [.q (.deliver x)]⟩,
            by simp [Serial.mainStep, RingConc.consStep],
            .inr ⟨h0, st, q, ⟨a1.read_cons.2, a2, ?_, trivial, ?_, ?_⟩⟩, rfl, by simp [taken]⟩
          · have := Fifo.after_snoc a3 (e := .deliver x) (q' := q) (by simp [Fifo.next])
            simpa [queueEvents] using this
          · intro hr; simp at hr; have := a5 hr; simp at this
          · simpa [queueEvents] using a6

/-- How many statements of `comm_serial_init` have certainly run. -/
def phaseOk (k : Nat) : Phase → Prop
  | .off => k = 0
  | .intOn => k = 1
  | .flushing | .running => 2 ≤ k

theorem Inv.run (as : List Act) : ∀ (k : Nat) (s : St), Inv s → phaseOk k s.phase →
    noEarlyIrq k as →
    ∃ s', run s as = some s' ∧ Inv s' ∧
      taken s'.trace ++ s'.pending = taken s.trace ++ s.pending ++ arrivals as := by
  induction as with
  | nil => intro k s h _ _; exact ⟨s, rfl, h, by simp [arrivals]⟩
  | cons a as ih =>
    intro k s h hk hn
    cases a with
    | arrive b =>
      have h' : Inv { s with pending := s.pending ++ [b] } := by
        rcases h with h | ⟨h0, st, q, h⟩
        · exact .inl h
        · exact .inr ⟨h0, st, q, ⟨h.rep, h.size, h.hist, h.pc, h.recv, h.noEmpty⟩⟩
      obtain ⟨s', e, i, t⟩ := ih k _ h' hk hn
      refine ⟨s', by simp [Serial.run, Serial.step, e], i, ?_⟩
      rw [t]; simp [arrivals]
    | irq =>
      have hp : s.phase ≠ .intOn := by
        intro hph; rw [hph] at hk; exact hn.1 hk
      obtain ⟨s1, e1, i1, p1, t1⟩ := h.irq hp
      obtain ⟨s', e, i, t⟩ := ih k s1 i1 (by rw [p1]; exact hk) hn.2
      refine ⟨s', by simp [Serial.run, Serial.step, e1, e], i, ?_⟩
      rw [t, t1]; simp [arrivals]
    | init =>
      obtain ⟨i1, t1⟩ := h.init
      obtain ⟨s', e, i, t⟩ := ih (k + 1) _ i1 (by
        cases hph : s.phase <;> simp only [hph, phaseOk] at hk <;>
          (try cases hpe : s.pending) <;> simp_all [Serial.init, phaseOk] <;> omega) hn
      refine ⟨s', by simp [Serial.run, Serial.step, e], i, ?_⟩
      rw [t, t1]; simp [arrivals]
    | poll =>
      let s1 := if s.pc = .idle ∧ s.phase = .running then { s with pc := .chkRecv } else s
      have hs1 : s1 = if s.pc = .idle ∧ s.phase = .running then { s with pc := .chkRecv } else s :=
        rfl
      have : Inv s1 ∧ s1.phase = s.phase ∧ s1.trace = s.trace ∧ s1.pending = s.pending := by
        rw [hs1]
        split
        · refine ⟨?_, rfl, rfl, rfl⟩
          rcases h with h | ⟨h0, st, q, h⟩
          · rename_i hh; rw [h.1] at hh; simp at hh
          · exact .inr ⟨h0, st, q, ⟨h.rep, h.size, h.hist, trivial, h.recv, h.noEmpty⟩⟩
        · exact ⟨h, rfl, rfl, rfl⟩
      obtain ⟨i1, p1, t1, t2⟩ := this
      obtain ⟨s', e, i, t⟩ := ih k s1 i1 (by rw [p1]; exact hk) hn
      refine ⟨s', by simp only [Serial.run, Serial.step]; exact e, i, ?_⟩
      rw [t, t1, t2]; simp [arrivals]
    | main =>
      obtain ⟨s1, e1, i1, p1, t1⟩ := h.mainStep
      obtain ⟨s', e, i, t⟩ := ih k s1 i1 (by rw [p1]; exact hk) hn
      refine ⟨s', by simp [Serial.run, Serial.step, e1, e], i, ?_⟩
      rw [t, t1]; simp [arrivals]

end Mdmi.Serial
