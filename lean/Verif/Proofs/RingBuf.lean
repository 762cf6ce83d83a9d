import Verif.Model.RingBuf
import Verif.Spec.Fifo
/-! Refinement lemmas: ring buffer to list queue. -/
namespace Mdmi.Ring

/-- `q` is stored in the ring from `tail` to `head`. -/
structure Rep (rb : RingBuf) (st : List Nat) (q : List Nat) : Prop where
  hbuf : rb.buf = some st
  hsize : 2 ≤ rb.size
  halloc : rb.size ≤ st.length
  htail : rb.tail < rb.size
  hlen : q.length < rb.size
  hhead : rb.head = (rb.tail + q.length) % rb.size
  hget : ∀ k (h : k < q.length), st[(rb.tail + k) % rb.size]? = some q[k]

theorem add_mod_cases (a b n : Nat) (ha : a < n) (hb : b ≤ n) :
    (a + b) % n = if a + b < n then a + b else a + b - n := by
  split
  · exact Nat.mod_eq_of_lt ‹_›
  · rw [Nat.mod_eq_sub_mod (by omega), Nat.mod_eq_of_lt (by omega)]

theorem Rep.init (rb : RingBuf) (st : List Nat) (n : Nat) (hn : 2 ≤ n) (hl : n ≤ st.length) :
    Rep (Ring.init rb (some st) n) st [] := by
  have : ¬ n < 2 := by omega
  constructor <;> simp [Ring.init, this] <;> omega

theorem Rep.head_lt {rb st q} (h : Rep rb st q) : rb.head < rb.size := by
  rw [h.hhead]; exact Nat.mod_lt _ (by have := h.hsize; omega)

theorem Rep.empty_iff {rb st q} (h : Rep rb st q) : rb.tail = rb.head ↔ q = [] := by
  have h1 := h.hhead; have h2 := h.htail; have h3 := h.hlen
  rw [add_mod_cases _ _ _ h2 (by omega)] at h1
  rw [← List.length_eq_zero_iff]
  split at h1 <;> omega

theorem Rep.full_iff {rb st q} (h : Rep rb st q) :
    (rb.head + 1) % rb.size = rb.tail ↔ q.length = rb.size - 1 := by
  have h1 := h.hhead; have h2 := h.htail; have h3 := h.hlen; have h4 := h.hsize
  have h5 := h.head_lt
  rw [add_mod_cases _ _ _ h2 (by omega)] at h1
  rw [add_mod_cases _ _ _ h5 (by omega)]
  split at h1 <;> split <;> omega

theorem Rep.read_cons {rb st b q} (h : Rep rb st (b :: q)) :
    read rb = some (.ok, some b, { rb with tail := (rb.tail + 1) % rb.size }) ∧
    Rep { rb with tail := (rb.tail + 1) % rb.size } st q := by
  have hne : ¬ rb.tail = rb.head := by rw [h.empty_iff]; simp
  have hs : ¬ rb.size < 2 := by have := h.hsize; omega
  have hg := h.hget 0 (by simp)
  have ht := h.htail
  simp [Nat.mod_eq_of_lt ht] at hg
  refine ⟨by simp [read, h.hbuf, hs, hne, hg], ?_⟩
  have hpos : 0 < rb.size := by omega
  have hlen := h.hlen
  simp at hlen
  constructor
  · exact h.hbuf
  · exact h.hsize
  · exact h.halloc
  · exact Nat.mod_lt _ hpos
  · show q.length < rb.size; omega
  · show rb.head = _
    rw [h.hhead]; simp [Nat.mod_add_mod]; congr 1; omega
  · intro k hk
    have := h.hget (k + 1) (by simp; omega)
    simp [Nat.mod_add_mod] at this ⊢
    rw [← this]; congr 2; omega

theorem Rep.write_ok {rb st q} (b : Nat) (h : Rep rb st q) (hq : q.length ≠ rb.size - 1) :
    write rb b = some (.ok, { rb with buf := some (st.set rb.head b),
                                       head := (rb.head + 1) % rb.size }) ∧
    Rep { rb with buf := some (st.set rb.head b), head := (rb.head + 1) % rb.size }
      (st.set rb.head b) (q ++ [b]) := by
  have hs : ¬ rb.size < 2 := by have := h.hsize; omega
  have hf : ¬ (rb.head + 1) % rb.size = rb.tail := by rw [h.full_iff]; exact hq
  have hh := h.head_lt
  have ha := h.halloc
  have hlt : rb.head < st.length := by omega
  refine ⟨by simp [write, h.hbuf, hs, hf, hlt], ?_⟩
  have hl := h.hlen
  have ht := h.htail
  constructor
  · rfl
  · exact h.hsize
  · simpa using ha
  · exact ht
  · simp; omega
  · simp [h.hhead, Nat.mod_add_mod]; congr 1
  · intro k hk
    simp at hk
    have hhd := h.hhead
    rw [add_mod_cases _ _ _ ht (by omega)] at hhd
    by_cases hkq : k < q.length
    · have hg := h.hget k hkq
      have hne : rb.head ≠ (rb.tail + k) % rb.size := by
        rw [add_mod_cases _ _ _ ht (by omega)]
        split at hhd <;> split <;> omega
      show (st.set rb.head b)[(rb.tail + k) % rb.size]? = _
      rw [List.getElem?_set_ne hne, hg]
      simp [hkq]
    · have : k = q.length := by omega
      subst this
      show (st.set rb.head b)[(rb.tail + q.length) % rb.size]? = _
      rw [← h.hhead]
      simp [hlt]

theorem Rep.available {rb st q} (h : Rep rb st q) :
    available rb = rb.size - 1 - q.length := by
  have hs : ¬ rb.size < 2 := by have := h.hsize; omega
  have h1 := h.hhead; have h2 := h.htail; have h3 := h.hlen
  rw [add_mod_cases _ _ _ h2 (by omega)] at h1
  simp only [Ring.available, h.hbuf, hs, if_false]
  split at h1 <;> split <;> try split
  all_goals omega

theorem Rep.step {rb st q} (h : Rep rb st q) (op : Op) :
    ∃ rb' st', Ring.step rb op = some ((Fifo.step (rb.size - 1) q op).1, rb') ∧
      Rep rb' st' (Fifo.step (rb.size - 1) q op).2 ∧ rb'.size = rb.size := by
  have hs : ¬ rb.size < 2 := by have := h.hsize; omega
  cases op with
  | read =>
    cases q with
    | nil =>
      have he : rb.tail = rb.head := by rw [h.empty_iff]
      exact ⟨rb, st, by simp [Ring.step, read, h.hbuf, hs, he, Fifo.step], h, rfl⟩
    | cons b q =>
      have ⟨e, r⟩ := h.read_cons
      exact ⟨_, st, by simp [Ring.step, e, Fifo.step], r, rfl⟩
  | write b =>
    by_cases hq : q.length = rb.size - 1
    · have hf : (rb.head + 1) % rb.size = rb.tail := by rw [h.full_iff]; exact hq
      exact ⟨rb, st, by simp [Ring.step, write, h.hbuf, hs, hf, Fifo.step, hq],
        by simpa [Fifo.step, hq] using h, rfl⟩
    · have ⟨e, r⟩ := h.write_ok b hq
      refine ⟨{ rb with buf := some (st.set rb.head b), head := (rb.head + 1) % rb.size },
        st.set rb.head b, ?_, ?_, rfl⟩
      · simp [Ring.step, e, Fifo.step, hq]
      · simpa [Fifo.step, hq] using r
  | canRead =>
    refine ⟨rb, st, ?_, h, rfl⟩
    have := h.empty_iff
    cases q <;> simp_all [Ring.step, canRead, h.hbuf, Fifo.step]
  | available =>
    exact ⟨rb, st, by simp [Ring.step, Fifo.step, h.available], h, rfl⟩
  | canWrite =>
    refine ⟨rb, st, ?_, h, rfl⟩
    have := h.full_iff
    by_cases hq : q.length = rb.size - 1 <;>
      simp_all [Ring.step, canWrite, h.hbuf, Fifo.step]

theorem Rep.run {rb st q} (h : Rep rb st q) (ops : List Op) :
    Ring.run rb ops = some (Fifo.run (rb.size - 1) q ops) := by
  induction ops generalizing rb st q with
  | nil => rfl
  | cons op ops ih =>
    obtain ⟨rb', st', e, r, es⟩ := h.step op
    simp [Ring.run, Fifo.run, e, ih r, es]

end Mdmi.Ring
