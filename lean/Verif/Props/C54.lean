import Verif.Model.Everdrive
/-! C54: Everdrive links. -/
namespace Mdmi.Props
open Mdmi Mdmi.Everdrive

private theorem readN_ok (n : Nat) : ∀ r : Rd, n ≤ r.fifo.length →
    readN n r = some { r with fifo := r.fifo.drop n,
                              out := r.out ++ (r.fifo.take n).map (· % 256) } := by
  induction n with
  | zero => intro r _; cases r; simp [readN]
  | succ n ih =>
    intro r h
    obtain ⟨f, o, l⟩ := r
    cases f with
    | nil => simp at h
    | cons b f =>
      simp at h
      simp [readN, readOne, ih ⟨f, o ++ [b % 256], l⟩ h]

private theorem copyBlock_ok (n : Nat) (r : Rd) (h : n ≤ r.fifo.length) :
    copyBlock n r = some { r with fifo := r.fifo.drop n,
                                  out := r.out ++ (r.fifo.take n).map (· % 256) } := by
  have e : 4 * (n / 4) + n % 4 = n := by omega
  simp only [copyBlock]
  rw [readN_ok _ r (by omega)]
  simp only [Option.bind_some]
  rw [readN_ok _ _ (by simp; omega)]
  simp only [List.drop_drop, e, Option.some.injEq, Rd.mk.injEq, true_and, List.append_assoc,
    and_true]
  congr 1
  rw [← List.map_append]
  congr 1
  have t := List.take_add (l := r.fifo) (i := 4 * (n / 4)) (j := n % 4)
  rw [e] at t
  exact t.symm

/-- **C54** (reading).  For every request of `n` bytes and every arrival schedule, the FIFO is never
read while empty; at any time the bytes stored, followed by what is still in the FIFO, are what was
there plus what arrived; exactly `n - len` bytes have been stored, so when the call completes
(`len = 0`) they are the next `n` bytes in order. -/
theorem C54_read_returns_next_bytes (n : Nat) (fifo : List Nat) (arrivals : List (List Nat))
    (hb : ∀ b ∈ fifo ++ arrivals.flatten, b < 256) :
    ∃ r, fifoRd n fifo arrivals = some r ∧ r.out ++ r.fifo = fifo ++ arrivals.flatten ∧
      r.out.length + r.len = n := by
  suffices H : ∀ (as : List (List Nat)) (r : Rd) (all : List Nat),
      (∀ b ∈ all ++ as.flatten, b < 256) → r.out ++ r.fifo = all → r.out.length + r.len = n →
      ∃ r', as.foldlM rdIter r = some r' ∧ r'.out ++ r'.fifo = all ++ as.flatten ∧
        r'.out.length + r'.len = n by
    exact H arrivals ⟨fifo, [], n⟩ fifo hb rfl (by simp)
  intro as
  induction as with
  | nil => intro r all _ h1 h2; exact ⟨r, rfl, by simpa using h1, h2⟩
  | cons a as ih =>
    intro r all hb h1 h2
    simp only [List.foldlM_cons, List.flatten_cons, ← List.append_assoc] at *
    obtain ⟨f, o, l⟩ := r
    simp only at h1 h2
    by_cases hl : l = 0
    · simp only [rdIter, hl, if_true]
      obtain ⟨r', e, x, y⟩ := ih ⟨f ++ a, o, 0⟩ (all ++ a) hb (by simp [← h1]) (by simp; omega)
      exact ⟨r', by simpa using e, x, y⟩
    · simp only [rdIter, hl, if_false]
      generalize hk : (if (f ++ a).length % 2048 > l then l else (f ++ a).length % 2048) = k
      have hkf : k ≤ (f ++ a).length := by rw [← hk]; split <;> omega
      have hkl : k ≤ l := by rw [← hk]; split <;> omega
      rw [copyBlock_ok _ _ hkf]
      have hmod : ((f ++ a).take k).map (· % 256) = (f ++ a).take k := by
        conv => rhs; rw [← List.map_id ((f ++ a).take k)]
        apply List.map_congr_left
        intro b hbm
        have : b ∈ f ++ a := List.mem_of_mem_take hbm
        have := hb b (by
          rw [← h1]; simp at this ⊢; rcases this with h | h <;> simp [h])
        simp; omega
      have hlen : ((f ++ a).take k).length = k := by simp at hkf ⊢; omega
      simp only [hmod]
      obtain ⟨r', e, x, y⟩ := ih ⟨(f ++ a).drop k, o ++ (f ++ a).take k, l - k⟩ (all ++ a) hb
        (by simp only [List.append_assoc, List.take_append_drop]; simp [← h1])
        (by simp only [List.length_append, hlen]; omega)
      exact ⟨r', by simpa using e, x, y⟩

/-- A completed read returns exactly the first `n` bytes. -/
theorem C54_completed_read (n : Nat) (fifo : List Nat) (arrivals : List (List Nat)) (r : Rd)
    (hb : ∀ b ∈ fifo ++ arrivals.flatten, b < 256) (h : fifoRd n fifo arrivals = some r)
    (hdone : r.len = 0) : r.out = (fifo ++ arrivals.flatten).take n := by
  obtain ⟨r', e, x, y⟩ := C54_read_returns_next_bytes n fifo arrivals hb
  rw [h] at e; cases e
  rw [← x, ← show r.out.length = n by omega]
  simp

/-- Progress: an iteration that sees 1 to 2047 waiting bytes takes as many as it still needs. -/
theorem C54_read_progress (r : Rd) (a : List Nat) (hl : 0 < r.len)
    (h1 : (r.fifo ++ a).length < 2048) :
    ∃ r', rdIter r a = some r' ∧ r'.len = r.len - (r.fifo ++ a).length := by
  have hne : ¬ r.len = 0 := by omega
  have hmod : (r.fifo ++ a).length % 2048 = (r.fifo ++ a).length := Nat.mod_eq_of_lt h1
  simp only [rdIter, hne, if_false, hmod]
  rw [copyBlock_ok _ _ (by simp only; split <;> omega)]
  refine ⟨_, rfl, ?_⟩
  simp only; split <;> omega

/-- **C54** (framing).  Every message of fewer than 65536 bytes is sent as `2B D4 22 DD`, its length
as two bytes big-endian, then its bytes. -/
theorem C54_write_framing (data : List Nat) (h : data.length < 65536) :
    usbWr data = [0x2B, 0xD4, 0x22, 0xDD, data.length / 256, data.length % 256] ++ data ∧
    256 * (data.length / 256) + data.length % 256 = data.length := by
  refine ⟨?_, by omega⟩
  simp [usbWr, cmdTx, Nat.mod_eq_of_lt h]

/-- **C54** (byte-wise senders, Everdrive X7 and serial).  For every message and every schedule of
ready flags the bytes sent are a prefix of the message, one per ready poll, none repeated or skipped,
and the message is never read past its end. -/
theorem C54_bytewise_send (data : List Nat) (ready : List Bool) :
    ∃ w, write data ready = some w ∧ w.sent = data.take (ready.countP id) := by
  suffices H : ∀ (rs : List Bool) (w : Wr), w.data = data → w.sent = data.take w.i →
      w.i ≤ data.length →
      ∃ w', rs.foldlM (wrIter data.length) w = some w' ∧
        w'.sent = data.take (w.i + rs.countP id) by
    simpa [write] using H ready ⟨data, 0, []⟩ rfl (by simp) (by simp)
  intro rs
  induction rs with
  | nil => intro w _ h2 _; exact ⟨w, rfl, by simpa using h2⟩
  | cons b rs ih =>
    intro w h1 h2 h3
    by_cases hi : w.i < data.length
    · cases b with
      | false =>
        obtain ⟨w', e, x⟩ := ih w h1 h2 h3
        exact ⟨w', by simp [wrIter, hi, e], by simpa using x⟩
      | true =>
        have hg : w.data[w.i]? = some data[w.i] := by simp [h1, hi]
        obtain ⟨w', e, x⟩ := ih { w with i := w.i + 1, sent := w.sent ++ [data[w.i]] } h1
          (by simp only [h2]; rw [List.take_add_one]; simp [hi]) (by simp only; omega)
        refine ⟨w', by simp [wrIter, hi, hg, e], ?_⟩
        rw [x]; congr 1; simp; omega
    · obtain ⟨w', e, x⟩ := ih w h1 h2 h3
      refine ⟨w', by simp [wrIter, hi, e], ?_⟩
      rw [x, List.take_of_length_le (by omega), List.take_of_length_le (by omega)]

-- non-vacuity
example : (fifoRd 6 [1, 2] [[], [3, 4, 5], [6, 7]]).map (fun r => (r.out, r.fifo, r.len)) =
    some ([1, 2, 3, 4, 5, 6], [7], 0) := by decide
example : (write [0xF0, 1, 0xF7] [false, true, true, false, true, true]).map (·.sent) =
    some [0xF0, 1, 0xF7] := by decide

end Mdmi.Props
