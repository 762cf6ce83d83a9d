import Verif.Proofs.RingBuf
/-! C42: the ring buffer is a bounded FIFO. -/
namespace Mdmi.Props
open Mdmi

/-- **C42.** For every size `n ≥ 2`, every storage of at least `n` bytes and every sequence of API
calls after `ring_buf_init`, no access is out of bounds and every result is that of a list queue
of capacity `n - 1`. -/
theorem C42_ring_is_bounded_fifo (rb : Ring.RingBuf) (storage : List Nat) (n : Nat) (hn : 2 ≤ n)
    (halloc : n ≤ storage.length) (ops : List Ring.Op) :
    Ring.run (Ring.init rb (some storage) n) ops = some (Fifo.run (n - 1) [] ops) := by
  have h := Ring.Rep.init rb storage n hn halloc
  have e : (Ring.init rb (some storage) n).size = n := by
    have : ¬ n < 2 := by omega
    simp [Ring.init, this]
  simpa [e] using h.run ops

/-- Initialisation with fewer than 2 bytes (or NULL) leaves an uninitialised ring uninitialised, and
then every access is refused with an error instead of touching memory. -/
theorem C42_rejected_init_is_inert (storage : Option (List Nat)) (n : Nat)
    (h : storage = none ∨ n < 2) (op : Ring.Op) :
    Ring.step (Ring.init Ring.zeroed storage n) op =
      some (match op with
        | .read => .read .error none | .write _ => .write .error
        | .canRead => .bool false | .available => .num 0 | .canWrite => .bool false,
        Ring.zeroed) := by
  have e : Ring.init Ring.zeroed storage n = Ring.zeroed := by
    unfold Ring.init
    cases storage with
    | none => rfl
    | some st => rcases h with h | h <;> simp_all
  rw [e]; cases op <;> rfl

-- non-vacuity: fill, overflow, drain with wrap-around
example : Ring.run (Ring.init Ring.zeroed (some [0, 0, 0]) 3)
    [.write 1, .write 2, .write 3, .read, .write 4, .available, .read, .read, .read] =
    some [.write .ok, .write .ok, .write .full, .read .ok (some 1), .write .ok, .num 0,
      .read .ok (some 2), .read .ok (some 4), .read .empty none] := by decide

end Mdmi.Props
