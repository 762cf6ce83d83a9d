import Verif.Proofs.MidiRx
import Verif.Spec.Example
/-! C02: over-long system exclusive messages. -/
namespace Mdmi.Props
open Mdmi Mdmi.Rx

private theorem warns (l : List Nat) (rest : List Nat) (h : ∀ b ∈ l, Stray b) :
    readAll (l ++ rest) = (l.map Call.warn ++ (readAll rest).1, (readAll rest).2) := by
  have := readAll_pieces (l.map Piece.stray) (by simpa [Piece.Ok] using h) rest
  have e : ∀ l : List Nat, l.flatMap (fun b => [b]) = l := by
    intro l; induction l with
    | nil => rfl
    | cons b l ih => rw [List.flatMap_cons, ih]; rfl
  simpa [List.flatMap_map, Function.comp_def, Piece.bytes, Piece.call, e] using this

private theorem deliver_warns (env : Rx.Env) (l : List Nat) : ∀ (junk : Nat → Nat → Nat) (s : Sys), s.stop = none →
    deliverAll env junk s (l.map Call.warn) = { s with warnings := l.reverse ++ s.warnings } := by
  induction l with
  | nil => intro _ s _; rfl
  | cons b l ih =>
    intro junk s hs
    simp only [List.map_cons, deliverAll]
    rw [ih _ _ (by simp [deliver, hs, act])]
    simp [deliver, hs, act]

/-- **C02**.  A payload of more than 256 bytes is read as a message with its first 256 bytes, then one warning for
every other byte and for the end marker; what follows is read as if nothing had happened. -/
theorem C02_reading (d rest : List Nat) (h7 : ∀ b ∈ d, b < 0x80) (hl : 256 < d.length) :
    readAll (0xF0 :: d ++ 0xF7 :: rest) =
      (.sysex (d.take 256) :: ((d.drop 256 ++ [0xF7]).map Call.warn ++ (readAll rest).1), (readAll rest).2) := by
  have e : readMessage (0xF0 :: d ++ 0xF7 :: rest) = some (.sysex (d.take 256), d.drop 256 ++ 0xF7 :: rest) := by
    have := readSysex_full 256 (d.take 256) (d.drop 256 ++ 0xF7 :: rest)
      (fun b hb => by have := h7 b (List.mem_of_mem_take hb); omega) (by simp; omega)
    rw [← List.append_assoc, List.take_append_drop] at this
    simp only [List.cons_append, readMessage, readSystem, Nat.reduceDiv, Nat.reduceMod, this]
  rw [readAll_cons e, show d.drop 256 ++ 0xF7 :: rest = (d.drop 256 ++ [0xF7]) ++ rest by simp, warns]
  intro b hb
  rw [List.mem_append, List.mem_singleton] at hb
  rcases hb with hb | rfl
  · exact .inl (h7 b (List.mem_of_mem_drop hb))
  · exact .inr (.inr (.inr (by simp)))

/-- **C02** (effect).  The engine gets exactly one call, with the first 256 bytes; the rest of the payload only adds
warnings, and whatever follows is received as usual. -/
theorem C02_contained (env : Rx.Env) (junk : Nat → Nat → Nat) (s : Sys) (hs : s.stop = none) (d rest : List Nat)
    (h7 : ∀ b ∈ d, b < 0x80) (hl : 256 < d.length) :
    receive env junk s (0xF0 :: d ++ 0xF7 :: rest) =
      receive env (fun n => junk (n + (d.length - 256 + 2)))
        { midi := Midi.step env.midi s.midi (.sysex (d.take 256) (junk 0 0)),
          warnings := (d.drop 256 ++ [0xF7]).reverse ++ s.warnings, stop := none } rest := by
  unfold receive
  rw [C02_reading d rest h7 hl, ← List.cons_append, deliverAll_append]
  simp only [deliverAll]
  rw [deliver_warns _ _ _ _ (by simp [deliver, hs, act, engine])]
  simp [deliver, act, engine, hs, Nat.add_assoc]

/-! ### Example: 300 bytes -/

example : readAll (0xF0 :: List.replicate 300 5 ++ [0xF7, 0x90, 60, 100]) =
    (.sysex (List.replicate 256 5) :: (List.replicate 44 (Call.warn 5) ++ [.warn 0xF7, .noteOn 0 60 100]), []) := by
  decide +kernel

end Mdmi.Props
