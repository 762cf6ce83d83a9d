import Verif.Proofs.MidiStep
import Verif.Spec.Example
/-! C06: malformed or foreign system exclusive messages are ignored. -/
namespace Mdmi.Props
open Mdmi Mdmi.Midi

/-- The documented commands with the number of payload bytes they take (`none`: any number).  2, 0x0E and 0x10 are
replies, which the interface sends but does not take. -/
def commandTable : List (Nat × Option Nat) :=
  [(0x00, some 2), (0x01, none), (0x03, some 1), (0x04, some 1), (0x05, some 1), (0x06, none), (0x07, some 1),
    (0x08, some 4), (0x09, some 4), (0x0A, some 50), (0x0B, some 2), (0x0C, some 1), (0x0D, some 2), (0x0F, some 2)]

/-- A message the interface understands: General MIDI reset, or its own header, a command and a payload of the
right length. -/
def Understood (d : List Nat) : Prop :=
  (∃ rest, d = [0x7E, 0x7F, 0x09, 0x01] ++ rest) ∨
  ∃ command payload, d = [0x00, 0x22, 0x77, command] ++ payload ∧
    ((command, none) ∈ commandTable ∨ (command, some payload.length) ∈ commandTable)

/-- **C06**.  A message that is not understood, whatever its bytes and the state, changes nothing: neither the
engine's state nor the devices (so no chip register), nor are bytes sent; at most one line is logged. -/
theorem C06_ignored (env : Env) (s : St) (d : List Nat) (junk : Nat) (h : ¬Understood d) :
    sysex env s d junk = s ∨ ∃ m, sysex env s d junk = { s with log := m :: s.log } := by
  match d with
  | [] => left; simp [sysex]
  | [_] => left; simp [sysex]
  | [_, _] => left; simp [sysex]
  | [_, _, _] => left; simp [sysex]
  | a :: b :: c :: e :: t =>
    have h1 : ¬(a :: b :: c :: e :: t).take 4 = [0x7E, 0x7F, 0x09, 0x01] := by
      intro k; simp only [List.take_succ_cons, List.take_zero, List.cons.injEq, and_true] at k
      exact h (.inl ⟨t, by simp [k]⟩)
    have h4 : ¬(a :: b :: c :: e :: t).length < 4 := by simp
    unfold sysex
    rw [if_neg h4, if_neg h1]
    by_cases h2 : (a :: b :: c :: e :: t).take 3 ≠ [0x00, 0x22, 0x77]
    · left; rw [if_pos h2]
    · rw [if_neg h2]
      simp only [List.take_succ_cons, List.take_zero, ne_eq, Decidable.not_not, List.cons.injEq, and_true] at h2
      obtain ⟨rfl, rfl, rfl⟩ := h2
      have h3 : (e, none) ∉ commandTable ∧ (e, some t.length) ∉ commandTable :=
        ⟨fun k => h (.inr ⟨e, t, rfl, .inl k⟩), fun k => h (.inr ⟨e, t, rfl, .inr k⟩)⟩
      have he : (0 :: 34 :: 119 :: e :: t).getD 3 0 = e := rfl
      have ht : (0 :: 34 :: 119 :: e :: t).drop 4 = t := rfl
      rw [he, ht]
      right
      simp only
      split
      · exact ⟨_, rfl⟩
      · rename_i n k
        have : t.length ≠ n := by
          rintro rfl
          refine h3.2 ?_
          unfold commandLength at k
          revert k
          split <;> intro k <;> simp only [Option.some.injEq, reduceCtorEq] at k <;> rw [← k] <;> decide
        rw [if_pos this]
        exact ⟨_, rfl⟩
      · rename_i k
        refine absurd ?_ h3.1
        unfold commandLength at k
        revert k
        split <;> intro k <;> simp only [Option.some.injEq, reduceCtorEq] at k <;> decide

/-- **C06** (what a listener can observe).  The devices, both chips' registers, the transmitted bytes, the mapping and
every setting are what they were. -/
theorem C06_unobservable (env : Env) (s : St) (d : List Nat) (junk : Nat) (h : ¬Understood d) :
    let t := sysex env s d junk
    t.dev = s.dev ∧ t.chan = s.chan ∧ t.cfg = s.cfg ∧ t.dynamic = s.dynamic ∧ t.out = s.out ∧
      t.fault = s.fault ∧ t.psg = s.psg ∧ t.fm = s.fm := by
  rcases C06_ignored env s d junk h with e | ⟨m, e⟩ <;> simp [e]

/-- A remap of the right length is understood, one byte more or less is not, nor are replies, unknown commands and
foreign headers. -/
example : Understood [0x00, 0x22, 0x77, 0x00, 3, 7] ∧ ¬Understood [0x00, 0x22, 0x77, 0x00, 3] ∧
    ¬Understood [0x00, 0x22, 0x77, 0x00, 3, 7, 1] ∧ ¬Understood [0x00, 0x22, 0x77, 0x0E] ∧
    ¬Understood [0x00, 0x22, 0x77, 0x11, 0] ∧ ¬Understood [0x41, 0x10, 0x42, 0x12, 0x40] := by
  refine ⟨.inr ⟨0, [3, 7], rfl, .inr (by decide)⟩, ?_, ?_, ?_, ?_, ?_⟩ <;>
  · rintro (⟨r, h⟩ | ⟨c, p, h, k⟩)
    · simp at h
    · simp only [List.cons_append, List.nil_append, List.cons.injEq, reduceCtorEq, false_and] at h
      try (obtain ⟨-, -, -, rfl, rfl⟩ := h; revert k; decide)

/-- The understood remap acts, the others do not. -/
example :
    let f (d : List Nat) := ((sysex (Ex.env .static) (Ex.start .static) d 0).dev 7).midiChannel
    f [0x00, 0x22, 0x77, 0x00, 3, 7] = 3 ∧ f [0x00, 0x22, 0x77, 0x00, 3] = 7 ∧
      f [0x00, 0x22, 0x77, 0x00, 3, 7, 1] = 7 := by decide +kernel

end Mdmi.Props
