import Verif.Proofs.MidiRx
import Verif.Spec.Example
/-! C35: a ping is answered by exactly one pong. -/
namespace Mdmi.Props
open Mdmi Mdmi.Midi

/-- The answer to a ping with the given payload (what follows the command byte): the sequence byte if there is one,
then the extra data if there is any and the flag byte before it is 1. -/
def pongFor : List Nat → List Nat
  | [] => [0xF0, 0x00, 0x22, 0x77, 0x02, 0xF7]
  | [seq] => [0xF0, 0x00, 0x22, 0x77, 0x02, seq, 0xF7]
  | seq :: flag :: extra =>
    if flag = 1 then [0xF0, 0x00, 0x22, 0x77, 0x02, seq] ++ extra ++ [0xF7]
    else [0xF0, 0x00, 0x22, 0x77, 0x02, seq, 0xF7]

/-- **C35** (engine).  In every state, a ping makes the engine send exactly the answer, in one message, and does nothing
else. -/
theorem C35_ping (env : Env) (s : St) (d : List Nat) (junk : Nat) :
    step env s (.sysex ([0x00, 0x22, 0x77, 0x01] ++ d) junk) = { s with out := .tx (pongFor d) :: s.out } := by
  simp only [step, sysex]
  rw [if_neg (by simp), if_neg (by simp), if_neg (by simp)]
  simp only [List.cons_append, List.nil_append, List.getD_cons_succ, List.getD_cons_zero, List.drop_succ_cons,
    List.drop_zero, commandLength, handler, sendPong, sendSysex, emit]
  match d with
  | [] => rfl
  | [seq] => rfl
  | [seq, flag] =>
    have e : pongFor [seq, flag] = [0xF0, 0x00, 0x22, 0x77, 0x02, seq, 0xF7] := by
      simp only [pongFor]; split <;> rfl
    rw [e, if_neg (by simp)]; rfl
  | seq :: flag :: x :: extra =>
    simp only [pongFor, List.length_cons, List.getD_cons_succ, List.getD_cons_zero, List.drop_succ_cons, List.drop_zero,
      List.take_succ_cons, List.take_zero]
    by_cases h : flag = 1
    · rw [if_pos ⟨by omega, h⟩, if_pos h]; rfl
    · rw [if_neg (fun k => h k.2), if_neg h]; rfl

/-- **C35** (wire).  The bytes of a ping, with up to 251 bytes of payload, received at any time between messages: the
receiver consumes them all and exactly one answer is sent. -/
theorem C35_ping_on_the_wire (env : Rx.Env) (s : Rx.Sys) (hs : s.stop = none) (d : List Nat) (hd : ∀ b ∈ d, b < 128)
    (hl : d.length ≤ 251) (junk : Nat → Nat → Nat) :
    let r := Rx.readAll (0xF0 :: [0x00, 0x22, 0x77, 0x01] ++ d ++ [0xF7])
    r.2 = [] ∧ (Rx.deliverAll env junk s r.1).midi = { s.midi with out := .tx (pongFor d) :: s.midi.out } ∧
      (Rx.deliverAll env junk s r.1).stop = none := by
  let m : Rx.Piece := .message (.sysex ([0x00, 0x22, 0x77, 0x01] ++ d))
  have hm : ∀ x ∈ [m], x.Ok := by
    intro x hx
    simp only [List.mem_singleton] at hx
    subst hx
    refine ⟨fun b hb => ?_, by simp; omega⟩
    rcases List.mem_append.1 hb with hb | hb
    · simp only [List.mem_cons, List.not_mem_nil, or_false] at hb; omega
    · exact hd b hb
  have e := Rx.readAll_pieces [m] hm []
  have eb : [m].flatMap Rx.Piece.bytes ++ [] = 0xF0 :: [0x00, 0x22, 0x77, 0x01] ++ d ++ [0xF7] := by
    simp [m, Rx.Piece.bytes, Rx.Message.bytes]
  rw [eb] at e
  have k := Rx.deliver_pieces env [m] junk s hs (.inr (by simp [m, Rx.Piece.call, Rx.Message.call]))
  simp only [e]
  refine ⟨rfl, ?_, ?_⟩
  · rw [show (Rx.readAll []).1 = [] from rfl, List.append_nil, k.1]
    exact C35_ping env.midi s.midi d (junk 0 0)
  · rw [show (Rx.readAll []).1 = [] from rfl, List.append_nil]; exact k.2

-- a ping with sequence byte and extra data, one without the flag, one without anything
example : pongFor [0x2A, 1, 5, 6, 7] = [0xF0, 0x00, 0x22, 0x77, 0x02, 0x2A, 5, 6, 7, 0xF7] := by decide
example : pongFor [0x2A, 0, 5, 6, 7] = [0xF0, 0x00, 0x22, 0x77, 0x02, 0x2A, 0xF7] := by decide
example : (step (Ex.env .static) (Ex.after .static [.noteOn 0 60 100])
    (.sysex [0x00, 0x22, 0x77, 0x01, 0x11, 0x01, 0x70] 3)).out = [.tx [0xF0, 0x00, 0x22, 0x77, 0x02, 0x11, 0x70, 0xF7]] := by
  decide +kernel

end Mdmi.Props
