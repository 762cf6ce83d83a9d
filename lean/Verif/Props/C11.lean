import Verif.Proofs.MidiRx
import Verif.Spec.Example
/-! C11: note-on with velocity zero is note-off. -/
namespace Mdmi.Props
open Mdmi Mdmi.Rx

/-- **C11** (engine).  In every state the two calls have the same effect. -/
theorem C11_calls (env : Midi.Env) (s : Midi.St) (c p : Nat) :
    Midi.step env s (.noteOn c p 0) = Midi.step env s (.noteOff c p) := by
  simp only [Midi.step, Midi.noteOn, if_true]

/-- **C11** (stream).  In every state, for every release velocity and whatever follows, the bytes of the two messages
lead to the same state: both chips, voices, channels, log and output. -/
theorem C11_bytes (env : Rx.Env) (junk : Nat → Nat → Nat) (s : Sys) (c p v : Nat) (hc : c < 16) (hp : p < 128)
    (hv : v < 128) (rest : List Nat) :
    receive env junk s ([0x90 + c, p, 0] ++ rest) = receive env junk s ([0x80 + c, p, v] ++ rest) := by
  have h1 := readMessage_message (.noteOn c p 0) ⟨hc, hp, by omega⟩ rest
  have h2 := readMessage_message (.noteOff c p v) ⟨hc, hp, hv⟩ rest
  simp only [Message.bytes, Message.call] at h1 h2
  unfold receive
  rw [readAll_cons h1, readAll_cons h2]
  simp only [deliverAll]
  have : deliver env (junk 0) s (.noteOn c p 0) = deliver env (junk 0) s (.noteOff c p) := by
    unfold deliver
    simp only [reduceCtorEq, if_false, act, engine, C11_calls]
  rw [this]

/-! ### Example: the note ends -/

example :
    let env : Rx.Env := ⟨Ex.env .static, []⟩
    let s := receive env (fun _ _ => 0) ⟨Ex.start .static, [], none⟩ [0x92, 60, 100]
    Synth.keyed s.midi.fm.synth.out 2 = true ∧
    Synth.keyed (receive env (fun _ _ => 0) s [0x92, 60, 0]).midi.fm.synth.out 2 = false := by decide +kernel

end Mdmi.Props
