import Verif.Proofs.MidiRx
import Verif.Spec.Example
/-! C59: the startup MIDI sequence. -/
namespace Mdmi.Props
open Mdmi Mdmi.Rx

/-- The calls a startup sequence makes into the engine. -/
def startupOps (junk : Nat → Nat) : List Piece → List Midi.Op
  | [] => []
  | x :: l => x.ops (junk 0) ++ startupOps (fun n => junk (n + 1)) l

private theorem loop_pieces (env : Rx.Env) (l : List Piece) : ∀ (junk : Nat → Nat) (s : Sys), s.stop = none →
    (∀ x ∈ l, x.call ≠ .reset) →
    (startupLoop env junk s (l.map Piece.call)).1.midi = Midi.run env.midi s.midi (startupOps junk l) ∧
    (startupLoop env junk s (l.map Piece.call)).1.stop = none ∧
    (startupLoop env junk s (l.map Piece.call)).2 = false := by
  induction l with
  | nil => intro _ s hs _; exact ⟨rfl, hs, rfl⟩
  | cons x l ih =>
    intro junk s hs h
    have hx := h x (by simp)
    have := deliver_piece env junk s hs x (.inr hx)
    rw [deliver_act env junk s hs _ hx] at this
    simp only [List.map_cons, startupLoop, hx, if_false]
    obtain ⟨h1, h2, h3⟩ := ih (fun n => junk (n + 1)) _ this.2 fun y hy => h y (by simp [hy])
    refine ⟨?_, h2, h3⟩
    rw [h1, this.1]
    simp only [startupOps, Midi.run, List.foldl_append]

private theorem all_calls (l : List Piece) (h : ∀ x ∈ l, x.Ok) :
    readAll (l.flatMap Piece.bytes) = (l.map Piece.call, []) := by
  have := readAll_pieces l h []
  simpa [readAll, readLoop] using this

/-- **C59**.  A startup sequence of complete messages without a system reset runs to its end and makes exactly its
calls into the engine, in order. -/
theorem C59_runs (env : Rx.Env) (junk : Nat → Nat) (l : List Piece) (h : ∀ x ∈ l, x.Ok ∧ x.call ≠ .reset)
    (e : env.startup = l.flatMap Piece.bytes) (s : Sys) (hs : s.stop = none) :
    (startupAll env junk s).midi = Midi.run env.midi s.midi (startupOps junk l) ∧
    (startupAll env junk s).stop = none := by
  obtain ⟨h1, h2, h3⟩ := loop_pieces env l junk s hs fun x hx => (h x hx).2
  simp only [startupAll, startup, e, all_calls l fun x hx => (h x hx).1]
  revert h1 h2 h3
  rcases startupLoop env junk s (l.map Piece.call) with ⟨t, b⟩
  intro h1 h2 h3
  simp only at h1 h2 h3
  subst h3
  exact ⟨h1, h2⟩

/-- **C59** (power-on).  After start-up the engine is where the sequence takes it from its initial state. -/
theorem C59_boot (env : Rx.Env) (junk : Nat → Nat) (l : List Piece) (h : ∀ x ∈ l, x.Ok ∧ x.call ≠ .reset)
    (e : env.startup = l.flatMap Piece.bytes) (b : Bool) (m : Sram.Mem) :
    (Rx.boot env junk b m).midi = Midi.run env.midi (Midi.boot env.midi b m) (startupOps junk l) :=
  (C59_runs env junk l h e _ rfl).1

/-- **C59** (system reset).  A system reset message resets the engine and runs the sequence again; what follows is
received as usual. -/
theorem C59_system_reset (env : Rx.Env) (junk : Nat → Nat → Nat) (l : List Piece)
    (h : ∀ x ∈ l, x.Ok ∧ x.call ≠ .reset) (e : env.startup = l.flatMap Piece.bytes) (s : Sys) (hs : s.stop = none) :
    (receive env junk s [0xFF]).midi = Midi.run env.midi (Midi.step env.midi s.midi .reset) (startupOps (junk 0) l) ∧
    (receive env junk s [0xFF]).stop = none := by
  have : receive env junk s [0xFF] = startupAll env (junk 0) (act env 0 s .reset) := by
    simp [receive, readAll, readLoop, readMessage, readSystem, deliverAll, deliver, hs]
  rw [this]
  have k := C59_runs env (junk 0) l h e (act env 0 s .reset) (by simp only [act, engine]; exact hs)
  simp only [act, engine] at k ⊢
  exact k

/-- **C59** (resets inside).  If the sequence contains a system reset, running it never ends: no number of nested calls
is enough. -/
theorem C59_reset_inside_never_ends (env : Rx.Env) (junk : Nat → Nat) (l : List Piece) (h : ∀ x ∈ l, x.Ok)
    (e : env.startup = l.flatMap Piece.bytes) (hr : .message .systemReset ∈ l) (depth : Nat) (s : Sys) :
    startup env junk depth s = none := by
  refine startup_loops env junk ?_ depth s
  rw [e, all_calls l h]
  simp only [List.mem_map]
  exact ⟨_, hr, rfl⟩

/-- **C59** (one call suffices otherwise): the model's bound on nested calls does not matter. -/
theorem C59_depth (env : Rx.Env) (junk : Nat → Nat) (l : List Piece) (h : ∀ x ∈ l, x.Ok ∧ x.call ≠ .reset)
    (e : env.startup = l.flatMap Piece.bytes) (depth : Nat) (s : Sys) :
    startup env junk (depth + 1) s = some (startupAll env junk s) := by
  have := startup_none env junk s (by
    rw [e, all_calls l fun x hx => (h x hx).1]
    simp only [List.mem_map, not_exists, not_and]
    intro x hx k
    exact (h x hx).2 k) depth
  rw [this.1]
  obtain ⟨t, ht⟩ := Option.isSome_iff_exists.1 this.2
  simp [startupAll, ht]

/-- **C59** (cut off).  If the sequence ends in the middle of a message, the program stops with an error. -/
theorem C59_truncated_dies (env : Rx.Env) (junk : Nat → Nat) (l : List Piece) (h : ∀ x ∈ l, x.Ok ∧ x.call ≠ .reset)
    (m : Message) (hm : m.Ok) (pre post : List Nat) (hb : m.bytes = pre ++ post) (h1 : pre ≠ []) (h2 : post ≠ [])
    (e : env.startup = l.flatMap Piece.bytes ++ pre) (s : Sys) (hs : s.stop = none) :
    (startupAll env junk s).stop = some .died := by
  have hp : readAll pre = ([], pre) := by
    cases hx : readMessage pre with
    | none => exact readAll_none hx
    | some x =>
      have k1 := readMessage_append post hx
      have k2 := readMessage_message m hm []
      rw [List.append_nil, hb, k1] at k2
      simp only [Option.some.injEq, Prod.mk.injEq, List.append_eq_nil_iff] at k2
      exact absurd k2.2.2 h2
  obtain ⟨_, _, h3⟩ := loop_pieces env l junk s hs fun x hx => (h x hx).2
  have k := readAll_pieces l (fun x hx => (h x hx).1) pre
  rw [hp, List.append_nil] at k
  simp only [startupAll, startup, e, k]
  revert h3
  rcases startupLoop env junk s (l.map Piece.call) with ⟨t, b⟩
  intro h3
  simp only at h3
  subst h3
  simp [h1]

/-! ### Examples -/

/-- The example of user_prefs.h: channel 10 on FM channel 6. -/
example : let s := Rx.boot ⟨Ex.env .static, [0xF0, 0, 0x22, 0x77, 0, 9, 5, 0xF7, 0xF0, 0, 0x22, 0x77, 0, 0x7F, 9, 0xF7]⟩ (fun _ => 0) true Ex.mem
    (s.midi.dev 5).midiChannel = 9 ∧ (s.midi.dev 9).midiChannel = 0x7F ∧ s.stop = none := by decide +kernel

example : (Rx.boot ⟨Ex.env .static, [0x90, 60, 100, 0xFF]⟩ (fun _ => 0) true Ex.mem).stop = some .looping ∧
    (Rx.boot ⟨Ex.env .static, [0x90, 60]⟩ (fun _ => 0) true Ex.mem).stop = some .died := by decide +kernel

end Mdmi.Props
