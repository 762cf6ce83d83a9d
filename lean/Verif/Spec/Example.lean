import Verif.Spec.Midi
/-!
# Concrete data for the examples

Legal tables; the presets differ from one another so that examples can tell programs apart.
-/
namespace Mdmi.Ex
open Mdmi.Synth Mdmi.Midi

/-- An operator. -/
def oper (n : Nat) : Operator := ⟨n % 16, 1, 31, 0, 5, 0, 2, 3, 7, n % 128, 0⟩

/-- The preset of program `n`. -/
def preset (n : Nat) : FmPreset := ⟨n % 8, n / 8 % 8, 1, 2, ⟨oper n, oper (n + 1), oper (n + 2), oper (n + 3)⟩⟩

/-- FM data. -/
def fm : Fm.Env :=
  ⟨(List.range 128).map preset, (List.range 128).map fun n => ⟨preset (127 - n), 60⟩, fun _ => true, false, true⟩

/-- PSG data: attack, loop, release. -/
def psg : Psg.Env := ⟨List.replicate 128 [0x02, 0xFE, 0x00, 0xFD, 0x08, 0xFF], false⟩

/-- The whole of it, with a default mapping mode. -/
def env (m : Mode) : Midi.Env := ⟨fm, psg, m⟩

/-- Empty preset memory. -/
def mem : Sram.Mem := fun _ => 0xFF

/-- State after start-up. -/
def start (m : Mode) : Midi.St := Midi.boot (env m) true mem

/-- State after start-up and some messages. -/
def after (m : Mode) (ops : List Midi.Op) : Midi.St := Midi.run (env m) (start m) ops

theorem oper_ok (n : Nat) : (oper n).Ok := by
  constructor <;> simp only [oper] <;> omega

theorem preset_ok (n : Nat) : (preset n).Ok :=
  ⟨by simp only [preset]; omega, by simp only [preset]; omega, by simp only [preset]; omega,
    by simp only [preset]; omega, ⟨oper_ok _, oper_ok _, oper_ok _, oper_ok _⟩⟩

theorem env_ok (m : Mode) : (env m).Ok := by
  refine ⟨⟨by simp [env, fm], ?_, by simp [env, fm], ?_⟩, ⟨by simp [env, psg], ?_⟩⟩
  · intro p hp
    simp only [env, fm, List.mem_map] at hp
    obtain ⟨n, _, rfl⟩ := hp; exact preset_ok n
  · intro p hp
    simp only [env, fm, List.mem_map] at hp
    obtain ⟨n, _, rfl⟩ := hp; exact ⟨preset_ok _, by simp⟩
  · intro e he
    simp only [env, psg, List.mem_replicate] at he
    rw [he.2]; simp

end Mdmi.Ex
