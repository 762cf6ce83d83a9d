import Verif.Model.Psg
/-!
# Specification of the PSG: what the chip holds, which calls are legal, what an envelope is
-/
namespace Mdmi.Psg

/-- Tone register of channel `ch` after the events `out` (newest first); 0 after power-up. -/
def chipTone : List Ev → Nat → Nat
  | [], _ => 0
  | .tone n v :: rest, ch => if n = ch then v else chipTone rest ch
  | _ :: rest, ch => chipTone rest ch

/-- Attenuation of channel `ch` after the events `out` (newest first); silent after power-up (the
SGDK start-up code writes 15). -/
def chipAtt : List Ev → Nat → Nat
  | [], _ => 15
  | .att n v :: rest, ch => if n = ch then v else chipAtt rest ch
  | _ :: rest, ch => chipAtt rest ch

/-- Pitch shift, in cents, of an envelope byte with upper nibble `n`. -/
def shiftCents (n : Nat) : Int := [0, 5, 10, 20, 50, 100, 200, 500, -5, -10, -20, -50, -100, -200, -500].getD n 0

/-- Legal arguments of API calls: four channels, 8-bit pitch, cents below 100, 7-bit volume, velocity
and program, and an envelope whose END byte (0xFF) is among the first 256 bytes. -/
def Op.Legal : Op → Prop
  | .noteOn ch p c v => ch < 4 ∧ p < 256 ∧ 0 ≤ c ∧ c < 100 ∧ v < 128
  | .noteOff ch => ch < 4
  | .allNotesOff ch => ch < 4
  | .volume ch v => ch < 4 ∧ v < 128
  | .program ch p => ch < 4 ∧ p < 128
  | .pitch ch p c => ch < 4 ∧ p < 256 ∧ 0 ≤ c ∧ c < 100
  | .tick => True
  | .loadEnvelope e => ∃ k < 256, e[k]? = some 0xFF
  | .reset => True

/-- Legal constant data: an envelope for each of the 128 programs, each with an END byte. -/
structure Env.Legal (env : Env) : Prop where
  count : env.envelopes.length = 128
  ended : ∀ e ∈ env.envelopes, 0xFF ∈ e

/-- Calls that address channel `ch` alone. -/
def Op.target : Op → Option Nat
  | .noteOn ch _ _ _ | .noteOff ch | .allNotesOff ch | .volume ch _ | .program ch _
  | .pitch ch _ _ => some ch
  | _ => none

/-- Number of ticks in a history. -/
def ticks (ops : List Op) : Nat := ops.countP fun o => match o with | .tick => true | _ => false

/-- The bytes of an envelope with one loop. -/
def eef (A L T : List Nat) : List Nat := A ++ 0xFE :: (L ++ 0xFD :: (T ++ [0xFF]))

/-- The envelope byte that sounds after `t` ticks of a held note. -/
def heldByte (A L : List Nat) (t : Nat) : Option Nat :=
  if t < A.length then A[t]? else L[(t - A.length) % L.length]?

/-- The bytes that still sound after a release at tick `t`. -/
def releaseBytes (A L T : List Nat) (t : Nat) : List Nat :=
  L.drop ((t - A.length) % L.length) ++ T

/-- An envelope in this form: data bytes in all three parts and a non-empty loop. -/
structure EefOk (A L T : List Nat) : Prop where
  attack : ∀ b ∈ A, b < 0xFD
  loop : ∀ b ∈ L, b < 0xFD
  tail : ∀ b ∈ T, b < 0xFD
  nonempty : L ≠ []

end Mdmi.Psg
