import Verif.Model.Midi
import Verif.Spec.MidiFm
import Verif.Spec.Psg
/-!
# Specification of the MIDI engine: legal calls and voices
-/
namespace Mdmi.Midi

/-- Legal constant data. -/
structure Env.Ok (env : Env) : Prop where
  fm : env.fm.Ok
  psg : env.psg.Legal

/-- Well-formed MIDI: channels 0 to 15, 7-bit data bytes, 14-bit bends, system exclusive payloads that fit the
receiver's 256-byte buffer. -/
def Op.Wf : Op → Prop
  | .noteOn c p v => c < 16 ∧ p < 128 ∧ v < 128
  | .noteOff c p => c < 16 ∧ p < 128
  | .bend c b => c < 16 ∧ b < 16384
  | .cc c k v => c < 16 ∧ k < 128 ∧ v < 128
  | .program c p => c < 16 ∧ p < 128
  | .sysex d j => (∀ b ∈ d, b < 128) ∧ d.length ≤ 256 ∧ j < 256
  | .remap _ _ | .reset | .tick | .psgTick => True

/-- Calls with arguments the code can cope with, whatever the standard says of them: any pitch (7-bit ones where samples
play), any bend, any value of a controller other than portamento time, volume and store program; and any system
exclusive payload but one that stores or clears a preset beyond the 128 programs. -/
def Op.Harmless (samples : Bool) : Op → Prop
  | .noteOn c p v => c < 16 ∧ (v = 0 ∨ v < 128 ∧ p < 256 ∧ (samples = true → p < 128))
  | .noteOff c _ | .bend c _ => c < 16
  | .cc c k v => c < 16 ∧ (k = 5 ∨ k = 7 ∨ k = 87 → v < 128)
  | .program c p => c < 16 ∧ p < 128
  | .sysex d _ => d.length ≤ 256 ∧ ∀ n rest, d = [0x00, 0x22, 0x77, 0x0A, 0, n] ++ rest ∧ rest.length = 48 ∨
      d = [0x00, 0x22, 0x77, 0x0B, 0, n] → n < 128
  | .remap _ _ | .reset | .tick | .psgTick => True

/-- Messages that switch channel 6 to sample playback. -/
def Op.enablesDac : Op → Prop
  | .cc _ k v => k = 78 ∧ 64 ≤ v
  | _ => False

/-- Messages that move notes off the keys: pitch bend and fine tune away from the centre. -/
def Op.detunes : Op → Prop
  | .bend _ b => b ≠ 0x2000
  | .cc _ k v => k = 85 ∧ v ≠ 64
  | _ => False

/-- States the engine reaches from start-up, over any preset memory, by well-formed messages, remaps, resets and frame
ticks.  Histories that combine sample playback with detuning are left out: their sample lookup can leave its table
(C05), after which the C code has no defined state. -/
def Reached (env : Env) (s : St) : Prop :=
  ∃ b m ops, (∀ op ∈ ops, op.Wf) ∧ ((∀ op ∈ ops, ¬op.enablesDac) ∨ (∀ op ∈ ops, ¬op.detunes)) ∧
    s = run env (boot env b m) ops

/-- The array and index of a note stack are intact. -/
def StackOk (st : NotePriority.Stack) : Prop := st.slot.length = 10 ∧ -1 ≤ st.top ∧ st.top ≤ 9

/-- Contents of a note stack, oldest first. -/
def held (st : NotePriority.Stack) : List Nat := st.slot.take (st.top + 1).toNat

/-- Device channels 0 to 5 are FM, 6 to 9 PSG (9 is noise), 10 to 12 the special-mode operators of FM channel
3 (midi.h); the chip channel (or operator) each of them drives. -/
def chipNum (i : Nat) : Nat := if i ≤ 5 then i else if i ≤ 9 then i - 6 else i - 10

/-- Whether voice `i` is of the kind the mapping says; device 5 may play samples instead. -/
def KindOk (i : Nat) (ops : Ops) : Prop :=
  (i < 6 ∧ ops = .fm) ∨ (i = 5 ∧ ops = .dac) ∨ (6 ≤ i ∧ i < 10 ∧ ops = .psg) ∨ (10 ≤ i ∧ i < 13 ∧ ops = .sm)

/-- A device channel is mapped to a MIDI channel or unassigned. -/
def MapOk (m : Nat) : Prop := m < 16 ∨ m = 0x7F

/-- Registers of the YM2612 that belong to voice `i`: those of FM channel `i` and its key, for the special-mode
operators (10 to 12) their frequency and total level. -/
def voiceReg (i part reg data : Nat) : Prop :=
  if i < 6 then Synth.owner part reg data = some i else 10 ≤ i ∧ (part, reg) ∈ Fm.smOwns (i - 10)

/-- The chips outside the voices in `A` are as they were: registers of the YM2612 no such voice owns, keys of the
other FM channels, tone and attenuation of the other PSG channels. -/
structure ChipFrame (A : Nat → Prop) (s t : St) : Prop where
  reg : ∀ p r, (∀ i, A i → i < 13 → ∀ d, ¬voiceReg i p r d) →
    Synth.ymReg t.fm.synth.out p r = Synth.ymReg s.fm.synth.out p r
  key : ∀ n, n < 6 → ¬A n → Synth.keyed t.fm.synth.out n = Synth.keyed s.fm.synth.out n
  tone : ∀ n, n < 4 → ¬A (n + 6) → Psg.chipTone t.psg.out n = Psg.chipTone s.psg.out n
  att : ∀ n, n < 4 → ¬A (n + 6) → Psg.chipAtt t.psg.out n = Psg.chipAtt s.psg.out n

/-- FM calls a voice makes: those of its own channel (or operator), and the percussion flag of the FM channel with
its number. -/
def voiceFm (i : Nat) (op : Fm.Op) : Prop :=
  match op with
  | .noteOn c _ _ _ | .noteOff c | .volume c _ | .program c _ | .allNotesOff c | .pan c _ | .pitch c _ _ =>
    i < 6 ∧ c = i
  | .smNoteOn o _ _ _ | .smPitch o _ _ => 10 ≤ i ∧ o = i - 10
  | .dacNoteOn _ | .dacNoteOff => i = 5
  | .percussive c _ => c = chipNum i
  | _ => False

/-- PSG calls a voice makes. -/
def voicePsg (i : Nat) (op : Psg.Op) : Prop := 6 ≤ i ∧ i < 10 ∧ op.target = some (i - 6)

end Mdmi.Midi
