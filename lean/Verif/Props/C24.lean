import Verif.Props.C25
/-! C24: PSG loudness. -/
namespace Mdmi.Props
open Mdmi Mdmi.Psg

/-- The legal constant data plus one fresh driver: play envelope byte `b` with the given channel
volume and velocity on channel 0 and read the attenuation off the chip. -/
def heardAttenuation (env : Env) (volume velocity b : Nat) : Nat :=
  chipAtt (Psg.run env (Psg.init env)
    [.loadEnvelope [b, 0xFF], .volume 0 volume, .noteOn 0 60 0 velocity]).out 0

theorem heard_eq (env : Env) (he : env.Legal) (v w b : Nat) (hv : v < 128) (hw : w < 128)
    (hb : b < 0xFE) : heardAttenuation env v w b = combine (v * w / 127) b := by
  have hops : ∀ op ∈ [Op.loadEnvelope [b, 0xFF], .volume 0 v, .noteOn 0 60 0 w],
      op ≠ .reset := by simp
  have hs := (run_synced (env := env) _ (init_synced he) hops 0 (by omega)).2
  rw [heardAttenuation, ← hs]
  obtain ⟨_, _, _, hbuf, hch⟩ := init_eq he
  have h0 := hch 0 (by omega)
  generalize Psg.init env = s at *
  have hbf : b ≠ 0xFF := by omega
  have hbe : b ≠ 0xFE := by omega
  obtain ⟨t, ht⟩ := toneFromPitchCents_some env.isPAL (envelopeShift ⟨60, 0⟩ (b / 16))
  have hatt : ∀ c : Chan, c.volume = v → c.velocity = w →
      effectiveAttenuation c b = some (combine (v * w / 127) b) := by
    intro c h1 h2; rw [← h1, ← h2]; exact effectiveAttenuation_eq c b (by omega) (by omega)
  simp only [Psg.run, List.foldl_cons, List.foldl_nil, Psg.step, loadEnvelope, loadLoop,
    show (0 : Nat) < 256 by omega, if_true, hbf, if_false, show 0 + 1 < 256 by omega, Psg.volume,
    onChan, show (0 : Nat) < 4 by omega, volumeChan, h0, Bool.false_eq_true, Psg.noteOn,
    show ¬ (60 < 45) by omega, noteOnChan, initEnvelope, Option.bind_some,
    applyEnvelopeStep, stepLoopStart, deref, upd, hbe, stepLoopEnd, applyLevel, envelopeTone, ht,
    Nat.reduceEqDiff]
  by_cases h1 : t = 0 <;> by_cases h2 : combine (v * w / 127) b = 15 <;>
    simp [applyTone, hatt, applyAttenuation, h1, h2, upd]

/-- **C24** (range).  In every legal history every attenuation ever written is 0..15 for one of the
four channels. -/
theorem C24_attenuation_in_range (env : Env) (he : env.Legal) (ops : List Op)
    (hops : ∀ op ∈ ops, op.Legal) (ch v : Nat)
    (h : Ev.att ch v ∈ (Psg.run env (Psg.init env) ops).out) : ch < 4 ∧ v ≤ 15 :=
  run_legal he ops (init_good he) (by simp [(init_eq he).2.2.1]) hops _ h

private theorem combine_mono_i : ∀ b : Fin 16, ∀ i : Fin 127,
    combine (i.val + 1) b.val ≤ combine i.val b.val := by decide +kernel
private theorem combine_mono_b : ∀ i : Fin 128, ∀ b : Fin 15,
    combine i.val b.val ≤ combine i.val (b.val + 1) := by decide +kernel
private theorem combine_ends : ∀ b : Fin 16, combine 0 b.val = 15 ∧ combine 127 b.val = b.val := by
  decide +kernel

private theorem combine_mod (i b : Nat) : combine i b = combine i (b % 16) := by
  simp [combine]

/-- **C24** (monotone).  Louder volume, velocity or envelope level (smaller envelope attenuation)
never increases the attenuation heard. -/
theorem C24_loudness_monotone (env : Env) (he : env.Legal) (v v' w w' b b' : Nat)
    (hv : v ≤ v') (hw : w ≤ w') (hb : b' % 16 ≤ b % 16) (hv' : v' < 128) (hw' : w' < 128)
    (hb1 : b < 0xFE) (hb1' : b' < 0xFE) :
    heardAttenuation env v' w' b' ≤ heardAttenuation env v w b := by
  rw [heard_eq env he v w b (by omega) (by omega) hb1, heard_eq env he v' w' b' hv' hw' hb1',
    combine_mod _ b, combine_mod _ b']
  have hi : v * w / 127 ≤ v' * w' / 127 := Nat.div_le_div_right (Nat.mul_le_mul hv hw)
  have hi' := mul_div_127 hv' hw'
  have m1 : ∀ d i b, i + d < 128 → b < 16 → combine (i + d) b ≤ combine i b := by
    intro d
    induction d with
    | zero => intro i b _ _; exact Nat.le_refl _
    | succ d ih =>
      intro i b h hb
      have h1 := ih i b (by omega) hb
      have h2 := combine_mono_i ⟨b, hb⟩ ⟨i + d, by omega⟩
      simp only at h2
      rw [← Nat.add_assoc]; omega
  have m2 : ∀ d i b, i < 128 → b + d < 16 → combine i b ≤ combine i (b + d) := by
    intro d
    induction d with
    | zero => intro i b _ _; exact Nat.le_refl _
    | succ d ih =>
      intro i b h hb
      have h1 := ih i b h (by omega)
      have h2 := combine_mono_b ⟨i, h⟩ ⟨b + d, by omega⟩
      simp only at h2
      rw [← Nat.add_assoc]; omega
  have a1 := m1 (v' * w' / 127 - v * w / 127) (v * w / 127) (b' % 16) (by omega) (by omega)
  rw [show v * w / 127 + (v' * w' / 127 - v * w / 127) = v' * w' / 127 by omega] at a1
  have a2 := m2 (b % 16 - b' % 16) (v * w / 127) (b' % 16) (by omega) (by omega)
  rw [show b' % 16 + (b % 16 - b' % 16) = b % 16 by omega] at a2
  omega

/-- **C24** (ends).  Zero volume is silent; full volume and velocity give exactly the envelope
level. -/
theorem C24_loudness_ends (env : Env) (he : env.Legal) (v w b : Nat) (hv : v < 128) (hw : w < 128)
    (hb : b < 0xFE) :
    heardAttenuation env 0 w b = 15 ∧ heardAttenuation env v 0 b = 15 ∧
    heardAttenuation env 127 127 b = b % 16 := by
  have e := combine_ends ⟨b % 16, by omega⟩
  simp only at e
  rw [heard_eq env he 0 w b (by omega) hw hb, heard_eq env he v 0 b hv (by omega) hb,
    heard_eq env he 127 127 b (by omega) (by omega) hb, combine_mod (0 * w / 127), combine_mod (127 * 127 / 127),
    combine_mod (v * 0 / 127)]
  simp [e.1, e.2]

/-- **C24** (any time).  A volume change during a note, in any state reached without `reset`, gives
the same attenuation as a fresh note with that volume, the note's velocity and the current envelope
byte. -/
theorem C24_volume_during_note (env : Env) (he : env.Legal) (ops : List Op)
    (hops : ∀ op ∈ ops, op.Legal ∧ op ≠ .reset) (ch v b : Nat) (hch : ch < 4) (hv : v < 128)
    (hon : ((Psg.run env (Psg.init env) ops).ch ch).noteOn = true)
    (hb : let s := Psg.run env (Psg.init env) ops
      deref env s.userBuf (s.ch ch).step = some b ∧ b < 0xFE) :
    chipAtt (Psg.run env (Psg.init env) (ops ++ [.volume ch v])).out ch =
      heardAttenuation env v ((Psg.run env (Psg.init env) ops).ch ch).velocity b := by
  have hg := run_good he ops (init_good he) (fun op hop => (hops op hop).1)
  have hs : Synced (Psg.run env (Psg.init env) (ops ++ [.volume ch v])) := by
    refine run_synced _ (init_synced he) ?_
    intro op hop
    simp only [List.mem_append, List.mem_singleton] at hop
    rcases hop with hop | rfl
    · exact (hops op hop).2
    · simp
  have hx := (hs ch hch).2
  have hc := hg.chans ch hch
  rw [← hx, heard_eq env he v _ b hv hc.vel hb.2]
  simp only [Psg.run, List.foldl_append, List.foldl_cons, List.foldl_nil] at *
  generalize List.foldl (Psg.step env) (Psg.init env) ops = s at *
  have ha := effectiveAttenuation_eq { s.ch ch with volume := v } b hv hc.vel
  by_cases h2 : combine (v * (s.ch ch).velocity / 127) b = (s.ch ch).attenuation <;>
    simp_all [Psg.step, Psg.volume, onChan, volumeChan, applyAttenuation, upd_same]

-- non-vacuity
example : heardAttenuation ⟨realEnvelopes, false⟩ 100 64 0x03 = 7 ∧
    heardAttenuation ⟨realEnvelopes, false⟩ 127 127 0x23 = 3 := by decide +kernel

end Mdmi.Props
