import Verif.Props.C25
/-! C22: PSG tone mapping. -/
namespace Mdmi.Props
open Mdmi Mdmi.Psg

/-- PSG clock: 3579545 Hz (NTSC) or 3546893 Hz (PAL). -/
def psgClock (pal : Bool) : Nat := if pal then 3546893 else 3579545

/-- Specification: `t` is the divider of equal-tempered key `k` (A4 = key 69 = 440 Hz), that is the
integer part of `clock / (32 · 440 · 2^((k-69)/12))`, stated without roots. -/
def IsDivider (pal : Bool) (k t : Nat) : Prop :=
  (t * 14080) ^ 12 * 2 ^ k ≤ psgClock pal ^ 12 * 2 ^ 69 ∧
  psgClock pal ^ 12 * 2 ^ 69 < ((t + 1) * 14080) ^ 12 * 2 ^ k

instance (pal : Bool) (k t : Nat) : Decidable (IsDivider pal k t) :=
  inferInstanceAs (Decidable (_ ∧ _))

/-- **C22** (keys).  Every lookup succeeds; keys 45..127 get the exact divider of their
equal-tempered frequency, lower keys get that of 45 and higher ones that of 127. -/
theorem C22_key_tone_is_exact (pal : Bool) (k : Nat) :
    ∃ t, toneForMidiKey pal k = some t ∧ IsDivider pal (max 45 (min k 127)) t := by
  refine ⟨keyTone pal k, toneForMidiKey_eq pal k, ?_⟩
  have tab : ∀ pal : Bool, ∀ j : Fin 83, IsDivider pal (j.val + 45) (keyTone pal (j.val + 45)) := by
    decide +kernel
  have low : ∀ pal : Bool, k < 45 → keyTone pal k = keyTone pal 45 := by
    intro pal h; cases pal <;> simp [keyTone, toneForMidiKey, h, tonesNtsc, tonesPal]
  have high : ∀ pal : Bool, 127 < k → keyTone pal k = keyTone pal 127 := by
    intro pal h
    have : ¬ k < 45 := by omega
    cases pal <;> simp [keyTone, toneForMidiKey, h, this, tonesNtsc, tonesPal]
  by_cases h1 : k < 45
  · rw [low pal h1, show max 45 (min k 127) = 45 by omega]
    exact tab pal ⟨0, by omega⟩
  · by_cases h2 : 127 < k
    · rw [high pal h2, show max 45 (min k 127) = 127 by omega]
      exact tab pal ⟨82, by omega⟩
    · rw [show max 45 (min k 127) = k by omega]
      have := tab pal ⟨k - 45, by omega⟩
      simp only [show k - 45 + 45 = k by omega] at this
      exact this

/-- **C22** (cents; partial: pitch 255 excluded).  A pitch with cents maps to a tone between those of
the neighbouring keys. -/
theorem C22_between_neighbours_partial (pal : Bool) (p c : Nat) (hp : p < 255) (hc : c < 100) :
    ∃ t lo hi, toneFromPitchCents pal ⟨p, c⟩ = some t ∧ toneForMidiKey pal p = some hi ∧
      toneForMidiKey pal (p + 1) = some lo ∧ lo ≤ t ∧ t ≤ hi ∧ hi < 1024 := by
  refine ⟨_, _, _, toneFromPitchCents_eq pal hp hc, toneForMidiKey_eq pal p,
    toneForMidiKey_eq pal (p + 1), ?_, ?_, ?_⟩
  · have h1 := keyTone_step pal hp
    have h2 : (keyTone pal p - keyTone pal (p + 1)) * c / 100 ≤
        keyTone pal p - keyTone pal (p + 1) := by
      apply Nat.div_le_of_le_mul
      rw [Nat.mul_comm 100]
      exact Nat.mul_le_mul_left _ (by omega)
    omega
  · omega
  · have := keyTone_bounds pal p; omega

/-- **C22** (order; partial: pitch 255 excluded).  A higher pitch never gets a larger divider. -/
theorem C22_higher_pitch_smaller_tone_partial (pal : Bool) (p c p' c' t t' : Nat)
    (hp : p < 255) (hp' : p' < 255) (hc : c < 100) (hc' : c' < 100)
    (hle : 100 * p + c ≤ 100 * p' + c') (e : toneFromPitchCents pal ⟨p, c⟩ = some t)
    (e' : toneFromPitchCents pal ⟨p', c'⟩ = some t') : t' ≤ t := by
  have mono : ∀ d a, a + d < 256 → keyTone pal (a + d) ≤ keyTone pal a := by
    intro d
    induction d with
    | zero => intro a _; exact Nat.le_refl _
    | succ d ih =>
      intro a h
      have h1 := ih a (by omega)
      have h2 := keyTone_step pal (k := a + d) (by omega)
      rw [← Nat.add_assoc]; omega
  obtain ⟨t1, lo1, hi1, a1, a2, a3, a4, a5, _⟩ := C22_between_neighbours_partial pal p c hp hc
  obtain ⟨t2, lo2, hi2, b1, b2, b3, b4, b5, _⟩ := C22_between_neighbours_partial pal p' c' hp' hc'
  by_cases hpp : p = p'
  · subst hpp
    rw [toneFromPitchCents_eq pal hp hc] at e
    rw [toneFromPitchCents_eq pal hp hc'] at e'
    simp only [Option.some.injEq] at e e'
    have : (keyTone pal p - keyTone pal (p + 1)) * c / 100 ≤
        (keyTone pal p - keyTone pal (p + 1)) * c' / 100 :=
      Nat.div_le_div_right (Nat.mul_le_mul_left _ (by omega))
    omega
  · have hlt : p < p' := by omega
    rw [e] at a1; rw [e'] at b1
    simp only [Option.some.injEq] at a1 b1
    subst a1; subst b1
    rw [toneForMidiKey_eq] at a3 b2
    simp only [Option.some.injEq] at a3 b2
    have := mono (p' - (p + 1)) (p + 1) (by omega)
    rw [show p + 1 + (p' - (p + 1)) = p' by omega] at this
    omega

/-- **C22** (all histories).  Every tone ever written is for one of the four channels and fits ten
bits; the tables are never left. -/
theorem C22_tones_written_are_ten_bits (env : Env) (he : env.Legal) (ops : List Op)
    (hops : ∀ op ∈ ops, op.Legal) (ch v : Nat)
    (h : Ev.tone ch v ∈ (Psg.run env (Psg.init env) ops).out) : ch < 4 ∧ 8 ≤ v ∧ v < 1024 := by
  have := run_legal he ops (init_good he) (by simp [(init_eq he).2.2.1]) hops _ h
  exact ⟨this.1, this.2.1, by have := this.2.2; omega⟩

/-- **C22** (effect).  After a pitch call on a channel whose envelope does not shift the pitch at the
moment, the chip holds exactly that tone. -/
theorem C22_pitch_reaches_chip (env : Env) (he : env.Legal) (ops : List Op)
    (hops : ∀ op ∈ ops, op.Legal ∧ op ≠ .reset) (ch p c : Nat) (hch : ch < 4) (b : Nat)
    (hb : let s := Psg.run env (Psg.init env) ops
      deref env s.userBuf (s.ch ch).step = some b ∧ b < 16) :
    some (chipTone (Psg.run env (Psg.init env) (ops ++ [.pitch ch p c])).out ch) =
      toneFromPitchCents env.isPAL ⟨p, c⟩ := by
  have hs : Synced (Psg.run env (Psg.init env) (ops ++ [.pitch ch p c])) := by
    refine run_synced _ (init_synced he) ?_
    intro op hop
    simp only [List.mem_append, List.mem_singleton] at hop
    rcases hop with hop | rfl
    · exact (hops op hop).2
    · simp
  have hx := (hs ch hch).1
  rw [← hx]
  simp only [Psg.run, List.foldl_append, List.foldl_cons, List.foldl_nil] at *
  generalize List.foldl (Psg.step env) (Psg.init env) ops = s at *
  obtain ⟨t, ht⟩ := toneFromPitchCents_some env.isPAL ⟨p, c⟩
  have hz : b / 16 = 0 := by omega
  simp only [Psg.step, Psg.pitch, onChan, hch, if_true, pitchChan, hb.1, Option.bind_some,
    envelopeTone, hz, envelopeShift, ht, upd_same, applyTone]
  split <;> simp_all

/-- The full statement is false at pitch 255: the next key wraps to 0, so 99 cents above the highest
pitch sounds four octaves below it. -/
theorem C22_top_pitch_wraps :
    toneFromPitchCents false ⟨255, 0⟩ = some 8 ∧ toneFromPitchCents false ⟨255, 99⟩ = some 1005 := by
  decide +kernel

-- non-vacuity
example : toneFromPitchCents false ⟨69, 0⟩ = some 254 ∧ toneFromPitchCents false ⟨69, 50⟩ = some 247 ∧
    toneFromPitchCents false ⟨70, 0⟩ = some 239 ∧ IsDivider false 69 254 := by decide +kernel
example :
    let s := Psg.run ⟨realEnvelopes, false⟩ (Psg.init ⟨realEnvelopes, false⟩)
      ([Op.noteOn 0 60 0 127] ++ [Op.pitch 0 69 50]);
    chipTone s.out 0 = 247 := by decide +kernel

end Mdmi.Props
