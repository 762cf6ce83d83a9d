import Verif.Proofs.MidiFmPitch
/-! C21: FM note numbers and chip frequency. -/
namespace Mdmi.Props
open Mdmi Mdmi.Fm

/-- Full statement of C21 on the pitch tables: every key and cents value a note, bend or glide can ask for
(keys 0 to 127) gets a block of 3 bits and an F-number of 11 bits, and a higher pitch never a lower frequency. -/
def C21_statement : Prop :=
  ∀ (pal : Bool) (p x q y : Nat), p < 128 → q < 128 → x < 100 → y < 100 → 100 * p + x < 100 * q + y →
    pitchToOctave p < 8 ∧ freqNum pal p (x : Int) < 2048 ∧
    units (pitchToOctave p % 8, freqNum pal p (x : Int) % 2048) ≤
      units (pitchToOctave q % 8, freqNum pal q (y : Int) % 2048)

/-- **C21** (range and tuning).  For keys 11 to 106 and any cents, on both video standards: block and F-number
fit their fields, and the frequency is within 5 cents of equal temperament at A = 440 Hz. -/
theorem C21_in_range_and_in_tune (pal : Bool) (p x : Nat) (h : 11 ≤ p ∧ p ≤ 106) (hx : x < 100) :
    pitchToOctave p < 8 ∧ freqNum pal p (x : Int) < 2048 ∧
    InTune pal (pitchToOctave p, freqNum pal p (x : Int)) (100 * p + x) 5 := by
  have r := freqNum_range pal h hx
  exact ⟨by omega, by omega, in_tune pal h hx⟩

/-- **C21** (order).  For keys 11 to 106 a higher pitch never has a lower frequency, and three cents more is
always strictly higher. -/
theorem C21_monotone (pal : Bool) (p x q y : Nat) (hp : 11 ≤ p ∧ p ≤ 106) (hq : 11 ≤ q ∧ q ≤ 106)
    (hx : x < 100) (hy : y < 100) :
    (100 * p + x ≤ 100 * q + y → units (pitchToOctave p, freqNum pal p (x : Int)) ≤
      units (pitchToOctave q, freqNum pal q (y : Int))) ∧
    (100 * p + x + 3 ≤ 100 * q + y → units (pitchToOctave p, freqNum pal p (x : Int)) <
      units (pitchToOctave q, freqNum pal q (y : Int))) := by
  rw [units_at pal hp hx, units_at pal hq hy]
  exact ⟨fun h => at_mono pal (by omega), fun h => at_strict pal (by omega)⟩

/-- **C21** (octaves).  An octave up is one block up with the same F-number. -/
theorem C21_octave_is_a_block (pal : Bool) (p x : Nat) (h : 11 ≤ p ∧ p ≤ 94) (hx : x < 100) :
    pitchToOctave (p + 12) = pitchToOctave p + 1 ∧ freqNum pal (p + 12) (x : Int) = freqNum pal p (x : Int) := by
  have h1 : 11 ≤ p ∧ p ≤ 106 := by omega
  have h2 : 11 ≤ p + 12 ∧ p + 12 ≤ 106 := by omega
  rw [pitchToOctave_of h1, pitchToOctave_of h2, freqNum_of pal h1 hx, freqNum_of pal h2 hx]
  refine ⟨by omega, ?_⟩
  rw [show (p + 12 - 11) % 12 = (p - 11) % 12 by omega]

/-- **C21** (note-on).  After any history of legal calls, a note-on on a melodic channel for a key in range
leaves the chip's channel keyed on at a frequency within 5 cents of the requested pitch. -/
theorem C21_note_on_sounds_the_pitch (env : Fm.Env) (he : env.Ok) (b : Bool) (m : Sram.Mem) (ops : List Fm.Op)
    (hl : ∀ op ∈ ops, op.Legal) (c p x v : Nat) (hc : c < 6) (hp : 11 ≤ p ∧ p ≤ 106) (hx : x < 100) (hv : v < 128)
    (hn : ((Fm.run env (Fm.boot env b m) ops).ch c).percussive = false) :
    let t := Fm.step env (Fm.run env (Fm.boot env b m) ops) (.noteOn c p (x : Int) v)
    InTune env.pal (Synth.chipChannel t.synth.out c).freq (100 * p + x) 5 ∧ Synth.keyed t.synth.out c = true := by
  have h := (boot_ok he b m).1.run he ops hl
  generalize Fm.run env (Fm.boot env b m) ops = s at *
  have e := effectiveVolume_lt (c := { s.ch c with velocity := v }) (h.chan c hc).1 hv
  obtain ⟨k, -, -⟩ := noteOn_steps env s (velocity := v) (cents := (x : Int)) hc hp hn
  have r := k.chip (noteCalls_legal env hc e.2) hc
  have g := freqNum_range env.pal hp hx
  simp only [noteCalls, List.foldl_cons, List.foldl_nil, Synth.Op.requestFreq, Synth.Op.requestKey, if_true] at r
  simp only [Fm.step]
  refine ⟨?_, r.2⟩
  rw [r.1, Nat.mod_eq_of_lt (by omega : pitchToOctave p < 8), Nat.mod_eq_of_lt (by omega : freqNum env.pal p (x : Int) < 2048)]
  exact in_tune env.pal hp hx

/-- **C21** (drums).  The same on a percussion channel for the key of the drum's own pitch. -/
theorem C21_percussion_sounds_its_key (env : Fm.Env) (he : env.Ok) (b : Bool) (m : Sram.Mem) (ops : List Fm.Op)
    (hl : ∀ op ∈ ops, op.Legal) (c p x v : Nat) (hc : c < 6) (hp : 11 ≤ p ∧ p ≤ 106) (hx : x < 100) (hv : v < 128)
    (hn : ((Fm.run env (Fm.boot env b m) ops).ch c).percussive = true)
    (pp : Perc) (hpp : env.perc[p]? = some pp) (hk : 11 ≤ pp.key ∧ pp.key ≤ 106) :
    let t := Fm.step env (Fm.run env (Fm.boot env b m) ops) (.noteOn c p (x : Int) v)
    InTune env.pal (Synth.chipChannel t.synth.out c).freq (100 * pp.key + x) 5 ∧ Synth.keyed t.synth.out c = true := by
  have h := (boot_ok he b m).1.run he ops hl
  generalize Fm.run env (Fm.boot env b m) ops = s at *
  have e := effectiveVolume_lt (c := { s.ch c with velocity := v }) (h.chan c hc).1 hv
  obtain ⟨k, -, -⟩ := noteOn_perc_steps env s (velocity := v) (cents := (x : Int)) hc hp hn hpp
  have r := k.chip (fun o ho => by
    rcases List.mem_cons.1 ho with rfl | ho
    · exact legal_ch rfl hc rfl (he.percOk pp (List.mem_of_getElem? hpp)).1
    · exact noteCalls_legal env hc e.2 o ho) hc
  have g := freqNum_range env.pal hk hx
  simp only [noteCalls, List.foldl_cons, List.foldl_nil, Synth.Op.requestFreq, Synth.Op.requestKey, if_true] at r
  simp only [Fm.step]
  refine ⟨?_, r.2⟩
  rw [r.1, Nat.mod_eq_of_lt (by omega : pitchToOctave pp.key < 8),
    Nat.mod_eq_of_lt (by omega : freqNum env.pal pp.key (x : Int) < 2048)]
  exact in_tune env.pal hk hx

/-- **C21** (bends and glides).  After any history of legal calls, a pitch change to a key in range retunes the
channel to within 5 cents of it and does not key it on or off; of two such changes the higher never gives the
lower frequency. -/
theorem C21_pitch_retunes (env : Fm.Env) (he : env.Ok) (b : Bool) (m : Sram.Mem) (ops : List Fm.Op)
    (hl : ∀ op ∈ ops, op.Legal) (c p x q y : Nat) (hc : c < 6) (hp : 11 ≤ p ∧ p ≤ 106) (hx : x < 100)
    (hq : 11 ≤ q ∧ q ≤ 106) (hy : y < 100) (hle : 100 * p + x ≤ 100 * q + y) :
    let s := Fm.run env (Fm.boot env b m) ops
    let t := Fm.step env s (.pitch c p (x : Int))
    let u := Fm.step env s (.pitch c q (y : Int))
    InTune env.pal (Synth.chipChannel t.synth.out c).freq (100 * p + x) 5 ∧
    Synth.keyed t.synth.out c = Synth.keyed s.synth.out c ∧
    units (Synth.chipChannel t.synth.out c).freq ≤ units (Synth.chipChannel u.synth.out c).freq := by
  have h := (boot_ok he b m).1.run he ops hl
  generalize Fm.run env (Fm.boot env b m) ops = s at *
  have r : ∀ p x : Nat, 11 ≤ p ∧ p ≤ 106 → x < 100 →
      (Synth.chipChannel (Fm.step env s (.pitch c p (x : Int))).synth.out c).freq =
        (pitchToOctave p, freqNum env.pal p (x : Int)) ∧
      Synth.keyed (Fm.step env s (.pitch c p (x : Int))).synth.out c = Synth.keyed s.synth.out c := by
    intro p x hp hx
    have g := freqNum_range env.pal hp hx
    have k := Synth.step_chip (s := s.synth) (op := .pitch c (pitchToOctave p) (freqNum env.pal p (x : Int)))
      (legal_ch rfl hc rfl trivial) hc
    simp only [Synth.Op.requestFreq, Synth.Op.requestKey, if_true] at k
    rw [Nat.mod_eq_of_lt (by omega : pitchToOctave p < 8),
      Nat.mod_eq_of_lt (by omega : freqNum env.pal p (x : Int) < 2048)] at k
    simp only [Fm.step, Fm.pitch, Fm.guardCh, hc, if_true, setSynthPitch, call, Psg.upd_same]
    exact k
  have r1 := r p x hp hx
  have r2 := r q y hq hy
  simp only
  rw [r1.1, r1.2, r2.1]
  exact ⟨in_tune env.pal hp hx, rfl, (C21_monotone env.pal p x q y hp hq hx hy).1 hle⟩

/-- **C21** (negation).  Above key 106 the block does not fit its three bits and wraps to zero: bending key 106
up a semitone drops the pitch by eight octaves (NTSC and PAL).  Below key 11 the F-number is that of another
note: bending key 11 down a semitone raises the frequency. -/
theorem C21_bend_beyond_the_range_goes_the_wrong_way (pal : Bool) :
    pitchToOctave 107 = 8 ∧
    units (pitchToOctave 107 % 8, freqNum pal 107 0 % 2048) * 2 ^ 7 ≤ units (pitchToOctave 106, freqNum pal 106 0) ∧
    units (pitchToOctave 11, freqNum pal 11 0) < units (pitchToOctave 10 % 8, freqNum pal 10 0 % 2048) := by
  cases pal <;> decide +kernel

theorem C21_violated : ¬ C21_statement := by
  intro h
  have := (h false 107 0 108 0 (by omega) (by omega) (by omega) (by omega) (by omega)).1
  exact absurd this (by decide +kernel)

/-- **C21** (negation, strictness).  One cent up need not raise the F-number. -/
theorem C21_not_strict_per_cent : freqNum false 60 0 = freqNum false 60 1 := by decide +kernel

-- non-vacuity
example : pitchToOctave 69 = 4 ∧ freqNum false 69 0 = 1081 ∧ freqNum true 69 50 = 1124 := by decide +kernel
example : ¬ InTune false (4, 1081) 6910 5 := by unfold InTune; decide +kernel

end Mdmi.Props
