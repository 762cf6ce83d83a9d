import Verif.Props.C55
import Verif.Proofs.MidiRetuneSm
import Verif.Proofs.MidiBendSmall
/-! C55, C20: bends and bend ranges in every history - remapped, dynamically allocated and special-mode voices included. -/
namespace Mdmi.Props
open Mdmi Mdmi.Midi
open Mdmi.Synth (chipChannel keyed)

variable {env : Env}

/-- Block and frequency number the FM chip holds for voice `i`: voices 0 to 5 are the six channels, voices 10 to 12 the three
operators of channel 3 that have registers of their own in special mode. -/
def voiceFreq (s : St) (i : Nat) : Nat × Nat :=
  if i < 6 then (chipChannel s.fm.synth.out i).freq else Fm.smFreq s.fm.synth.out (i - 10)

/-- Voice `i` is played by the FM chip with a frequency: an FM channel that does not play samples, or a special-mode operator. -/
def fmVoice (s : St) (i : Nat) : Prop := (i < 6 ∧ (s.dev i).ops = .fm) ∨ (10 ≤ i ∧ i < 13)

instance (s i) : Decidable (fmVoice s i) := by unfold fmVoice; infer_instance

private theorem in_tune {s : St} {c β : Nat} {T : Tuning} {d : Dev} {range : PitchCents} {fine : Int}
    (hT : T.semitones < 128 ∧ T.cents < 128) (hβ : β < 16384) (hr : range = ⟨T.semitones, T.cents⟩) (hf : fine = T.fine)
    (hp : fmPlayable d { T with bend := β }) (pal : Bool) :
    let pc := effectivePitchCents d.pitch d.cents β range fine
    Fm.pitchToOctave pc.pitch < 8 ∧ Fm.freqNum pal pc.pitch pc.cents < 2048 ∧
    Fm.InTune pal (Fm.pitchToOctave pc.pitch, Fm.freqNum pal pc.pitch pc.cents) (tunedCents d { T with bend := β }).toNat 5 := by
  obtain ⟨p1, p2, p3, p4⟩ := hp
  subst hr hf
  exact pitch_in_tune' pal hβ (by simp only; omega) (by simp only; omega) (by simp only; omega) rfl p3 p4 p1 p2

private theorem bounds_after {ops : List Op} {o : Op} (h : ∀ p ∈ ops, p.Wf) (w : o.Wf) : ∀ p ∈ ops ++ [o], p.Wf := fun p hp => by
  rcases List.mem_append.1 hp with hp | hp
  · exact h p hp
  · rw [List.mem_singleton.1 hp]; exact w

/-- **C55** (every history and every FM voice; partial).  When data entry with parameter 0 selected changes the range, then
every voice of the channel that the FM chip plays - channels, special-mode operators, voices that came by remapping or by
dynamic allocation, sounding or not - is within 5 cents of its key with the new range and the bend it was last told; with
that bend in the centre it stays.  Missing: that the voice's bend is the channel's (it is unless the voice was remapped,
`C55_range_retunes_partial`, and need not be then, `C55_violated_remapped`), and pitches beyond the chip (C20, C21). -/
theorem C55_range_reaches_all_partial (he : env.Ok) (ops : List Op) (hw : plain ops)
    (b : Bool) (m : Sram.Mem) (c k v i : Nat) (hc : c < 16) (hk : k = 6 ∨ k = 38) (hv : v < 128)
    (h0 : (tuningOf c ops).rpnMsb = 0 ∧ (tuningOf c ops).rpnLsb = 0) :
    let s := run env (boot env b m) ops
    let t := run env (boot env b m) (ops ++ [.cc c k v])
    let heard := { tuningOf c (ops ++ [.cc c k v]) with bend := (s.dev i).pitchBend }
    (s.dev i).midiChannel = c → fmVoice s i →
      ((s.dev i).pitchBend = 0x2000 → voiceFreq t i = voiceFreq s i) ∧
      ((s.dev i).pitchBend ≠ 0x2000 → fmPlayable (s.dev i) heard →
        Fm.InTune env.fm.pal (voiceFreq t i) (tunedCents (s.dev i) heard).toNat 5) := by
  intro s t heard hm hf
  have hwv : (Op.cc c k v).Wf := ⟨hc, by omega, hv⟩
  have hw2 := bounds_after hw.1 hwv
  have hs : HasTuning (tuningOf c ops) c s := run_tuning (env := env) hc ops hw.1 b m
  have hβ : (s.dev i).pitchBend < 16384 := (run_small (env := env) ops hw.1 b m).1 i
  have hTb := tuning_bounds c _ hw2
  obtain ⟨tame, ok⟩ := Reached.ok he (⟨b, m, ops, hw.1, hw.2, rfl⟩ : Reached env s)
  have e0 : (s.chan c).rpn = 0 := hs.rpn.2 h0
  have et : t = emit (updatePbRange env s c v (k == 6)) (.changedCc c k v) := by
    have : t = step env s (.cc c k v) := by simp only [t, s, run, List.foldl_append, List.foldl_cons, List.foldl_nil]
    rw [this]
    clear this
    clear_value s t
    simp only [step, if_pos hc, cc]
    rcases hk with rfl | rfl
    · rw [ccSwitch_6, rpnDataEntry, if_pos e0]; rfl
    · rw [ccSwitch_38, rpnDataEntry, if_pos e0]; rfl
  have ef : t.fm = (updatePbRange env s c v (k == 6)).fm := by rw [et, emit_fm]
  have q : tuningOf c (ops ++ [.cc c k v]) = (tuningOf c ops).after c (.cc c k v) := by simp [tuningOf, List.foldl_append]
  have er : (if (k == 6) = true then { (s.chan c).range with pitch := v } else { (s.chan c).range with cents := toS8 v })
      = (⟨heard.semitones, heard.cents⟩ : PitchCents) ∧ (s.chan c).fineTune = heard.fine := by
    simp only [heard, q]
    rcases hk with rfl | rfl
    · simp [Tuning.after, h0]; exact ⟨hs.cents, hs.fine⟩
    · simp [Tuning.after, h0]; exact ⟨⟨hs.semitones, toS8_of (by omega) (by omega)⟩, hs.fine⟩
  have tune := fun hp => in_tune (s := s) (c := c) (d := s.dev i) (T := tuningOf c (ops ++ [.cc c k v])) ⟨hTb.2.1, hTb.2.2⟩ hβ er.1 er.2 hp env.fm.pal
  change fmPlayable (s.dev i) heard → _ at tune
  clear_value s t
  rcases hf with ⟨hi, hf⟩ | ⟨hi, hi'⟩
  · have view := (updatePbRange_view he ok (msb := k == 6) (v := v) hc hi hm hf).2
    simp only at view
    simp only [voiceFreq, if_pos hi, ef]
    rw [view]
    refine ⟨fun e => by rw [if_pos e], fun e hp => ?_⟩
    rw [if_neg e]
    have := tune hp
    simp only at this
    rw [Nat.mod_eq_of_lt this.1, Nat.mod_eq_of_lt this.2.1]
    exact this.2.2
  · have view := updatePbRange_viewSm he ok (msb := k == 6) (v := v) hc hi hi' hm
    simp only at view
    simp only [voiceFreq, if_neg (show ¬i < 6 by omega), ef]
    refine ⟨view.1, fun e hp => ?_⟩
    have := tune hp
    simp only at this
    rw [view.2 e this.1 this.2.1]
    exact this.2.2

/-- **C20** (every history and every FM voice; partial).  A pitch bend retunes every sounding voice of its channel that the
FM chip plays - remapped, dynamically allocated and special-mode voices included - to within 5 cents of its key with that
bend in the channel's range, unless the voice was last told this same bend: then its frequency stays.
Missing: that the frequency that stays is right (it need not be after remapping,
`C55_violated_remapped`), and pitches beyond the chip. -/
theorem C20_bend_reaches_all_partial (he : env.Ok) (ops : List Op) (b : Bool) (m : Sram.Mem) (c x i : Nat)
    (hw : plain (ops ++ [.bend c x])) (hc : c < 16) :
    let s := run env (boot env b m) ops
    let t := run env (boot env b m) (ops ++ [.bend c x])
    let T := { tuningOf c ops with bend := x }
    (s.dev i).midiChannel = c → fmVoice s i → (s.dev i).noteOn = true →
      ((s.dev i).pitchBend = x → voiceFreq t i = voiceFreq s i) ∧
      ((s.dev i).pitchBend ≠ x → fmPlayable (s.dev i) T →
        Fm.InTune env.fm.pal (voiceFreq t i) (tunedCents (s.dev i) T).toNat 5) := by
  intro s t T hm hf hn
  have hw1 : plain ops := by
    refine ⟨fun o ho => hw.1 o (List.mem_append_left _ ho), ?_⟩
    rcases hw.2 with h | h
    · exact .inl fun o ho => h o (List.mem_append_left _ ho)
    · exact .inr fun o ho => h o (List.mem_append_left _ ho)
  have hx : x < 16384 := (show (Op.bend c x).Wf from hw.1 _ (by simp)).2
  have hs : HasTuning (tuningOf c ops) c s := run_tuning (env := env) hc ops hw1.1 b m
  have hok : ∃ tame, Ok env tame s ∧ (tame = true → x = 0x2000) := by
    rcases hw.2 with h | h
    · have ok := boot_ok (tame := false) he b m
      exact ⟨false, run_ok he ops _ ok hw1.1 (fun _ o ho => h o (List.mem_append_left _ ho)) (by simp), by simp⟩
    · have ok := boot_ok (tame := true) he b m
      refine ⟨true, run_ok he ops _ ok hw1.1 (by simp) (fun _ o ho => h o (List.mem_append_left _ ho)), fun _ => ?_⟩
      have := h (.bend c x) (by simp)
      simpa [Op.detunes] using this
  obtain ⟨tame, ok, htm⟩ := hok
  have hTb := tuning_bounds c _ hw1.1
  have et : t = pitchBend env s c x := by
    simp only [t, s, run, List.foldl_append, List.foldl_cons, List.foldl_nil, step, if_pos hc]
  have er : (s.chan c).range = ⟨(tuningOf c ops).semitones, (tuningOf c ops).cents⟩ := by rw [← hs.semitones, ← hs.cents]
  have tune := fun hp => in_tune (s := s) (c := c) (d := s.dev i) (T := tuningOf c ops) ⟨hTb.2.1, hTb.2.2⟩ hx er hs.fine hp env.fm.pal
  change fmPlayable (s.dev i) T → _ at tune
  clear_value s t
  rcases hf with ⟨hi, hf⟩ | ⟨hi, hi'⟩
  · have view := (pitchBend_view he ok hc hi htm hm hf hn).2
    simp only [voiceFreq, if_pos hi, et]
    rw [view]
    refine ⟨fun e => by rw [if_pos e], fun e hp => ?_⟩
    rw [if_neg e]
    have := tune hp
    simp only at this
    rw [Nat.mod_eq_of_lt this.1, Nat.mod_eq_of_lt this.2.1]
    exact this.2.2
  · have view := pitchBend_viewSm he ok hc hi hi' htm hm hn
    simp only at view
    simp only [voiceFreq, if_neg (show ¬i < 6 by omega), et]
    refine ⟨view.1, fun e hp => ?_⟩
    have := tune hp
    simp only at this
    rw [view.2 e this.1 this.2.1]
    exact this.2.2

/-- **C55**, **C20** (whose bend).  In histories that do not remap voices, a sounding voice - of whatever chip - was last told
the bend its channel has: with it the two theorems above speak of the channel's bend. -/
theorem C55_voice_bend_is_channels (ops : List Op) (hw : ∀ op ∈ ops, op.Wf) (hr : ∀ op ∈ ops, ¬op.rewires) (b : Bool)
    (m : Sram.Mem) (i : Nat) (hi : i < 13) :
    let s := run env (boot env b m) ops
    (s.dev i).midiChannel < 16 → (s.dev i).noteOn = true →
      (s.dev i).pitchBend = (tuningOf (s.dev i).midiChannel ops).bend := by
  intro s hm hn
  rw [← (run_tuning (env := env) hm ops hw b m).bend]
  exact run_bent ops hr b m i hi hm hn

/-- **C55**, **C20** (violated).  A remapped voice keeps the pitch that bend and range of its old channel gave it, and the new
channel's bend message does not correct it: here key 60 bent up by an octave on channel 0 comes to channel 1, whose range is
two semitones and whose bend is then also set to the top; the voice stays at 7199 cents and not at 6199. -/
theorem C55_violated_remapped :
    let ops : List Op := [.cc 0 101 0, .cc 0 100 0, .cc 0 6 12, .bend 0 16383, .noteOn 0 60 100, .remap 1 0]
    let s := Ex.after .static ops
    let t := Ex.after .static (ops ++ [.bend 1 16383])
    (s.dev 0).midiChannel = 1 ∧ (s.dev 0).noteOn = true ∧ (tuningOf 1 ops).bend = 8192 ∧
      tunedCents (t.dev 0) (tuningOf 1 (ops ++ [.bend 1 16383])) = 6199 ∧
      voiceFreq t 0 = (Fm.pitchToOctave 71, Fm.freqNum false 71 99) ∧
      voiceFreq t 0 ≠ (Fm.pitchToOctave 61, Fm.freqNum false 61 99) := by decide +kernel

/-- And the same with the range: the new channel's bend is in the centre, but its range retunes the voice, by the old
channel's bend. -/
theorem C55_violated_remapped_range :
    let ops : List Op := [.bend 0 16383, .noteOn 0 60 100, .remap 1 0, .cc 1 101 0, .cc 1 100 0]
    let t := Ex.after .static (ops ++ [.cc 1 6 12])
    (t.dev 0).midiChannel = 1 ∧ tunedCents (t.dev 0) (tuningOf 1 (ops ++ [.cc 1 6 12])) = 6000 ∧
      voiceFreq t 0 = (Fm.pitchToOctave 71, Fm.freqNum false 71 99) := by decide +kernel

/-- Non-trivial instance: voice 10, a special-mode operator, put on channel 2 and bent there, and then the range widened. -/
example :
    let ops : List Op := [.cc 2 80 127, .remap 2 10, .remap 5 2, .noteOn 2 60 100]
    let s := Ex.after .static ops
    let t := Ex.after .static (ops ++ [.bend 2 16383])
    let u := Ex.after .static (ops ++ [.bend 2 16383, .cc 2 101 0, .cc 2 100 0, .cc 2 6 12])
    (s.dev 10).midiChannel = 2 ∧ fmVoice s 10 ∧ (s.dev 10).noteOn = true ∧
      fmPlayable (s.dev 10) { tuningOf 2 ops with bend := 16383 } ∧
      voiceFreq s 10 = (Fm.pitchToOctave 60, Fm.freqNum false 60 0) ∧
      voiceFreq t 10 = (Fm.pitchToOctave 61, Fm.freqNum false 61 99) ∧
      voiceFreq u 10 = (Fm.pitchToOctave 71, Fm.freqNum false 71 99) := by decide +kernel

end Mdmi.Props
