import Verif.Proofs.MidiView
import Verif.Proofs.MidiBend
import Verif.Props.C20
import Verif.Props.C21
/-!
# Retuning of FM voices by bends and bend ranges
-/
namespace Mdmi.Midi
open Mdmi.Synth (chipChannel keyed)
open Mdmi.Props (soundingCents)

variable {env : Env} {tame : Bool} {s : St}

/-- Voice `i` (and the MIDI channels) are the same, and so are frequency and key of FM channel `i` of the chip. -/
structure Away (i : Nat) (t u : St) : Prop where
  dev : u.dev i = t.dev i
  chan : u.chan = t.chan
  freq : (chipChannel u.fm.synth.out i).freq = (chipChannel t.fm.synth.out i).freq
  key : keyed u.fm.synth.out i = keyed t.fm.synth.out i

theorem Away.refl {i : Nat} {t : St} : Away i t t := ⟨rfl, rfl, rfl, rfl⟩

theorem Away.trans {i : Nat} {t u v : St} (h : Away i t u) (k : Away i u v) : Away i t v :=
  ⟨k.dev.trans h.dev, k.chan.trans h.chan, k.freq.trans h.freq, k.key.trans h.key⟩

theorem away_setDev {i j : Nat} (h : i ≠ j) {f : Dev → Dev} : Away i s (setDev s j f) :=
  ⟨Psg.upd_other _ _ _ _ h, rfl, rfl, rfl⟩

theorem devPitch_away (hs : Ok env tame s) {i j : Nat} (hi : i < 6) (hj : j < 13) (hne : j ≠ i) (p : Nat) (x : Int) :
    Away i s (devPitch env s j p x) := by
  have hd := hs.dev j hj
  unfold devPitch
  rcases hd.kind with ⟨h, e⟩ | ⟨h, e⟩ | ⟨h, h', e⟩ | ⟨h, h', e⟩ <;> simp only [e]
  · rw [hd.fmNum h]
    have f := Fm.same_pitch (env := env.fm) (p := p) (x := x) hs.fm h hi (Ne.symm hne)
    exact ⟨rfl, rfl, by rw [show (fmCall env s (.pitch j p x)).fm = Fm.step env.fm s.fm (.pitch j p x) from rfl, f.chip], f.key⟩
  · exact .refl
  · exact ⟨rfl, rfl, rfl, rfl⟩
  · have h3 : (s.dev j).num < 3 := by have := hd.smNum h; omega
    have k := Synth.step_chip (s := s.fm.synth)
      (op := .specialModePitch (s.dev j).num (Fm.pitchToOctave p) (Fm.freqNum env.fm.pal p x))
      ⟨fun c e => (by cases e; omega), fun o e => (by cases e), trivial⟩ hi
    simp only [fmCall, Fm.step, Fm.smPitch, if_pos h3, Fm.call]
    exact ⟨rfl, rfl, k.1, k.2⟩

theorem setDownstreamPitch_away (hs : Ok env tame s) {i j : Nat} (hi : i < 6) (hj : j < 13) (hne : j ≠ i)
    (hm : (s.dev j).midiChannel < 16) : Away i s (setDownstreamPitch env s j) := by
  simp only [setDownstreamPitch, withPitch, if_pos hm]
  exact devPitch_away hs hi hj hne _ _

/-- The frequency of an FM voice after the driver was told its pitch. -/
theorem setDownstreamPitch_own {i : Nat} (hi : i < 6) (hf : (s.dev i).ops = .fm) (hn : (s.dev i).num = i)
    (hm : (s.dev i).midiChannel < 16) :
    let pc := effectivePitchCents (s.dev i).pitch (s.dev i).cents (s.dev i).pitchBend
      (s.chan (s.dev i).midiChannel).range (s.chan (s.dev i).midiChannel).fineTune
    (chipChannel (setDownstreamPitch env s i).fm.synth.out i).freq =
      (Fm.pitchToOctave pc.pitch % 8, Fm.freqNum env.fm.pal pc.pitch pc.cents % 2048) ∧
    keyed (setDownstreamPitch env s i).fm.synth.out i = keyed s.fm.synth.out i := by
  intro pc
  have k := Synth.step_chip (s := s.fm.synth)
    (op := .pitch i (Fm.pitchToOctave pc.pitch) (Fm.freqNum env.fm.pal pc.pitch pc.cents)) (Fm.legal_ch rfl hi rfl trivial) hi
  simp only [Synth.Op.requestFreq, Synth.Op.requestKey, if_true] at k
  simp only [setDownstreamPitch, withPitch, if_pos hm, devPitch, hf, hn, fmCall, Fm.step, Fm.pitch, Fm.guardCh, if_pos hi,
    Fm.setSynthPitch, Fm.call, Psg.upd_same]
  exact k

/-- The chip's frequency is in tune if the pitch is one the FM chip can play. -/
theorem pitch_in_tune (pal : Bool) {key : Nat} {cents : Int} {bend : Nat} {range : PitchCents} {fine : Int} {n : Int}
    (hb : bend < 16384) (hr : range.pitch < 128) (hr0 : 0 ≤ range.cents) (hr1 : range.cents < 128)
    (hn : soundingCents key cents bend (100 * (range.pitch : Int) + range.cents) fine = n)
    (h0 : 0 ≤ n - fine) (h1 : n - fine < 25600) (h2 : 1100 ≤ n) (h3 : n < 10700) :
    let pc := effectivePitchCents key cents bend range fine
    Fm.InTune pal (Fm.pitchToOctave pc.pitch % 8, Fm.freqNum pal pc.pitch pc.cents % 2048) n.toNat 5 := by
  intro pc
  rw [show 100 * (range.pitch : Int) + range.cents = (range.pitch : Int) * 100 + range.cents by omega] at hn
  have e0 : soundingCents key cents bend ((range.pitch : Int) * 100 + range.cents) 0 = n - fine := by
    rw [← hn]; simp only [soundingCents]; omega
  obtain ⟨x1, x2, x3⟩ := Props.C20_bend_exact_partial key cents bend range fine hb hr hr0 hr1
    (by rw [e0]; exact h0) (by rw [e0]; exact h1) (by rw [hn]; omega) (by rw [hn]; omega)
  rw [hn] at x1
  change ((pc.pitch : Int) * 100 + pc.cents = n) at x1
  change 0 ≤ pc.cents at x2
  change pc.cents < 100 at x3
  clear_value pc
  obtain ⟨p, c⟩ := pc
  simp only at *
  obtain ⟨y, rfl⟩ := Int.eq_ofNat_of_zero_le x2
  have hp : 11 ≤ p ∧ p ≤ 106 := by omega
  obtain ⟨r1, r2, r3⟩ := Props.C21_in_range_and_in_tune pal p y hp (by omega)
  rw [Nat.mod_eq_of_lt r1, Nat.mod_eq_of_lt r2, show n.toNat = 100 * p + y by omega]
  exact r3

/-! ### The two loops -/

private theorem away_dev {i : Nat} {t u : St} (h : Away i t u) : (u.dev i).midiChannel = (t.dev i).midiChannel := by rw [h.dev]

/-- What a change of the bend range does to one of the FM voices of the channel. -/
theorem updatePbRange_view (he : env.Ok) (hs : Ok env tame s) {c v i : Nat} {msb : Bool} (hc : c < 16) (hi : i < 6)
    (hm : (s.dev i).midiChannel = c) (hf : (s.dev i).ops = .fm) :
    let r := if msb then { (s.chan c).range with pitch := v } else { (s.chan c).range with cents := toS8 v }
    let u := updatePbRange env s c v msb
    let pc := effectivePitchCents (s.dev i).pitch (s.dev i).cents (s.dev i).pitchBend r (s.chan c).fineTune
    keyed u.fm.synth.out i = keyed s.fm.synth.out i ∧ (chipChannel u.fm.synth.out i).freq =
      if (s.dev i).pitchBend = 0x2000 then (chipChannel s.fm.synth.out i).freq else
        (Fm.pitchToOctave pc.pitch % 8, Fm.freqNum env.fm.pal pc.pitch pc.cents % 2048) := by
  intro r u pc
  have h1 : Path env tame (fun _ => True) (· = c) (fun _ => True) (fun _ => True) s
      (setChan s c fun m => { m with range := if msb then { m.range with pitch := v } else { m.range with cents := toS8 v } }) :=
    Path.refl.chan rfl hc { (hs.chan c hc) with }
  have hs1 := h1.ok he hs
  have eu : u = foreach (setChan s c fun m =>
      { m with range := if msb then { m.range with pitch := v } else { m.range with cents := toS8 v } }) c
      fun s i => if (s.dev i).pitchBend ≠ 0x2000 then setDownstreamPitch env s i else s := rfl
  have ec : ((setChan s c fun m =>
      { m with range := if msb then { m.range with pitch := v } else { m.range with cents := toS8 v } }).chan c) =
      { s.chan c with range := r } := setChan_own c _
  have ed : (setChan s c fun m =>
      { m with range := if msb then { m.range with pitch := v } else { m.range with cents := toS8 v } }).dev = s.dev := rfl
  have ef : (setChan s c fun m =>
      { m with range := if msb then { m.range with pitch := v } else { m.range with cents := toS8 v } }).fm = s.fm := rfl
  rw [eu]
  clear eu h1
  clear_value u
  generalize (setChan s c fun m =>
      { m with range := if msb then { m.range with pitch := v } else { m.range with cents := toS8 v } }) = s1 at *
  have sp := foreach_split (s := s1) (I := Ok env tame) (R := Away i) (c := c) (i := i)
    (body := fun s i => if (s.dev i).pitchBend ≠ 0x2000 then setDownstreamPitch env s i else s)
    (fun _ => .refl) (fun _ _ _ h k => h.trans k)
    (fun t j ht hj hjc => by
      show Ok env tame (if (t.dev j).pitchBend ≠ 0x2000 then setDownstreamPitch env t j else t)
      split
      · exact (setDownstreamPitch_path (A := fun _ => True) (C := fun _ => True) (G := fun _ => True) (H := fun _ => True)
          ht hj trivial (hjc ▸ hc)).ok he ht
      · exact ht)
    (fun t j ht hj hne hjc => by
      show Away i t (if (t.dev j).pitchBend ≠ 0x2000 then setDownstreamPitch env t j else t)
      split
      · exact setDownstreamPitch_away ht hi hj hne (hjc ▸ hc)
      · exact .refl)
    (fun t u h => away_dev h) (by omega) hs1
  rw [if_pos (by rw [ed]; exact hm)] at sp
  obtain ⟨t, ht, r1, r2⟩ := sp
  generalize foreach s1 c (fun s i => if (s.dev i).pitchBend ≠ 0x2000 then setDownstreamPitch env s i else s) = w at *
  have td : t.dev i = s.dev i := r1.dev.trans (by rw [ed])
  have tc : t.chan c = { s.chan c with range := r } := by rw [r1.chan]; exact ec
  have tn : (t.dev i).num = i := (ht.dev i (by omega)).fmNum hi
  rw [r2.key, r2.freq]
  by_cases e : (s.dev i).pitchBend = 0x2000
  · rw [if_pos e, if_neg (by rw [td, e]; simp)]
    exact ⟨by rw [r1.key, ef], by rw [r1.freq, ef]⟩
  · rw [if_neg e, if_pos (by rw [td]; exact e)]
    obtain ⟨a, b⟩ := setDownstreamPitch_own (env := env) hi (by rw [td]; exact hf) tn (by rw [td, hm]; exact hc)
    rw [td, hm, tc] at a
    exact ⟨by rw [b, r1.key, ef], a⟩

/-- What a bend does to one of the sounding FM voices of the channel. -/
theorem pitchBend_view (he : env.Ok) (hs : Ok env tame s) {c b i : Nat} (hc : c < 16) (hi : i < 6)
    (hb : tame = true → b = 0x2000)
    (hm : (s.dev i).midiChannel = c) (hf : (s.dev i).ops = .fm) (hn : (s.dev i).noteOn = true) :
    let u := pitchBend env s c b
    let pc := effectivePitchCents (s.dev i).pitch (s.dev i).cents b (s.chan c).range (s.chan c).fineTune
    keyed u.fm.synth.out i = keyed s.fm.synth.out i ∧ (chipChannel u.fm.synth.out i).freq =
      if (s.dev i).pitchBend = b then (chipChannel s.fm.synth.out i).freq else
        (Fm.pitchToOctave pc.pitch % 8, Fm.freqNum env.fm.pal pc.pitch pc.cents % 2048) := by
  intro u pc
  have h1 : Path env tame (fun _ => True) (· = c) (fun _ => True) (fun _ => True) s
      (setChan s c fun m => { m with pitchBend := b }) :=
    Path.refl.chan rfl hc { (hs.chan c hc) with bend := fun ht => ⟨hb ht, ((hs.chan c hc).bend ht).2⟩ }
  have hs1 := h1.ok he hs
  have eu : u = foreach (setChan s c fun m => { m with pitchBend := b }) c
      fun s i => if (s.dev i).noteOn then updatePitchBend env s c i else s := rfl
  have ec : ((setChan s c fun m => { m with pitchBend := b }).chan c) = { s.chan c with pitchBend := b } := setChan_own c _
  have ed : (setChan s c fun m => { m with pitchBend := b }).dev = s.dev := rfl
  have ef : (setChan s c fun m => { m with pitchBend := b }).fm = s.fm := rfl
  rw [eu]
  clear eu h1
  clear_value u
  generalize (setChan s c fun m => { m with pitchBend := b }) = s1 at *
  have sp := foreach_split (s := s1) (I := Ok env tame) (R := Away i) (c := c) (i := i)
    (body := fun s i => if (s.dev i).noteOn then updatePitchBend env s c i else s)
    (fun _ => .refl) (fun _ _ _ h k => h.trans k)
    (fun t j ht hj hjc => by
      show Ok env tame (if (t.dev j).noteOn then updatePitchBend env t c j else t)
      split
      · exact (updatePitchBend_path (A := fun _ => True) (C := fun _ => True) (G := fun _ => True) (H := fun _ => True)
          ht hj trivial hc he (hjc ▸ hc)).ok he ht
      · exact ht)
    (fun t j ht hj hne hjc => by
      show Away i t (if (t.dev j).noteOn then updatePitchBend env t c j else t)
      split
      · unfold updatePitchBend
        split
        · have h1 : Path env tame (fun _ => True) (fun _ => True) (fun _ => True) (fun _ => True) t
              (setDev t j fun d => { d with pitchBend := (t.chan c).pitchBend }) :=
            Path.refl.dev trivial hj { (ht.dev j hj) with bend := fun h => ((ht.chan c hc).bend h).1 }
          exact (away_setDev (Ne.symm hne)).trans (setDownstreamPitch_away (h1.ok he ht) hi hj hne (by simpa [hjc] using hc))
        · exact .refl
      · exact .refl)
    (fun t u h => away_dev h) (by omega) hs1
  rw [if_pos (by rw [ed]; exact hm)] at sp
  obtain ⟨t, ht, r1, r2⟩ := sp
  generalize foreach s1 c (fun s i => if (s.dev i).noteOn then updatePitchBend env s c i else s) = w at *
  have td : t.dev i = s.dev i := r1.dev.trans (by rw [ed])
  have tc : t.chan c = { s.chan c with pitchBend := b } := by rw [r1.chan]; exact ec
  have tn : (t.dev i).num = i := (ht.dev i (by omega)).fmNum hi
  rw [r2.key, r2.freq]
  simp only [td, hn, if_true, updatePitchBend, tc]
  by_cases e : (s.dev i).pitchBend = b
  · rw [if_pos e, if_neg (by simp [e])]
    exact ⟨by rw [r1.key, ef], by rw [r1.freq, ef]⟩
  · rw [if_neg e, if_pos e]
    have ew : (setDev t i fun d => { d with pitchBend := b }).dev i = { s.dev i with pitchBend := b } := by simp [td]
    have cw : (setDev t i fun d => { d with pitchBend := b }).chan = t.chan := rfl
    have fw : (setDev t i fun d => { d with pitchBend := b }).fm = t.fm := rfl
    generalize (setDev t i fun d => { d with pitchBend := b }) = y at *
    obtain ⟨a, b⟩ := setDownstreamPitch_own (env := env) (s := y) hi (by rw [ew]; exact hf) (by rw [ew, ← td]; exact tn)
      (by rw [ew]; simp only; rw [hm]; exact hc)
    simp only [ew, hm, cw, tc] at a
    exact ⟨by rw [b, fw, r1.key, ef], a⟩

/-! ### Bounds of the tuning -/

theorem tuning_bounds (c : Nat) (ops : List Op) (hw : ∀ op ∈ ops, op.Wf) :
    (tuningOf c ops).bend < 16384 ∧ (tuningOf c ops).semitones < 128 ∧ (tuningOf c ops).cents < 128 := by
  unfold tuningOf
  refine List.foldlRecOn (motive := fun x : Tuning => x.bend < 16384 ∧ x.semitones < 128 ∧ x.cents < 128) ops _ (by decide) ?_
  intro x h op ho
  have w := hw op ho
  have hi : (Tuning.initial.bend < 16384 ∧ Tuning.initial.semitones < 128 ∧ Tuning.initial.cents < 128) := by decide
  cases op with
  | bend k b =>
    simp only [Tuning.after]; split
    · exact ⟨w.2, h.2⟩
    · exact h
  | cc k n v =>
    have w := w.2.2
    simp only [Tuning.after]
    split
    · split
      · exact h
      split
      · exact h
      split
      · exact ⟨h.1, w, h.2.2⟩
      split
      · exact ⟨h.1, h.2.1, w⟩
      split
      · exact h
      split
      · exact hi
      · exact h
    · exact h
  | sysex d j =>
    simp only [Tuning.after]
    split
    · exact hi
    split
    · exact h
    · exact h
  | reset => exact hi
  | _ => exact h

end Mdmi.Midi
