import Verif.Proofs.MidiRetune
import Verif.Proofs.MidiFmSm
/-!
# Retuning of special-mode voices by bends and bend ranges
-/
namespace Mdmi.Midi
open Mdmi.Fm (smFreq smRegs)
open Mdmi.Props (soundingCents)

variable {env : Env} {tame : Bool} {s : St}

/-- Voice `i` (and the MIDI channels) are the same, and so is the frequency of special-mode operator `i - 10` of the chip. -/
structure AwaySm (i : Nat) (t u : St) : Prop where
  dev : u.dev i = t.dev i
  chan : u.chan = t.chan
  freq : smFreq u.fm.synth.out (i - 10) = smFreq t.fm.synth.out (i - 10)

theorem AwaySm.refl {i : Nat} {t : St} : AwaySm i t t := ⟨rfl, rfl, rfl⟩

theorem AwaySm.trans {i : Nat} {t u v : St} (h : AwaySm i t u) (k : AwaySm i u v) : AwaySm i t v :=
  ⟨k.dev.trans h.dev, k.chan.trans h.chan, k.freq.trans h.freq⟩

theorem awaySm_setDev {i j : Nat} (h : i ≠ j) {f : Dev → Dev} : AwaySm i s (setDev s j f) :=
  ⟨Psg.upd_other _ _ _ _ h, rfl, rfl⟩

/-- The pitch of an ordinary channel is in other registers. -/
theorem synthPitch_smFreq (s : Synth.St) {c o a f : Nat} (hc : c < 6) (ho : o < 3) :
    smFreq (Synth.pitch s c a f).out o = smFreq s.out o := by
  have key : ∀ r, 0xA8 ≤ r → r < 0xB0 → Synth.ymReg (Synth.pitch s c a f).out 0 r = Synth.ymReg s.out 0 r := by
    intro r h1 h2
    simp only [Synth.pitch, Synth.onCh, Synth.guardCh, if_pos hc, Synth.writeOctaveAndFrequency, Synth.writeChannelReg,
      Synth.write_reg]
    rw [if_neg (by omega), if_neg (by omega)]
  simp only [smFreq, Fm.smRegs_of ho]
  rw [key _ (by omega) (by omega), key _ (by omega) (by omega)]

theorem devPitch_awaySm (hs : Ok env tame s) {i j : Nat} (hi : 10 ≤ i) (hi' : i < 13) (hj : j < 13) (hne : j ≠ i) (p : Nat)
    (x : Int) : AwaySm i s (devPitch env s j p x) := by
  have hd := hs.dev j hj
  unfold devPitch
  rcases hd.kind with ⟨h, e⟩ | ⟨h, e⟩ | ⟨h, h', e⟩ | ⟨h, h', e⟩ <;> simp only [e]
  · rw [hd.fmNum h]
    have k := synthPitch_smFreq s.fm.synth (a := Fm.pitchToOctave p) (f := Fm.freqNum env.fm.pal p x) h (show i - 10 < 3 by omega)
    refine ⟨rfl, rfl, ?_⟩
    simp only [fmCall, Fm.step, Fm.pitch, Fm.guardCh, if_pos h, Fm.setSynthPitch, Fm.call, Psg.upd_same, Synth.step]
    exact k
  · exact .refl
  · exact ⟨rfl, rfl, rfl⟩
  · have hn := hd.smNum h
    have h3 : (s.dev j).num < 3 := by omega
    simp only [fmCall, Fm.step, Fm.smPitch, if_pos h3, Fm.call]
    refine ⟨rfl, rfl, ?_⟩
    rw [hn] at h3 ⊢
    simp only [Synth.step, smFreq, Fm.smPitch_reg _ _ _ _ _ _ h3, Fm.smRegs_of h3, Fm.smRegs_of (show i - 10 < 3 by omega)]
    rw [if_neg (by omega), if_neg (by omega), if_neg (by omega), if_neg (by omega)]

theorem setDownstreamPitch_awaySm (hs : Ok env tame s) {i j : Nat} (hi : 10 ≤ i) (hi' : i < 13) (hj : j < 13) (hne : j ≠ i)
    (hm : (s.dev j).midiChannel < 16) : AwaySm i s (setDownstreamPitch env s j) := by
  simp only [setDownstreamPitch, withPitch, if_pos hm]
  exact devPitch_awaySm hs hi hi' hj hne _ _

theorem smKind {d : Dev} {i : Nat} (h : DevOk tame i d) (hi : 10 ≤ i) : d.ops = .sm := by
  rcases h.kind with ⟨h, e⟩ | ⟨h, e⟩ | ⟨h, h', e⟩ | ⟨h, h', e⟩
  · omega
  · omega
  · omega
  · exact e

/-- The frequency of a special-mode voice after the driver was told its pitch. -/
theorem setDownstreamPitch_ownSm (hs : Ok env tame s) {i : Nat} (hi : 10 ≤ i) (hi' : i < 13)
    (hm : (s.dev i).midiChannel < 16) :
    let pc := effectivePitchCents (s.dev i).pitch (s.dev i).cents (s.dev i).pitchBend
      (s.chan (s.dev i).midiChannel).range (s.chan (s.dev i).midiChannel).fineTune
    Fm.pitchToOctave pc.pitch < 8 → Fm.freqNum env.fm.pal pc.pitch pc.cents < 2048 →
    smFreq (setDownstreamPitch env s i).fm.synth.out (i - 10) =
      (Fm.pitchToOctave pc.pitch, Fm.freqNum env.fm.pal pc.pitch pc.cents) := by
  intro pc h1 h2
  have h3 : i - 10 < 3 := by omega
  have hd := hs.dev i hi'
  simp only [setDownstreamPitch, withPitch, if_pos hm, devPitch, smKind hd hi, hd.smNum hi, fmCall, Fm.step, Fm.smPitch,
    if_pos h3, Fm.call, Synth.step]
  exact Fm.smPitch_freq s.fm.synth h3 h1 h2

/-- The pitch, if the FM chip can play it, as block and number. -/
theorem pitch_in_tune' (pal : Bool) {key : Nat} {cents : Int} {bend : Nat} {range : PitchCents} {fine : Int} {n : Int}
    (hb : bend < 16384) (hr : range.pitch < 128) (hr0 : 0 ≤ range.cents) (hr1 : range.cents < 128)
    (hn : soundingCents key cents bend (100 * (range.pitch : Int) + range.cents) fine = n)
    (h0 : 0 ≤ n - fine) (h1 : n - fine < 25600) (h2 : 1100 ≤ n) (h3 : n < 10700) :
    let pc := effectivePitchCents key cents bend range fine
    Fm.pitchToOctave pc.pitch < 8 ∧ Fm.freqNum pal pc.pitch pc.cents < 2048 ∧
      Fm.InTune pal (Fm.pitchToOctave pc.pitch, Fm.freqNum pal pc.pitch pc.cents) n.toNat 5 := by
  intro pc
  rw [show 100 * (range.pitch : Int) + range.cents = (range.pitch : Int) * 100 + range.cents by omega] at hn
  have e0 : soundingCents key cents bend ((range.pitch : Int) * 100 + range.cents) 0 = n - fine := by
    rw [← hn]; simp only [soundingCents]; omega
  obtain ⟨x1, x2, x3⟩ := Props.C20_bend_exact_partial key cents bend range fine hb hr hr0 hr1
    (by rw [e0]; exact h0) (by rw [e0]; exact h1) (by rw [hn]; omega) (by rw [hn]; omega)
  rw [hn] at x1
  change ((pc.pitch : Int) * 100 + pc.cents = n) at x1
  change 0 ≤ pc.cents at x2
  change pc.cents < 100 at x3
  clear_value pc
  obtain ⟨p, c⟩ := pc
  simp only at *
  obtain ⟨y, rfl⟩ := Int.eq_ofNat_of_zero_le x2
  have hp : 11 ≤ p ∧ p ≤ 106 := by omega
  obtain ⟨r1, r2, r3⟩ := Props.C21_in_range_and_in_tune pal p y hp (by omega)
  rw [show n.toNat = 100 * p + y by omega]
  exact ⟨r1, r2, r3⟩

/-- What a change of the bend range does to one of the special-mode voices of the channel. -/
theorem updatePbRange_viewSm (he : env.Ok) (hs : Ok env tame s) {c v i : Nat} {msb : Bool} (hc : c < 16) (hi : 10 ≤ i)
    (hi' : i < 13) (hm : (s.dev i).midiChannel = c) :
    let r := if msb then { (s.chan c).range with pitch := v } else { (s.chan c).range with cents := toS8 v }
    let u := updatePbRange env s c v msb
    let pc := effectivePitchCents (s.dev i).pitch (s.dev i).cents (s.dev i).pitchBend r (s.chan c).fineTune
    ((s.dev i).pitchBend = 0x2000 → smFreq u.fm.synth.out (i - 10) = smFreq s.fm.synth.out (i - 10)) ∧
    ((s.dev i).pitchBend ≠ 0x2000 → Fm.pitchToOctave pc.pitch < 8 → Fm.freqNum env.fm.pal pc.pitch pc.cents < 2048 →
      smFreq u.fm.synth.out (i - 10) = (Fm.pitchToOctave pc.pitch, Fm.freqNum env.fm.pal pc.pitch pc.cents)) := by
  intro r u pc
  have h1 : Path env tame (fun _ => True) (· = c) (fun _ => True) (fun _ => True) s
      (setChan s c fun m => { m with range := if msb then { m.range with pitch := v } else { m.range with cents := toS8 v } }) :=
    Path.refl.chan rfl hc { (hs.chan c hc) with }
  have hs1 := h1.ok he hs
  have eu : u = foreach (setChan s c fun m =>
      { m with range := if msb then { m.range with pitch := v } else { m.range with cents := toS8 v } }) c
      fun s i => if (s.dev i).pitchBend ≠ 0x2000 then setDownstreamPitch env s i else s := rfl
  have ec : ((setChan s c fun m =>
      { m with range := if msb then { m.range with pitch := v } else { m.range with cents := toS8 v } }).chan c) =
      { s.chan c with range := r } := setChan_own c _
  have ed : (setChan s c fun m =>
      { m with range := if msb then { m.range with pitch := v } else { m.range with cents := toS8 v } }).dev = s.dev := rfl
  have ef : (setChan s c fun m =>
      { m with range := if msb then { m.range with pitch := v } else { m.range with cents := toS8 v } }).fm = s.fm := rfl
  rw [eu]
  clear eu h1
  clear_value u
  generalize (setChan s c fun m =>
      { m with range := if msb then { m.range with pitch := v } else { m.range with cents := toS8 v } }) = s1 at *
  have sp := foreach_split (s := s1) (I := Ok env tame) (R := AwaySm i) (c := c) (i := i)
    (body := fun s i => if (s.dev i).pitchBend ≠ 0x2000 then setDownstreamPitch env s i else s)
    (fun _ => .refl) (fun _ _ _ h k => h.trans k)
    (fun t j ht hj hjc => by
      show Ok env tame (if (t.dev j).pitchBend ≠ 0x2000 then setDownstreamPitch env t j else t)
      split
      · exact (setDownstreamPitch_path (A := fun _ => True) (C := fun _ => True) (G := fun _ => True) (H := fun _ => True)
          ht hj trivial (hjc ▸ hc)).ok he ht
      · exact ht)
    (fun t j ht hj hne hjc => by
      show AwaySm i t (if (t.dev j).pitchBend ≠ 0x2000 then setDownstreamPitch env t j else t)
      split
      · exact setDownstreamPitch_awaySm ht hi hi' hj hne (hjc ▸ hc)
      · exact .refl)
    (fun t u h => by rw [h.dev]) (by omega) hs1
  rw [if_pos (by rw [ed]; exact hm)] at sp
  obtain ⟨t, ht, r1, r2⟩ := sp
  generalize foreach s1 c (fun s i => if (s.dev i).pitchBend ≠ 0x2000 then setDownstreamPitch env s i else s) = w at *
  have td : t.dev i = s.dev i := r1.dev.trans (by rw [ed])
  have tc : t.chan c = { s.chan c with range := r } := by rw [r1.chan]; exact ec
  rw [r2.freq]
  refine ⟨fun e => ?_, fun e o1 o2 => ?_⟩
  · rw [if_neg (by rw [td, e]; simp), r1.freq, ef]
  · rw [if_pos (by rw [td]; exact e)]
    have a := setDownstreamPitch_ownSm (env := env) ht hi hi' (by rw [td, hm]; exact hc)
    rw [td, hm, tc] at a
    exact a o1 o2

/-- What a bend does to one of the sounding special-mode voices of the channel. -/
theorem pitchBend_viewSm (he : env.Ok) (hs : Ok env tame s) {c b i : Nat} (hc : c < 16) (hi : 10 ≤ i) (hi' : i < 13)
    (hb : tame = true → b = 0x2000)
    (hm : (s.dev i).midiChannel = c) (hn : (s.dev i).noteOn = true) :
    let u := pitchBend env s c b
    let pc := effectivePitchCents (s.dev i).pitch (s.dev i).cents b (s.chan c).range (s.chan c).fineTune
    ((s.dev i).pitchBend = b → smFreq u.fm.synth.out (i - 10) = smFreq s.fm.synth.out (i - 10)) ∧
    ((s.dev i).pitchBend ≠ b → Fm.pitchToOctave pc.pitch < 8 → Fm.freqNum env.fm.pal pc.pitch pc.cents < 2048 →
      smFreq u.fm.synth.out (i - 10) = (Fm.pitchToOctave pc.pitch, Fm.freqNum env.fm.pal pc.pitch pc.cents)) := by
  intro u pc
  have h1 : Path env tame (fun _ => True) (· = c) (fun _ => True) (fun _ => True) s
      (setChan s c fun m => { m with pitchBend := b }) :=
    Path.refl.chan rfl hc { (hs.chan c hc) with bend := fun ht => ⟨hb ht, ((hs.chan c hc).bend ht).2⟩ }
  have hs1 := h1.ok he hs
  have eu : u = foreach (setChan s c fun m => { m with pitchBend := b }) c
      fun s i => if (s.dev i).noteOn then updatePitchBend env s c i else s := rfl
  have ec : ((setChan s c fun m => { m with pitchBend := b }).chan c) = { s.chan c with pitchBend := b } := setChan_own c _
  have ed : (setChan s c fun m => { m with pitchBend := b }).dev = s.dev := rfl
  have ef : (setChan s c fun m => { m with pitchBend := b }).fm = s.fm := rfl
  rw [eu]
  clear eu h1
  clear_value u
  generalize (setChan s c fun m => { m with pitchBend := b }) = s1 at *
  have sp := foreach_split (s := s1) (I := Ok env tame) (R := AwaySm i) (c := c) (i := i)
    (body := fun s i => if (s.dev i).noteOn then updatePitchBend env s c i else s)
    (fun _ => .refl) (fun _ _ _ h k => h.trans k)
    (fun t j ht hj hjc => by
      show Ok env tame (if (t.dev j).noteOn then updatePitchBend env t c j else t)
      split
      · exact (updatePitchBend_path (A := fun _ => True) (C := fun _ => True) (G := fun _ => True) (H := fun _ => True)
          ht hj trivial hc he (hjc ▸ hc)).ok he ht
      · exact ht)
    (fun t j ht hj hne hjc => by
      show AwaySm i t (if (t.dev j).noteOn then updatePitchBend env t c j else t)
      split
      · unfold updatePitchBend
        split
        · have h1 : Path env tame (fun _ => True) (fun _ => True) (fun _ => True) (fun _ => True) t
              (setDev t j fun d => { d with pitchBend := (t.chan c).pitchBend }) :=
            Path.refl.dev trivial hj { (ht.dev j hj) with bend := fun h => ((ht.chan c hc).bend h).1 }
          exact (awaySm_setDev (Ne.symm hne)).trans
            (setDownstreamPitch_awaySm (h1.ok he ht) hi hi' hj hne (by simpa [hjc] using hc))
        · exact .refl
      · exact .refl)
    (fun t u h => by rw [h.dev]) (by omega) hs1
  rw [if_pos (by rw [ed]; exact hm)] at sp
  obtain ⟨t, ht, r1, r2⟩ := sp
  generalize foreach s1 c (fun s i => if (s.dev i).noteOn then updatePitchBend env s c i else s) = w at *
  have td : t.dev i = s.dev i := r1.dev.trans (by rw [ed])
  have tc : t.chan c = { s.chan c with pitchBend := b } := by rw [r1.chan]; exact ec
  rw [r2.freq]
  simp only [td, hn, if_true, updatePitchBend, tc]
  refine ⟨fun e => ?_, fun e o1 o2 => ?_⟩
  · rw [if_neg (by simp [e]), r1.freq, ef]
  · rw [if_pos e]
    have h1 : Path env tame (fun _ => True) (fun _ => True) (fun _ => True) (fun _ => True) t
        (setDev t i fun d => { d with pitchBend := b }) := Path.refl.dev trivial hi' { (ht.dev i hi') with bend := hb }
    have hy := h1.ok he ht
    have ew : (setDev t i fun d => { d with pitchBend := b }).dev i = { s.dev i with pitchBend := b } := by simp [td]
    have cw : (setDev t i fun d => { d with pitchBend := b }).chan = t.chan := rfl
    clear h1
    generalize (setDev t i fun d => { d with pitchBend := b }) = y at *
    have a := setDownstreamPitch_ownSm (env := env) hy hi hi' (by rw [ew]; simp only; rw [hm]; exact hc)
    simp only [ew, hm, cw, tc] at a
    exact a o1 o2

end Mdmi.Midi
