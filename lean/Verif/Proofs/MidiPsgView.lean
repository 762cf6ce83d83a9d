import Verif.Proofs.MidiNote
import Verif.Proofs.MidiPsgMem
import Verif.Proofs.MidiPlay
import Verif.Proofs.PsgEnv
/-!
# PSG voices: what bends, bend ranges and note-ons leave in the driver
-/
namespace Mdmi.Psg

variable {env : Env} {f : St} {n : Nat}

/-- What a pitch call leaves on its channel. -/
theorem pitch_view (hn : n < 4) {p : Nat} {x : Int} {e : Nat} (hd : deref env f.userBuf (f.ch n).step = some e) :
    ∃ t, toneFromPitchCents env.isPAL (envelopeShift ⟨p, x⟩ (e / 16)) = some t ∧
      (step env f (.pitch n p x)).ch n = { f.ch n with pitch := p, cents := x, freq := t } := by
  obtain ⟨t, ht⟩ := toneFromPitchCents_some env.isPAL (envelopeShift ⟨p, x⟩ (e / 16))
  refine ⟨t, ht, ?_⟩
  have k : pitchChan env f n p x (f.ch n) = some (applyTone n ({ f.ch n with pitch := p, cents := x }, []) t) := by
    simp only [pitchChan, hd, Option.bind_some, envelopeTone, ht]
  simp only [step, pitch]
  rw [onChan_same hn k]
  unfold applyTone
  split
  · rfl
  · rename_i h
    have h : t = (f.ch n).freq := Classical.not_not.1 h
    subst h; rfl

/-- Where a channel's envelope starts. -/
def source (s : St) (n : Nat) : Src := if s.userLoaded then .user else .builtin (s.ch n).envelope

/-- The envelope starting at `src` sounds with byte `e`: its first byte, or the one after a loop mark there. -/
def FirstByte (env : Env) (buf : Nat → Nat) (src : Src) (e : Nat) : Prop :=
  e < 0xFD ∧ (deref env buf ⟨src, 0⟩ = some e ∨ (deref env buf ⟨src, 0⟩ = some 0xFE ∧ deref env buf ⟨src, 1⟩ = some e))

private theorem level_view {c : Chan} {e : Nat} {buf : Nat → Nat} (hd : deref env buf c.step = some e)
    (hv : c.volume < 128) (hw : c.velocity < 128) :
    ∃ t, toneFromPitchCents env.isPAL (envelopeShift ⟨c.pitch, c.cents⟩ (e / 16)) = some t ∧
      ∃ o, applyLevel env buf n (c, []) = some o ∧
        o.1 = { c with freq := t, attenuation := combine (c.volume * c.velocity / 127) e } := by
  obtain ⟨t, ht⟩ := toneFromPitchCents_some env.isPAL (envelopeShift ⟨c.pitch, c.cents⟩ (e / 16))
  refine ⟨t, ht, applyAttenuation n (applyTone n (c, []) t) (combine (c.volume * c.velocity / 127) e), ?_, ?_⟩
  · simp only [applyLevel, hd, envelopeTone, ht]
    have : effectiveAttenuation (applyTone n (c, []) t).1 e = some (combine (c.volume * c.velocity / 127) e) := by
      rw [← effectiveAttenuation_eq c e hv hw]
      unfold applyTone; split <;> rfl
    rw [this]
  · unfold applyAttenuation applyTone
    split <;> split <;> simp_all

/-- What a note-on leaves on its channel. -/
theorem noteOn_view (hg : Good env f) (hn : n < 4) {p v e : Nat} {x : Int} (hp : 45 ≤ p) (hv : v < 128)
    (hl : f.userLoaded = false → (f.ch n).envelope < env.envelopes.length)
    (hd : FirstByte env f.userBuf (source f n) e) :
    ∃ t, toneFromPitchCents env.isPAL (envelopeShift ⟨p, x⟩ (e / 16)) = some t ∧
      ((step env f (.noteOn n p x v)).ch n).freq = t ∧
      ((step env f (.noteOn n p x v)).ch n).attenuation = combine ((f.ch n).volume * v / 127) e ∧
      ((step env f (.noteOn n p x v)).ch n).noteOn = true := by
  have hvol := (hg.chans n hn).vol
  obtain ⟨h1, h2⟩ := hd
  have hi : ∀ c : Chan, c.envelope = (f.ch n).envelope →
      initEnvelope env f.userLoaded c = some { c with step := ⟨source f n, 0⟩, loopStart := none } := by
    intro c hc
    unfold initEnvelope source
    split
    · rfl
    · rename_i h
      rw [hc, if_pos (hl (by simpa using h))]
  have main : ∃ (c : Chan) (o : Out) (t : Nat), noteOnChan env f n p x v (f.ch n) = some o ∧
      toneFromPitchCents env.isPAL (envelopeShift ⟨p, x⟩ (e / 16)) = some t ∧
      o.1 = { c with freq := t, attenuation := combine (c.volume * c.velocity / 127) e } ∧ c.volume = (f.ch n).volume ∧
      c.velocity = v ∧ c.noteOn = true := by
    unfold noteOnChan
    extract_lets c
    rw [hi c rfl, Option.bind_some]
    rcases h2 with h2 | ⟨h2, h3⟩
    · have k1 : stepLoopStart env f.userBuf { c with step := ⟨source f n, 0⟩, loopStart := none } =
          some { c with step := ⟨source f n, 0⟩, loopStart := none } := by
        simp only [stepLoopStart, h2, if_neg (show ¬e = 0xFE by omega)]
      have k2 : stepLoopEnd env f.userBuf { c with step := ⟨source f n, 0⟩, loopStart := none } =
          some { c with step := ⟨source f n, 0⟩, loopStart := none } := by
        simp only [stepLoopEnd, h2]
      obtain ⟨t, ht, o, ho, e1⟩ := level_view (env := env) (n := n) (c := { c with step := ⟨source f n, 0⟩, loopStart := none })
        h2 hvol hv
      refine ⟨_, o, t, ?_, ht, e1, rfl, rfl, rfl⟩
      simp only [applyEnvelopeStep, k1, k2, Option.bind_some, h2, if_neg (show ¬e = 0xFF by omega), ho]
    · have k1 : stepLoopStart env f.userBuf { c with step := ⟨source f n, 0⟩, loopStart := none } =
          some { c with step := ⟨source f n, 1⟩, loopStart := some ⟨source f n, 1⟩ } := by
        simp only [stepLoopStart, h2, if_true, Ptr.next]
      have k2 : stepLoopEnd env f.userBuf { c with step := ⟨source f n, 1⟩, loopStart := some ⟨source f n, 1⟩ } =
          some { c with step := ⟨source f n, 1⟩, loopStart := some ⟨source f n, 1⟩ } := by
        simp only [stepLoopEnd, h3, if_neg (show ¬e = 0xFD by omega)]
      obtain ⟨t, ht, o, ho, e1⟩ := level_view (env := env) (n := n)
        (c := { c with step := ⟨source f n, 1⟩, loopStart := some ⟨source f n, 1⟩ }) h3 hvol hv
      refine ⟨_, o, t, ?_, ht, e1, rfl, rfl, rfl⟩
      simp only [applyEnvelopeStep, k1, k2, Option.bind_some, h3, if_neg (show ¬e = 0xFF by omega), ho]
  obtain ⟨c, o, t, ho, ht, e1, e2, e3, e4⟩ := main
  refine ⟨t, ht, ?_⟩
  simp only [step, noteOn, if_neg (show ¬p < 45 by omega)]
  rw [onChan_same hn ho, e1]
  exact ⟨rfl, by simp only [e2, e3], e4⟩

/-- Calls for one channel leave the user envelope alone. -/
theorem run_user (ops : List Op) (h : ∀ o ∈ ops, o.target ≠ none) (s : St) :
    (run env s ops).userBuf = s.userBuf ∧ (run env s ops).userLoaded = s.userLoaded := by
  have on : ∀ (s : St) n g, (onChan s n g).userLoaded = s.userLoaded := by
    intro s n g; unfold onChan; split
    · split <;> rfl
    · rfl
  unfold run
  refine List.foldlRecOn (motive := fun u : St => u.userBuf = s.userBuf ∧ u.userLoaded = s.userLoaded) ops _ ⟨rfl, rfl⟩ ?_
  intro u hu o ho
  have t := h o ho
  refine ⟨(step_buf fun e k => by subst k; exact t rfl).trans hu.1, Eq.trans ?_ hu.2⟩
  cases o <;> simp only [Op.target] at t
  · simp only [step, noteOn]; split
    · rfl
    · exact on ..
  · exact on ..
  · exact on ..
  · exact on ..
  · exact on ..
  · exact on ..
  all_goals exact absurd rfl t

end Mdmi.Psg

namespace Mdmi.Midi
open Mdmi.Props (soundingCents)

variable {env : Env} {tame : Bool} {s : St}

/-- Voice `i` (and the MIDI channels) are the same, and so is what the PSG driver holds for it. -/
structure PsgAway (i : Nat) (t u : St) : Prop where
  dev : u.dev i = t.dev i
  chan : u.chan = t.chan
  ch : u.psg.ch (i - 6) = t.psg.ch (i - 6)
  buf : u.psg.userBuf = t.psg.userBuf

theorem PsgAway.refl {i : Nat} {t : St} : PsgAway i t t := ⟨rfl, rfl, rfl, rfl⟩

theorem PsgAway.trans {i : Nat} {t u v : St} (h : PsgAway i t u) (k : PsgAway i u v) : PsgAway i t v :=
  ⟨k.dev.trans h.dev, k.chan.trans h.chan, k.ch.trans h.ch, k.buf.trans h.buf⟩

theorem psgAway_setDev {i j : Nat} (h : i ≠ j) {f : Dev → Dev} : PsgAway i s (setDev s j f) :=
  ⟨Psg.upd_other _ _ _ _ h, rfl, rfl, rfl⟩

theorem devPitch_psgAway (hs : Ok env tame s) {i j : Nat} (hi : 6 ≤ i) (hi' : i < 10) (hj : j < 13) (hne : j ≠ i) (p : Nat) (x : Int) :
    PsgAway i s (devPitch env s j p x) := by
  have hd := hs.dev j hj
  unfold devPitch
  rcases hd.kind with ⟨h, e⟩ | ⟨h, e⟩ | ⟨h, h', e⟩ | ⟨h, h', e⟩ <;> simp only [e]
  · exact ⟨rfl, rfl, rfl, rfl⟩
  · exact .refl
  · rw [hd.psgNum h h']
    exact ⟨rfl, rfl, Psg.step_other (by simp [Psg.Op.target]; omega) (by simp) (by simp), Psg.step_buf (by simp)⟩
  · exact ⟨rfl, rfl, rfl, rfl⟩

theorem setDownstreamPitch_psgAway (hs : Ok env tame s) {i j : Nat} (hi : 6 ≤ i) (hi' : i < 10) (hj : j < 13) (hne : j ≠ i)
    (hm : (s.dev j).midiChannel < 16) : PsgAway i s (setDownstreamPitch env s j) := by
  simp only [setDownstreamPitch, withPitch, if_pos hm]
  exact devPitch_psgAway hs hi hi' hj hne _ _

theorem psg_ops (hs : Ok env tame s) {i : Nat} (hi : 6 ≤ i) (hi' : i < 10) : (s.dev i).ops = .psg ∧ (s.dev i).num = i - 6 := by
  have hd := hs.dev i (by omega)
  refine ⟨?_, hd.psgNum hi hi'⟩
  rcases hd.kind with ⟨h, e⟩ | ⟨h, e⟩ | ⟨h, h', e⟩ | ⟨h, h', e⟩
  · omega
  · omega
  · exact e
  · omega

/-- A channel of the driver with a new pitch. -/
def Repitched (env : Psg.Env) (f : Psg.St) (n : Nat) (pc : PitchCents) (y : Psg.Chan) : Prop :=
  ∀ e, Psg.deref env f.userBuf (f.ch n).step = some e →
    ∃ t, Psg.toneFromPitchCents env.isPAL (Psg.envelopeShift pc (e / 16)) = some t ∧
      y = { f.ch n with pitch := pc.pitch, cents := pc.cents, freq := t }

theorem setDownstreamPitch_psg_own (hs : Ok env tame s) {i : Nat} (hi : 6 ≤ i) (hi' : i < 10)
    (hm : (s.dev i).midiChannel < 16) :
    Repitched env.psg s.psg (i - 6) (effectivePitchCents (s.dev i).pitch (s.dev i).cents (s.dev i).pitchBend
      (s.chan (s.dev i).midiChannel).range (s.chan (s.dev i).midiChannel).fineTune)
      ((setDownstreamPitch env s i).psg.ch (i - 6)) := by
  intro e he
  obtain ⟨h1, h2⟩ := psg_ops hs hi hi'
  simp only [setDownstreamPitch, withPitch, if_pos hm, devPitch, h1, h2, psgCall]
  exact Psg.pitch_view (by omega) he

private theorem psgAway_dev {i : Nat} {t u : St} (h : PsgAway i t u) : (u.dev i).midiChannel = (t.dev i).midiChannel := by rw [h.dev]

/-- What a change of the bend range does to one of the PSG voices of the channel. -/
theorem updatePbRange_psgView (he : env.Ok) (hs : Ok env tame s) {c v i : Nat} {msb : Bool} (hc : c < 16) (hi : 6 ≤ i)
    (hi' : i < 10) (hm : (s.dev i).midiChannel = c) :
    let r := if msb then { (s.chan c).range with pitch := v } else { (s.chan c).range with cents := toS8 v }
    let u := updatePbRange env s c v msb
    let pc := effectivePitchCents (s.dev i).pitch (s.dev i).cents (s.dev i).pitchBend r (s.chan c).fineTune
    ((s.dev i).pitchBend = 0x2000 → u.psg.ch (i - 6) = s.psg.ch (i - 6)) ∧
    ((s.dev i).pitchBend ≠ 0x2000 → Repitched env.psg s.psg (i - 6) pc (u.psg.ch (i - 6))) := by
  intro r u pc
  have h1 : Path env tame (fun _ => True) (· = c) (fun _ => True) (fun _ => True) s
      (setChan s c fun m => { m with range := if msb then { m.range with pitch := v } else { m.range with cents := toS8 v } }) :=
    Path.refl.chan rfl hc { (hs.chan c hc) with }
  have hs1 := h1.ok he hs
  have eu : u = foreach (setChan s c fun m =>
      { m with range := if msb then { m.range with pitch := v } else { m.range with cents := toS8 v } }) c
      fun s i => if (s.dev i).pitchBend ≠ 0x2000 then setDownstreamPitch env s i else s := rfl
  have ec : ((setChan s c fun m =>
      { m with range := if msb then { m.range with pitch := v } else { m.range with cents := toS8 v } }).chan c) =
      { s.chan c with range := r } := setChan_own c _
  have ed : (setChan s c fun m =>
      { m with range := if msb then { m.range with pitch := v } else { m.range with cents := toS8 v } }).dev = s.dev := rfl
  have ef : (setChan s c fun m =>
      { m with range := if msb then { m.range with pitch := v } else { m.range with cents := toS8 v } }).psg = s.psg := rfl
  rw [eu]
  clear eu h1
  clear_value u
  generalize (setChan s c fun m =>
      { m with range := if msb then { m.range with pitch := v } else { m.range with cents := toS8 v } }) = s1 at *
  have sp := foreach_split (s := s1) (I := Ok env tame) (R := PsgAway i) (c := c) (i := i)
    (body := fun s i => if (s.dev i).pitchBend ≠ 0x2000 then setDownstreamPitch env s i else s)
    (fun _ => .refl) (fun _ _ _ h k => h.trans k)
    (fun t j ht hj hjc => by
      show Ok env tame (if (t.dev j).pitchBend ≠ 0x2000 then setDownstreamPitch env t j else t)
      split
      · exact (setDownstreamPitch_path (A := fun _ => True) (C := fun _ => True) (G := fun _ => True) (H := fun _ => True)
          ht hj trivial (hjc ▸ hc)).ok he ht
      · exact ht)
    (fun t j ht hj hne hjc => by
      show PsgAway i t (if (t.dev j).pitchBend ≠ 0x2000 then setDownstreamPitch env t j else t)
      split
      · exact setDownstreamPitch_psgAway ht hi hi' hj hne (hjc ▸ hc)
      · exact .refl)
    (fun t u h => psgAway_dev h) (by omega) hs1
  rw [if_pos (by rw [ed]; exact hm)] at sp
  obtain ⟨t, ht, r1, r2⟩ := sp
  generalize foreach s1 c (fun s i => if (s.dev i).pitchBend ≠ 0x2000 then setDownstreamPitch env s i else s) = w at *
  have td : t.dev i = s.dev i := r1.dev.trans (by rw [ed])
  have tc : t.chan c = { s.chan c with range := r } := by rw [r1.chan]; exact ec
  rw [r2.ch]
  refine ⟨fun e => ?_, fun e => ?_⟩
  · rw [if_neg (by rw [td, e]; simp), r1.ch, ef]
  · rw [if_pos (by rw [td]; exact e)]
    have a := setDownstreamPitch_psg_own ht hi hi' (by rw [td, hm]; exact hc)
    rw [td, hm, tc] at a
    intro b hb
    rw [← ef, ← r1.ch] at hb ⊢
    exact a b (by rw [r1.buf]; exact hb)

/-- What a bend does to one of the sounding PSG voices of the channel. -/
theorem pitchBend_psgView (he : env.Ok) (hs : Ok env tame s) {c b i : Nat} (hc : c < 16) (hi : 6 ≤ i) (hi' : i < 10)
    (hb : tame = true → b = 0x2000) (hm : (s.dev i).midiChannel = c) (hn : (s.dev i).noteOn = true) :
    let u := pitchBend env s c b
    let pc := effectivePitchCents (s.dev i).pitch (s.dev i).cents b (s.chan c).range (s.chan c).fineTune
    ((s.dev i).pitchBend = b → u.psg.ch (i - 6) = s.psg.ch (i - 6)) ∧
    ((s.dev i).pitchBend ≠ b → Repitched env.psg s.psg (i - 6) pc (u.psg.ch (i - 6))) := by
  intro u pc
  have h1 : Path env tame (fun _ => True) (· = c) (fun _ => True) (fun _ => True) s
      (setChan s c fun m => { m with pitchBend := b }) :=
    Path.refl.chan rfl hc { (hs.chan c hc) with bend := fun ht => ⟨hb ht, ((hs.chan c hc).bend ht).2⟩ }
  have hs1 := h1.ok he hs
  have eu : u = foreach (setChan s c fun m => { m with pitchBend := b }) c
      fun s i => if (s.dev i).noteOn then updatePitchBend env s c i else s := rfl
  have ec : ((setChan s c fun m => { m with pitchBend := b }).chan c) = { s.chan c with pitchBend := b } := setChan_own c _
  have ed : (setChan s c fun m => { m with pitchBend := b }).dev = s.dev := rfl
  have ef : (setChan s c fun m => { m with pitchBend := b }).psg = s.psg := rfl
  rw [eu]
  clear eu h1
  clear_value u
  generalize (setChan s c fun m => { m with pitchBend := b }) = s1 at *
  have sp := foreach_split (s := s1) (I := Ok env tame) (R := PsgAway i) (c := c) (i := i)
    (body := fun s i => if (s.dev i).noteOn then updatePitchBend env s c i else s)
    (fun _ => .refl) (fun _ _ _ h k => h.trans k)
    (fun t j ht hj hjc => by
      show Ok env tame (if (t.dev j).noteOn then updatePitchBend env t c j else t)
      split
      · exact (updatePitchBend_path (A := fun _ => True) (C := fun _ => True) (G := fun _ => True) (H := fun _ => True)
          ht hj trivial hc he (hjc ▸ hc)).ok he ht
      · exact ht)
    (fun t j ht hj hne hjc => by
      show PsgAway i t (if (t.dev j).noteOn then updatePitchBend env t c j else t)
      split
      · unfold updatePitchBend
        split
        · have h1 : Path env tame (fun _ => True) (fun _ => True) (fun _ => True) (fun _ => True) t
              (setDev t j fun d => { d with pitchBend := (t.chan c).pitchBend }) :=
            Path.refl.dev trivial hj { (ht.dev j hj) with bend := fun h => ((ht.chan c hc).bend h).1 }
          exact (psgAway_setDev (Ne.symm hne)).trans
            (setDownstreamPitch_psgAway (h1.ok he ht) hi hi' hj hne (by simpa [hjc] using hc))
        · exact .refl
      · exact .refl)
    (fun t u h => psgAway_dev h) (by omega) hs1
  rw [if_pos (by rw [ed]; exact hm)] at sp
  obtain ⟨t, ht, r1, r2⟩ := sp
  generalize foreach s1 c (fun s i => if (s.dev i).noteOn then updatePitchBend env s c i else s) = w at *
  have td : t.dev i = s.dev i := r1.dev.trans (by rw [ed])
  have tc : t.chan c = { s.chan c with pitchBend := b } := by rw [r1.chan]; exact ec
  rw [r2.ch]
  simp only [td, hn, if_true, updatePitchBend, tc]
  refine ⟨fun e => ?_, fun e => ?_⟩
  · rw [if_neg (by simp [e]), r1.ch, ef]
  · rw [if_pos e]
    have h1 : Path env tame (fun _ => True) (fun _ => True) (fun _ => True) (fun _ => True) t
        (setDev t i fun d => { d with pitchBend := b }) :=
      Path.refl.dev trivial (by omega) { (ht.dev i (by omega)) with bend := hb }
    have hy := h1.ok he ht
    have ew : (setDev t i fun d => { d with pitchBend := b }).dev i = { s.dev i with pitchBend := b } := by simp [td]
    have cw : (setDev t i fun d => { d with pitchBend := b }).chan = t.chan := rfl
    have fw : (setDev t i fun d => { d with pitchBend := b }).psg = t.psg := rfl
    clear h1
    generalize (setDev t i fun d => { d with pitchBend := b }) = y at *
    have a := setDownstreamPitch_psg_own hy hi hi' (by rw [ew]; simp only; rw [hm]; exact hc)
    simp only [ew, hm, cw, tc] at a
    intro b hb
    rw [← ef, ← r1.ch, ← fw] at hb ⊢
    exact a b (by rw [fw, r1.buf, ← fw]; exact hb)

/-! ### Note-on -/

/-- What matters of a state for starting a note on voice `i` for MIDI channel `c`. -/
structure PsgSame (c i : Nat) (s t : St) : Prop where
  psg : t.psg = s.psg
  memo : Memo i s → Memo i t
  volume : (t.chan c).volume = (s.chan c).volume
  program : (t.chan c).program = (s.chan c).program
  bend : (t.chan c).pitchBend = (s.chan c).pitchBend
  range : (t.chan c).range = (s.chan c).range
  fine : (t.chan c).fineTune = (s.chan c).fineTune
  fm : t.fm = s.fm
  ops : (t.dev i).ops = (s.dev i).ops

/-- Voice `i` holds key `p`. -/
def Holds (s : St) (i p : Nat) : Prop := (s.dev i).noteOn = true ∧ (s.dev i).pitch = p

/-- A note-on does nothing a chip hears, or starts the note on one voice: an idle one or one of the channel. -/
theorem noteOn_one (he : env.Ok) (hs : Ok env tame s) {c p v : Nat} (hc : c < 16) (hp : p < 128) (hv : v < 128) (hv0 : v ≠ 0) :
    ((noteOn env s c p v).fm = s.fm ∧ (noteOn env s c p v).psg = s.psg ∧
      ∀ j, (noteOn env s c p v).dev j = { s.dev j with glide := ((noteOn env s c p v).dev j).glide }) ∨
    ∃ i t, i < 13 ∧ ((s.dev i).noteOn = false ∨ (s.dev i).midiChannel = c) ∧ Ok env tame t ∧ PsgSame c i s t ∧
      (∀ j, j ≠ i → t.dev j = s.dev j) ∧ noteOn env s c p v = startNote env t i c p v := by
  unfold noteOn
  rw [if_neg hv0]
  split
  · exact .inl ⟨rfl, rfl, fun _ => rfl⟩
  split
  · exact .inl ⟨rfl, rfl, fun _ => rfl⟩
  rename_i j hj
  have hj13 := findFree_lt hj
  have own := findFree_own hj
  split
  · split
    · exact .inl ⟨rfl, rfl, fun _ => rfl⟩
    obtain ⟨l, hl, hl'⟩ := (hs.chan c hc).stack
    obtain ⟨st, e, hr⟩ := hl.push p
    simp only [e]
    have h1 : Path env tame (fun _ => True) (· = c) (fun _ => False) (fun _ => False) s
        (setChan s c fun m => { m with stack := st, lastVelocity := v }) := by
      refine Path.refl.chan rfl hc { (hs.chan c hc) with velocity := hv, stack := ⟨_, hr, ?_⟩ }
      intro q hq
      split at hq
      · exact hl' q hq
      · rcases List.mem_append.1 hq with hq | hq
        · exact hl' q hq
        · simp at hq; rw [hq]; exact lt_top hp
    split
    · refine .inl ⟨rfl, rfl, fun i => ?_⟩
      by_cases e : i = j
      · subst e; simp
      · simp [Psg.upd_other _ _ _ _ e]
    · have h2 := h1.dev (f := fun d => { d with glide := 0 }) trivial hj13
        { (h1.ok he hs).dev j hj13 with glide := lt_top (by decide : 0 < 128) }
      refine .inr ⟨j, _, hj13, own, h2.ok he hs, ⟨rfl, fun k => ?_, ?_, ?_, ?_, ?_, ?_, rfl, ?_⟩, fun i e => ?_, rfl⟩
      · exact (k.same rfl rfl : Memo j (setChan s c fun m => { m with stack := st, lastVelocity := v })).setDev rfl
      rotate_right
      · simp [Psg.upd_other _ _ _ _ e]
      all_goals simp
  · exact .inr ⟨j, s, hj13, own, hs, ⟨rfl, id, rfl, rfl, rfl, rfl, rfl, rfl, rfl⟩, fun _ _ => rfl, rfl⟩

/-- A voice that comes to hold a key was started with it. -/
theorem noteOn_begun (he : env.Ok) (hs : Ok env tame s) {c p v i : Nat} (hc : c < 16) (hp : p < 128) (hv : v < 128)
    (hv0 : v ≠ 0) (h0 : ¬Holds s i p) (h1 : Holds (noteOn env s c p v) i p) :
    ∃ t, Ok env tame t ∧ PsgSame c i s t ∧ noteOn env s c p v = startNote env t i c p v := by
  rcases noteOn_one he hs hc hp hv hv0 with ⟨-, -, h⟩ | ⟨j, t, -, -, ok, same, other, e⟩
  · have := h i
    unfold Holds at h0 h1
    rw [this] at h1
    exact absurd h1 h0
  · by_cases ij : i = j
    · subst ij; exact ⟨t, ok, same, e⟩
    · unfold Holds at h0 h1
      rw [e, startNote_dev hc, Psg.upd_other _ _ _ _ ij, other i ij] at h1
      exact absurd h1 h0

/-- The only voice of a MIDI channel is the one every note goes to. -/
theorem noteOn_only (he : env.Ok) (hs : Ok env tame s) {c p v i : Nat} (hc : c < 16) (hp : p < 128) (hv : v < 128)
    (hv0 : v ≠ 0) (hi : i < 13) (hd : s.dynamic = false) (hm : ∀ j, j < 13 → ((s.dev j).midiChannel = c ↔ j = i))
    (hg : (s.chan c).portamento = false) (hf : (held (s.chan c).stack).length < 10) :
    ∃ t, Ok env tame t ∧ PsgSame c i s t ∧ noteOn env s c p v = startNote env t i c p v := by
  have one : ∀ f : Nat → Bool, (∀ j, j < 13 → f j = true → (s.dev j).midiChannel = c) → ((List.range 13).filter f).length ≤ 1 := by
    intro f k
    have : ∀ j ∈ (List.range 13).filter f, j = i := fun j hj => by
      rw [List.mem_filter, List.mem_range] at hj
      exact (hm j hj.1).1 (k j hj.1 hj.2)
    have nd : ((List.range 13).filter f).Nodup := List.nodup_range.filter f
    match e : (List.range 13).filter f with
    | [] => simp
    | [_] => simp
    | a :: b :: l =>
      rw [e] at this nd
      have h1 := this a (by simp)
      have h2 := this b (by simp)
      simp [h1, h2] at nd
  have hfind : findFree s c = some i := by
    unfold findFree
    obtain ⟨lo, hi9⟩ : ∃ lo, ∃ hi, minMax s c = (lo, hi) := ⟨_, _, rfl⟩
    obtain ⟨hi9, e⟩ := hi9
    have hb : hi9 ≤ 9 := by
      unfold minMax at e
      split at e <;> · injection e with _ e; omega
    simp only [e, hd, Bool.not_false, if_true]
    split
    · rename_i j hj
      unfold findFreeMidiAssigned at hj
      have h1 := List.find?_some hj
      have h2 := List.mem_of_find?_eq_some hj
      simp only [Bool.and_eq_true, beq_iff_eq] at h1
      have : j < 13 := by
        simp only [span, List.mem_range'_1] at h2; omega
      rw [(hm j this).1 h1.1]
    · unfold devByMidi
      cases e2 : (List.range 13).find? fun i => (s.dev i).midiChannel == c with
      | none =>
        have := List.find?_eq_none.1 e2 i (List.mem_range.2 hi)
        simp only [beq_iff_eq] at this
        exact absurd ((hm i hi).2 rfl) this
      | some j =>
        have h1 := List.find?_some e2
        have h2 := List.mem_range.1 (List.mem_of_find?_eq_some e2)
        simp only [beq_iff_eq] at h1
        rw [(hm j h2).1 h1]
  unfold noteOn
  rw [if_neg hv0]
  have hperc : tooManyPercussive s c = false := by
    unfold tooManyPercussive
    by_cases e : c = 9
    · subst e
      have := one (fun i => (s.dev i).midiChannel == 9 && (s.dev i).noteOn) fun j _ h => by
        simp only [Bool.and_eq_true, beq_iff_eq] at h; exact h.1
      simp only [beq_self_eq_true, Bool.true_and, decide_eq_false_iff_not]
      omega
    · simp [e]
  simp only [hperc, Bool.false_eq_true, if_false, hfind]
  obtain ⟨l, hl, hl'⟩ := (hs.chan c hc).stack
  split
  · have nf : NotePriority.isFull (s.chan c).stack = false := by
      rw [Rep.held hl] at hf; rw [hl.isFull]; simp; omega
    simp only [nf, Bool.false_eq_true, if_false]
    obtain ⟨st, e, hr⟩ := hl.push p
    simp only [e]
    have h1 : Path env tame (fun _ => True) (· = c) (fun _ => False) (fun _ => False) s
        (setChan s c fun m => { m with stack := st, lastVelocity := v }) := by
      refine Path.refl.chan rfl hc { (hs.chan c hc) with velocity := hv, stack := ⟨_, hr, ?_⟩ }
      intro q hq
      split at hq
      · exact hl' q hq
      · rcases List.mem_append.1 hq with hq | hq
        · exact hl' q hq
        · simp at hq; rw [hq]; exact lt_top hp
    have h2 := h1.dev (f := fun d => { d with glide := 0 }) trivial hi
      { (h1.ok he hs).dev i hi with glide := lt_top (by decide : 0 < 128) }
    rw [if_neg (by simp [hg])]
    refine ⟨_, h2.ok he hs, ⟨rfl, fun k => ?_, ?_, ?_, ?_, ?_, ?_, rfl, ?_⟩, rfl⟩
    · exact (k.same rfl rfl : Memo i (setChan s c fun m => { m with stack := st, lastVelocity := v })).setDev rfl
    all_goals simp
  · exact ⟨s, hs, ⟨rfl, id, rfl, rfl, rfl, rfl, rfl, rfl, rfl⟩, rfl⟩

/-- A note started on a PSG voice is one note-on of the driver, for a channel with the volume and the envelope number of the
MIDI channel, at the pitch the MIDI channel's tuning gives the key. -/
theorem startNote_psgCall (he : env.Ok) (hs : Ok env tame s) {c p v i : Nat} (hc : c < 16) (hi : 6 ≤ i) (hi' : i < 10)
    (k : Memo i s) :
    ∃ f : Psg.St, Psg.Good env.psg f ∧ (f.ch (i - 6)).volume = (s.chan c).volume ∧
      (f.ch (i - 6)).envelope = (s.chan c).program ∧ f.userBuf = s.psg.userBuf ∧ f.userLoaded = s.psg.userLoaded ∧
      (startNote env s i c p v).psg =
        (let pc := effectivePitchCents p 0 (s.chan c).pitchBend (s.chan c).range (s.chan c).fineTune
         Psg.step env.psg f (.noteOn (i - 6) pc.pitch pc.cents v)) := by
  have hD : i < 13 := by omega
  unfold startNote
  extract_lets a b d
  have h0 : Path env tame (· = i) (fun _ => True) (fun _ => False) (fun _ => False) s a := by
    simp only [a]; split
    · exact devProgram_path (A := (· = i)) hs hD rfl (hs.chan c hc).program
    · exact .refl
  have h1 : Path env tame (· = i) (fun _ => True) (fun _ => False) (fun _ => False) s b :=
    h0.dev rfl (hs.lt i hD) { ((h0.ok he hs).dev i hD) with map := .inl hc }
  have ad : a.dev = s.dev := by
    simp only [a]; split
    · simp
    · rfl
  have ac : a.chan = s.chan := by
    simp only [a]; split
    · simp
    · rfl
  have bi : b.dev i = { s.dev i with midiChannel := c, noteOn := true, cents := 0, pitch := p } := by simp [b, ad]
  have bc : b.chan = s.chan := ac
  have h2 := h1.trans (updateDev_path (A := (· = i)) (h1.ok he hs) hD rfl he (by rw [bi]; exact hc))
  have okd := h2.ok he hs
  obtain ⟨l, hl, e⟩ := h2.frame.psg
  have us := Psg.run_user (env := env.psg) l (fun o ho => by
    rcases (hl o ho).1 with ⟨j, _, q⟩ | q
    · rw [q.2.2]; simp
    · exact q.elim) s.psg
  rw [← e] at us
  have di : d.dev i = ({ s.dev i with midiChannel := c, noteOn := true, cents := 0, pitch := p } : Dev).sync (s.chan c) := by
    simp only [d]
    rw [updateDev_dev (by rw [bi]; exact hc)]
    simp [bi, bc]
  have dc : d.chan = s.chan := by simp only [d, updateDev_chan]; exact bc
  have kd : Memo i d := by
    have ka : Ready True c i a := by
      simp only [a]
      split
      · have e : devProgram env s i (s.chan c).program = psgCall env s (.program (i - 6) (s.chan c).program) := by
          simp only [devProgram, (k.wired.own trivial).1, (k.wired.own trivial).2]
        rw [e]
        refine ⟨k.wired.of fun _ => rfl, fun _ => ?_, fun hp => ?_⟩
        · rcases Psg.program_memo (env := env.psg) (s := s.psg) (n := i - 6) (v := (s.chan c).program) with h | h
          · exact .inl h
          · rcases k.vol with f | f
            · exact .inl (Psg.onChan_fault _ _ _ f)
            · exact .inr ((congrArg (·.1) h).trans f)
        · rcases Psg.program_memo (env := env.psg) (s := s.psg) (n := i - 6) (v := (s.chan c).program) with h | h
          · exact .inl h
          · exact .inr ((congrArg (·.2) h).trans hp.symm)
      · exact k.ready
    have kb : Ready True c i b := ka.of (setDev_sig rfl) .refl rfl
    have hb : (b.dev i).midiChannel = c := by rw [bi]
    exact updateDev_own_memo (hb ▸ kb) (hb ▸ hc)
  have ed : (updateDev env b i).psg = d.psg := rfl
  rw [ed] at us
  obtain ⟨w1, w2⟩ := psg_ops okd hi hi'
  change (d.dev i).ops = .psg at w1
  change (d.dev i).num = i - 6 at w2
  have nf : ¬d.psg.fault = true := by
    have : (updateDev env b i).psg.fault = false := okd.psg.nofault
    rw [ed] at this; simp [this]
  refine ⟨d.psg, okd.psg, ?_, ?_, us.1, us.2, ?_⟩
  · rcases kd.vol with h | h
    · exact absurd h nf
    · rw [h, di]; rfl
  · rcases kd.prog with h | h
    · exact absurd h nf
    · rw [h, di]; rfl
  · unfold setDownstreamNoteOn withPitch
    have dm : (d.dev i).midiChannel = c := by rw [di]; rfl
    simp only [dm, dc, if_pos hc, devNoteOn, w1, w2]
    rw [di]
    rfl

end Mdmi.Midi
