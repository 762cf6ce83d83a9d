import Verif.Proofs.MidiSample
import Verif.Props.C72
/-! C79: samples. -/
namespace Mdmi.Props
open Mdmi Mdmi.Midi
open Mdmi.Synth (sample ymReg)

variable {env : Env}

/-- Voice 6 plays samples. -/
def sampleMode (s : St) : Prop := (s.dev 5).ops = .dac

instance (s) : Decidable (sampleMode s) := by unfold sampleMode; infer_instance

/-- Messages that put voice 6 back on FM without telling the chip: reset all controllers (121) and GM reset. -/
def forgetsDac : Op → Bool
  | .cc _ k _ => k == 121
  | .sysex d _ => decide (d.take 4 = [0x7E, 0x7F, 0x09, 0x01])
  | _ => false

/-- Voice 6 and the driver agree. -/
private def Agree (s : St) : Prop := sampleMode s ↔ s.fm.synth.dacEnable = true

private theorem agree_samp {s t : St} (h : Samp True True s t) (k : Agree s) : Agree t := by
  unfold Agree sampleMode at *; rw [h.ops trivial, h.dac]; exact k

private theorem noteOn_any {s : St} {c p v : Nat} (hc : c < 16) : ∃ P, Samp P True s (noteOn env s c p v) := by
  by_cases h : v = 0
  · refine ⟨False, ?_⟩
    rw [show noteOn env s c p v = noteOff env s c p by rw [noteOn, if_pos h]]
    exact noteOff_samp c p fun x => x.elim
  · exact ⟨_, noteOn_samp hc p h⟩

private theorem agree_any {P : Prop} {s t : St} (h : Samp P True s t) (k : Agree s) : Agree t := by
  unfold Agree sampleMode at *; rw [h.ops trivial, h.dac]; exact k

private theorem cc_samp {P Q : Prop} {s : St} {c k v : Nat} (h78 : k ≠ 78) (hq : k = 121 → ¬Q) : Samp P Q s (cc env s c k v) :=
  (ccSwitch_samp c v h78 hq).trans (emit_samp _)

private theorem reset_agree (he : env.Ok) (s : St) : Agree (reset env s) := by
  have h := (reset_samp he s).1
  have h2 := (reset_state env s).2.1 5 (by omega)
  unfold Agree sampleMode
  rw [h, h2]
  simp [resetDev]

private theorem step_agree (he : env.Ok) {s : St} (k : Agree s) {op : Op} (hf : forgetsDac op = false) : Agree (step env s op) := by
  have u : Samp True True s (ub s) := ub_samp
  cases op with
  | noteOn c p v =>
    unfold step; simp only; split
    · rename_i hc; obtain ⟨P, h⟩ := noteOn_any (env := env) (s := s) (p := p) (v := v) hc; exact agree_any h k
    · exact agree_samp u k
  | noteOff c p =>
    unfold step; simp only; split
    · exact agree_any (P := False) (noteOff_samp c p fun x => x.elim) k
    · exact agree_samp u k
  | bend c b =>
    unfold step; simp only; split
    · exact agree_samp (pitchBend_samp c b) k
    · exact agree_samp u k
  | cc c n v =>
    simp only [forgetsDac, beq_eq_false_iff_ne] at hf
    unfold step; simp only; split
    · by_cases h : n = 78
      · subst h
        by_cases g : s.cfg.disableNonGm = true
        · exact agree_samp (cc78_ignored (.inl g)) k
        by_cases m : ∃ j, j < 13 ∧ (s.dev j).midiChannel = c
        · obtain ⟨h1, h2, -⟩ := cc78 (env := env) (v := v) (by simpa using g) m
          unfold Agree sampleMode
          rw [h1, h2]
          split <;> simp_all
        · exact agree_samp (cc78_ignored (.inr fun j hj e => m ⟨j, hj, e⟩)) k
      · exact agree_samp (cc_samp h fun e => absurd e hf) k
    · exact agree_samp u k
  | program c p =>
    unfold step; simp only; split
    · exact agree_samp (program_samp c p) k
    · exact agree_samp u k
  | sysex d j =>
    simp only [forgetsDac, decide_eq_false_iff_not] at hf
    exact agree_samp (sysex_samp d j fun e => absurd e hf) k
  | remap c i => exact agree_samp (remap_samp c i) k
  | reset => exact reset_agree he s
  | tick => exact agree_samp tick_samp k
  | psgTick => exact agree_samp (psgCall_samp _) k

/-- **C79** (mode; partial).  After any history without reset all controllers and GM reset (`C79_violated_gm_reset`,
`C79_violated_reset_controllers`) and without raw register writes, voice 6 plays samples exactly if the chip's DAC is on. -/
theorem C79_mode_agrees_partial (he : env.Ok) (b : Bool) (m : Sram.Mem) (ops : List Op) (hw : ∀ op ∈ ops, op.Wf ∧ ¬op.raw)
    (hd : (∀ op ∈ ops, ¬op.enablesDac) ∨ (∀ op ∈ ops, ¬op.detunes)) (hf : ∀ op ∈ ops, forgetsDac op = false) :
    let s := run env (boot env b m) ops
    ymReg s.fm.synth.out 0 0x2B / 128 = if sampleMode s then 1 else 0 := by
  intro s
  have k : Agree s := by
    have : ∀ (l : List Op), (∀ op ∈ l, forgetsDac op = false) → ∀ t, Agree t → Agree (run env t l) := by
      intro l
      induction l with
      | nil => intro _ t h; exact h
      | cons o l ih =>
        intro hl t h
        exact ih (fun op ho => hl op (by simp [ho])) _ (step_agree he h (hl o (by simp)))
    exact this ops hf _ (reset_agree he _)
  have inv := Clean.inv he ⟨b, m, ops, hw, hd, rfl⟩
  unfold Agree at k
  rw [inv.r2B]
  by_cases h : sampleMode s
  · rw [if_pos h, if_pos (k.1 h)]
  · rw [if_neg h, if_neg (fun e => h (k.2 e))]

/-! ### Which messages start and end samples -/

/-- Note messages that concern voice 6, from `s` to `t`; controller 78; system reset. -/
def touchesSample (s t : St) : Op → Prop
  | .noteOn c _ v => if v = 0 then (s.dev 5).midiChannel = c else (t.dev 5).midiChannel = c
  | .noteOff c _ => (s.dev 5).midiChannel = c
  | .cc _ k _ => k = 78
  | .reset => True
  | _ => False

/-- **C79** (frame).  In every state the engine reaches: no message but controller 78, system reset, and notes for voice 6 while
it plays samples starts or ends a sample - whatever the other voices, controllers, bends, programs, SysEx, mapping changes and
frames do. -/
theorem C79_nothing_else_touches_samples (he : env.Ok) (s : St) (hs : Reached env s) (op : Op)
    (h : ¬touchesSample s (step env s op) op ∨ (¬sampleMode s ∧ op ≠ .reset ∧ ∀ c v, op ≠ .cc c 78 v)) :
    sample (step env s op).fm.synth.out = sample s.fm.synth.out := by
  obtain ⟨tame, ok⟩ := hs.ok he
  have off : ∀ c p, ((s.dev 5).midiChannel ≠ c ∨ ¬sampleMode s) →
      sample (noteOff env s c p).fm.synth.out = sample s.fm.synth.out := by
    intro c p h
    refine (noteOff_samp (P := True) c p fun _ j hj hm => ?_).play trivial
    by_cases e : j = 5
    · subst e
      rcases h with h | h
      · exact absurd hm h
      · exact h
    · exact not_dac ok hj e
  cases op with
  | noteOn c p v =>
    simp only [step] at h ⊢
    by_cases hc : c < 16
    · rw [if_pos hc] at h ⊢
      by_cases hv : v = 0
      · rw [show noteOn env s c p v = noteOff env s c p by rw [noteOn, if_pos hv]]
        refine off c p ?_
        rcases h with h | h
        · left; simpa [touchesSample, hv] using h
        · exact .inr h.1
      · refine (noteOn_samp hc p hv).play fun j hj hd => ?_
        by_cases e : j = 5
        · subst e
          rcases h with h | h
          · simpa [touchesSample, hv] using h
          · exact absurd hd h.1
        · exact absurd hd (not_dac ok hj e)
    · rw [if_neg hc]; rfl
  | noteOff c p =>
    simp only [step]
    by_cases hc : c < 16
    · rw [if_pos hc]
      refine off c p ?_
      rcases h with h | h
      · exact .inl h
      · exact .inr h.1
    · rw [if_neg hc]; rfl
  | bend c b =>
    simp only [step]; split
    · exact (pitchBend_samp (P := True) (Q := True) c b).play trivial
    · rfl
  | cc c n v =>
    have hn : n ≠ 78 := by
      rcases h with h | h
      · exact h
      · rintro rfl; exact h.2.2 c v rfl
    simp only [step]; split
    · exact (cc_samp (P := True) (Q := False) hn fun _ => id).play trivial
    · rfl
  | program c p =>
    simp only [step]; split
    · exact (program_samp (P := True) (Q := True) c p).play trivial
    · rfl
  | sysex d j => simp only [step]; exact (sysex_samp (P := True) (Q := False) d j fun _ => id).play trivial
  | remap c i => simp only [step]; exact (remap_samp (P := True) (Q := True) c i).play trivial
  | reset =>
    rcases h with h | h
    · exact absurd trivial h
    · exact absurd rfl h.2.1
  | tick => simp only [step]; exact (tick_samp (P := True) (Q := True)).play trivial
  | psgTick => simp only [step]; exact (psgCall_samp (P := True) (Q := True) _).play trivial

/-- **C79** (switch).  Controller 78 on a channel that has a voice, unless only General MIDI controllers are accepted: from 64
it puts voice 6 in sample mode, and a sample that plays plays on if it was in that mode already; below 64 it puts the voice
back on FM and ends the sample.  A system reset ends it too. -/
theorem C79_switch (he : env.Ok) (s : St) (c v : Nat) (hc : c < 16) :
    (s.cfg.disableNonGm = false → (∃ j, j < 13 ∧ (s.dev j).midiChannel = c) →
      let t := step env s (.cc c 78 v)
      (sampleMode t ↔ 64 ≤ v) ∧ (v < 64 → sample t.fm.synth.out = none ∧ (t.dev 5).ops = .fm) ∧
      (64 ≤ v → s.fm.synth.dacEnable = true → sample t.fm.synth.out = sample s.fm.synth.out)) ∧
    (s.cfg.disableNonGm = true ∨ (∀ j, j < 13 → (s.dev j).midiChannel ≠ c) →
      let t := step env s (.cc c 78 v)
      (sampleMode t ↔ sampleMode s) ∧ sample t.fm.synth.out = sample s.fm.synth.out) ∧
    sample (step env s .reset).fm.synth.out = none ∧ ¬sampleMode (step env s .reset) := by
  refine ⟨fun hg hm => ?_, fun h => ?_, by simp only [step]; exact (reset_samp he s).2, ?_⟩
  · obtain ⟨h1, h2, h3⟩ := cc78 (env := env) (v := v) hg hm
    have e : step env s (.cc c 78 v) = cc env s c 78 v := by simp only [step, if_pos hc]
    intro t
    have et : t = cc env s c 78 v := e
    rw [et]
    unfold sampleMode
    rw [h2, h3]
    by_cases x : 64 ≤ v
    · have d : decide (v / 64 ≠ 0) = true := by rw [decide_eq_true_eq]; omega
      rw [d]
      exact ⟨by simp [x], fun y => by omega, fun _ y => by simp [y]⟩
    · have d : decide (v / 64 ≠ 0) = false := by rw [decide_eq_false_iff_not]; omega
      rw [d]
      exact ⟨by simp; omega, fun _ => by simp, fun y => absurd y x⟩
  · have k : Samp True True s (cc env s c 78 v) := cc78_ignored h
    simp only [step, if_pos hc]
    unfold sampleMode
    rw [k.ops trivial]
    exact ⟨Iff.rfl, k.play trivial⟩
  · unfold sampleMode
    simp only [step]
    rw [(reset_state env s).2.1 5 (by omega)]
    simp [resetDev]

/-! ### Notes -/

/-- What a key makes of the sample that plays: its own one if it has one. -/
def struck (env : Env) (p : Nat) (before : Option Nat) : Option Nat := if env.fm.pcm p then some p else before

/-- **C79** (note-on).  In every state the engine reaches, when voice 6 plays samples and comes to hold the key of a note-on, the
sample of that key is started, whatever volume, velocity, pan and program of the channel; a key that has none leaves the
previous sample playing. -/
theorem C79_note_plays (he : env.Ok) (s : St) (hs : Reached env s) (c p v : Nat) (hc : c < 16) (hp : p < 128) (hv : v < 128)
    (hv0 : v ≠ 0) (hm : sampleMode s) :
    let t := step env s (.noteOn c p v)
    ¬((s.dev 5).noteOn = true ∧ (s.dev 5).pitch = p) → (t.dev 5).noteOn = true → (t.dev 5).pitch = p →
      sample t.fm.synth.out = struck env p (sample s.fm.synth.out) := by
  intro t h0 h1 h2
  obtain ⟨tame, ok⟩ := hs.ok he
  have et : t = noteOn env s c p v := by simp only [t, step, if_pos hc]
  obtain ⟨u, oku, same, e⟩ := noteOn_begun he ok hc hp hv hv0 h0 ⟨et ▸ h1, et ▸ h2⟩
  rw [et, e, startNote_strike oku hc hp (same.ops.trans hm), same.fm]
  rfl

/-- **C79** (any note-on).  In every state the engine reaches with voice 6 in sample mode, a note-on reaches no voice, or is
started on one that was idle or belonged to the channel; if that is voice 6, the key's sample is started - also when the voice held
the same key before - otherwise the sample goes on. -/
theorem C79_some_voice_plays (he : env.Ok) (s : St) (hs : Reached env s) (c p v : Nat) (hc : c < 16) (hp : p < 128) (hv : v < 128)
    (hv0 : v ≠ 0) (hm : sampleMode s) :
    let t := step env s (.noteOn c p v)
    (sample t.fm.synth.out = sample s.fm.synth.out ∧
      ∀ j, (t.dev j).noteOn = (s.dev j).noteOn ∧ (t.dev j).pitch = (s.dev j).pitch) ∨
    ∃ i, i < 13 ∧ ((s.dev i).noteOn = false ∨ (s.dev i).midiChannel = c) ∧
      ((t.dev i).noteOn = true ∧ (t.dev i).pitch = p ∧ (t.dev i).midiChannel = c) ∧ (∀ j, j ≠ i → t.dev j = s.dev j) ∧
      sample t.fm.synth.out = if i = 5 then struck env p (sample s.fm.synth.out) else sample s.fm.synth.out := by
  intro t
  obtain ⟨tame, ok⟩ := hs.ok he
  have et : t = noteOn env s c p v := by simp only [t, step, if_pos hc]
  rcases noteOn_one he ok hc hp hv hv0 with ⟨h1, h2, h3⟩ | ⟨i, u, hi, own, oku, same, other, e⟩
  · rw [← et] at h1 h3
    exact .inl ⟨by rw [h1], fun j => by rw [h3 j]; exact ⟨rfl, rfl⟩⟩
  · refine .inr ⟨i, hi, own, ?_, fun j hj => ?_, ?_⟩
    · rw [et, e, startNote_dev hc, Psg.upd_same]; exact ⟨rfl, rfl, rfl⟩
    · rw [et, e, startNote_dev hc, Psg.upd_other _ _ _ _ hj, other j hj]
    · rw [et, e]
      split
      · rename_i h5
        subst h5
        rw [startNote_strike oku hc hp (same.ops.trans hm), same.fm]
        rfl
      · rename_i h5
        have k : Samp True True u (startNote env u i c p v) := startNote_samp i c p v fun _ => not_dac oku hi h5
        rw [k.play trivial, same.fm]

/-- **C79** (note-on of a channel whose only voice is voice 6; partial).  With a fixed mapping every note-on of the channel starts
its key's sample, the key that plays already included - unless the channel uses portamento (`C79_glide_is_silent`) or holds ten
keys (C15). -/
theorem C79_only_voice_plays_partial (he : env.Ok) (s : St) (hs : Reached env s) (c p v : Nat) (hc : c < 16) (hp : p < 128)
    (hv : v < 128) (hv0 : v ≠ 0) (hm : sampleMode s) (hd : s.dynamic = false)
    (ho : ∀ j, j < 13 → ((s.dev j).midiChannel = c ↔ j = 5)) (hg : (s.chan c).portamento = false)
    (hf : (held (s.chan c).stack).length < 10) :
    let t := step env s (.noteOn c p v)
    (t.dev 5).noteOn = true ∧ (t.dev 5).pitch = p ∧ sample t.fm.synth.out = struck env p (sample s.fm.synth.out) := by
  intro t
  obtain ⟨tame, ok⟩ := hs.ok he
  have et : t = noteOn env s c p v := by simp only [t, step, if_pos hc]
  obtain ⟨u, oku, same, e⟩ := noteOn_only he ok hc hp hv hv0 (by omega) hd ho hg hf
  refine ⟨?_, ?_, ?_⟩
  · rw [et, e, startNote_dev hc, Psg.upd_same]; rfl
  · rw [et, e, startNote_dev hc, Psg.upd_same]; rfl
  · rw [et, e, startNote_strike oku hc hp (same.ops.trans hm), same.fm]
    rfl

/-- **C79** (note-off).  Voice 6 plays samples and holds (or glides to) key `p` for channel `c`; the channel lets go of `p`.  If another voice of
the channel sounds, or the channel remembers no other key (key 0 counts as none, C16), the sample ends and the voice is free.
Otherwise the newest remembered key `q` takes over: its sample is started, or with portamento the old one plays on. -/
theorem C79_note_off (he : env.Ok) (s : St) (hs : Reached env s) (c p : Nat) (hc : c < 16) (hm : sampleMode s)
    (hown : (s.dev 5).midiChannel = c) (hon : (s.dev 5).noteOn = true)
    (hp : (if (s.dev 5).glide ≠ 0 then (s.dev 5).glide else (s.dev 5).pitch) = p) :
    let t := step env s (.noteOff c p)
    let q := ((held (s.chan c).stack).filter (· ≠ p)).getLastD 0
    ((∃ j, j < 13 ∧ j ≠ 5 ∧ (s.dev j).midiChannel = c ∧ (s.dev j).noteOn = true) ∨ q = 0 →
      sample t.fm.synth.out = none ∧ (t.dev 5).noteOn = false) ∧
    (¬(∃ j, j < 13 ∧ j ≠ 5 ∧ (s.dev j).midiChannel = c ∧ (s.dev j).noteOn = true) → q ≠ 0 →
      (t.dev 5).noteOn = true ∧
      sample t.fm.synth.out = if (s.chan c).portamento then sample s.fm.synth.out else struck env q (sample s.fm.synth.out)) := by
  intro t q
  obtain ⟨tame, ok⟩ := hs.ok he
  obtain ⟨l, hl, -⟩ := (ok.chan c hc).stack
  have hq : q = (l.filter (· ≠ p)).getLastD 0 := by show _ = _; simp only [q, Rep.held hl]
  have hit : Hit s c p 5 := by
    refine ⟨hown, ?_⟩
    have g := (ok.dev 5 (by omega)).glide
    have := top_le tame
    rw [isPlaying, hon, Nat.mod_eq_of_lt (by omega), hp]
    simp
  have et : t = noteOff env s c p := by simp only [t, step, if_pos hc]
  have k := noteOff_sample ok hc hl hm hit
  have d := (noteOff_eff (env := env) (p := p) hl).dev 5
  rw [if_pos ⟨by omega, hit⟩] at d
  rw [et, k, d, ← hq]
  have sv : singleVoice s c true = true ↔ ¬∃ j, j < 13 ∧ j ≠ 5 ∧ (s.dev j).midiChannel = c ∧ (s.dev j).noteOn = true := by
    constructor
    · rintro h ⟨j, h1, h2, h3⟩
      exact h2 (single_hit h h1 (by omega) h3 ⟨hown, hon⟩)
    · intro h
      unfold singleVoice
      have : (List.range 13).filter (fun i => (s.dev i).midiChannel == c && !(true && !(s.dev i).noteOn)) =
          (List.range 13).filter (fun i => i == 5) := by
        refine List.filter_congr fun j hj => ?_
        by_cases e : j = 5
        · subst e; simp [hown, hon]
        · have := fun x => h ⟨j, List.mem_range.1 hj, e, x⟩
          simp only [beq_eq_false_iff_ne.2 e]
          simpa using this
      rw [this]
      decide
  constructor
  · intro h
    have : ¬(singleVoice s c true = true ∧ q ≠ 0) := by
      rintro ⟨h1, h2⟩
      rcases h with h | h
      · exact sv.1 h1 h
      · exact h2 h
    rw [if_neg this]
    exact ⟨rfl, by rw [released, if_neg this]⟩
  · intro h1 h2
    have : singleVoice s c true = true ∧ q ≠ 0 := ⟨sv.2 h1, h2⟩
    rw [if_pos this, released, if_pos this]
    refine ⟨?_, rfl⟩
    split
    · exact hon
    · rfl

/-! ### Where it fails -/

/-- GM reset puts voice 6 back on FM but leaves the DAC on, in place of FM channel 6, whose notes nobody hears; the sample that
was playing plays on, and no note-off ends it. -/
theorem C79_violated_gm_reset :
    let s := Ex.after .static [.cc 5 78 127, .noteOn 5 60 100, .sysex [0x7E, 0x7F, 0x09, 0x01] 0, .noteOff 5 60, .noteOn 5 64 100]
    ¬sampleMode s ∧ ymReg s.fm.synth.out 0 0x2B = 128 ∧ (s.dev 5).noteOn = true ∧ Synth.keyed s.fm.synth.out 5 = true ∧
    sample s.fm.synth.out = some 60 := by decide +kernel

/-- The same after reset all controllers on voice 6's channel. -/
theorem C79_violated_reset_controllers :
    let s := Ex.after .static [.cc 5 78 127, .noteOn 5 60 100, .cc 5 121 0, .noteOff 5 60, .noteOn 5 64 100]
    ¬sampleMode s ∧ ymReg s.fm.synth.out 0 0x2B = 128 ∧ (s.dev 5).noteOn = true ∧ Synth.keyed s.fm.synth.out 5 = true ∧
    sample s.fm.synth.out = some 60 := by decide +kernel

/-- A second key with portamento: the voice glides to it, no sample starts. -/
theorem C79_glide_is_silent :
    let s := Ex.after .static ([.cc 5 78 127, .cc 5 65 127, .noteOn 5 60 100, .noteOn 5 72 100] ++ List.replicate 20 .tick)
    sampleMode s ∧ (s.dev 5).noteOn = true ∧ 60 < (s.dev 5).pitch ∧ sample s.fm.synth.out = some 60 := by decide +kernel

/-- With the firmware's samples: key 20 has none, and taking over from key 38 leaves the snare playing. -/
theorem C79_key_without_sample :
    let env := Shipped.env .static false false
    let s := run env (boot env true Ex.mem) [.cc 5 78 127, .noteOn 5 38 100, .noteOn 5 20 100]
    (s.dev 5).pitch = 20 ∧ (s.dev 5).noteOn = true ∧ sample s.fm.synth.out = some 38 := by decide +kernel

/-! ### Examples -/

/-- A note starts its sample; FM, PSG notes, All Notes Off elsewhere leave it; the second key's sample gives way to the first
again; the last note-off ends it. -/
example :
    let s := Ex.after .static [.cc 5 78 127, .noteOn 5 60 100, .noteOn 0 50 100, .noteOn 7 70 100, .cc 0 123 0, .bend 0 0x2000]
    let t := Ex.after .static [.cc 5 78 127, .noteOn 5 60 100, .noteOn 5 62 100]
    let u := Ex.after .static [.cc 5 78 127, .noteOn 5 60 100, .noteOn 5 62 100, .noteOff 5 62]
    let w := Ex.after .static [.cc 5 78 127, .noteOn 5 60 100, .noteOn 5 62 100, .noteOff 5 62, .noteOff 5 60]
    sampleMode s ∧ sample s.fm.synth.out = some 60 ∧ sample t.fm.synth.out = some 62 ∧ sample u.fm.synth.out = some 60 ∧
    sample w.fm.synth.out = none ∧ (w.dev 5).noteOn = false ∧ ymReg w.fm.synth.out 0 0x2B = 128 := by decide +kernel

/-- Controller 78 on another channel switches voice 6 as well; switched on again it lets the sample play; off, it ends it. -/
example :
    let on := [.cc 0 78 127, .noteOn 5 60 100, .cc 5 78 64]
    sample (Ex.after .static on).fm.synth.out = some 60 ∧ sampleMode (Ex.after .static on) ∧
    sample (Ex.after .static (on ++ [.cc 2 78 63])).fm.synth.out = none ∧ ¬sampleMode (Ex.after .static (on ++ [.cc 2 78 63])) ∧
    ymReg (Ex.after .static (on ++ [.cc 2 78 63])).fm.synth.out 0 0x2B = 0 := by decide +kernel

end Mdmi.Props
