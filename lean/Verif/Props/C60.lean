import Verif.Proofs.MidiPlay
import Verif.Proofs.MidiChannel3
import Verif.Props.C31
import Verif.Props.C38
import Verif.Props.C55
import Verif.Spec.Example
/-! C60: what a note-on plays. -/
namespace Mdmi.Props
open Mdmi Mdmi.Midi
open Mdmi.Synth (FmPreset FmChannel chipChannel chipOperator wantTl keyed extractPreset)

variable {env : Env}

/-- Between `s` and `t` FM channel `i` of the chip was keyed on: among the writes that were added, the last one to the key
register that names the channel has operator bits set. -/
def KeyedOn (s t : St) (i : Nat) : Prop :=
  ∃ new, t.fm.synth.out = new ++ s.fm.synth.out ∧ keyed new i = true

/-- The pitch of key `p` with tuning `T`, in cents above key 0. -/
def noteCents (p : Nat) (T : Tuning) : Int :=
  soundingCents p 0 T.bend (100 * (T.semitones : Int) + T.cents) T.fine

/-- The key, with bend and fine tune, is one FM can play: keys 11 to 106; and the bend by itself stays between 0 and 255. -/
def notePlayable (p : Nat) (T : Tuning) : Prop :=
  1100 ≤ noteCents p T ∧ noteCents p T < 10700 ∧ 0 ≤ noteCents p T - T.fine ∧ noteCents p T - T.fine < 25600

instance (p T) : Decidable (notePlayable p T) := by unfold notePlayable; infer_instance

/-- Messages that leave what voice `i` plays to program, volume, pan and tuning of its MIDI channel: none of the
controllers for FM parameters, stereo and preset storage, no sample playback on voice 6, no raw register writes, no preset
stores or clears, no system reset.  And of drums and rewiring only one: with `drums`, no remapping, no change of mode, no
controller 121 and no General MIDI reset; without, no note-ons on MIDI channel 10 (and, on voice 4, no controller 121, which
makes it the drum voice for a moment). -/
def ordinary (drums : Bool) (i : Nat) : Op → Prop
  | .noteOn c _ _ => drums = true ∨ c ≠ 9
  | .cc _ k v => ¬((14 ≤ k ∧ k ≤ 27) ∨ (39 ≤ k ∧ k ≤ 62) ∨ (70 ≤ k ∧ k ≤ 73) ∨ (75 ≤ k ∧ k ≤ 77) ∨ (90 ≤ k ∧ k ≤ 93) ∨ k = 87) ∧
      (k = 78 → i = 5 → v < 64) ∧ (k = 84 → drums = false) ∧ (k = 121 → drums = false ∧ i ≠ 3)
  | .sysex d _ => (d.take 3 = [0x00, 0x22, 0x77] → d.getD 3 0 ∉ [8, 9, 10, 11, 12]) ∧
      (drums = true → d.take 4 ∉ [[0x7E, 0x7F, 0x09, 0x01], [0x00, 0x22, 0x77, 0x00], [0x00, 0x22, 0x77, 0x03]])
  | .remap _ _ => drums = false
  | .reset => False
  | _ => True

theorem ordinary.keeps {drums : Bool} {i : Nat} {op : Op} (h : ordinary drums i op) :
    op.keeps True (drums = true) i := by
  cases op <;> simp only [ordinary] at h <;> simp only [Op.keeps, forall_const] <;> try trivial
  · rename_i c p v
    intro hd; exact h.resolve_left hd
  · rename_i c k v
    obtain ⟨h1, h2, h3, h4⟩ := h
    refine ⟨by omega, fun e e' => h2 e' e, fun _ => ⟨?_, by omega, fun e => (h4 e).2⟩, fun _ hd => ⟨fun e => ?_, fun e => ?_⟩⟩
    · simp [paramCc]; omega
    · rw [h3 e] at hd; cases hd
    · rw [(h4 e).1] at hd; cases hd
  · rename_i d j
    refine ⟨fun _ => ?_, fun _ => h.2⟩
    intro hm
    have h1 := h.1
    have h3 : d.take 3 = [0x00, 0x22, 0x77] ∧ d.getD 3 0 ∈ [8, 9, 10, 11, 12] := by
      match d with
      | [] => simp at hm
      | [a] => simp at hm
      | [a, b] => simp at hm
      | [a, b, c] => simp at hm
      | a :: b :: c :: e :: r =>
        simp only [List.take_succ_cons, List.take_zero, List.mem_cons, List.not_mem_nil, or_false, List.cons.injEq, and_true] at hm
        rcases hm with ⟨rfl, rfl, rfl, rfl⟩ | ⟨rfl, rfl, rfl, rfl⟩ | ⟨rfl, rfl, rfl, rfl⟩ <;> simp
    exact h1 h3.1 h3.2
  · intro hd; rw [h] at hd; cases hd

theorem ordinary.clean {drums : Bool} {i : Nat} {op : Op} (h : ordinary drums i op) : ¬op.raw ∧ ¬op.algorithmCc := by
  cases op <;> simp only [ordinary] at h <;> refine ⟨fun k => ?_, fun k => ?_⟩ <;> simp only [Op.raw, Op.algorithmCc] at k
  · omega
  · exact h.1 k.1 (by rcases k.2 with e | e <;> rw [e] <;> simp)

/-- Histories of ordinary messages, with bends or with sample playback but not both (C05). -/
def ordinaryHistory (drums : Bool) (i : Nat) (ops : List Op) : Prop :=
  (∀ op ∈ ops, op.Wf ∧ ordinary drums i op) ∧ ((∀ op ∈ ops, ¬op.enablesDac) ∨ (∀ op ∈ ops, ¬op.detunes))

theorem ordinaryHistory.level {drums : Bool} {i : Nat} {ops : List Op} (h : ordinaryHistory drums i ops) (b : Bool)
    (m : Sram.Mem) : Level env (run env (boot env b m) ops) :=
  ⟨b, m, ops, fun o ho => ⟨(h.1 o ho).1, (h.1 o ho).2.clean⟩, h.2, rfl⟩

theorem ordinaryHistory.snoc {drums : Bool} {i : Nat} {ops : List Op} (h : ordinaryHistory drums i ops) {c p v : Nat}
    (hw : Op.Wf (.noteOn c p v)) (ho : drums = true ∨ c ≠ 9) : ordinaryHistory drums i (ops ++ [.noteOn c p v]) := by
  refine ⟨fun o hm => ?_, ?_⟩
  · rcases List.mem_append.1 hm with hm | hm
    · exact h.1 o hm
    · rw [List.mem_singleton.1 hm]; exact ⟨hw, ho⟩
  · rcases h.2 with k | k
    · refine .inl fun o hm => ?_
      rcases List.mem_append.1 hm with hm | hm
      · exact k o hm
      · rw [List.mem_singleton.1 hm]; exact id
    · refine .inr fun o hm => ?_
      rcases List.mem_append.1 hm with hm | hm
      · exact k o hm
      · rw [List.mem_singleton.1 hm]; exact id

theorem pc_exact {key : Nat} {bend : Nat} {range : PitchCents} {fine : Int} {n : Int}
    (hb : bend < 16384) (hr : range.pitch < 128) (hr0 : 0 ≤ range.cents) (hr1 : range.cents < 128)
    (hn : soundingCents key 0 bend (100 * (range.pitch : Int) + range.cents) fine = n)
    (h0 : 0 ≤ n - fine) (h1 : n - fine < 25600) (h2 : 1100 ≤ n) (h3 : n < 10700) :
    let pc := effectivePitchCents key 0 bend range fine
    (11 ≤ pc.pitch ∧ pc.pitch ≤ 106) ∧ pc.pitch = n.toNat / 100 ∧ pc.cents = (n.toNat % 100 : Nat) := by
  intro pc
  rw [show 100 * (range.pitch : Int) + range.cents = (range.pitch : Int) * 100 + range.cents by omega] at hn
  have e0 : soundingCents key 0 bend ((range.pitch : Int) * 100 + range.cents) 0 = n - fine := by
    rw [← hn]; simp only [soundingCents]; omega
  obtain ⟨x1, x2, x3⟩ := Props.C20_bend_exact_partial key 0 bend range fine hb hr hr0 hr1
    (by rw [e0]; exact h0) (by rw [e0]; exact h1) (by rw [hn]; omega) (by rw [hn]; omega)
  rw [hn] at x1
  change ((pc.pitch : Int) * 100 + pc.cents = n) at x1
  change 0 ≤ pc.cents at x2
  change pc.cents < 100 at x3
  clear_value pc
  omega

/-- FM channel 3 is played as a voice of its own: at no moment of the history is a message for a special-mode voice, whose
operators are those of channel 3.  In static mode this says that no message is for MIDI channels 11 to 13
(`C85_channel_3_alone`). -/
def Channel3Alone (env : Env) (b : Bool) (m : Sram.Mem) (ops : List Op) : Prop :=
  ∀ pre op post, ops = pre ++ op :: post → op.apart (run env (boot env b m) pre)

theorem tl_sync (he : env.Ok) {i : Nat} (hi : i < 6) {ops : List Op} (h : ∀ op ∈ ops, op.Wf ∧ ¬op.raw ∧ ¬op.algorithmCc)
    (hd : (∀ op ∈ ops, ¬op.enablesDac) ∨ (∀ op ∈ ops, ¬op.detunes)) {b : Bool} {m : Sram.Mem}
    (h2 : i ≠ 2 ∨ Channel3Alone env b m ops) : Synth.TlSync (run env (boot env b m) ops).fm.synth i := by
  by_cases e : i = 2
  · subst e
    exact channel3_tl he b m ops h hd (h2.resolve_left (by simp))
  · exact (show Level env _ from ⟨b, m, ops, h, hd, rfl⟩).tl he hi e

/-- **C60** (partial).  After any ordinary history, a note-on (not on MIDI channel 10, velocity not 0) that keys an FM
channel leaves there, on the chip: the channel keyed, with the preset of the MIDI channel's program, the carriers lowered by
volume × velocity / 127, the sides of its pan, and a frequency within 5 cents of the key with bend, bend range and fine tune
of the MIDI channel - whatever the voice played before and for whichever MIDI channel.  Program, volume, pan and tuning are
those `settingsOf` and `tuningOf` read off the messages.  Missing: histories with other messages (FM parameter controllers,
preset stores, raw writes, resets, drums together with remapping; see C31, C38 for what goes wrong), a preset stored for
program 0 (C31), total levels of channel 3 when special-mode voices are played (false, `C85_violated_special_voice`), pitches FM cannot play, PSG
voices (C17), and which notes key a voice at all (C08, C10, C15). -/
theorem C60_note_plays_partial (he : env.Ok) (drums : Bool) (i : Nat) (hi : i < 6) (ops : List Op)
    (h : ordinaryHistory drums i ops) (b : Bool) (m : Sram.Mem)
    (hm : env.fm.sram = true → ∀ q, Sram.loadProgram m 0 ≠ .ok q) (h3 : drums = true → i ≠ 3 ∨ env.mode = .dynamic)
    (c p v : Nat) (hc : c < 16) (h9 : c ≠ 9) (hp : p < 128) (hv : v < 128) (hv0 : v ≠ 0) :
    let s := run env (boot env b m) ops
    let t := step env s (.noteOn c p v)
    let S := settingsOf c ops
    KeyedOn s t i → notePlayable p (tuningOf c ops) → ∀ q, PresetFor env s S.program q →
      keyed t.fm.synth.out i = true ∧
      (chipChannel t.fm.synth.out i).timbre =
        FmChannel.timbre ⟨q.algorithm, q.feedback, (chipChannel t.fm.synth.out i).stereo, q.ams, q.fms, 0, 0, q.ops⟩ ∧
      (i ≠ 2 ∨ Channel3Alone env b m (ops ++ [.noteOn c p v]) → SoundsLike t.fm.synth.out i q (S.volume * v / 127)) ∧
      PannedTo S.pan t.fm.synth.out i ∧
      Fm.InTune env.fm.pal (chipChannel t.fm.synth.out i).freq (noteCents p (tuningOf c ops)).toNat 5 := by
  intro s t S hk hpl q hq
  have hw : Op.Wf (.noteOn c p v) := ⟨hc, hp, hv⟩
  have h' := h.snoc hw (.inr h9)
  have et : t = run env (boot env b m) (ops ++ [.noteOn c p v]) := (run_snoc ..).symm
  have lt : Level env t := et ▸ h'.level b m
  have ts : i ≠ 2 ∨ Channel3Alone env b m (ops ++ [.noteOn c p v]) → Synth.TlSync t.fm.synth i :=
    fun x => et ▸ tl_sync he hi (fun o ho => ⟨(h'.1 o ho).1, (h'.1 o ho).2.clean⟩) h'.2 x
  have ks : Cached env True (drums = true) 13 i s := run_cached he hi ops (fun o ho => (h.1 o ho).2.keeps)
    (boot_cached he hi b m (fun _ => hm) fun _ => h3)
  have kt : Cached env True (drums = true) 13 i t := step_cached he hi (ordinary.keeps (.inr h9 : ordinary drums i (.noteOn c p v))) ks
  have ht := run_tuning (env := env) hc ops (fun o ho => (h.1 o ho).1) b m
  have hTb := tuning_bounds c ops (fun o ho => (h.1 o ho).1)
  have hS : (s.chan c).settings = S := run_settings hc ops b m
  obtain ⟨tame, ok⟩ := ((h.level (env := env) b m).clean.reached).ok he
  change Ok env tame s at ok
  change HasTuning _ c s at ht
  have et' : t = noteOn env s c p v := by simp only [t, step, if_pos hc]
  clear_value s
  obtain ⟨u, hu, sm, eu⟩ := noteOn_started he ok hc hp hv hv0 hi (et' ▸ hk)
  have n1 : (u.dev i).num = i := by rw [sm.num, ks.tie.num i (by omega), chipNum_lt6 hi]
  have n2 : (u.dev i).ops = .fm := by rw [sm.ops]; exact ks.tie.mine
  obtain ⟨f, f1, f2, f3, f4⟩ := startNote_call (p := p) (v := v) he hu hc hi n1 n2
  rw [← eu, ← et', sm.bend, sm.range, sm.fine] at f4
  rw [sm.fm] at f3
  simp only at f4
  obtain ⟨p1, p2, p3, p4⟩ := hpl
  have hn : soundingCents p 0 (s.chan c).pitchBend (100 * ((s.chan c).range.pitch : Int) + (s.chan c).range.cents) (s.chan c).fineTune
      = noteCents p (tuningOf c ops) := by
    rw [ht.bend, ht.semitones, ht.cents, ht.fine]; rfl
  have b1 : (s.chan c).pitchBend < 16384 := by rw [ht.bend]; exact hTb.1
  have b2 : (s.chan c).range.pitch < 128 := by rw [ht.semitones]; exact hTb.2.1
  have b3 : 0 ≤ (s.chan c).range.cents := by rw [ht.cents]; omega
  have b4 : (s.chan c).range.cents < 128 := by rw [ht.cents]; omega
  have pr := pc_exact b1 b2 b3 b4 hn (by rw [ht.fine]; exact p3) (by rw [ht.fine]; exact p4) p1 p2
  have pt := pitch_in_tune env.fm.pal b1 b2 b3 b4 hn (by rw [ht.fine]; exact p3) (by rw [ht.fine]; exact p4) p1 p2
  simp only at pr pt
  have pr := pr.1
  generalize effectivePitchCents p 0 (s.chan c).pitchBend (s.chan c).range (s.chan c).fineTune = pc at *
  have f2 : (f.ch i).percussive = false := by rw [f2]; simpa using h9
  obtain ⟨s1, s2, s3⟩ := Fm.noteOn_steps env.fm f (velocity := v) (cents := pc.cents) hi pr f2
  rw [← f4] at s1 s2 s3
  have vl := Fm.effectiveVolume_lt (c := { f.ch i with velocity := v }) (f1.chan i hi).1 hv
  have ch := s1.chip (Fm.noteCalls_legal env.fm hi vl.2) hi
  simp only [Fm.noteCalls, List.foldl_cons, List.foldl_nil, Synth.Op.requestFreq, Synth.Op.requestKey, if_true] at ch
  have dv : t.dev i = ({ u.dev i with midiChannel := c, noteOn := true, cents := 0, pitch := p } : Dev).sync (u.chan c) := by
    rw [et', eu, startNote_dev hc]; simp
  have inv := lt.clean.inv he
  obtain ⟨S1, S2, S3⟩ : (s.chan c).volume = S.volume ∧ (s.chan c).pan = S.pan ∧ (s.chan c).program = S.program := by
    rw [← hS]; exact ⟨rfl, rfl, rfl⟩
  have d1 : (t.dev i).volume = S.volume := by rw [dv, ← S1, ← sm.volume]; rfl
  have d2 : (t.dev i).pan = S.pan := by rw [dv, ← S2, ← sm.pan]; rfl
  have d3 : (t.dev i).program = S.program := by rw [dv, ← S3, ← sm.program]; rfl
  have d4 : (t.dev i).midiChannel = c := by rw [dv]; rfl
  have lk : Fm.Lookup env.fm t.fm S.program q := by
    refine ⟨?_, ?_⟩
    · rw [← S3]; exact (ok.chan c hc).program
    · rw [s3, f3]; exact hq
  have ex := kt.prog ⟨trivial, fun _ => by rw [d4]; exact h9⟩ q (by rw [d3]; exact lk)
  have vol : Fm.effectiveVolume (t.fm.ch i) = S.volume * v / 127 := by
    have e := kt.vol
    rw [d1] at e
    have w : (t.fm.ch i).velocity = v := by rw [s2]; simp
    have l := lt.clean.reached.ok he
    obtain ⟨_, l⟩ := l
    rw [(Fm.effectiveVolume_lt (l.fm.chan i hi).1 (l.fm.chan i hi).2).1, e, w]
  subst ex
  have tim : (chipChannel t.fm.synth.out i).timbre =
        FmChannel.timbre ⟨(t.fm.synth.ch i).algorithm, (t.fm.synth.ch i).feedback, (chipChannel t.fm.synth.out i).stereo,
          (t.fm.synth.ch i).ams, (t.fm.synth.ch i).fms, 0, 0, (t.fm.synth.ch i).ops⟩ := by
    have w := (inv.ch i hi).chip
    have z := congrArg FmChannel.stereo w
    simp only [FmChannel.timbre] at w z ⊢
    rw [w, z]
  refine ⟨ch.2, tim, fun h2 => ⟨tim, fun o ho => ?_⟩, ?_, ?_⟩
  · rw [← vol, ← lt.clean.volSync he i hi]
    exact (ts h2).chip (inv.ch i hi).ok ho
  · rw [← d2]; exact sides_eq hi inv kt
  · rw [ch.1]; exact pt

/-- **C60** (drums; partial).  A note-on on MIDI channel 10 that keys an FM channel leaves there the percussion preset of the
key, at the pitch the percussion table gives it (bend and fine tune of the channel added), the carriers lowered by
volume × velocity / 127, with the sides of the pan of MIDI channel 10 - whatever the voice played before, after any history
without raw register writes, controllers 14 and 77 and sample playback on this voice.  Missing: as above. -/
theorem C60_drum_plays_partial (he : env.Ok) (i : Nat) (hi : i < 6) (ops : List Op) (h : PanHistory i ops)
    (ha : ∀ c v, Op.cc c 14 v ∉ ops) (b : Bool) (m : Sram.Mem) (p v : Nat) (hp : p < 128) (hv : v < 128) (hv0 : v ≠ 0) :
    let s := run env (boot env b m) ops
    let t := step env s (.noteOn 9 p v)
    let S := settingsOf 9 ops
    let n := (noteCents p (tuningOf 9 ops)).toNat
    KeyedOn s t i → notePlayable p (tuningOf 9 ops) → ∀ d, env.fm.perc[n / 100]? = some d →
      keyed t.fm.synth.out i = true ∧
      (chipChannel t.fm.synth.out i).timbre = FmChannel.timbre ⟨d.preset.algorithm, d.preset.feedback,
        (chipChannel t.fm.synth.out i).stereo, d.preset.ams, d.preset.fms, 0, 0, d.preset.ops⟩ ∧
      (i ≠ 2 ∨ Channel3Alone env b m (ops ++ [.noteOn 9 p v]) → SoundsLike t.fm.synth.out i d.preset (S.volume * v / 127)) ∧
      PannedTo S.pan t.fm.synth.out i ∧
      (11 ≤ d.key ∧ d.key ≤ 106 →
        Fm.InTune env.fm.pal (chipChannel t.fm.synth.out i).freq (100 * d.key + n % 100) 5) := by
  intro s t S n hk hpl d hd
  have hc : 9 < 16 := by decide
  have h1 : ∀ o ∈ ops ++ [.noteOn 9 p v], o.Wf ∧ ¬o.raw ∧ ¬o.algorithmCc := by
    intro o ho
    rcases List.mem_append.1 ho with ho | ho
    · refine ⟨(h.1 o ho).1, (h.1 o ho).2.1, ?_⟩
      cases o <;> simp only [Op.algorithmCc, not_false_eq_true]
      rintro rfl; exact ha _ _ ho
    · rw [List.mem_singleton.1 ho]; exact ⟨⟨hc, hp, hv⟩, id, id⟩
  have h2 : (∀ op ∈ ops ++ [.noteOn 9 p v], ¬op.enablesDac) ∨ (∀ op ∈ ops ++ [.noteOn 9 p v], ¬op.detunes) := by
    rcases h.2 with k | k
    · refine .inl fun o hm => ?_
      rcases List.mem_append.1 hm with hm | hm
      · exact k o hm
      · rw [List.mem_singleton.1 hm]; exact id
    · refine .inr fun o hm => ?_
      rcases List.mem_append.1 hm with hm | hm
      · exact k o hm
      · rw [List.mem_singleton.1 hm]; exact id
  have et : t = run env (boot env b m) (ops ++ [.noteOn 9 p v]) := (run_snoc ..).symm
  have lt : Level env t := ⟨b, m, _, h1, h2, et⟩
  have ts : i ≠ 2 ∨ Channel3Alone env b m (ops ++ [.noteOn 9 p v]) → Synth.TlSync t.fm.synth i :=
    fun x => et ▸ tl_sync he hi h1 h2 x
  have ls : Reached env s := ⟨b, m, ops, fun o ho => (h.1 o ho).1, h.2, rfl⟩
  have ks : Cached env False False 13 i s := run_cached he hi ops (fun o ho => (h.1 o ho).keeps)
    (boot_cached he hi b m (fun h => h.elim) fun h => h.elim)
  have kt : Cached env False False 13 i t := step_cached he hi (fun h => h.elim) ks
  have ht := run_tuning (env := env) hc ops (fun o ho => (h.1 o ho).1) b m
  have hTb := tuning_bounds 9 ops (fun o ho => (h.1 o ho).1)
  have hS : (s.chan 9).settings = S := run_settings hc ops b m
  obtain ⟨tame, ok⟩ := ls.ok he
  change HasTuning _ 9 s at ht
  have et' : t = noteOn env s 9 p v := by simp only [t, step, if_pos hc]
  clear_value s
  obtain ⟨u, hu, sm, eu⟩ := noteOn_started he ok hc hp hv hv0 hi (et' ▸ hk)
  have n1 : (u.dev i).num = i := by rw [sm.num, ks.tie.num i (by omega), chipNum_lt6 hi]
  have n2 : (u.dev i).ops = .fm := by rw [sm.ops]; exact ks.tie.mine
  obtain ⟨f, f1, f2, f3, f4⟩ := startNote_call (p := p) (v := v) he hu hc hi n1 n2
  rw [← eu, ← et', sm.bend, sm.range, sm.fine] at f4
  simp only at f4
  obtain ⟨p1, p2, p3, p4⟩ := hpl
  have hn : soundingCents p 0 (s.chan 9).pitchBend (100 * ((s.chan 9).range.pitch : Int) + (s.chan 9).range.cents) (s.chan 9).fineTune
      = noteCents p (tuningOf 9 ops) := by
    rw [ht.bend, ht.semitones, ht.cents, ht.fine]; rfl
  have b1 : (s.chan 9).pitchBend < 16384 := by rw [ht.bend]; exact hTb.1
  have b2 : (s.chan 9).range.pitch < 128 := by rw [ht.semitones]; exact hTb.2.1
  have b3 : 0 ≤ (s.chan 9).range.cents := by rw [ht.cents]; omega
  have b4 : (s.chan 9).range.cents < 128 := by rw [ht.cents]; omega
  have pr := pc_exact b1 b2 b3 b4 hn (by rw [ht.fine]; exact p3) (by rw [ht.fine]; exact p4) p1 p2
  simp only at pr
  generalize effectivePitchCents p 0 (s.chan 9).pitchBend (s.chan 9).range (s.chan 9).fineTune = pc at *
  obtain ⟨pr, pr1, pr2⟩ := pr
  have f2 : (f.ch i).percussive = true := by rw [f2]; rfl
  obtain ⟨s1, s2, s3⟩ := Fm.noteOn_perc_steps env.fm f (velocity := v) (cents := pc.cents) hi pr f2 (pp := d) (by rw [pr1]; exact hd)
  rw [← f4] at s1 s2 s3
  have vl := Fm.effectiveVolume_lt (c := { f.ch i with velocity := v }) (f1.chan i hi).1 hv
  have hl : ∀ o ∈ (Synth.Op.preset i d.preset :: Fm.noteCalls env.fm i d.key pc.cents (Fm.effectiveVolume { f.ch i with velocity := v })),
      o.Legal := by
    intro o ho
    rcases List.mem_cons.1 ho with rfl | ho
    · exact Fm.legal_ch rfl hi rfl (he.fm.percOk d (List.mem_of_getElem? hd)).1
    · exact Fm.noteCalls_legal env.fm hi vl.2 o ho
  have ch := s1.chip hl hi
  have rq := s1.request_safe hl f1.synth hi
  simp only [Fm.noteCalls, List.foldl_cons, List.foldl_nil, Synth.Op.requestFreq, Synth.Op.requestKey, Synth.Op.request, if_true] at ch rq
  have dv : t.dev i = ({ u.dev i with midiChannel := 9, noteOn := true, cents := 0, pitch := p } : Dev).sync (u.chan 9) := by
    rw [et', eu, startNote_dev hc]; simp
  have inv := lt.clean.inv he
  obtain ⟨S1, S2⟩ : (s.chan 9).volume = S.volume ∧ (s.chan 9).pan = S.pan := by
    rw [← hS]; exact ⟨rfl, rfl⟩
  have d1 : (t.dev i).volume = S.volume := by rw [dv, ← S1, ← sm.volume]; rfl
  have d2 : (t.dev i).pan = S.pan := by rw [dv, ← S2, ← sm.pan]; rfl
  have vol : Fm.effectiveVolume (t.fm.ch i) = S.volume * v / 127 := by
    have e := kt.vol
    rw [d1] at e
    have w : (t.fm.ch i).velocity = v := by rw [s2]; simp
    obtain ⟨_, l⟩ := lt.clean.reached.ok he
    rw [(Fm.effectiveVolume_lt (l.fm.chan i hi).1 (l.fm.chan i hi).2).1, e, w]
  have tim : (chipChannel t.fm.synth.out i).timbre = FmChannel.timbre ⟨d.preset.algorithm, d.preset.feedback,
        (chipChannel t.fm.synth.out i).stereo, d.preset.ams, d.preset.fms, 0, 0, d.preset.ops⟩ := by
    have w := (inv.ch i hi).chip
    have z := congrArg FmChannel.stereo w
    rw [rq] at w z
    simp only [FmChannel.timbre] at w z ⊢
    rw [w, z]
  refine ⟨ch.2, tim, fun h2 => ⟨tim, fun o ho => ?_⟩, ?_, fun hk => ?_⟩
  · rw [← vol, ← lt.clean.volSync he i hi]
    have e := (ts h2).chip (inv.ch i hi).ok ho
    rw [rq] at e
    exact e
  · rw [← d2]; exact sides_eq hi inv kt
  · rw [ch.1, pr2]
    obtain ⟨r1, r2, r3⟩ := C21_in_range_and_in_tune env.fm.pal d.key (n % 100) hk (by omega)
    rw [Nat.mod_eq_of_lt r1, Nat.mod_eq_of_lt r2]
    exact r3

/-- The voice of FM channel 1 in dynamic mode: it played a drum, is given to MIDI channel 3 with its program, volume, pan
and bend, and sounds like that.  The sequence is ordinary. -/
example :
    let ops : List Op := [.program 3 5, .cc 3 7 64, .cc 3 10 0, .bend 3 16383, .noteOn 9 40 127, .noteOff 9 40]
    let s := Ex.after .dynamic ops
    let t := step (Ex.env .dynamic) s (.noteOn 3 60 100)
    let n := t.fm.synth.out.length - s.fm.synth.out.length
    t.fm.synth.out = t.fm.synth.out.take n ++ s.fm.synth.out ∧ keyed (t.fm.synth.out.take n) 0 = true ∧
      (s.dev 0).midiChannel = 9 ∧ (chipChannel s.fm.synth.out 0).algorithm = (Ex.preset 87).algorithm ∧
      settingsOf 3 ops = ⟨64, 0, 5⟩ ∧ notePlayable 60 (tuningOf 3 ops) ∧ noteCents 60 (tuningOf 3 ops) = 6199 ∧
      s.fm.user 5 = none ∧ Ex.fm.presets[5]? = some (Ex.preset 5) ∧
      (chipChannel t.fm.synth.out 0).algorithm = (Ex.preset 5).algorithm ∧ PannedTo 0 t.fm.synth.out 0 ∧
      (chipOperator t.fm.synth.out 0 3).totalLevel =
        wantTl (Ex.preset 5).algorithm 50 3 ((Ex.preset 5).ops.get 3).totalLevel ∧
      (chipChannel t.fm.synth.out 0).freq = (Fm.pitchToOctave 61, Fm.freqNum false 61 99) := by decide +kernel

example : ordinaryHistory true 0
    [.program 3 5, .cc 3 7 64, .cc 3 10 0, .bend 3 16383, .noteOn 9 40 127, .noteOff 9 40] ∧
    ∀ q, Sram.loadProgram Ex.mem 0 ≠ .ok q := by
  refine ⟨⟨by simp [ordinary, Op.Wf], .inl (by simp [Op.enablesDac])⟩, fun q h => ?_⟩
  have : Sram.loadProgram Ex.mem 0 = .empty := by decide +kernel
  rw [this] at h; cases h

/-- Drum 40 after a melody on the same voice. -/
example :
    let ops : List Op := [.program 0 5, .cc 9 7 64, .cc 9 10 127, .noteOn 0 60 100, .noteOff 0 60]
    let s := Ex.after .dynamic ops
    let t := step (Ex.env .dynamic) s (.noteOn 9 40 127)
    let n := t.fm.synth.out.length - s.fm.synth.out.length
    t.fm.synth.out = t.fm.synth.out.take n ++ s.fm.synth.out ∧ keyed (t.fm.synth.out.take n) 0 = true ∧
      notePlayable 40 (tuningOf 9 ops) ∧ Ex.fm.perc[40]? = some ⟨Ex.preset 87, 60⟩ ∧
      (chipChannel t.fm.synth.out 0).algorithm = (Ex.preset 87).algorithm ∧ PannedTo 127 t.fm.synth.out 0 ∧
      (chipChannel t.fm.synth.out 0).freq = (Fm.pitchToOctave 60, Fm.freqNum false 60 0) := by decide +kernel

end Mdmi.Props
