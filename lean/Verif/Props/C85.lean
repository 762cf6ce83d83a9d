import Verif.Props.C60
import Verif.Props.C23
import Verif.Proofs.MidiFmKeyOns
/-! C85: an FM voice has the sound, the level and the sides of its MIDI channel at every moment. -/
namespace Mdmi.Props
open Mdmi Mdmi.Midi
open Mdmi.Synth (FmPreset FmChannel chipChannel chipOperator wantTl keyed keyOns)

variable {env : Env}

/-- **C85** (partial).  At every moment of every ordinary history, not only when notes begin, an FM voice has on the chip the
preset of the program its MIDI channel was last sent, the carriers lowered by the channel's volume × the velocity of the
voice's last note / 127, and the sides of the channel's pan: whatever the order of programs, volumes, pans, notes, releases
and glides.  Missing: remapping (`C85_violated_remapped`), MIDI channel 10
(C60), system resets, FM parameter controllers, raw writes and sample playback (C31, C38 say what goes wrong), the total
levels of channel 3 when special-mode voices are played, whose operators are the same. -/
theorem C85_sound_partial (he : env.Ok) (drums : Bool) (i : Nat) (hi : i < 6) (ops : List Op)
    (h : ordinaryHistory drums i ops) (hr : ∀ op ∈ ops, ¬op.rewires) (b : Bool) (m : Sram.Mem)
    (hm : env.fm.sram = true → ∀ q, Sram.loadProgram m 0 ≠ .ok q) (h3 : drums = true → i ≠ 3 ∨ env.mode = .dynamic)
    (c : Nat) (hc : c < 16) (h9 : c ≠ 9) :
    let s := run env (boot env b m) ops
    let S := settingsOf c ops
    (s.dev i).midiChannel = c → ∀ q, PresetFor env s S.program q →
      (chipChannel s.fm.synth.out i).timbre =
        FmChannel.timbre ⟨q.algorithm, q.feedback, (chipChannel s.fm.synth.out i).stereo, q.ams, q.fms, 0, 0, q.ops⟩ ∧
      (i ≠ 2 ∨ Channel3Alone env b m ops → SoundsLike s.fm.synth.out i q (S.volume * (s.fm.ch i).velocity / 127)) ∧
      PannedTo S.pan s.fm.synth.out i := by
  intro s S hmc q hq
  have lt : Level env s := h.level b m
  have ts : i ≠ 2 ∨ Channel3Alone env b m ops → Synth.TlSync s.fm.synth i := tl_sync he hi (fun o ho => ⟨(h.1 o ho).1, (h.1 o ho).2.clean⟩) h.2
  have kt : Cached env True (drums = true) 13 i s := run_cached he hi ops (fun o ho => (h.1 o ho).2.keeps)
    (boot_cached he hi b m (fun _ => hm) fun _ => h3)
  have vs : (s.dev i).settings = S := voice_settings ops hr b m (by omega) hc hmc
  have cs : (s.chan c).settings = S := run_settings hc ops b m
  obtain ⟨tame, ok⟩ := lt.clean.reached.ok he
  have inv := lt.clean.inv he
  have vol := lt.clean.volSync he i hi
  have pb : S.program < 128 := by rw [← cs]; exact (ok.chan c hc).program
  clear_value s S
  subst vs
  have ex := kt.prog ⟨trivial, fun _ => by rw [hmc]; exact h9⟩ q ⟨pb, hq⟩
  subst ex
  have tim : (chipChannel s.fm.synth.out i).timbre =
        FmChannel.timbre ⟨(s.fm.synth.ch i).algorithm, (s.fm.synth.ch i).feedback, (chipChannel s.fm.synth.out i).stereo,
          (s.fm.synth.ch i).ams, (s.fm.synth.ch i).fms, 0, 0, (s.fm.synth.ch i).ops⟩ := by
    have w := (inv.ch i hi).chip
    have z := congrArg FmChannel.stereo w
    simp only [FmChannel.timbre] at w z ⊢
    rw [w, z]
  refine ⟨tim, fun h2 => ⟨tim, fun o ho => ?_⟩, sides_eq hi inv kt⟩
  have e := (ts h2).chip (inv.ch i hi).ok ho
  rw [vol, (Fm.effectiveVolume_lt (ok.fm.chan i hi).1 (ok.fm.chan i hi).2).1, kt.vol] at e
  exact e

/-- **C85** (levels under FM parameters; partial).  Also when the channel's operators are edited by controllers, loaded from user
presets or reset by the system, the total levels on the chip are at every moment the operators' own levels, those of the
carriers lowered by the channel's volume × velocity / 127.  Missing: the algorithm controller (C23), stereo controller,
raw writes and sample playback on this voice, remapping, FM channel 3 when special-mode voices are played. -/
theorem C85_levels_partial (he : env.Ok) (i : Nat) (hi : i < 6) (ops : List Op) (h : PanHistory i ops)
    (ha : ∀ c v, Op.cc c 14 v ∉ ops) (hr : ∀ op ∈ ops, ¬op.rewires) (b : Bool) (m : Sram.Mem)
    (h2 : i ≠ 2 ∨ Channel3Alone env b m ops) (c : Nat) (hc : c < 16) :
    let s := run env (boot env b m) ops
    (s.dev i).midiChannel = c → ∀ o < 4, (chipOperator s.fm.synth.out i o).totalLevel =
      wantTl (chipChannel s.fm.synth.out i).algorithm ((settingsOf c ops).volume * (s.fm.ch i).velocity / 127) o
        ((s.fm.synth.ch i).ops.get o).totalLevel := by
  intro s hmc o ho
  have hl : ∀ op ∈ ops, op.Wf ∧ ¬op.raw ∧ ¬op.algorithmCc := fun o ho => ⟨(h.1 o ho).1, (h.1 o ho).2.1, by
    cases o <;> simp only [Op.algorithmCc, not_false_eq_true]
    rintro rfl; exact ha _ _ ho⟩
  have lt : Level env s := ⟨b, m, ops, hl, h.2, rfl⟩
  have ts : i ≠ 2 ∨ Channel3Alone env b m ops → Synth.TlSync s.fm.synth i := tl_sync he hi hl h.2
  have kt : Cached env False False 13 i s := (hist_cached he hi h b m).1
  have vs : (s.dev i).settings = settingsOf c ops := voice_settings ops hr b m (by omega) hc hmc
  obtain ⟨tame, ok⟩ := lt.clean.reached.ok he
  have inv := lt.clean.inv he
  have vol := lt.clean.volSync he i hi
  clear_value s
  have e := (ts h2).chip (inv.ch i hi).ok ho
  rw [vol, (Fm.effectiveVolume_lt (ok.fm.chan i hi).1 (ok.fm.chan i hi).2).1, kt.vol] at e
  have a : (chipChannel s.fm.synth.out i).algorithm = (s.fm.synth.ch i).algorithm :=
    (congrArg FmChannel.algorithm (inv.ch i hi).chip :)
  rw [a, ← vs]
  exact e

/-- **C85** (volume 0).  While a MIDI channel's volume is 0, every operator of its FM voices that can be heard is at the
lowest level of the chip, whatever is played on it and whatever happens to its sound. -/
theorem C85_volume_zero_silent (he : env.Ok) (i : Nat) (hi : i < 6) (ops : List Op) (h : PanHistory i ops)
    (ha : ∀ c v, Op.cc c 14 v ∉ ops) (hr : ∀ op ∈ ops, ¬op.rewires) (b : Bool) (m : Sram.Mem)
    (h2 : i ≠ 2 ∨ Channel3Alone env b m ops) (c : Nat) (hc : c < 16)
    (hv : (settingsOf c ops).volume = 0) :
    let s := run env (boot env b m) ops
    (s.dev i).midiChannel = c → ∀ o ∈ Synth.carriers (chipChannel s.fm.synth.out i).algorithm,
      (chipOperator s.fm.synth.out i o).totalLevel = 127 := by
  intro s hmc o ho
  have e := C85_levels_partial he i hi ops h ha hr b m h2 c hc hmc
  have inv := (hist_cached he hi h b m).2
  have h4 : o < 4 := by
    revert ho
    unfold Synth.carriers
    split <;> simp <;> omega
  rw [e o h4, hv, Nat.zero_mul, Nat.zero_div]
  exact (C23_curve _ o _ 0 0 (Nat.le_refl 0) (by omega) (Synth.get_ok (inv.ch i hi).ok.ops o).totalLevel).2.2.1 ho

/-- A note-on that keys an FM channel tells the driver its velocity. -/
private theorem note_velocity (he : env.Ok) (drums : Bool) (i : Nat) (hi : i < 6) (ops : List Op)
    (h : ordinaryHistory drums i ops) (b : Bool) (m : Sram.Mem)
    (hm : env.fm.sram = true → ∀ q, Sram.loadProgram m 0 ≠ .ok q) (h3 : drums = true → i ≠ 3 ∨ env.mode = .dynamic)
    (c p v : Nat) (hc : c < 16) (h9 : c ≠ 9) (hp : p < 128) (hv : v < 128) (hv0 : v ≠ 0) :
    let s := run env (boot env b m) ops
    let t := step env s (.noteOn c p v)
    KeyedOn s t i → notePlayable p (tuningOf c ops) → (t.fm.ch i).velocity = v := by
  intro s t hk hpl
  have ks : Cached env True (drums = true) 13 i s := run_cached he hi ops (fun o ho => (h.1 o ho).2.keeps)
    (boot_cached he hi b m (fun _ => hm) fun _ => h3)
  have ht := run_tuning (env := env) hc ops (fun o ho => (h.1 o ho).1) b m
  have hTb := tuning_bounds c ops (fun o ho => (h.1 o ho).1)
  obtain ⟨tame, ok⟩ := ((h.level (env := env) b m).clean.reached).ok he
  change Ok env tame s at ok
  change HasTuning _ c s at ht
  have et' : t = noteOn env s c p v := by simp only [t, step, if_pos hc]
  clear_value s
  obtain ⟨u, hu, sm, eu⟩ := noteOn_started he ok hc hp hv hv0 hi (et' ▸ hk)
  have n1 : (u.dev i).num = i := by rw [sm.num, ks.tie.num i (by omega), chipNum_lt6 hi]
  have n2 : (u.dev i).ops = .fm := by rw [sm.ops]; exact ks.tie.mine
  obtain ⟨f, f1, f2, f3, f4⟩ := startNote_call (p := p) (v := v) he hu hc hi n1 n2
  rw [← eu, ← et', sm.bend, sm.range, sm.fine] at f4
  simp only at f4
  obtain ⟨p1, p2, p3, p4⟩ := hpl
  have hn : soundingCents p 0 (s.chan c).pitchBend (100 * ((s.chan c).range.pitch : Int) + (s.chan c).range.cents) (s.chan c).fineTune
      = noteCents p (tuningOf c ops) := by
    rw [ht.bend, ht.semitones, ht.cents, ht.fine]; rfl
  have pr := pc_exact (by rw [ht.bend]; exact hTb.1) (by rw [ht.semitones]; exact hTb.2.1) (by rw [ht.cents]; omega)
    (by rw [ht.cents]; omega) hn (by rw [ht.fine]; exact p3) (by rw [ht.fine]; exact p4) p1 p2
  simp only at pr
  obtain ⟨-, s2, -⟩ := Fm.noteOn_steps env.fm f (velocity := v)
    (cents := (effectivePitchCents p 0 (s.chan c).pitchBend (s.chan c).range (s.chan c).fineTune).cents) hi pr.1
    (by rw [f2]; simpa using h9)
  rw [← f4] at s2
  rw [s2]; simp

/-- **C85** (the velocity; partial).  From the note-on that keyed it until it is keyed again, an FM voice sounds with the
volume of its MIDI channel × the velocity of that note-on / 127, whatever programs, volumes, pans, bends, pedals, notes on
other voices and clock ticks come in between: changes of volume and program act on the sounding note and do not lose its
velocity.  Missing: as above. -/
theorem C85_struck_partial (he : env.Ok) (drums : Bool) (i : Nat) (hi : i < 6) (pre post : List Op) (c p v : Nat)
    (h : ordinaryHistory drums i (pre ++ .noteOn c p v :: post)) (hr : ∀ op ∈ pre ++ .noteOn c p v :: post, ¬op.rewires)
    (b : Bool) (m : Sram.Mem) (hm : env.fm.sram = true → ∀ q, Sram.loadProgram m 0 ≠ .ok q)
    (h3 : drums = true → i ≠ 3 ∨ env.mode = .dynamic) (h9 : c ≠ 9) (hv0 : v ≠ 0)
    (h2 : i ≠ 2 ∨ Channel3Alone env b m (pre ++ .noteOn c p v :: post)) :
    let s := run env (boot env b m) pre
    let t := step env s (.noteOn c p v)
    let u := run env t post
    let S := settingsOf c (pre ++ .noteOn c p v :: post)
    KeyedOn s t i → notePlayable p (tuningOf c pre) → keyOns u.fm.synth.out i = keyOns t.fm.synth.out i →
      (u.dev i).midiChannel = c → ∀ q, PresetFor env u S.program q →
      SoundsLike u.fm.synth.out i q (S.volume * v / 127) ∧ PannedTo S.pan u.fm.synth.out i := by
  intro s t u S hk hpl hn hmc q hq
  have eu : u = run env (boot env b m) (pre ++ .noteOn c p v :: post) := by
    simp only [u, t, s, run, List.foldl_append, List.foldl_cons]
  obtain ⟨hc, hp, hv⟩ := (h.1 (.noteOn c p v) (by simp)).1
  have hpre : ordinaryHistory drums i pre :=
    ⟨fun o ho => h.1 o (by simp [ho]), h.2.imp (fun k o ho => k o (by simp [ho])) fun k o ho => k o (by simp [ho])⟩
  have hmid : ordinaryHistory drums i (pre ++ [.noteOn c p v]) :=
    hpre.snoc ⟨hc, hp, hv⟩ (.inr h9)
  have e1 : (t.fm.ch i).velocity = v := note_velocity he drums i hi pre hpre b m hm h3 c p v hc h9 hp hv hv0 hk hpl
  have e2 : (u.fm.ch i).velocity = v := by
    have step : ∀ tame, Ok env tame t → (∀ op ∈ post, (tame = false → ¬op.enablesDac) ∧ (tame = true → ¬op.detunes)) →
        (u.fm.ch i).velocity = v := by
      intro tame ok hd
      have k := run_velocity he hi post t ok fun op ho => by
        have w := h.1 op (by simp [ho])
        refine ⟨w.1, ?_, hd op ho⟩
        rintro rfl; exact w.2
      rcases k.2 with k | k
      · rw [← e1]; exact k
      · change keyOns t.fm.synth.out i < keyOns u.fm.synth.out i at k
        omega
    have et : t = run env (boot env b m) (pre ++ [.noteOn c p v]) := (run_snoc ..).symm
    rcases h.2 with k | k
    · refine step false (et ▸ run_ok he _ _ (boot_ok he b m) (fun o ho => (hmid.1 o ho).1) (fun _ o ho => ?_) (by simp)) fun o ho => ⟨fun _ => k o (by simp [ho]), by simp⟩
      rcases List.mem_append.1 ho with ho | ho
      · exact k o (by simp [ho])
      · rw [List.mem_singleton.1 ho]; exact id
    · refine step true (et ▸ run_ok he _ _ (boot_ok he b m) (fun o ho => (hmid.1 o ho).1) (by simp) (fun _ o ho => ?_)) fun o ho => ⟨by simp, fun _ => k o (by simp [ho])⟩
      rcases List.mem_append.1 ho with ho | ho
      · exact k o (by simp [ho])
      · rw [List.mem_singleton.1 ho]; exact id
  have fin := C85_sound_partial he drums i hi _ h hr b m hm h3 c hc h9
  simp only at fin
  rw [← eu] at fin
  obtain ⟨-, f2, f3⟩ := fin hmc q hq
  have f2 := f2 h2
  rw [e2] at f2
  exact ⟨f2, f3⟩

/-- A note-on that keys an FM channel tells the driver its velocity, drums included. -/
private theorem any_velocity (he : env.Ok) (i : Nat) (hi : i < 6) (ops : List Op) (h : PanHistory i ops) (b : Bool) (m : Sram.Mem)
    (c p v : Nat) (hc : c < 16) (hp : p < 128) (hv : v < 128) (hv0 : v ≠ 0) :
    let s := run env (boot env b m) ops
    let t := step env s (.noteOn c p v)
    KeyedOn s t i → notePlayable p (tuningOf c ops) → (t.fm.ch i).velocity = v := by
  intro s t hk hpl
  have ls : Reached env s := ⟨b, m, ops, fun o ho => (h.1 o ho).1, h.2, rfl⟩
  have ks : Cached env False False 13 i s := (hist_cached he hi h b m).1
  have ht := run_tuning (env := env) hc ops (fun o ho => (h.1 o ho).1) b m
  have hTb := tuning_bounds c ops (fun o ho => (h.1 o ho).1)
  obtain ⟨tame, ok⟩ := ls.ok he
  change HasTuning _ c s at ht
  have et' : t = noteOn env s c p v := by simp only [t, step, if_pos hc]
  clear_value s
  obtain ⟨u, hu, sm, eu⟩ := noteOn_started he ok hc hp hv hv0 hi (et' ▸ hk)
  have n1 : (u.dev i).num = i := by rw [sm.num, ks.tie.num i (by omega), chipNum_lt6 hi]
  have n2 : (u.dev i).ops = .fm := by rw [sm.ops]; exact ks.tie.mine
  obtain ⟨f, f1, f2, f3, f4⟩ := startNote_call (p := p) (v := v) he hu hc hi n1 n2
  rw [← eu, ← et', sm.bend, sm.range, sm.fine] at f4
  simp only at f4
  obtain ⟨p1, p2, p3, p4⟩ := hpl
  have hn : soundingCents p 0 (s.chan c).pitchBend (100 * ((s.chan c).range.pitch : Int) + (s.chan c).range.cents) (s.chan c).fineTune
      = noteCents p (tuningOf c ops) := by
    rw [ht.bend, ht.semitones, ht.cents, ht.fine]; rfl
  have pr := pc_exact (by rw [ht.bend]; exact hTb.1) (by rw [ht.semitones]; exact hTb.2.1) (by rw [ht.cents]; omega)
    (by rw [ht.cents]; omega) hn (by rw [ht.fine]; exact p3) (by rw [ht.fine]; exact p4) p1 p2
  simp only at pr
  generalize effectivePitchCents p 0 (s.chan c).pitchBend (s.chan c).range (s.chan c).fineTune = pc at *
  by_cases h9 : (f.ch i).percussive = true
  · have hl : pc.pitch < env.fm.perc.length := by rw [he.fm.perc]; omega
    obtain ⟨-, s2, -⟩ := Fm.noteOn_perc_steps env.fm f (velocity := v) (cents := pc.cents) hi pr.1 h9
      (List.getElem?_eq_getElem hl)
    rw [← f4] at s2
    rw [s2]; simp
  · obtain ⟨-, s2, -⟩ := Fm.noteOn_steps env.fm f (velocity := v) (cents := pc.cents) hi pr.1 (by simpa using h9)
    rw [← f4] at s2
    rw [s2]; simp

/-- **C85** (the velocity, drums and FM parameters included; partial).  From the note-on that keyed it until it is keyed again
the carriers of an FM voice are lowered by the volume of its MIDI channel × the velocity of that note-on / 127, on MIDI
channel 10 as on the others, also when its operators are edited or reloaded under the note, and its sides are those of the
channel's pan.  Missing: as in `C85_levels_partial`; a system reset under the note. -/
theorem C85_struck_levels_partial (he : env.Ok) (i : Nat) (hi : i < 6) (pre post : List Op) (c p v : Nat)
    (h : PanHistory i (pre ++ .noteOn c p v :: post)) (ha : ∀ d w, Op.cc d 14 w ∉ pre ++ .noteOn c p v :: post)
    (hr : ∀ op ∈ pre ++ .noteOn c p v :: post, ¬op.rewires) (hx : Op.reset ∉ post) (b : Bool) (m : Sram.Mem) (hv0 : v ≠ 0)
    (h2 : i ≠ 2 ∨ Channel3Alone env b m (pre ++ .noteOn c p v :: post)) :
    let s := run env (boot env b m) pre
    let t := step env s (.noteOn c p v)
    let u := run env t post
    let S := settingsOf c (pre ++ .noteOn c p v :: post)
    KeyedOn s t i → notePlayable p (tuningOf c pre) → keyOns u.fm.synth.out i = keyOns t.fm.synth.out i →
      (u.dev i).midiChannel = c →
      (∀ o < 4, (chipOperator u.fm.synth.out i o).totalLevel =
        wantTl (chipChannel u.fm.synth.out i).algorithm (S.volume * v / 127) o ((u.fm.synth.ch i).ops.get o).totalLevel) ∧
      PannedTo S.pan u.fm.synth.out i := by
  intro s t u S hk hpl hn hmc
  have eu : u = run env (boot env b m) (pre ++ .noteOn c p v :: post) := by
    simp only [u, t, s, run, List.foldl_append, List.foldl_cons]
  obtain ⟨hc, hp, hv⟩ := (h.1 (.noteOn c p v) (by simp)).1
  have hpre : PanHistory i pre :=
    ⟨fun o ho => h.1 o (by simp [ho]), h.2.imp (fun k o ho => k o (by simp [ho])) fun k o ho => k o (by simp [ho])⟩
  have e1 : (t.fm.ch i).velocity = v := any_velocity he i hi pre hpre b m c p v hc hp hv hv0 hk hpl
  have e2 : (u.fm.ch i).velocity = v := by
    have step : ∀ tame, Ok env tame t → (∀ op ∈ post, (tame = false → ¬op.enablesDac) ∧ (tame = true → ¬op.detunes)) →
        (u.fm.ch i).velocity = v := by
      intro tame ok hd
      have k := run_velocity he hi post t ok fun op ho =>
        ⟨(h.1 op (by simp [ho])).1, fun e => hx (e ▸ ho), hd op ho⟩
      rcases k.2 with k | k
      · rw [← e1]; exact k
      · change keyOns t.fm.synth.out i < keyOns u.fm.synth.out i at k
        omega
    have et : t = run env (boot env b m) (pre ++ [.noteOn c p v]) := (run_snoc ..).symm
    have hw : ∀ o ∈ pre ++ [.noteOn c p v], o.Wf := fun o ho => (h.1 o (by
      rcases List.mem_append.1 ho with ho | ho
      · simp [ho]
      · simp [List.mem_singleton.1 ho])).1
    rcases h.2 with k | k
    · refine step false (et ▸ run_ok he _ _ (boot_ok he b m) hw (fun _ o ho => ?_) (by simp)) fun o ho => ⟨fun _ => k o (by simp [ho]), by simp⟩
      rcases List.mem_append.1 ho with ho | ho
      · exact k o (by simp [ho])
      · rw [List.mem_singleton.1 ho]; exact id
    · refine step true (et ▸ run_ok he _ _ (boot_ok he b m) hw (by simp) (fun _ o ho => ?_)) fun o ho => ⟨by simp, fun _ => k o (by simp [ho])⟩
      rcases List.mem_append.1 ho with ho | ho
      · exact k o (by simp [ho])
      · rw [List.mem_singleton.1 ho]; exact id
  have fin := C85_levels_partial he i hi _ h ha hr b m h2 c hc
  have vs := voice_settings (env := env) _ hr b m (i := i) (by omega) hc
  obtain ⟨kt, inv⟩ := hist_cached he hi h b m
  simp only at fin
  rw [← eu] at fin vs kt inv
  have fin := fin hmc
  rw [e2] at fin
  refine ⟨fin, ?_⟩
  have := sides_eq hi inv kt
  rwa [show (u.dev i).pan = S.pan from (congrArg Settings.pan (vs hmc) :)] at this

/-- **C85** (FM channel 3).  In static mode a history whose messages are for other MIDI channels than 11 to 13 (0-based 10 to
12), that changes no mapping and resets nothing, leaves FM channel 3 to MIDI channel 3. -/
theorem C85_channel_3_alone (he : env.Ok) (hm : env.mode ≠ .dynamic) (ops : List Op) (h : ∀ op ∈ ops, op.Wf)
    (hd : (∀ op ∈ ops, ¬op.enablesDac) ∨ (∀ op ∈ ops, ¬op.detunes)) (ht : ∀ op ∈ ops, op.forTones) (b : Bool) (m : Sram.Mem) :
    Channel3Alone env b m ops :=
  run_apart he hm b m ops h hd ht

/-- **C85** fails for a voice that is remapped while it sounds: it is given to a MIDI channel whose program is 8, whose volume is
0 and which is panned to the right, and goes on with the program, the level and the sides of the old one. -/
theorem C85_violated_remapped : ∃ env, Env.Ok env ∧ ∃ ops b m, (∀ op ∈ ops, op.Wf) ∧
    let s := run env (boot env b m) ops
    let S := settingsOf 7 ops
    (s.dev 0).midiChannel = 7 ∧ keyed s.fm.synth.out 0 = true ∧ S = ⟨0, 127, 8⟩ ∧ PresetFor env s 8 (Ex.preset 8) ∧
      (chipChannel s.fm.synth.out 0).algorithm ≠ (Ex.preset 8).algorithm ∧ ¬PannedTo 127 s.fm.synth.out 0 ∧
      3 ∈ Synth.carriers (chipChannel s.fm.synth.out 0).algorithm ∧ (chipOperator s.fm.synth.out 0 3).totalLevel < 127 :=
  ⟨Ex.env .static, Ex.env_ok _, [.program 7 8, .cc 7 7 0, .cc 7 10 127, .program 0 5, .noteOn 0 60 127, .remap 7 0, .tick], true, Ex.mem,
    by simp [Op.Wf], by decide +kernel, by decide +kernel, by decide +kernel, .inr (by decide +kernel), by decide +kernel⟩

/-- **C85** fails for FM channel 3 when a special-mode voice is played, even with special mode off: MIDI channel 3 holds a note, and
a soft note on MIDI channel 12 turns down one of its operators. -/
theorem C85_violated_special_voice : ∃ env, Env.Ok env ∧ ∃ ops b m, ordinaryHistory false 2 ops ∧ (∀ op ∈ ops, ¬op.rewires) ∧
    let s := run env (boot env b m) ops
    let S := settingsOf 2 ops
    (s.dev 2).midiChannel = 2 ∧ keyed s.fm.synth.out 2 = true ∧ PresetFor env s S.program (Ex.preset 5) ∧
      S.volume * (s.fm.ch 2).velocity / 127 = 100 ∧ 1 ∈ Synth.carriers (Ex.preset 5).algorithm ∧
      (chipOperator s.fm.synth.out 2 1).totalLevel ≠ wantTl (Ex.preset 5).algorithm 100 1 ((Ex.preset 5).ops.get 1).totalLevel :=
  ⟨Ex.env .static, Ex.env_ok _, [.program 2 5, .noteOn 2 60 100, .noteOn 11 60 1], true, Ex.mem,
    ⟨by simp [ordinary, Op.Wf], .inl (by simp [Op.enablesDac])⟩, by simp [Op.rewires], by decide +kernel, by decide +kernel,
    .inr (by decide +kernel), by decide +kernel⟩

/-- A key is held on MIDI channel 4 in dynamic mode while its volume, program and pan change and other notes come and go:
the chip follows, with the velocity of the note-on. -/
example :
    let pre : List Op := [.program 3 5]
    let post : List Op := [.cc 3 7 64, .noteOn 0 64 20, .program 3 8, .bend 3 9000, .cc 3 10 127, .tick, .noteOff 0 64]
    let s := Ex.after .dynamic pre
    let t := step (Ex.env .dynamic) s (.noteOn 3 60 100)
    let u := run (Ex.env .dynamic) t post
    let n := t.fm.synth.out.length - s.fm.synth.out.length
    t.fm.synth.out = t.fm.synth.out.take n ++ s.fm.synth.out ∧ keyed (t.fm.synth.out.take n) 0 = true ∧
      notePlayable 60 (tuningOf 3 pre) ∧ keyOns s.fm.synth.out 0 = 0 ∧ keyOns t.fm.synth.out 0 = 1 ∧
      keyOns u.fm.synth.out 0 = 1 ∧ keyOns u.fm.synth.out 1 = 1 ∧ (u.dev 0).midiChannel = 3 ∧
      settingsOf 3 (pre ++ .noteOn 3 60 100 :: post) = ⟨64, 127, 8⟩ ∧ u.fm.user 8 = none ∧
      Ex.fm.presets[8]? = some (Ex.preset 8) ∧
      (chipOperator t.fm.synth.out 0 3).totalLevel = wantTl (Ex.preset 5).algorithm 100 3 ((Ex.preset 5).ops.get 3).totalLevel ∧
      (chipOperator u.fm.synth.out 0 3).totalLevel = wantTl (Ex.preset 8).algorithm 50 3 ((Ex.preset 8).ops.get 3).totalLevel ∧
      wantTl (Ex.preset 8).algorithm 50 3 ((Ex.preset 8).ops.get 3).totalLevel ≠
        wantTl (Ex.preset 8).algorithm 100 3 ((Ex.preset 8).ops.get 3).totalLevel ∧
      PannedTo 127 u.fm.synth.out 0 := by decide +kernel

example :
    let ops : List Op := [.program 3 5, .noteOn 3 60 100, .cc 3 7 64, .noteOn 0 64 20, .program 3 8, .bend 3 9000, .cc 3 10 127, .tick,
      .noteOff 0 64]
    ordinaryHistory true 0 ops ∧ ∀ op ∈ ops, ¬op.rewires :=
  ⟨⟨by simp [ordinary, Op.Wf], .inl (by simp [Op.enablesDac])⟩, by simp [Op.rewires]⟩

/-- A drum in dynamic mode, turned down, panned and edited while it sounds. -/
example :
    let pre : List Op := [.cc 9 7 100]
    let post : List Op := [.cc 9 7 50, .noteOn 0 64 20, .cc 9 19 30, .cc 9 10 0, .tick]
    let s := Ex.after .dynamic pre
    let t := step (Ex.env .dynamic) s (.noteOn 9 38 90)
    let u := run (Ex.env .dynamic) t post
    let n := t.fm.synth.out.length - s.fm.synth.out.length
    t.fm.synth.out = t.fm.synth.out.take n ++ s.fm.synth.out ∧ keyed (t.fm.synth.out.take n) 0 = true ∧
      notePlayable 38 (tuningOf 9 pre) ∧ keyOns u.fm.synth.out 0 = keyOns t.fm.synth.out 0 ∧ (u.dev 0).midiChannel = 9 ∧
      keyed u.fm.synth.out 0 = true ∧ settingsOf 9 (pre ++ .noteOn 9 38 90 :: post) = ⟨50, 0, 0⟩ ∧
      (chipOperator u.fm.synth.out 0 3).totalLevel =
        wantTl (chipChannel u.fm.synth.out 0).algorithm (50 * 90 / 127) 3 ((u.fm.synth.ch 0).ops.get 3).totalLevel ∧
      (chipOperator u.fm.synth.out 0 3).totalLevel ≠ (chipOperator t.fm.synth.out 0 3).totalLevel ∧
      PannedTo 0 u.fm.synth.out 0 := by decide +kernel

example :
    let ops : List Op := [.cc 9 7 100, .noteOn 9 38 90, .cc 9 7 50, .noteOn 0 64 20, .cc 9 19 30, .cc 9 10 0, .tick]
    PanHistory 0 ops ∧ (∀ d w, Op.cc d 14 w ∉ ops) ∧ ∀ op ∈ ops, ¬op.rewires :=
  ⟨⟨by simp [followsPan, Op.Wf, Op.raw], .inl (by simp [Op.enablesDac])⟩, by simp, by simp [Op.rewires]⟩

/-- Notes, volume and program on MIDI channel 3 in static mode, beside other channels. -/
example :
    let ops : List Op := [.program 2 5, .noteOn 2 60 100, .noteOn 13 60 20, .cc 2 7 64, .program 2 8, .tick, .cc 9 7 5]
    let s := Ex.after .static ops
    (∀ op ∈ ops, op.forTones ∧ op.Wf ∧ ¬op.enablesDac) ∧ (s.dev 2).midiChannel = 2 ∧ keyed s.fm.synth.out 2 = true ∧
      (chipOperator s.fm.synth.out 2 3).totalLevel = wantTl (Ex.preset 8).algorithm 50 3 ((Ex.preset 8).ops.get 3).totalLevel :=
  ⟨by simp [Op.forTones, Op.Wf, Op.enablesDac], by decide +kernel⟩

/-- An operator edited by controller 16 while the volume is 0, a note sounding: the carriers stay silent, the modulators not. -/
example :
    let ops : List Op := [.program 0 5, .noteOn 0 60 100, .cc 0 7 0, .cc 0 16 30, .cc 0 19 30]
    let s := Ex.after .static ops
    (settingsOf 0 ops).volume = 0 ∧ (s.dev 0).midiChannel = 0 ∧ keyed s.fm.synth.out 0 = true ∧
      (chipOperator s.fm.synth.out 0 3).totalLevel = 127 ∧ 3 ∈ Synth.carriers (chipChannel s.fm.synth.out 0).algorithm ∧
      ((s.fm.synth.ch 0).ops.get 3).totalLevel = 30 := by decide +kernel

example : PanHistory 0 [.program 0 5, .noteOn 0 60 100, .cc 0 7 0, .cc 0 16 30, .cc 0 19 30] := by
  refine ⟨?_, .inl (by simp [Op.enablesDac])⟩
  simp [followsPan, Op.Wf, Op.raw]

end Mdmi.Props
