import Verif.Props.C84
import Verif.Props.C85
import Verif.Proofs.MidiPolyVel
/-! C86: a chord sounds as it is played: every held key with its own velocity and its channel's sound, level, sides and tuning. -/
namespace Mdmi.Props
open Mdmi Mdmi.Midi
open Mdmi.Synth (FmChannel chipChannel chipOperator wantTl keyed)
open Mdmi.Psg (chipAtt)

variable {env : Env}

/-! ### Specification -/

/-- The velocity with which a key was last struck. -/
def velocityOf (l : List Op) (c p : Nat) : Nat :=
  l.foldl (fun x op => match op with
    | .noteOn c' p' v => if c' = c ∧ p' = p ∧ v ≠ 0 then v else x
    | _ => x) 0

/-- A key whose notes all began at pitches the PSG can play: MIDI key 45 and above, with bend and fine tune. -/
def StruckHigh (ops : List Op) (c p : Nat) : Prop :=
  ∀ pre v post, ops = pre ++ .noteOn c p v :: post → v = 0 ∨ 4500 ≤ pitchUnder (tuningOf c pre) p 0

/-- What the chip's FM channel `i` plays is MIDI channel `c`'s key `p`, struck with velocity `v`. -/
structure FmSounds (env : Env) (s : St) (i : Nat) (T : Tuning) (S : Settings) (p v : Nat) : Prop where
  keyed : keyed s.fm.synth.out i = true
  tune : Fm.InTune env.fm.pal (chipChannel s.fm.synth.out i).freq (pitchUnder T p 0).toNat 5
  timbre : ∀ q, PresetFor env s S.program q → (chipChannel s.fm.synth.out i).timbre =
    FmChannel.timbre ⟨q.algorithm, q.feedback, (chipChannel s.fm.synth.out i).stereo, q.ams, q.fms, 0, 0, q.ops⟩
  levels : ∀ q, PresetFor env s S.program q → SoundsLike s.fm.synth.out i q (S.volume * v / 127)
  sides : PannedTo S.pan s.fm.synth.out i

/-- What PSG channel `k` plays is the key, or its envelope has ended: attenuation and divider are those the channel's
settings and the envelope's present position ask for. -/
def PsgSounds (env : Env) (s : St) (k : Nat) (T : Tuning) (S : Settings) (p v : Nat) : Prop :=
  (s.psg.ch k).noteOn = false ∧ chipAtt s.psg.out k = 15 ∨
  ∃ e, Psg.deref env.psg s.psg.userBuf (s.psg.ch k).step = some e ∧
    chipAtt s.psg.out k = heardAttenuation env.psg S.volume v (e % 16) ∧
    (chipAtt s.psg.out k ≠ 15 → 4500 ≤ pitchUnder T p 0 → PsgPlays env.psg s.psg k (pitchUnder T p 0))

/-! ### Proofs -/

theorem velocityOf_snoc {l : List Op} {op : Op} {c p : Nat} : velocityOf (l ++ [op]) c p = match op with
    | .noteOn c' p' v => if c' = c ∧ p' = p ∧ v ≠ 0 then v else velocityOf l c p
    | _ => velocityOf l c p := by
  simp only [velocityOf, List.foldl_append, List.foldl_cons, List.foldl_nil]

private theorem dynamic_kept {s : St} : (resetChannels env s).dynamic = s.dynamic := by
  unfold resetChannels
  extract_lets a
  have ea : a.dynamic = s.dynamic := rfl
  clear_value a
  simp only [applyDynamicMode]
  exact List.foldlRecOn (motive := fun t : St => t.dynamic = s.dynamic) _ _ ea fun t h i _ => by rw [initDev_dynamic]; exact h

private theorem boot_ready (hm : env.mode = .dynamic) (b : Bool) (m : Sram.Mem) : Ready (reset env (powerOn env b m)) := by
  simp only [reset]
  refine ⟨?_, fun c hc => ?_, ?_⟩
  · rw [dynamic_kept]; simp [hm]
  · rw [resetChannels_chan hc]; rfl
  · rw [resetChannels_cfg]

/-- The velocities the drivers have. -/
private theorem chord_velocities (he : env.Ok) (hm : env.mode = .dynamic) (ops : List Op) (hw : ∀ op ∈ ops, op.Wf)
    (hk : Keyboard ops) (b : Bool) (m : Sram.Mem)
    (hp : ∀ pre post c p v, ops = pre ++ .noteOn c p v :: post →
      v = 0 ∨ Playable (tuningOf c pre) (pitchUnder (tuningOf c pre) p 0)) :
    VelInv (velocityOf ops) (fun c p => ¬StruckHigh ops c p) (run env (boot env b m) ops) := by
  refine keyboard_induct he (fun l s => VelInv (velocityOf l) (fun c p => ¬StruckHigh ops c p) s) (powerOn env b m) ops
    (boot_ready hm b m) hk (fun h => h.velInv) ?_ ?_ ?_
  · intro pre post c p v e hc hv h9 s h hn hl w k
    have hw' : ∀ op ∈ pre, op.Wf := fun op ho => hw op (by rw [e]; simp [ho])
    have t := run_tuning (env := env) hc pre hw' b m
    have bd := tuning_bounds c pre hw'
    obtain ⟨x0, x1, x2, x3⟩ := (hp pre post c p v e).resolve_left hv
    change HasTuning _ c s at t
    have fine : noteOn env s c p v = run env (boot env b m) (pre ++ [.noteOn c p v]) := by
      rw [run_snoc]; simp only [step, hc, if_true]; rfl
    have ps := pc_exact (key := p) (bend := (s.chan c).pitchBend) (range := (s.chan c).range) (fine := (s.chan c).fineTune)
      (n := pitchUnder (tuningOf c pre) p 0) (by rw [t.bend]; exact bd.1) (by rw [t.semitones]; exact bd.2.1) (by rw [t.cents]; omega)
      (by rw [t.cents]; omega) (by rw [t.bend, t.semitones, t.cents, t.fine]; rfl) (by rw [t.fine]; exact x0)
      (by rw [t.fine]; exact x1) x2 x3
    simp only at ps
    refine noteOn_velInv he hc hv h9 h hl hn w k ps.1 ?_ (fun q hs => ?_) ?_ ?_
    · rw [fine]
      obtain ⟨tame, ok⟩ := Reached.ok he ⟨b, m, pre ++ [.noteOn c p v], fun op ho => hw op (by
        rw [e]; simp at ho ⊢; rcases ho with ho | ho <;> simp [ho]), .inl (fun op ho => (chordal_attuned (hk.chordal op (by
        rw [e]; simp at ho ⊢; rcases ho with ho | ho <;> simp [ho])) (hw op (by
        rw [e]; simp at ho ⊢; rcases ho with ho | ho <;> simp [ho])) 0).2), rfl⟩
      exact ok.psg.nofault
    · have := (hs pre v post e).resolve_left hv
      omega
    · rw [velocityOf_snoc]; simp [hv]
    · intro c' p' hne
      rw [velocityOf_snoc]
      simp only
      rw [if_neg]
      rintro ⟨rfl, rfl, -⟩
      exact hne rfl
  · intro pre c p s op ho hc h k
    have : velocityOf (pre ++ [op]) = velocityOf pre := by
      funext c' p'
      rw [velocityOf_snoc]
      rcases ho with rfl | rfl <;> simp
    rw [this]
    exact noteOff_velInv hc h k
  · intro pre s t op hn h k
    have : velocityOf (pre ++ [op]) = velocityOf pre := by
      funext c' p'
      rw [velocityOf_snoc]
      cases op <;> simp
      exact absurd rfl (hn _ _ _)
    rw [this]
    exact h.velInv k

/-- Keyboard playing in dynamic mode leaves the special-mode voices to no MIDI channel. -/
private theorem chord_alone (he : env.Ok) (hm : env.mode = .dynamic) (ops : List Op) (hw : ∀ op ∈ ops, op.Wf)
    (hk : Keyboard ops) (b : Bool) (m : Sram.Mem) : Channel3Alone env b m ops := by
  have ap : ∀ pre op post, ops = pre ++ op :: post →
      (∀ i, 10 ≤ i → i < 13 → ((run env (boot env b m) pre).dev i).midiChannel = 127) → op.apart (run env (boot env b m) pre) := by
    intro pre op post e un
    have pi : PolyInv (downKeys pre) (run env (boot env b m) pre) :=
      keyboard_poly _ pre (boot_ready hm b m) (Keyboard.of_append (e ▸ hk))
    have ch := hk.chordal op (by rw [e]; simp)
    have k : ∀ c, c < 16 → Aloof (run env (boot env b m) pre) c := fun c hc i h1 h2 x => by rw [un i h1 h2] at x; omega
    have w := hw op (by rw [e]; simp)
    cases op with
    | noteOn c p v =>
      refine ⟨k c w.1, fun hv i hi => ?_⟩
      obtain ⟨h9, -, hl⟩ := (hk.press pre post c p v e).resolve_left hv
      obtain ⟨j, hj, h8, -⟩ := findFree_poly pi.dynamic (pi.sel c w.1) pi.stick h9 (pi.exists_free hl)
      rw [hj] at hi
      cases hi; omega
    | noteOff c p => exact k c w.1
    | bend c b => exact k c w.1
    | program c p => exact k c w.1
    | cc c n v =>
      simp only [chordal, glideless, playing, Bool.and_eq_true, decide_eq_true_eq, bne_iff_ne] at ch
      exact ⟨k c w.1, ch.1.1.1.1.2, ch.1.1.1.1.1.2⟩
    | tick =>
      intro i h1 h2
      refine Bool.not_eq_true _ ▸ fun x => ?_
      have := pi.low i h2 x
      omega
    | sysex d j =>
      simp only [chordal, glideless, playing, Bool.and_eq_true, decide_eq_true_eq, bne_iff_ne] at ch
      simpa only [Op.apart, voicingSysex, decide_eq_false_iff_not] using ch.1
    | remap => cases ch
    | reset => cases ch
    | psgTick => trivial
  have ok : ∀ pre post, ops = pre ++ post → Ok env false (run env (boot env b m) pre) := fun pre post e =>
    run_ok he _ _ (boot_ok he b m) (fun o ho => hw o (by rw [e]; simp [ho])) (fun _ o ho =>
      (chordal_attuned (hk.chordal o (by rw [e]; simp [ho])) (hw o (by rw [e]; simp [ho])) 0).2) (by simp)
  have ind : ∀ post pre, ops = pre ++ post →
      (∀ i, 10 ≤ i → i < 13 → ((run env (boot env b m) pre).dev i).midiChannel = 127) →
      ∀ a op z, post = a ++ op :: z → ∀ i, 10 ≤ i → i < 13 → ((run env (boot env b m) (pre ++ a)).dev i).midiChannel = 127 := by
    intro post
    induction post with
    | nil => intro pre e un a op z x; simp at x
    | cons o post ih =>
      intro pre e un a op z x
      cases a with
      | nil => rw [List.append_nil]; exact un
      | cons y a =>
        simp only [List.cons_append, List.cons.injEq] at x
        obtain ⟨rfl, x⟩ := x
        have ho : o ∈ ops := by rw [e]; simp
        have sp := step_spared he (ok pre _ e) (hw o ho)
          (fun _ => (chordal_attuned (hk.chordal o ho) (hw o ho) 0).2) (by simp) (ap pre o post e un)
        have := ih (pre ++ [o]) (by rw [e]; simp) (fun i h1 h2 => by
          rw [run_snoc]; exact (sp.dev i h1 h2).1.trans (un i h1 h2)) a op z x
        simpa using this
  intro pre op post e
  refine ap pre op post e ?_
  have := ind ops [] rfl (fun i h1 h2 => ?_) pre op post e
  · simpa using this
  · change ((reset env (powerOn env b m)).dev i).midiChannel = 127
    unfold reset
    rw [resetChannels_devs i h2]
    simp [resetDev, hm]

private theorem ordinary_any {op : Op} (h : ordinary true 0 op) (hc : chordal op = true) (i : Nat) : ordinary true i op := by
  cases op with
  | cc c k v =>
    simp only [chordal, glideless, playing, Bool.and_eq_true, decide_eq_true_eq, bne_iff_ne] at hc
    simp only [ordinary] at h ⊢
    exact ⟨h.1, fun x => absurd x hc.1.1.1.1.1.1.2, h.2.2.1, fun x => absurd x hc.1.1.1.1.2⟩
  | _ => exact h

/-- **C86** (partial).  In dynamic mode, however keys are pressed and released on any MIDI channels but 10 with up to nine down
at once, between whatever program changes, volumes, pans, bends, pedals and frames: every held key sounds on one voice.  An
FM voice is keyed on, in tune with its key, and has the preset of its channel's program, the carriers lowered by the channel's
volume × the velocity its key was struck with, and the sides of the channel's pan.  A PSG voice has the attenuation the
channel's volume, the struck velocity and its envelope ask for, and plays the key.  Missing: PSG keys
struck below 45, which the PSG drops (C18); fine tunes after notes (C82); envelopes sent by exclusive messages, FM parameter
controllers and MIDI channel 10. -/
theorem C86_chord_partial (he : env.Ok) (hm : env.mode = .dynamic) (ops : List Op) (hw : ∀ op ∈ ops, op.Wf)
    (hk : Keyboard ops) (ho : ∀ op ∈ ops, ordinary true 0 op ∧ ¬op.loadsEnvelope) (b : Bool) (m : Sram.Mem)
    (hs : env.fm.sram = true → ∀ q, Sram.loadProgram m 0 ≠ .ok q)
    (hf : ∀ pre c v post, ops = pre ++ .cc c 85 v :: post → ∀ p w, .noteOn c p w ∉ pre)
    (hp : ∀ pre post c p v, ops = pre ++ .noteOn c p v :: post →
      v = 0 ∨ Playable (tuningOf c pre) (pitchUnder (tuningOf c pre) p 0)) :
    let s := run env (boot env b m) ops
    ∀ c p, (c, p) ∈ downKeys ops → Playable (tuningOf c ops) (pitchUnder (tuningOf c ops) p 0) →
      ∃ i, (s.dev i).noteOn = true ∧ (s.dev i).midiChannel = c ∧ (s.dev i).pitch = p ∧
        (i < 6 ∧ FmSounds env s i (tuningOf c ops) (settingsOf c ops) p (velocityOf ops c p) ∨
         6 ≤ i ∧ i < 9 ∧ (StruckHigh ops c p → PsgSounds env s (i - 6) (tuningOf c ops) (settingsOf c ops) p (velocityOf ops c p))) := by
  intro s c p hd hn
  obtain ⟨i, a1, a2, a3, a5⟩ := C83_held_keys_in_tune he hm ops hw hk b m (fun op h => (ho op h).2) hf hp c p hd hn
  change (s.dev i).noteOn = true at a1
  change (s.dev i).midiChannel = c at a2
  change (s.dev i).pitch = p at a3
  have att := fun op h => chordal_attuned (hk.chordal op h) (hw op h) 0
  have hc : c < 16 ∧ c ≠ 9 := by
    obtain ⟨pre, v, post, e, hv⟩ := downKeys_struck hd
    exact ⟨(hw (.noteOn c p v) (by rw [e]; simp)).1, ((hk.press pre post c p v e).resolve_left hv).1⟩
  have v : VelInv _ _ s := chord_velocities he hm ops hw hk b m hp
  refine ⟨i, a1, a2, a3, a5.imp (fun ⟨h6, h7, h8⟩ => ⟨h6, ?_⟩) fun ⟨h6, h9, h7⟩ => ⟨h6, h9, fun hi => ?_⟩⟩
  · have vi := (v i (by omega) a1).1 h6
    rw [a2, a3] at vi
    have fin := C85_sound_partial he true i h6 ops
      ⟨fun op h => ⟨hw op h, ordinary_any (ho op h).1 (hk.chordal op h) i⟩, .inl fun op h => (att op h).2⟩
      (fun op h => (att op h).1.2.1) b m hs (fun _ => .inr hm) c hc.1 hc.2
    simp only at fin
    have fin := fin a2
    change ∀ q, PresetFor env s _ q → _ at fin
    refine ⟨h7, h8, fun q hq => (fin q hq).1, fun q hq => ?_, ?_⟩
    · rw [← vi]; exact (fin q hq).2.1 (.inr (chord_alone he hm ops hw hk b m))
    · have hh : ordinaryHistory true i ops :=
        ⟨fun op h => ⟨hw op h, ordinary_any (ho op h).1 (hk.chordal op h) i⟩, .inl fun op h => (att op h).2⟩
      have lt : Level env s := hh.level b m
      have kt : Cached env True (true = true) 13 i s := run_cached he h6 ops (fun o ho => (hh.1 o ho).2.keeps)
        (boot_cached he h6 b m (fun _ => hs) fun _ _ => .inr hm)
      have vs : (s.dev i).settings = settingsOf c ops := voice_settings ops (fun op h => (att op h).1.2.1) b m (by omega) hc.1 a2
      rw [← vs]
      exact sides_eq h6 (lt.clean.inv he) kt
  · have vi := (v i (by omega) a1).2 h6
    rw [a2, a3] at vi
    have vi := vi.resolve_left (fun x => x hi)
    have k := C84_channel_volume_partial he h6 (by omega) ops (fun op h => ⟨hw op h, (att op h).1.2.1, (att op h).1.2.2.2.1⟩)
      (.inl fun op h => (att op h).2) b m (fun pre op post e x => absurd x (ho op (by rw [e]; simp)).2) c hc.1 a2
    refine k.imp id fun ⟨e, e1, e2⟩ => ⟨e, e1, ?_, fun q r => ?_⟩
    · rw [← vi]; exact e2
    · rcases h7 with x | x | x
      · exact absurd x q
      · omega
      · exact x

/-! ### Where it fails -/

/-- **C86** fails for low keys that come late: six keys are held on the FM voices, the seventh goes to the PSG, which cannot
play key 40 and drops it, so that a held key, in the range of FM, is silent. -/
theorem C86_violated_low_key : ∃ env, Env.Ok env ∧ env.mode = .dynamic ∧ ∃ ops b m, (∀ op ∈ ops, op.Wf ∧ ordinary true 0 op) ∧
    let s := run env (boot env b m) ops
    (0, 40) ∈ downKeys ops ∧ (downKeys ops).length = 7 ∧ Playable (tuningOf 0 ops) (pitchUnder (tuningOf 0 ops) 40 0) ∧
      (s.dev 6).noteOn = true ∧ (s.dev 6).midiChannel = 0 ∧ (s.dev 6).pitch = 40 ∧ chipAtt s.psg.out 0 = 15 ∧
      (s.psg.ch 0).noteOn = false ∧ heardAttenuation env.psg (settingsOf 0 ops).volume (velocityOf ops 0 40) 2 < 15 :=
  ⟨Ex.env .dynamic, Ex.env_ok _, rfl, [.noteOn 0 60 100, .noteOn 0 64 100, .noteOn 0 67 100, .noteOn 0 72 100, .noteOn 0 76 100,
    .noteOn 0 79 100, .noteOn 0 40 100, .psgTick], true, Ex.mem, by simp [Op.Wf, ordinary], by decide +kernel⟩

/-! ### Examples -/

/-- Eight keys on two MIDI channels, with different velocities; volumes, pan and a bend that come while they are held. -/
private def chord : List Op :=
  [.program 1 5, .cc 1 7 120, .noteOn 0 60 100, .noteOn 0 64 30, .noteOn 1 67 90, .noteOn 1 72 11, .noteOn 0 48 127, .noteOn 0 52 64,
   .noteOn 1 76 50, .psgTick, .noteOn 1 79 127, .noteOff 0 64, .noteOn 0 65 77, .cc 0 7 80, .cc 1 10 0, .bend 1 9000, .psgTick]

/-- The seventh and eighth keys are on the PSG, at different levels; the released voice has the key that came after. -/
example : let s := Ex.after .dynamic chord
    downKeys chord = [(0, 65), (1, 79), (1, 76), (0, 52), (0, 48), (1, 72), (1, 67), (0, 60)] ∧
    velocityOf chord 1 76 = 50 ∧ velocityOf chord 0 65 = 77 ∧ (s.psg.ch 0).velocity = 50 ∧ (s.psg.ch 1).velocity = 127 ∧
    (s.dev 1).pitch = 65 ∧ (s.fm.ch 1).velocity = 77 ∧ (s.fm.ch 3).velocity = 11 ∧ settingsOf 1 chord = ⟨120, 0, 5⟩ ∧
    chipAtt s.psg.out 0 = heardAttenuation (Ex.env .dynamic).psg 120 50 0 ∧
    chipAtt s.psg.out 1 = heardAttenuation (Ex.env .dynamic).psg 120 127 0 ∧ chipAtt s.psg.out 1 < chipAtt s.psg.out 0 ∧
    chipAtt s.psg.out 0 < 15 ∧ PannedTo 0 s.fm.synth.out 3 ∧
    (chipOperator s.fm.synth.out 3 3).totalLevel = wantTl (Ex.preset 5).algorithm (120 * 11 / 127) 3 ((Ex.preset 5).ops.get 3).totalLevel := by
  decide +kernel

/-- A key is pressed when it is up and at most eight are down: checked message by message. -/
def pressed : List (Nat × Nat) → List Op → Bool
  | _, [] => true
  | D, .noteOn c p v :: l => if v = 0 then pressed (D.filter (· ≠ (c, p))) l
      else c != 9 && !D.contains (c, p) && decide (D.length ≤ 8) && pressed ((c, p) :: D) l
  | D, .noteOff c p :: l => pressed (D.filter (· ≠ (c, p))) l
  | D, _ :: l => pressed D l

theorem keyboard_of {l : List Op} (h : ∀ op ∈ l, chordal op = true) (h' : pressed [] l = true) : Keyboard l := by
  refine ⟨h, fun pre post c p v e => ?_⟩
  have key : ∀ (pre : List Op) (D : List (Nat × Nat)), pressed D (pre ++ .noteOn c p v :: post) = true →
      let D' := pre.foldl (fun D op => match op with
        | .noteOn c p v => if v = 0 then D.filter (· ≠ (c, p)) else (c, p) :: D
        | .noteOff c p => D.filter (· ≠ (c, p))
        | _ => D) D
      v = 0 ∨ c ≠ 9 ∧ (c, p) ∉ D' ∧ D'.length ≤ 8 := by
    intro pre
    induction pre with
    | nil =>
      intro D k
      simp only [List.nil_append, pressed] at k
      by_cases hv : v = 0
      · exact .inl hv
      · rw [if_neg hv] at k
        simp only [Bool.and_eq_true, bne_iff_ne, Bool.not_eq_true', decide_eq_true_eq] at k
        refine .inr ⟨k.1.1.1, fun x => ?_, k.1.2⟩
        have := List.contains_iff_mem.2 x
        simp only [List.foldl_nil] at this
        rw [k.1.1.2] at this; cases this
    | cons op pre ih =>
      intro D k
      simp only [List.foldl_cons]
      refine ih _ ?_
      cases op <;> simp only [List.cons_append, pressed] at k ⊢ <;> try exact k
      split at k
      · rename_i hv; simpa [hv] using k
      · rename_i hv
        simp only [Bool.and_eq_true] at k
        simpa [hv] using k.2
  exact key pre [] (e ▸ h')

/-- The theorem speaks of the chord. -/
example : Keyboard chord ∧ (∀ op ∈ chord, op.Wf ∧ ordinary true 0 op ∧ ¬op.loadsEnvelope) ∧
    (∀ k ∈ downKeys chord, Playable (tuningOf k.1 chord) (pitchUnder (tuningOf k.1 chord) k.2 0)) ∧
    ∀ n, n < chord.length → ∀ c p v, chord[n]? = some (.noteOn c p v) →
      v = 0 ∨ Playable (tuningOf c (chord.take n)) (pitchUnder (tuningOf c (chord.take n)) p 0) := by
  refine ⟨keyboard_of (by decide +kernel) (by decide +kernel), ?_, by decide +kernel, ?_⟩
  · simp [chord, Op.Wf, ordinary, Op.loadsEnvelope]
  · intro n hn c p v e
    have : ∀ n, n < 17 → (match chord[n]? with
      | some (Op.noteOn c p _) => decide (Playable (tuningOf c (chord.take n)) (pitchUnder (tuningOf c (chord.take n)) p 0))
      | _ => true) = true := by decide +kernel
    have := this n hn
    rw [e] at this
    exact .inr (by simpa using this)

end Mdmi.Props
