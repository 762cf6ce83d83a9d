import Verif.Proofs.Sample
import Verif.Proofs.MidiPsgView
import Verif.Proofs.MidiFmRun
/-!
# What the engine does to the sample that plays
-/
namespace Mdmi.Midi
open Mdmi.Synth (sample)
open NotePriority (Rep)

variable {env : Env} {P Q : Prop} {s t u : St}

/-- The DAC stays on or off; the sample plays on (`P`); voices keep the device they play (`Q`). -/
structure Samp (P Q : Prop) (s t : St) : Prop where
  play : P → sample t.fm.synth.out = sample s.fm.synth.out
  dac : t.fm.synth.dacEnable = s.fm.synth.dacEnable
  ops : Q → ∀ j, (t.dev j).ops = (s.dev j).ops

theorem Samp.refl : Samp P Q s s := ⟨fun _ => rfl, rfl, fun _ _ => rfl⟩

theorem Samp.trans (h : Samp P Q s t) (k : Samp P Q t u) : Samp P Q s u :=
  ⟨fun p => (k.play p).trans (h.play p), k.dac.trans h.dac, fun q j => (k.ops q j).trans (h.ops q j)⟩

theorem Samp.mono {P' Q' : Prop} (h : Samp P Q s t) (hp : P' → P) (hq : Q' → Q) : Samp P' Q' s t :=
  ⟨fun p => h.play (hp p), h.dac, fun q => h.ops (hq q)⟩

theorem Samp.same (h1 : t.dev = s.dev) (h2 : t.fm = s.fm) : Samp P Q s t :=
  ⟨fun _ => by rw [h2], by rw [h2], fun _ _ => by rw [h1]⟩

theorem put_samp (j : Nat) {f : Dev → Dev} (h : Q → ∀ d, (f d).ops = d.ops) : Samp P Q s (setDev s j f) := by
  refine ⟨fun _ => rfl, rfl, fun q k => ?_⟩
  by_cases e : k = j
  · subst e; simp [h q]
  · simp [Psg.upd_other _ _ _ _ e]

theorem setChan_samp (c : Nat) (f : Chan → Chan) : Samp P Q s (setChan s c f) := .same rfl rfl
theorem say_samp (m : Msg) : Samp P Q s (say s m) := .same rfl rfl
theorem emit_samp (e : Ev) : Samp P Q s (emit s e) := .same rfl rfl
theorem ub_samp : Samp P Q s (ub s) := .same rfl rfl
theorem psgCall_samp (o : Psg.Op) : Samp P Q s (psgCall env s o) := .same rfl rfl

theorem fmCall_samp {o : Fm.Op} (h : ¬o.samples) : Samp P Q s (fmCall env s o) :=
  have k := Fm.step_calm env.fm s.fm h
  ⟨fun _ => k.play, k.dac, fun _ _ => rfl⟩

theorem devVolume_samp (j v : Nat) : Samp P Q s (devVolume env s j v) := by
  unfold devVolume
  split
  · exact fmCall_samp id
  · exact psgCall_samp _
  · exact .refl
  · exact .refl

theorem devProgram_samp (j v : Nat) : Samp P Q s (devProgram env s j v) := by
  unfold devProgram
  split
  · exact fmCall_samp id
  · exact psgCall_samp _
  · exact .refl
  · exact .refl

theorem devPan_samp (j v : Nat) : Samp P Q s (devPan env s j v) := by
  unfold devPan
  split
  · exact fmCall_samp id
  · exact .refl
  · exact .refl
  · exact .refl

theorem devPitch_samp (j p : Nat) (x : Int) : Samp P Q s (devPitch env s j p x) := by
  unfold devPitch
  split
  · exact fmCall_samp id
  · exact psgCall_samp _
  · exact fmCall_samp id
  · exact .refl

theorem devAllNotesOff_samp (j : Nat) : Samp P Q s (devAllNotesOff env s j) := by
  unfold devAllNotesOff
  split
  · exact fmCall_samp id
  · exact psgCall_samp _
  · exact .refl
  · exact .refl

theorem devNoteOn_samp (j p : Nat) (x : Int) (v : Nat) (h : P → (s.dev j).ops ≠ .dac) :
    Samp P Q s (devNoteOn env s j p x v) := by
  unfold devNoteOn
  split
  · exact fmCall_samp id
  · exact psgCall_samp _
  · exact fmCall_samp id
  · rename_i e
    refine ⟨fun q => absurd e (h q), ?_, fun _ _ => rfl⟩
    simp only [fmCall, Fm.step, Fm.dacNoteOn]
    split
    · split <;> rfl
    · rfl

theorem devNoteOff_samp (j : Nat) (h : P → (s.dev j).ops ≠ .dac) : Samp P Q s (devNoteOff env s j) := by
  unfold devNoteOff
  split
  · exact fmCall_samp id
  · exact psgCall_samp _
  · exact .refl
  · rename_i e
    exact ⟨fun q => absurd e (h q), rfl, fun _ _ => rfl⟩

theorem setDownstreamPitch_samp (j : Nat) : Samp P Q s (setDownstreamPitch env s j) := by
  simp only [setDownstreamPitch, withPitch]
  split
  · exact devPitch_samp _ _ _
  · exact ub_samp

theorem setDownstreamNoteOn_samp (j v : Nat) (h : P → (s.dev j).ops ≠ .dac) : Samp P Q s (setDownstreamNoteOn env s j v) := by
  simp only [setDownstreamNoteOn, withPitch]
  split
  · exact devNoteOn_samp _ _ _ _ h
  · exact ub_samp

theorem updateVolume_samp (c j : Nat) : Samp P Q s (updateVolume env s c j) := by
  unfold updateVolume
  split
  · exact (devVolume_samp _ _).trans (put_samp j fun _ _ => rfl)
  · exact .refl

theorem updatePan_samp (c j : Nat) : Samp P Q s (updatePan env s c j) := by
  unfold updatePan
  split
  · exact (devPan_samp _ _).trans (put_samp j fun _ _ => rfl)
  · exact .refl

theorem updateProgram_samp (c j : Nat) : Samp P Q s (updateProgram env s c j) := by
  unfold updateProgram
  split
  · exact (devProgram_samp _ _).trans (put_samp j fun _ _ => rfl)
  · exact .refl

theorem updatePitchBend_samp (c j : Nat) : Samp P Q s (updatePitchBend env s c j) := by
  unfold updatePitchBend
  split
  · exact Samp.trans (t := setDev s j fun d => { d with pitchBend := (s.chan c).pitchBend })
      (put_samp j fun _ _ => rfl) (setDownstreamPitch_samp _)
  · exact .refl

theorem updateDev_samp (j : Nat) : Samp P Q s (updateDev env s j) := by
  unfold updateDev
  simp only
  split
  · exact ((((fmCall_samp id).trans (updateVolume_samp _ _)).trans (updatePan_samp _ _)).trans (updateProgram_samp _ _)).trans
      (updatePitchBend_samp _ _)
  · exact ub_samp

theorem fold_samp {α : Type} {f : St → α → St} (l : List α) (h : ∀ s a, Samp P Q s (f s a)) (s : St) :
    Samp P Q s (l.foldl f s) := by
  induction l generalizing s with
  | nil => exact .refl
  | cons a l ih => exact (h s a).trans (ih _)

theorem foreach_samp {c : Nat} {body : St → Nat → St} (h : ∀ s j, Samp P Q s (body s j)) (s : St) :
    Samp P Q s (foreach s c body) := by
  refine fold_samp _ (fun s j => ?_) s
  split
  · exact h s j
  · exact .refl

/-! ### Notes -/

theorem devChanNoteOn_samp (j p v : Nat) (h : P → (s.dev j).ops ≠ .dac) : Samp P Q s (devChanNoteOn env s j p v) := by
  unfold devChanNoteOn
  exact Samp.trans (t := setDev s j fun d => { d with noteOn := true, cents := 0, pitch := p }) (put_samp j fun _ _ => rfl)
    (setDownstreamNoteOn_samp _ _ fun q => by simpa using h q)

theorem devChanNoteOff_samp (j : Nat) (h : P → (s.dev j).ops ≠ .dac) : Samp P Q s (devChanNoteOff env s j) := by
  unfold devChanNoteOff
  exact Samp.trans (t := setDev s j fun d => { d with noteOn := false, pitch := 0 }) (put_samp j fun _ _ => rfl)
    (devNoteOff_samp _ fun q => by simpa using h q)

theorem noteOffBody_samp (c p next : Nat) (single : Bool) (x : St × Bool) (j : Nat)
    (h : P → (x.1.dev j).midiChannel = c → (x.1.dev j).ops ≠ .dac) :
    Samp P Q x.1 (noteOffBody env c p next single x j).1 := by
  obtain ⟨s, handled⟩ := x
  unfold noteOffBody
  simp only
  split
  · rename_i hh
    split
    · split
      · split
        · exact ub_samp
        · rename_i st _
          exact Samp.trans (t := setChan s c fun m => { m with stack := st }) (setChan_samp _ _)
            (put_samp j (f := fun d => { d with glide := next }) fun _ _ => rfl)
      · exact devChanNoteOn_samp _ _ _ fun q => h q hh.1
    · exact devChanNoteOff_samp _ fun q => h q hh.1
  · exact .refl

theorem noteOffBody_map (c p next : Nat) (single : Bool) (x : St × Bool) (j k : Nat) :
    ((noteOffBody env c p next single x j).1.dev k).midiChannel = (x.1.dev k).midiChannel := by
  obtain ⟨s, handled⟩ := x
  unfold noteOffBody
  simp only
  have key : ∀ (u : St) (d : Dev), u.dev = upd s.dev j d → d.midiChannel = (s.dev j).midiChannel →
      (u.dev k).midiChannel = (s.dev k).midiChannel := by
    intro u d e1 e2
    rw [e1]
    by_cases e : k = j
    · subst e; rw [Psg.upd_same]; exact e2
    · rw [Psg.upd_other _ _ _ _ e]
  split
  · split
    · split
      · split
        · rfl
        · exact key _ { s.dev j with glide := next } (by simp) rfl
      · exact key _ _ (devChanNoteOn_dev _ _ _) rfl
    · exact key _ _ (devChanNoteOff_dev _) rfl
  · rfl

theorem noteOff_samp (c p : Nat) (h : P → ∀ j, j < 13 → (s.dev j).midiChannel = c → (s.dev j).ops ≠ .dac) :
    Samp P True s (noteOff env s c p) := by
  unfold noteOff
  split
  · exact ub_samp
  split
  · exact ub_samp
  rename_i next st _
  refine (setChan_samp (s := s) c fun m => { m with stack := st }).trans ?_
  simp only
  have h1 : P → ∀ j, j < 13 → ((setChan s c fun m => { m with stack := st }).dev j).midiChannel = c →
      ((setChan s c fun m => { m with stack := st }).dev j).ops ≠ .dac := by simpa using h
  revert h1
  generalize setChan s c _ = t
  intro h1
  generalize singleVoice t c true = single
  have key : ∀ (l : List Nat), (∀ j ∈ l, j < 13) → ∀ (x : St × Bool),
      (P → ∀ j, j < 13 → (x.1.dev j).midiChannel = c → (x.1.dev j).ops ≠ .dac) →
      Samp P True x.1 (l.foldl (noteOffBody env c p next single) x).1 := by
    intro l
    induction l with
    | nil => intro _ x _; exact .refl
    | cons j l ih =>
      intro hl x hx
      have k1 := noteOffBody_samp (env := env) (P := P) (Q := True) c p next single x j fun q => hx q j (hl j (by simp))
      refine k1.trans (ih (fun k hk => hl k (by simp [hk])) _ fun q k hk hm => ?_)
      rw [k1.ops trivial k]
      exact hx q k hk ((noteOffBody_map c p next single x j k).symm.trans hm)
  exact key _ (fun j hj => List.mem_range.1 hj) (t, false) h1

theorem startNote_samp (j c p v : Nat) (h : P → (s.dev j).ops ≠ .dac) : Samp P True s (startNote env s j c p v) := by
  unfold startNote
  extract_lets a b d
  have h1 : Samp P True s a := by
    simp only [a]; split
    · exact devProgram_samp _ _
    · exact .refl
  have h2 : Samp P True a b := put_samp j fun _ _ => rfl
  have h3 : Samp P True b d := updateDev_samp _
  have h4 := (h1.trans h2).trans h3
  exact h4.trans (setDownstreamNoteOn_samp _ _ fun q => by rw [h4.ops trivial]; exact h q)

/-- A note-on that brings no note to a voice that plays samples leaves the sample alone. -/
theorem noteOn_samp {c : Nat} (hc : c < 16) (p : Nat) {v : Nat} (hv : v ≠ 0) :
    Samp (∀ j, j < 13 → (s.dev j).ops = .dac → ((noteOn env s c p v).dev j).midiChannel ≠ c) True s (noteOn env s c p v) := by
  have own : ∀ (t : St) (j : Nat), (startNote env t j c p v).dev j = (startNote env t j c p v).dev j →
      ((startNote env t j c p v).dev j).midiChannel = c := fun t j _ => by
    rw [startNote_dev hc, Psg.upd_same]; rfl
  unfold noteOn
  rw [if_neg hv]
  split
  · exact .refl
  split
  · exact say_samp _
  rename_i j hj
  replace hj := findFree_lt hj
  split
  · split
    · exact say_samp _
    split
    · exact ub_samp
    rename_i st _
    simp only
    split
    · refine (setChan_samp (s := s) c fun m => { m with stack := st, lastVelocity := v }).trans ?_
      exact put_samp j fun _ _ => rfl
    · refine ((setChan_samp (s := s) c fun m => { m with stack := st, lastVelocity := v }).trans
        (put_samp j (f := fun d => { d with glide := 0 }) fun _ _ => rfl)).trans (startNote_samp j c p v fun q e => ?_)
      refine q j hj (by simpa using e) (own _ j rfl)
  · exact startNote_samp j c p v fun q e => q j hj e (own _ j rfl)

theorem allNotesOff_samp (c : Nat) : Samp P Q s (allNotesOff env s c) :=
  foreach_samp (fun s j => Samp.trans (t := setDev s j fun d => { d with noteOn := false, pitch := 0 })
    (put_samp j fun _ _ => rfl) (devAllNotesOff_samp j)) s

theorem pitchBend_samp (c b : Nat) : Samp P Q s (pitchBend env s c b) := by
  unfold pitchBend
  refine Samp.trans (t := setChan s c fun m => { m with pitchBend := b }) (setChan_samp _ _) (foreach_samp (fun s i => ?_) _)
  split
  · exact updatePitchBend_samp _ _
  · exact .refl

theorem program_samp (c p : Nat) : Samp P Q s (program env s c p) := by
  unfold program
  exact Samp.trans (Samp.trans (t := setChan s c fun m => { m with program := p }) (setChan_samp _ _)
    (foreach_samp (fun s i => updateProgram_samp c i) _)) (emit_samp _)

theorem tick_samp : Samp P Q s (tick env s) := by
  unfold tick
  refine fold_samp _ (fun s j => ?_) s
  split
  · exact .refl
  split
  · split
    · unfold processGlide
      split
      · exact .refl
      · rename_i g _
        exact Samp.trans (t := setDev s j fun d => { d with pitch := g.pitch, cents := g.cents, glide := g.target })
          (put_samp j fun _ _ => rfl) (setDownstreamPitch_samp _)
    · exact .refl
  · exact ub_samp

/-! ### Controllers, mapping, resets -/

theorem fmParam_switches {b : Bool} {n k v : Nat} {o : Synth.Op} (h : fmParam b n k v = some o) : ¬o.switchesDac := by
  unfold fmParam at h
  split at h <;> simp only [Option.some.injEq, reduceCtorEq] at h <;> (subst h; exact id)

theorem setFmParam_samp (j v : Nat) {k : Nat} (h78 : k ≠ 78) : Samp P Q s (setFmParam env s j k v) := by
  unfold setFmParam
  split
  · rename_i o e
    split
    · exact .refl
    · exact fmCall_samp (fmParam_switches e)
  · rw [if_neg h78]; exact say_samp _

theorem applyDynamicMode_samp : Samp P Q s (applyDynamicMode s) := by
  refine ⟨fun _ => rfl, rfl, fun _ j => ?_⟩
  simp only [applyDynamicMode]; split <;> rfl

theorem setDynamicMode_samp (m : Mode) : Samp P Q s (setDynamicMode s m) := by
  have h : ∀ (f : Config) (d : Bool), Samp P Q s (applyDynamicMode { s with cfg := f, dynamic := d }) := fun f d =>
    Samp.trans (t := { s with cfg := f, dynamic := d }) (.same rfl rfl) applyDynamicMode_samp
  cases m
  · exact h _ _
  · exact h _ _
  · exact .same rfl rfl

theorem remap_samp (c j : Nat) : Samp P Q s (remap s c j) := by
  unfold remap
  split
  · exact say_samp _
  split
  · split
    · exact put_samp _ fun _ _ => rfl
    · exact .refl
  split
  · exact say_samp _
  · exact put_samp _ fun _ _ => rfl

theorem setPolyphonic_samp (b : Bool) : Samp P Q s (setPolyphonic s b) := by
  unfold setPolyphonic
  simp only
  split
  · exact (setDynamicMode_samp _).trans (fold_samp _ (fun s j => remap_samp 0 j) _)
  · exact setDynamicMode_samp _

theorem rpnDataEntry_samp (c v : Nat) (b : Bool) : Samp P Q s (rpnDataEntry env s c v b) := by
  unfold rpnDataEntry
  split
  · unfold updatePbRange
    refine Samp.trans (t := setChan s c _) (setChan_samp _ _) (foreach_samp (fun s i => ?_) _)
    split
    · exact setDownstreamPitch_samp _
    · exact .refl
  · exact say_samp _

theorem initDev_samp (hq : ¬Q) (j : Nat) : Samp P Q s (initDev env s j) := by
  unfold initDev
  exact (put_samp j fun q => absurd q hq).trans (updateDev_samp _)

theorem resetAllControllers_samp (hq : ¬Q) (c : Nat) : Samp P Q s (resetAllControllers env s c) := by
  unfold resetAllControllers
  exact ((setChan_samp (s := s) c fun _ => freshChan).trans (foreach_samp (fun s j => initDev_samp hq j) _)).trans
    (setDynamicMode_samp _)

theorem resetChannels_samp (hq : ¬Q) : Samp P Q s (resetChannels env s) := by
  unfold resetChannels
  refine Samp.trans (t := { s with chan := fun c => if c < 16 then freshChan else s.chan c }) (.same rfl rfl) ?_
  exact (fold_samp _ (fun s j => initDev_samp hq j) _).trans applyDynamicMode_samp

theorem generalMidiReset_samp (hq : ¬Q) : Samp P Q s (generalMidiReset env s) := by
  unfold generalMidiReset
  simp only
  refine (fold_samp (f := fun s c => allNotesOff env s c) (List.range 16) (fun s c => allNotesOff_samp c) s).trans ?_
  generalize (List.range 16).foldl _ s = t
  refine Samp.trans ?_ (resetChannels_samp hq)
  split
  · exact .same rfl rfl
  · exact .refl

theorem ccSwitch_samp (c v : Nat) {k : Nat} (h78 : k ≠ 78) (hq : k = 121 → ¬Q) : Samp P Q s (ccSwitch env s c k v) := by
  unfold ccSwitch
  split
  · split
    · exact setChan_samp _ _
    · exact ub_samp
  · exact Samp.trans (t := setChan s c _) (setChan_samp _ _) (foreach_samp (fun s j => updateVolume_samp c j) _)
  · exact Samp.trans (t := setChan s c _) (setChan_samp _ _) (foreach_samp (fun s j => updatePan_samp c j) _)
  · exact allNotesOff_samp c
  · exact allNotesOff_samp c
  · exact setPolyphonic_samp _
  · exact fmCall_samp id
  · exact resetAllControllers_samp (hq rfl) c
  · split
    · exact .refl
    · exact emit_samp _
  · split
    · exact .refl
    · exact setChan_samp _ _
  · exact setChan_samp _ _
  · split
    · exact .refl
    · exact setChan_samp _ _
  · exact rpnDataEntry_samp c v true
  · exact rpnDataEntry_samp c v false
  · exact setChan_samp _ _
  · exact setChan_samp _ _
  · exact .refl
  · exact .refl
  · exact .refl
  · exact .refl
  · unfold storeFromChannel; split
    · exact (fmCall_samp id).trans (say_samp _)
    · exact .refl
  · exact foreach_samp (fun s j => setFmParam_samp j v h78) s

/-! ### System exclusive -/

theorem clearAll_samp (d : List Nat) : Samp P Q s (clearAll env s d) := by
  have h := fold_samp (P := P) (Q := Q) (f := fun s n => fmCall env s (.clear n)) (List.range 128) (fun _ _ => fmCall_samp id) s
  unfold clearAll
  split
  · exact h.trans (say_samp _)
  · exact say_samp _

theorem handler_samp (c : Nat) (e : List Nat) (j : Nat) : Samp P Q s (handler env s c e j) := by
  unfold handler
  split
  · exact remap_samp _ _
  · exact emit_samp _
  · exact setDynamicMode_samp _
  · exact .same rfl rfl
  · exact .same rfl rfl
  · unfold loadPsgEnvelope; split
    · exact ub_samp
    · exact (psgCall_samp _).trans (say_samp _)
  · exact .same rfl rfl
  · exact fmCall_samp id
  · exact fmCall_samp id
  · unfold storeProgram; split
    · exact (fmCall_samp id).trans (say_samp _)
    · exact say_samp _
  · unfold clearProgram; split
    · exact (fmCall_samp id).trans (say_samp _)
    · exact say_samp _
  · exact clearAll_samp e
  · unfold dumpPreset; split
    · split
      · exact (emit_samp _).trans (say_samp _)
      · exact say_samp _
    · exact say_samp _
  · unfold dumpChannel
    simp only
    split
    · exact say_samp _
    split
    · split
      · split
        · exact (emit_samp _).trans (say_samp _)
        · exact say_samp _
      · exact say_samp _
    · exact say_samp _
  · exact .refl

theorem sysex_samp (d : List Nat) (j : Nat) (hq : d.take 4 = [0x7E, 0x7F, 0x09, 0x01] → ¬Q) : Samp P Q s (sysex env s d j) := by
  unfold sysex
  split
  · exact .refl
  split
  · rename_i h; exact generalMidiReset_samp (hq h)
  split
  · exact .refl
  simp only
  split
  · exact say_samp _
  · split
    · exact say_samp _
    · exact handler_samp _ _ _
  · exact handler_samp _ _ _

/-! ### Notes of the voice that plays samples -/

variable {tame : Bool}

/-- What a key makes of the sample that plays. -/
def strike (env : Env) (p : Nat) (before : Option Nat) : Option Nat := if env.fm.pcm p then some p else before

theorem dac_tame (hs : Ok env tame s) (h : (s.dev 5).ops = .dac) : tame = true := by
  cases tame with
  | true => rfl
  | false => exact absurd h ((hs.dev 5 (by omega)).dac rfl)

theorem not_dac (hs : Ok env tame s) {j : Nat} (hj : j < 13) (h : j ≠ 5) : (s.dev j).ops ≠ .dac := by
  intro e
  rcases (hs.dev j hj).kind with k | k | k | k
  · rw [k.2] at e; exact nomatch e
  · exact h k.1
  · rw [k.2.2] at e; exact nomatch e
  · rw [k.2.2] at e; exact nomatch e

theorem dacNoteOn_sample {f : Fm.St} {p : Nat} (hp : p < 128) (e : Fm.Env) :
    sample (Fm.step e f (.dacNoteOn p)).synth.out = if e.pcm p then some p else sample f.synth.out := by
  simp only [Fm.step, Fm.dacNoteOn, if_pos hp]
  split <;> rfl

theorem dacNoteOff_sample (f : Fm.St) (e : Fm.Env) : sample (Fm.step e f .dacNoteOff).synth.out = none := rfl

/-- The voice strikes the key it holds. -/
theorem downstream_strike {i v : Nat} (hd : (s.dev i).ops = .dac) (hm : (s.dev i).midiChannel < 16) (hp : (s.dev i).pitch < 128)
    (hc : (s.dev i).cents = 0) (hb : (s.dev i).pitchBend = 0x2000) (hf : (s.chan (s.dev i).midiChannel).fineTune = 0) :
    sample (setDownstreamNoteOn env s i v).fm.synth.out = strike env (s.dev i).pitch (sample s.fm.synth.out) := by
  simp only [setDownstreamNoteOn, withPitch, if_pos hm, hc, hb, hf, effective_centre _ (by omega : (s.dev i).pitch < 256)]
  simp only [devNoteOn, hd, fmCall, dacNoteOn_sample hp]
  rfl

theorem startNote_strike (hs : Ok env tame s) {c p v : Nat} (hc : c < 16) (hp : p < 128) (hd : (s.dev 5).ops = .dac) :
    sample (startNote env s 5 c p v).fm.synth.out = strike env p (sample s.fm.synth.out) := by
  have tm := dac_tame hs hd
  have dv := startNote_dev (env := env) (s := s) (i := 5) (c := c) (p := p) (v := v) hc
  have ch := startNote_chan (env := env) (s := s) 5 c p v
  revert dv ch
  unfold startNote
  extract_lets a b d
  intro dv ch
  rw [setDownstreamNoteOn_dev] at dv
  rw [setDownstreamNoteOn_chan] at ch
  have h1 : Samp True True s a := by
    simp only [a]; split
    · exact devProgram_samp _ _
    · exact .refl
  have h2 : Samp True True a b := put_samp 5 fun _ _ => rfl
  have h3 : Samp True True b d := updateDev_samp _
  have h4 := (h1.trans h2).trans h3
  have e : d.dev 5 = ({ s.dev 5 with midiChannel := c, noteOn := true, cents := 0, pitch := p } : Dev).sync (s.chan c) := by
    rw [dv, Psg.upd_same]
  have k := (hs.chan c hc).bend tm
  have := downstream_strike (env := env) (s := d) (i := 5) (v := v) (by rw [e]; exact hd) (by rw [e]; exact hc) (by rw [e]; exact hp)
    (by rw [e]; rfl) (by rw [e]; exact k.1) (by rw [ch, e]; exact k.2)
  rw [this, h4.play trivial, e]
  rfl

theorem release_sample (i : Nat) (hd : (s.dev i).ops = .dac) : sample (devChanNoteOff env s i).fm.synth.out = none := by
  simp only [devChanNoteOff, devNoteOff]
  have : ((setDev s i fun d => { d with noteOn := false, pitch := 0 }).dev i).ops = .dac := by simpa using hd
  rw [this]
  rfl

theorem retrigger_strike (hs : Ok env tame s) {q v : Nat} (hd : (s.dev 5).ops = .dac) (hm : (s.dev 5).midiChannel < 16)
    (hq : q < 128) : sample (devChanNoteOn env s 5 q v).fm.synth.out = strike env q (sample s.fm.synth.out) := by
  have tm := dac_tame hs hd
  unfold devChanNoteOn
  have k := (hs.chan _ hm).bend tm
  have b := (hs.dev 5 (by omega)).bend tm
  rw [downstream_strike]
  · simp only [setDev, Psg.upd_same]
  · simpa using hd
  · simpa using hm
  · simpa using hq
  · simp
  · simpa using b
  · simpa using k.2

/-- Releases in turn: the voice that plays samples among them. -/
theorem releases_sample (l : List Nat) (hl : l.Nodup) (h5 : 5 ∈ l) (hd : (s.dev 5).ops = .dac)
    (hn : ∀ j ∈ l, j ≠ 5 → (s.dev j).ops ≠ .dac) : sample (l.foldl (devChanNoteOff env) s).fm.synth.out = none := by
  have miss : ∀ (l : List Nat) (t : St), (∀ j ∈ l, (t.dev j).ops ≠ .dac) → Samp True True t (l.foldl (devChanNoteOff env) t) := by
    intro l
    induction l with
    | nil => intro t _; exact .refl
    | cons j l ih =>
      intro t h
      have k : Samp True True t (devChanNoteOff env t j) := devChanNoteOff_samp j fun _ => h j (by simp)
      exact k.trans (ih _ fun i hi => by rw [k.ops trivial]; exact h i (by simp [hi]))
  obtain ⟨l1, l2, rfl⟩ := List.append_of_mem h5
  have n := List.nodup_append.1 hl
  rw [List.foldl_append, List.foldl_cons]
  have k1 := miss l1 s fun j hj => hn j (by simp [hj]) fun e => by
    subst e; exact n.2.2 5 hj 5 (by simp) rfl
  generalize l1.foldl (devChanNoteOff env) s = t at *
  have d5 : (t.dev 5).ops = .dac := by rw [k1.ops trivial]; exact hd
  have r := release_sample (env := env) 5 d5
  have k2 : Samp False True t (devChanNoteOff env t 5) := devChanNoteOff_samp 5 fun x => x.elim
  have k3 := miss l2 (devChanNoteOff env t 5) fun j hj => by
    have e : j ≠ 5 := by rintro rfl; exact (List.nodup_cons.1 n.2.1).1 hj
    rw [k2.ops trivial, k1.ops trivial]
    exact hn j (by simp [hj]) e
  rw [k3.play trivial]
  exact r

/-- A note-off of the key the voice holds. -/
theorem noteOff_sample (hs : Ok env tame s) {c p : Nat} (hc : c < 16) {l : List Nat} (hl : Rep (s.chan c).stack l)
    (hd : (s.dev 5).ops = .dac) (h : Hit s c p 5) :
    sample (noteOff env s c p).fm.synth.out =
      if singleVoice s c true = true ∧ (l.filter (· ≠ p)).getLastD 0 ≠ 0 then
        if (s.chan c).portamento = true then sample s.fm.synth.out
        else strike env ((l.filter (· ≠ p)).getLastD 0) (sample s.fm.synth.out)
      else none := by
  obtain ⟨l0, hl0, hl1⟩ := (hs.chan c hc).stack
  have el : l0 = l := (Rep.held hl0).symm.trans (Rep.held hl)
  subst el
  have tm := dac_tame hs hd
  obtain ⟨st, e, hr⟩ := hl.remove p
  obtain ⟨st', e', hr'⟩ := hr.pop
  have hq : (l0.filter (· ≠ p)).getLastD 0 < 128 := by
    by_cases e : (l0.filter (· ≠ p)).getLastD 0 = 0
    · omega
    · have := hl1 _ (List.mem_filter.1 (getLastD_mem e)).1; rw [tm] at this; exact this
  generalize hq0 : l0.filter (· ≠ p) = q at *
  simp only [noteOff, e, e']
  simp only [NoteStack.popNewest] at hr' ⊢
  have ok1 : Ok env tame (setChan s c fun m => { m with stack := st' }) := by
    refine { hs with chan := fun k hk => ?_ }
    by_cases e : k = c
    · subst e
      simp only [setChan, Psg.upd_same]
      refine { (hs.chan k hk) with stack := ⟨_, hr', fun x hx => ?_⟩ }
      exact hl1 x (by rw [← hq0] at hx; exact (List.mem_filter.1 (List.dropLast_subset _ hx)).1)
    · simp only [setChan, Psg.upd_other _ _ _ _ e]; exact hs.chan k hk
  generalize hs1 : setChan s c (fun m => { m with stack := st' }) = s1 at *
  have d1 : s1.dev = s.dev := by rw [← hs1]; rfl
  have f1 : s1.fm = s.fm := by rw [← hs1]; rfl
  have hh : ∀ i, Hit s1 c p i ↔ Hit s c p i := by intro i; unfold Hit; rw [d1]
  have c1 : (s1.chan c).portamento = (s.chan c).portamento := by rw [← hs1]; simp
  have v1 : singleVoice s1 c true = singleVoice s c true := by unfold singleVoice; rw [d1]
  rw [v1]
  by_cases ha : (singleVoice s c true && q.getLastD 0 != 0) = true
  · have hx := ha
    simp only [Bool.and_eq_true, bne_iff_ne] at hx
    rw [if_pos hx]
    have one : ∀ i ∈ List.range 13, Hit s1 c p i → i = 5 := fun i hi k => by
      have k := (hh i).1 k
      exact single_hit hx.1 (List.mem_range.1 hi) (by omega) ⟨k.1, isPlaying_on k.2⟩ ⟨h.1, isPlaying_on h.2⟩
    rw [fold_one List.nodup_range (List.mem_range.2 (by omega : 5 < 13)) s1 one fun i hi => ?_]
    · have h1 := (hh 5).2 h
      unfold noteOffBody
      unfold Hit at h1
      simp only [if_pos h1, Bool.not_false, Bool.true_and, ha, if_true]
      rw [c1]
      split
      · obtain ⟨st2, e2, -⟩ := hr'.push (q.getLastD 0)
        have : (s1.chan c).stack = st' := by rw [← hs1]; simp
        rw [this, e2]
        simp only [setDev, setChan, f1]
      · rw [retrigger_strike ok1 (by rw [d1]; exact hd) (by rw [d1, h.1]; exact hc) hq, f1]
    · unfold noteOffBody
      simp only
      split
      · split
        · split
          · split
            · rfl
            · simp [Psg.upd_other _ _ _ _ hi]
          · rw [devChanNoteOn_dev, Psg.upd_other _ _ _ _ hi]
        · rw [devChanNoteOff_dev, Psg.upd_other _ _ _ _ hi]
      · rfl
  · rw [if_neg (by simpa using ha)]
    rw [noteOff_releases (by simpa using ha) _ List.nodup_range]
    refine releases_sample _ (List.nodup_range.filter _) ?_ (by rw [d1]; exact hd) fun j hj e => ?_
    · simp only [List.mem_filter, List.mem_range, decide_eq_true_eq]
      exact ⟨by omega, (hh 5).2 h⟩
    · rw [d1]
      exact not_dac hs (List.mem_range.1 (List.mem_filter.1 hj).1) e

/-! ### Controller 78 and resets -/

theorem enableDac_samp (s : St) (b : Bool) :
    (enableDac env s b).fm.synth.dacEnable = b ∧ (enableDac env s b).dev = upd s.dev 5 { s.dev 5 with ops := if b then .dac else .fm } ∧
    (enableDac env s b).cfg = s.cfg ∧
    sample (enableDac env s b).fm.synth.out = if b = true ∧ s.fm.synth.dacEnable = true then sample s.fm.synth.out else none := by
  have := Synth.enableDac_sample s.fm.synth b
  exact ⟨this.1, rfl, rfl, this.2⟩

/-- The loop of controller 78: once for every voice of the channel. -/
theorem dacLoop (c : Nat) (b : Bool) (l : List Nat) : ∀ s : St, (∃ j ∈ l, (s.dev j).midiChannel = c) →
    let t := l.foldl (fun s i => if (s.dev i).midiChannel = c then enableDac env s b else s) s
    t.fm.synth.dacEnable = b ∧ (t.dev 5).ops = (if b then .dac else .fm) ∧
    sample t.fm.synth.out = if b = true ∧ s.fm.synth.dacEnable = true then sample s.fm.synth.out else none := by
  induction l with
  | nil => intro s ⟨j, hj, _⟩; exact nomatch hj
  | cons i l ih =>
    intro s ⟨j, hj, hm⟩
    simp only [List.foldl_cons]
    split
    · obtain ⟨h1, h2, -, h3⟩ := enableDac_samp (env := env) s b
      by_cases k : ∃ j ∈ l, ((enableDac env s b).dev j).midiChannel = c
      · obtain ⟨k1, k2, k3⟩ := ih _ k
        refine ⟨k1, k2, ?_⟩
        rw [k3, h1, h3]
        cases b <;> simp
      · have : ∀ (l : List Nat) (u : St), (¬∃ j ∈ l, (u.dev j).midiChannel = c) →
            l.foldl (fun s i => if (s.dev i).midiChannel = c then enableDac env s b else s) u = u := by
          intro l
          induction l with
          | nil => intro u _; rfl
          | cons a l ih =>
            intro u h
            rw [List.foldl_cons, if_neg fun e => h ⟨a, by simp, e⟩]
            exact ih u fun ⟨j, x, y⟩ => h ⟨j, by simp [x], y⟩
        rw [this l _ k]
        refine ⟨h1, ?_, h3⟩
        rw [h2, Psg.upd_same]
    · rename_i hi
      rcases List.mem_cons.1 hj with e | e
      · subst e; exact absurd hm hi
      · exact ih s ⟨j, e, hm⟩

theorem params_dac {c v : Nat} (l : List Nat) : ∀ u : St, u.cfg.disableNonGm = false →
    l.foldl (fun s i => if (s.dev i).midiChannel = c then setFmParam env s i 78 v else s) u =
    l.foldl (fun s i => if (s.dev i).midiChannel = c then enableDac env s (decide (v / 64 ≠ 0)) else s) u := by
  induction l with
  | nil => intro u _; rfl
  | cons i l ih =>
    intro u hu
    simp only [List.foldl_cons]
    have e1 : setFmParam env u i 78 v = enableDac env u (decide (v / 64 ≠ 0)) := by
      simp only [setFmParam, fmParam, hu, if_true, Bool.false_eq_true, if_false]
    rw [e1]
    have e2 := (enableDac_samp (env := env) u (decide (v / 64 ≠ 0))).2.2.1
    refine ih _ ?_
    split
    · rw [e2]; exact hu
    · exact hu

theorem cc_dac (c v : Nat) : cc env s c 78 v = emit (foreach s c fun s i => setFmParam env s i 78 v) (.changedCc c 78 v) := by
  unfold cc ccSwitch
  rfl

/-- Controller 78 on a channel that has voices. -/
theorem cc78 {c v : Nat} (hg : s.cfg.disableNonGm = false) (hm : ∃ j, j < 13 ∧ (s.dev j).midiChannel = c) :
    (cc env s c 78 v).fm.synth.dacEnable = decide (v / 64 ≠ 0) ∧
    ((cc env s c 78 v).dev 5).ops = (if decide (v / 64 ≠ 0) = true then .dac else .fm) ∧
    sample (cc env s c 78 v).fm.synth.out =
      if decide (v / 64 ≠ 0) = true ∧ s.fm.synth.dacEnable = true then sample s.fm.synth.out else none := by
  obtain ⟨j, hj, hm⟩ := hm
  have k := dacLoop (env := env) c (decide (v / 64 ≠ 0)) (List.range 13) s ⟨j, List.mem_range.2 hj, hm⟩
  have e := params_dac (env := env) (c := c) (v := v) (List.range 13) s hg
  rw [cc_dac]
  unfold foreach
  rw [e]
  revert k
  generalize (List.range 13).foldl _ s = t
  exact id

/-- Controller 78 on a channel without voices, or with only General MIDI controllers accepted. -/
theorem cc78_ignored {c v : Nat} (h : s.cfg.disableNonGm = true ∨ ∀ j, j < 13 → (s.dev j).midiChannel ≠ c) :
    Samp P Q s (cc env s c 78 v) := by
  rw [cc_dac]
  refine Samp.trans ?_ (emit_samp _)
  unfold foreach
  have : ∀ (l : List Nat) (u : St), (∀ i ∈ l, i < 13) → (u.cfg.disableNonGm = true ∨ ∀ j, j < 13 → (u.dev j).midiChannel ≠ c) →
      l.foldl (fun s i => if (s.dev i).midiChannel = c then setFmParam env s i 78 v else s) u = u := by
    intro l
    induction l with
    | nil => intro u _ _; rfl
    | cons i l ih =>
      intro u hl hu
      rw [List.foldl_cons]
      have e : (if (u.dev i).midiChannel = c then setFmParam env u i 78 v else u) = u := by
        rcases hu with hu | hu
        · split
          · simp only [setFmParam, fmParam, hu, if_true]
          · rfl
        · rw [if_neg (hu i (hl i (by simp)))]
      rw [e]
      exact ih u (fun i hi => hl i (by simp [hi])) hu
  rw [this _ s (fun i hi => List.mem_range.1 hi) h]
  exact .refl

theorem reset_samp (he : env.Ok) (s : St) : (reset env s).fm.synth.dacEnable = false ∧ sample (reset env s).fm.synth.out = none := by
  obtain ⟨u, e, e1, -, -⟩ := reset_split env s
  have k : Samp True False u (resetChannels env u) := resetChannels_samp id
  rw [e]
  have k2 := Fm.step_calm env.fm (Fm.step env.fm s.fm .reset) (op := .smReset) id
  have k3 := Fm.reset_sample (env := env.fm) (fun h => by have := he.fm.presets; simp [h] at this) s.fm
  rw [← e1] at k2
  exact ⟨k.dac.trans (k2.dac.trans k3.1), (k.play trivial).trans (k2.play.trans k3.2)⟩

end Mdmi.Midi
