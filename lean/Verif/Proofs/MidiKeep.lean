import Verif.Proofs.MidiKeyInv
import Verif.Proofs.MidiLevel
/-!
# FM calls that leave an FM channel alone

Volume, stereo setting and loaded preset of one channel of the FM driver through its calls.
-/
namespace Mdmi.Synth

/-- Calls that leave the stereo setting of channel `i` alone, and with `P` every other parameter of a preset too. -/
def Op.calm (P : Prop) (i : Nat) : Op → Prop
  | .init _ => False
  | .stereo c _ => c ≠ i
  | .noteOn _ | .noteOff _ | .pitch _ _ _ | .volume _ _ | .enableLfo _ | .lfoFrequency _ | .specialMode _
  | .specialModePitch _ _ _ | .specialModeVolume _ _ | .directWrite _ _ _ | .enableDac _ => True
  | .algorithm c _ | .feedback c _ | .ams c _ | .fms c _ | .preset c _ | .totalLevel c _ _ | .multiple c _ _
  | .detune c _ _ | .rateScaling c _ _ | .attackRate c _ _ | .sustainRate c _ _ | .releaseRate c _ _ | .ssgEg c _ _
  | .sustainLevel c _ _ | .decayRate c _ _ | .am c _ _ => c ≠ i ∨ ¬P

/-- The stereo setting of channel `i` is kept, with `P` every other parameter of a preset too. -/
structure Keep (P : Prop) (i : Nat) (s t : St) : Prop where
  stereo : (t.ch i).stereo = (s.ch i).stereo
  preset : P → extractPreset t i = extractPreset s i

theorem Keep.of_ch {P : Prop} {i : Nat} {s t : St} (h : t.ch i = s.ch i) : Keep P i s t :=
  ⟨by rw [h], fun _ => by simp only [extractPreset, h]⟩

theorem Keep.trans {P : Prop} {i : Nat} {s t u : St} (h : Keep P i s t) (k : Keep P i t u) : Keep P i s u :=
  ⟨k.stereo.trans h.stereo, fun e => (k.preset e).trans (h.preset e)⟩

theorem onCh_keep {P : Prop} {i c : Nat} {s : St} {f : FmChannel → FmChannel}
    (h : c ≠ i ∨ ((f (s.ch c)).stereo = (s.ch c).stereo ∧ (P → (f (s.ch c)).algorithm = (s.ch c).algorithm ∧
      (f (s.ch c)).feedback = (s.ch c).feedback ∧ (f (s.ch c)).ams = (s.ch c).ams ∧ (f (s.ch c)).fms = (s.ch c).fms ∧
      (f (s.ch c)).ops = (s.ch c).ops))) : Keep P i s (onCh s c f) := by
  unfold onCh; split
  · by_cases e : c = i
    · subst e
      rcases h with h | h
      · exact absurd rfl h
      · constructor
        · simpa using h.1
        · intro p
          obtain ⟨a, b, c, d, e⟩ := h.2 p
          simp [extractPreset, a, b, c, d, e]
    · exact .of_ch (Psg.upd_other _ _ _ _ (Ne.symm e))
  · exact .of_ch rfl

theorem onOp_keep {P : Prop} {i c op : Nat} {s : St} {f : Operator → Operator} (h : c ≠ i ∨ ¬P) :
    Keep P i s (onOp s c op f) := by
  unfold onOp; split
  · by_cases e : c = i
    · subst e
      rcases h with h | h
      · exact absurd rfl h
      · exact ⟨by simp, fun p => absurd p h⟩
    · exact .of_ch (Psg.upd_other _ _ _ _ (Ne.symm e))
  · exact .of_ch rfl

theorem volume_ch (s : St) (c x : Nat) : (step s (.volume c x)).ch = s.ch := by
  simp only [step, volume, guardCh]
  split
  · split
    · rfl
    · rw [(step_vol_out _ c).1]
  · rfl

theorem step_keep {P : Prop} {i : Nat} (s : St) {op : Op} (h : op.calm P i) : Keep P i s (step s op) := by
  have fin : ∀ {s t u : St}, Keep P i s t → u.ch = t.ch → Keep P i s u := fun a b => a.trans (.of_ch (by rw [b]))
  cases op with
  | init _ => exact h.elim
  | stereo c x => exact fin (onCh_keep (.inl h)) (wStereo_ch ..)
  | noteOn c => exact .of_ch (by simp [step, noteOn])
  | noteOff c => exact .of_ch (by simp [step, noteOff])
  | pitch c o x => exact fin (onCh_keep (f := fun ch => { ch with octave := o % 8, freqNumber := x % 2048 }) (.inr ⟨rfl, fun _ => ⟨rfl, rfl, rfl, rfl, rfl⟩⟩)) (wOctave_ch ..)
  | volume c x => exact .of_ch (by rw [volume_ch])
  | enableLfo x => exact .of_ch (by simp [step, enableLfo])
  | lfoFrequency x => exact .of_ch (by simp [step, globalLfoFrequency])
  | specialMode e => exact .of_ch (by simp [step, setSpecialMode])
  | specialModePitch o p x => exact .of_ch (by simp only [step, specialModePitch]; repeat' (first | split | rfl | simp))
  | specialModeVolume o x => exact .of_ch (by simp [step])
  | directWrite p r d => exact .of_ch (by simp [step, directWrite])
  | enableDac e => exact .of_ch (by simp [step])
  | algorithm c x => exact fin (onCh_keep (h.imp id fun e => ⟨rfl, fun k => absurd k e⟩)) (wAlg_ch ..)
  | feedback c x => exact fin (onCh_keep (h.imp id fun e => ⟨rfl, fun k => absurd k e⟩)) (wAlg_ch ..)
  | ams c x => exact fin (onCh_keep (h.imp id fun e => ⟨rfl, fun k => absurd k e⟩)) (wStereo_ch ..)
  | fms c x => exact fin (onCh_keep (h.imp id fun e => ⟨rfl, fun k => absurd k e⟩)) (wStereo_ch ..)
  | preset c p =>
    simp only [step, preset, guardCh]
    split
    · exact fin (onCh_keep (h.imp id fun e => ⟨rfl, fun k => absurd k e⟩)) (updateChannel_ch ..)
    · exact .of_ch rfl
  | totalLevel c op x =>
    simp only [step, operatorTotalLevel, guardOp]
    split
    · split
      · exact .of_ch rfl
      · exact fin (onOp_keep h) (wTl_ch ..)
    · exact .of_ch rfl
  | multiple c op x => exact fin (onOp_keep h) (wMd_ch ..)
  | detune c op x => exact fin (onOp_keep h) (wMd_ch ..)
  | rateScaling c op x => exact fin (onOp_keep h) (wAr_ch ..)
  | attackRate c op x => exact fin (onOp_keep h) (wAr_ch ..)
  | sustainRate c op x => exact fin (onOp_keep h) (wSr_ch ..)
  | releaseRate c op x => exact fin (onOp_keep h) (wRr_ch ..)
  | ssgEg c op x => exact fin (onOp_keep h) (wSsg_ch ..)
  | sustainLevel c op x => exact fin (onOp_keep h) (wRr_ch ..)
  | decayRate c op x => exact fin (onOp_keep h) (wDr_ch ..)
  | am c op x => exact fin (onOp_keep h) (wDr_ch ..)

end Mdmi.Synth

namespace Mdmi.Fm

/-- Calls that leave volume and stereo setting of channel `i` alone, and with `P` the loaded preset, the user presets
and the percussion flag too. -/
def Op.calm (P : Prop) (i : Nat) (f : St) : Op → Prop
  | .reset => False
  | .noteOn c _ _ _ => P → c = i → (f.ch i).percussive = false
  | .volume c _ | .pan c _ => c ≠ i
  | .program c _ | .percussive c _ => P → c ≠ i
  | .store _ _ | .clear _ | .storeFrom _ _ => ¬P
  | .synth o => o.calm P i
  | _ => True

structure Keep (P : Prop) (i : Nat) (f g : St) : Prop where
  vol : (g.ch i).volume = (f.ch i).volume
  synth : Synth.Keep P i f.synth g.synth
  user : P → g.user = f.user
  perc : P → (g.ch i).percussive = (f.ch i).percussive

variable {P : Prop} {i : Nat} {f g k : St} {env : Env}

theorem Keep.refl : Keep P i f f := ⟨rfl, .of_ch rfl, fun _ => rfl, fun _ => rfl⟩

theorem Keep.trans (h : Keep P i f g) (h' : Keep P i g k) : Keep P i f k :=
  ⟨h'.vol.trans h.vol, h.synth.trans h'.synth, fun e => (h'.user e).trans (h.user e), fun e => (h'.perc e).trans (h.perc e)⟩

theorem call_keep {o : Synth.Op} (h : o.calm P i) : Keep P i f (call f o) :=
  ⟨rfl, Synth.step_keep _ h, fun _ => rfl, fun _ => rfl⟩

theorem ub_keep : Keep P i f (ub f) := ⟨rfl, .of_ch rfl, fun _ => rfl, fun _ => rfl⟩

theorem store_keep {c : Nat} {x : Chan} (h : c = i → x.volume = (f.ch i).volume ∧ (P → x.percussive = (f.ch i).percussive)) :
    Keep P i f { f with ch := upd f.ch c x } := by
  by_cases e : c = i
  · subst e
    exact ⟨by simpa using (h rfl).1, .of_ch rfl, fun _ => rfl, fun p => by simpa using (h rfl).2 p⟩
  · exact ⟨by simp [Psg.upd_other _ _ _ _ (Ne.symm e)], .of_ch rfl, fun _ => rfl, fun _ => by simp [Psg.upd_other _ _ _ _ (Ne.symm e)]⟩

theorem sramEnable_ch : (sramEnable f).ch = f.ch ∧ (sramEnable f).synth.ch = f.synth.ch ∧ (sramEnable f).user = f.user :=
  ⟨rfl, rfl, rfl⟩

theorem sramDisable_ch : (sramDisable f).ch = f.ch ∧ (sramDisable f).synth.ch = f.synth.ch ∧ (sramDisable f).user = f.user := by
  unfold sramDisable; split <;> exact ⟨rfl, rfl, rfl⟩

theorem sramSave_ch (n : Nat) (p : Synth.FmPreset) : (sramSave env f n p).ch = f.ch ∧ (sramSave env f n p).synth.ch = f.synth.ch := by
  unfold sramSave; split
  · exact ⟨rfl, rfl⟩
  · simp only; exact ⟨sramDisable_ch.1, sramDisable_ch.2.1⟩

theorem sramClear_ch (n : Nat) : (sramClear env f n).ch = f.ch ∧ (sramClear env f n).synth.ch = f.synth.ch := by
  unfold sramClear; split
  · exact ⟨rfl, rfl⟩
  · simp only; exact ⟨sramDisable_ch.1, sramDisable_ch.2.1⟩

theorem noteOn_play_keep (env : Env) (f : St) (chan pitch velocity : Nat) (cents : Int) : Keep P i f
    (call (setSynthPitch env
      { call { f with ch := upd f.ch chan { f.ch chan with velocity := velocity } }
          (.volume chan (effectiveVolume ({ f with ch := upd f.ch chan { f.ch chan with velocity := velocity } }.ch chan))) with
        ch := upd (call { f with ch := upd f.ch chan { f.ch chan with velocity := velocity } }
          (.volume chan (effectiveVolume ({ f with ch := upd f.ch chan { f.ch chan with velocity := velocity } }.ch chan)))).ch chan
          { (call { f with ch := upd f.ch chan { f.ch chan with velocity := velocity } }
          (.volume chan (effectiveVolume ({ f with ch := upd f.ch chan { f.ch chan with velocity := velocity } }.ch chan)))).ch chan with
            pitch := pitch, cents := cents } } chan) (.noteOn chan)) := by
  refine Keep.trans (g := { f with ch := upd f.ch chan { f.ch chan with velocity := velocity } })
    (store_keep fun e => ⟨by rw [e], fun _ => by rw [e]⟩) ?_
  refine Keep.trans (call_keep (o := .volume chan (effectiveVolume ({ f with ch := upd f.ch chan { f.ch chan with velocity := velocity } }.ch chan))) trivial) ?_
  generalize (call { f with ch := upd f.ch chan { f.ch chan with velocity := velocity } }
    (.volume chan (effectiveVolume ({ f with ch := upd f.ch chan { f.ch chan with velocity := velocity } }.ch chan)))) = g
  refine Keep.trans (g := { g with ch := upd g.ch chan { g.ch chan with pitch := pitch, cents := cents } })
    (store_keep fun e => ⟨by rw [e], fun _ => by rw [e]⟩) ?_
  unfold setSynthPitch
  exact Keep.trans (call_keep (o := .pitch ..) trivial) (call_keep (o := .noteOn ..) trivial)

theorem step_keep {op : Op} (h : op.calm P i f) : Keep P i f (step env f op) := by
  cases op with
  | reset => exact h.elim
  | noteOn c p x v =>
    simp only [step, noteOn]
    split
    · exact .refl
    unfold guardCh
    split
    · show Keep P i f (if (f.ch c).percussive then _ else _)
      split
      · rename_i hp
        split
        · exact ub_keep
        · rename_i pp _
          refine Keep.trans (g := call f (.preset c pp.preset)) (call_keep ?_) (noteOn_play_keep ..)
          show c ≠ i ∨ ¬P
          by_cases e : c = i
          · refine .inr fun p => ?_
            rw [e, h p e] at hp; cases hp
          · exact .inl e
      · exact noteOn_play_keep ..
    · exact ub_keep
  | noteOff c => exact call_keep trivial
  | allNotesOff c => exact call_keep trivial
  | volume c v =>
    simp only [step, channelVolume, guardCh]
    split
    · exact Keep.trans (g := { f with ch := upd f.ch c { f.ch c with volume := v } }) (store_keep fun e => absurd e h) (call_keep trivial)
    · exact ub_keep
  | program c p =>
    have k : ∀ q, Keep P i f (call f (.preset c q)) := fun q => call_keep (show c ≠ i ∨ ¬P by
      by_cases p : P
      · exact .inl (h p)
      · exact .inr p)
    simp only [step, program]
    split
    · split
      · exact k _
      · split
        · exact k _
        · exact ub_keep
    · exact ub_keep
  | percussive c b =>
    simp only [step, percussive, guardCh]
    split
    · exact store_keep fun e => ⟨by rw [e], fun p => absurd e (h p)⟩
    · exact ub_keep
  | pan c x =>
    have hs : Keep P i f { f with ch := upd f.ch c { f.ch c with pan := x } } := store_keep fun e => absurd e h
    have k : ∀ v, (Synth.Op.stereo c v).calm P i := fun _ => h
    simp only [step, pan, guardCh]
    split
    · split
      · exact hs.trans (call_keep (k _))
      split
      · exact hs.trans (call_keep (k _))
      · exact hs.trans (call_keep (k _))
    · exact ub_keep
  | pitch c p x =>
    simp only [step, pitch, guardCh, setSynthPitch]
    split
    · exact Keep.trans (g := { f with ch := upd f.ch c { f.ch c with pitch := p, cents := x } })
        (store_keep fun e => ⟨by rw [e], fun _ => by rw [e]⟩) (call_keep trivial)
    · exact ub_keep
  | store n p =>
    have h : ¬P := h
    simp only [step, storePreset]
    split
    · have k := sramSave_ch (env := env) (f := { f with user := upd f.user n (some p) }) n p
      exact ⟨by rw [k.1], .of_ch (by rw [k.2]), fun p => absurd p h, fun p => absurd p h⟩
    · exact ub_keep
  | clear n =>
    have h : ¬P := h
    simp only [step, clearPreset]
    split
    · have k := sramClear_ch (env := env) (f := { f with user := upd f.user n none }) n
      exact ⟨by rw [k.1], .of_ch (by rw [k.2]), fun p => absurd p h, fun p => absurd p h⟩
    · exact ub_keep
  | storeFrom c n =>
    have h : ¬P := h
    simp only [step, storePresetFromChannel, guardCh, storePreset]
    split
    · split
      · have k := sramSave_ch (env := env) (f := { f with user := upd f.user n (some (Synth.extractPreset f.synth c)) }) n (Synth.extractPreset f.synth c)
        exact ⟨by rw [k.1], .of_ch (by rw [k.2]), fun p => absurd p h, fun p => absurd p h⟩
      · exact ub_keep
    · exact ub_keep
  | smNoteOn o p x v =>
    simp only [step, smNoteOn, smPitch]
    split
    · exact Keep.trans (g := call { f with smPitch := upd f.smPitch o p, smCents := upd f.smCents o x } (.specialModePitch o (pitchToOctave p) (freqNum env.pal p x)))
        ⟨rfl, (call_keep (f := f) (o := .specialModePitch o (pitchToOctave p) (freqNum env.pal p x)) trivial).synth, fun _ => rfl, fun _ => rfl⟩ (call_keep trivial)
    · exact ub_keep.trans (call_keep trivial)
  | smPitch o p x =>
    simp only [step, smPitch]
    split
    · exact ⟨rfl, (call_keep (f := f) (o := .specialModePitch o (pitchToOctave p) (freqNum env.pal p x)) trivial).synth, fun _ => rfl, fun _ => rfl⟩
    · exact ub_keep
  | smReset => exact ⟨rfl, .of_ch rfl, fun _ => rfl, fun _ => rfl⟩
  | dacNoteOn p =>
    simp only [step, dacNoteOn]
    split
    · split
      · exact ⟨rfl, .of_ch rfl, fun _ => rfl, fun _ => rfl⟩
      · exact .refl
    · exact ub_keep
  | dacNoteOff => exact ⟨rfl, .of_ch rfl, fun _ => rfl, fun _ => rfl⟩
  | synth o => exact call_keep h

/-- The program's preset: the user's if there is one, else the built-in one. -/
def Lookup (env : Env) (f : St) (n : Nat) (q : Synth.FmPreset) : Prop :=
  n < 128 ∧ (f.user n = some q ∨ (f.user n = none ∧ env.presets[n]? = some q))

/-- The stereo setting for a pan position. -/
def side (pan : Nat) : Nat := if pan > 95 then 1 else if pan > 31 then 3 else 2

theorem volume_own (f : St) (hi : i < 6) (v : Nat) : ((step env f (.volume i v)).ch i).volume = v := by
  simp [step, channelVolume, guardCh, hi, call]

theorem volume_synth (f : St) (v : Nat) : (step env f (.volume i v)).synth.ch = f.synth.ch ∧
    (step env f (.volume i v)).user = f.user ∧ ∀ j, ((step env f (.volume i v)).ch j).percussive = (f.ch j).percussive := by
  simp only [step, channelVolume, guardCh]
  split
  · refine ⟨?_, rfl, fun j => ?_⟩
    · simp only [call, Synth.volume_ch]
    · simp only [call]
      by_cases e : j = i
      · subst e; simp
      · simp [Psg.upd_other _ _ _ _ e]
  · exact ⟨rfl, rfl, fun _ => rfl⟩

theorem pan_own (f : St) (hi : i < 6) (x : Nat) : ((step env f (.pan i x)).synth.ch i).stereo = side x ∧
    Synth.extractPreset (step env f (.pan i x)).synth i = Synth.extractPreset f.synth i := by
  simp only [step, pan, guardCh, if_pos hi, side]
  split
  · simp [call, Synth.step, Synth.stereo, Synth.onCh, hi, Synth.extractPreset]
  split
  · simp [call, Synth.step, Synth.stereo, Synth.onCh, hi, Synth.extractPreset]
  · simp [call, Synth.step, Synth.stereo, Synth.onCh, hi, Synth.extractPreset]

theorem pan_chan (f : St) (x : Nat) : (step env f (.pan i x)).user = f.user ∧
    ∀ j, ((step env f (.pan i x)).ch j).percussive = (f.ch j).percussive ∧
      ((step env f (.pan i x)).ch j).volume = (f.ch j).volume := by
  simp only [step, pan, guardCh]
  split
  · have h : ∀ j, (upd f.ch i { f.ch i with pan := x } j).percussive = (f.ch j).percussive ∧
        (upd f.ch i { f.ch i with pan := x } j).volume = (f.ch j).volume := by
      intro j
      by_cases e : j = i
      · subst e; simp
      · simp [Psg.upd_other _ _ _ _ e]
    split
    · exact ⟨rfl, h⟩
    split
    · exact ⟨rfl, h⟩
    · exact ⟨rfl, h⟩
  · exact ⟨rfl, fun _ => ⟨rfl, rfl⟩⟩

theorem program_own (f : St) (hi : i < 6) {n : Nat} {q : Synth.FmPreset} (h : Lookup env f n q) :
    Synth.extractPreset (step env f (.program i n)).synth i = q := by
  have k : step env f (.program i n) = call f (.preset i q) := by
    simp only [step, program, if_pos h.1]
    rcases h.2 with e | ⟨e, e'⟩
    · simp only [e]
    · simp only [e, e']
  rw [k]
  simp [call, Synth.step, Synth.preset, Synth.guardCh, hi, Synth.extractPreset, Synth.presetToChannel, Synth.onCh]

theorem program_stereo (f : St) (n : Nat) : ((step env f (.program i n)).synth.ch i).stereo = (f.synth.ch i).stereo ∧
    (step env f (.program i n)).user = f.user ∧ (step env f (.program i n)).ch = f.ch := by
  have k : ∀ q, ((call f (.preset i q)).synth.ch i).stereo = (f.synth.ch i).stereo := fun q =>
    (call_keep (P := False) (f := f) (o := .preset i q) (.inr id)).synth.stereo
  simp only [step, program]
  split
  · split
    · exact ⟨k _, rfl, rfl⟩
    · split
      · exact ⟨k _, rfl, rfl⟩
      · exact ⟨rfl, rfl, rfl⟩
  · exact ⟨rfl, rfl, rfl⟩

theorem percussive_own (f : St) (hi : i < 6) (b : Bool) : ((step env f (.percussive i b)).ch i).percussive = b ∧
    ((step env f (.percussive i b)).ch i).volume = (f.ch i).volume ∧ (step env f (.percussive i b)).synth = f.synth ∧
    (step env f (.percussive i b)).user = f.user := by
  simp [step, percussive, guardCh, hi]

/-- State after a reset. -/
theorem reset_own (env : Env) (f : St) (hi : i < 6) {q : Synth.FmPreset} (h : env.presets[0]? = some q) :
    ((step env f .reset).ch i).volume = 127 ∧ ((step env f .reset).synth.ch i).stereo = 3 ∧
    Synth.extractPreset (step env f .reset).synth i = q ∧
    (step env f .reset).user 0 = (if env.sram = true then userOf (Sram.loadProgram f.mem 0) none else none) := by
  have sp := sramLoad_spec env { f with user := fun _ => none, ch := resetChans f.ch }
  simp only [step, reset, h, call, Synth.step]
  have k := (Synth.init_ch q (sramLoad env { f with user := fun _ => none, ch := resetChans f.ch }).synth hi).1
  refine ⟨?_, ?_, ?_, ?_⟩
  · rw [sp.2.1]; simp [resetChans, hi]
  · rw [k]; rfl
  · simp only [Synth.extractPreset, k]; rfl
  · rw [sp.2.2.2.2.2]; simp

end Mdmi.Fm
