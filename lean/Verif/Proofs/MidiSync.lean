import Verif.Proofs.MidiCache
import Verif.Proofs.MidiEach
import Verif.Spec.Settings
/-!
# Volume, pan and program of MIDI channels, and of the voices mapped to them
-/
namespace Mdmi.Midi

variable {env : Env} {s t u : St}

def Chan.settings (m : Chan) : Settings := ⟨m.volume, m.pan, m.program⟩
def Dev.settings (d : Dev) : Settings := ⟨d.volume, d.pan, d.program⟩

/-- Mapping and settings stay. -/
structure Quiet (s t : St) : Prop where
  map : ∀ j, (t.dev j).midiChannel = (s.dev j).midiChannel
  dev : ∀ j, (t.dev j).settings = (s.dev j).settings
  chan : ∀ c, (t.chan c).settings = (s.chan c).settings
  dynamic : t.dynamic = s.dynamic

theorem Quiet.refl : Quiet s s := ⟨fun _ => rfl, fun _ => rfl, fun _ => rfl, rfl⟩

theorem Quiet.trans (h : Quiet s t) (k : Quiet t u) : Quiet s u :=
  ⟨fun j => (k.map j).trans (h.map j), fun j => (k.dev j).trans (h.dev j), fun j => (k.chan j).trans (h.chan j),
    k.dynamic.trans h.dynamic⟩

theorem Quiet.same (h1 : t.dev = s.dev) (h2 : t.chan = s.chan) (h3 : t.dynamic = s.dynamic) : Quiet s t :=
  ⟨fun _ => by rw [h1], fun _ => by rw [h1], fun _ => by rw [h2], h3⟩

theorem Quiet.upd {i : Nat} {d : Dev} (h : t.dev = Mdmi.upd s.dev i d) (h1 : d.midiChannel = (s.dev i).midiChannel)
    (h2 : d.settings = (s.dev i).settings) (h3 : t.chan = s.chan) (h4 : t.dynamic = s.dynamic) : Quiet s t := by
  refine ⟨fun j => ?_, fun j => ?_, fun _ => by rw [h3], h4⟩ <;> rw [h] <;> by_cases e : j = i
  · subst e; simpa using h1
  · simp [Psg.upd_other _ _ _ _ e]
  · subst e; simpa using h2
  · simp [Psg.upd_other _ _ _ _ e]

theorem Quiet.setChan {c : Nat} {f : Chan → Chan} (h : (f (s.chan c)).settings = (s.chan c).settings) :
    Quiet s (setChan s c f) := by
  refine ⟨fun _ => rfl, fun _ => rfl, fun j => ?_, rfl⟩
  rw [setChan_chan]
  by_cases e : j = c
  · subst e; simpa using h
  · simp [Psg.upd_other _ _ _ _ e]

theorem fold_quiet {α : Type} {f : St → α → St} (l : List α) (h : ∀ s a, Quiet s (f s a)) (s : St) :
    Quiet s (l.foldl f s) := by
  induction l generalizing s with
  | nil => exact .refl
  | cons a l ih => exact (h s a).trans (ih _)

theorem foreach_quiet {c : Nat} {body : St → Nat → St} (h : ∀ s i, Quiet s (body s i)) (s : St) :
    Quiet s (foreach s c body) := by
  refine fold_quiet _ (fun s i => ?_) s
  split
  · exact h s i
  · exact .refl

theorem noteOffBody_quiet (c p next : Nat) (single : Bool) (x : St × Bool) (i : Nat) :
    Quiet x.1 (noteOffBody env c p next single x i).1 := by
  obtain ⟨s, handled⟩ := x
  unfold noteOffBody
  simp only
  split
  · split
    · split
      · split
        · exact .same rfl rfl rfl
        · rename_i st _
          refine Quiet.trans (t := setChan s c fun m => { m with stack := st }) (.setChan rfl) ?_
          exact .upd (i := i) (d := { s.dev i with glide := next }) rfl rfl rfl rfl rfl
      · exact .upd (devChanNoteOn_dev i _ _) rfl rfl (by simp) (by simp)
    · exact .upd (devChanNoteOff_dev i) rfl rfl (by simp) (by simp)
  · exact .refl

theorem noteOff_quiet (c p : Nat) : Quiet s (noteOff env s c p) := by
  unfold noteOff
  split
  · exact .same rfl rfl rfl
  split
  · exact .same rfl rfl rfl
  rename_i next st _
  have h1 : Quiet s (setChan s c fun m => { m with stack := st }) := .setChan rfl
  refine h1.trans ?_
  simp only
  generalize setChan s c _ = t
  generalize singleVoice t c true = single
  have h : ∀ (l : List Nat) (x : St × Bool), Quiet x.1 (l.foldl (noteOffBody env c p next single) x).1 := by
    intro l
    induction l with
    | nil => intro x; exact .refl
    | cons i l ih => intro x; exact Quiet.trans (noteOffBody_quiet c p next single x i) (ih _)
  exact h _ (t, false)

theorem pitchBend_quiet (c b : Nat) : Quiet s (pitchBend env s c b) := by
  unfold pitchBend
  refine Quiet.trans (t := setChan s c fun m => { m with pitchBend := b }) (.setChan rfl) (foreach_quiet (fun s i => ?_) _)
  split
  · exact .upd (updatePitchBend_dev c i) rfl rfl (by simp) (by simp)
  · exact .refl

theorem allNotesOff_quiet (c : Nat) : Quiet s (allNotesOff env s c) :=
  foreach_quiet (fun s i => .upd (i := i) (d := { s.dev i with noteOn := false, pitch := 0 }) (by simp) rfl rfl
    (by simp) (by simp)) s

theorem setFmParam_quiet (i k v : Nat) : Quiet s (setFmParam env s i k v) := by
  unfold setFmParam
  split
  · split <;> exact .same rfl rfl rfl
  · split
    · split
      · exact .same rfl rfl rfl
      · exact .upd (i := 5) (d := { s.dev 5 with ops := if (decide (v / 64 ≠ 0)) then .dac else .fm }) rfl rfl rfl rfl rfl
    · exact .same rfl rfl rfl

theorem rpnDataEntry_quiet (c v : Nat) (b : Bool) : Quiet s (rpnDataEntry env s c v b) := by
  unfold rpnDataEntry
  split
  · unfold updatePbRange
    refine Quiet.trans (t := setChan s c _) (.setChan rfl) (foreach_quiet (fun s i => ?_) _)
    split
    · exact .same (by simp) (by simp) (by simp)
    · exact .refl
  · exact .same rfl rfl rfl

theorem tick_quiet : Quiet s (tick env s) := by
  unfold tick
  refine fold_quiet _ (fun s i => ?_) s
  split
  · exact .refl
  split
  · split
    · unfold processGlide
      split
      · exact .refl
      · rename_i g _
        exact .upd (i := i) (d := { s.dev i with pitch := g.pitch, cents := g.cents, glide := g.target }) (by simp)
          rfl rfl (by simp) (by simp)
    · exact .refl
  · exact .same rfl rfl rfl

theorem ccSwitch_quiet (c k v : Nat) (h7 : k ≠ 7) (h10 : k ≠ 10) (h84 : k ≠ 84) (h121 : k ≠ 121) :
    Quiet s (ccSwitch env s c k v) := by
  unfold ccSwitch
  split
  · split
    · exact .setChan rfl
    · exact .same rfl rfl rfl
  · exact absurd rfl h7
  · exact absurd rfl h10
  · exact allNotesOff_quiet c
  · exact allNotesOff_quiet c
  · exact absurd rfl h84
  · exact .same rfl rfl rfl
  · exact absurd rfl h121
  · split <;> exact .same rfl rfl rfl
  · split
    · exact .refl
    · exact .setChan rfl
  · exact .setChan rfl
  · split
    · exact .refl
    · exact .setChan rfl
  · exact rpnDataEntry_quiet c v true
  · exact rpnDataEntry_quiet c v false
  · exact .setChan rfl
  · exact .setChan rfl
  · exact .refl
  · exact .refl
  · exact .refl
  · exact .refl
  · unfold storeFromChannel; split <;> exact .same rfl rfl rfl
  · exact foreach_quiet (fun s i => setFmParam_quiet i k v) s

theorem say_quiet (m : Msg) : Quiet s (say s m) := .same rfl rfl rfl

theorem clearAll_quiet (d : List Nat) : Quiet s (clearAll env s d) := by
  have h := fold_quiet (f := fun s n => fmCall env s (.clear n)) (List.range 128) (fun _ _ => .same rfl rfl rfl) s
  unfold clearAll
  split
  · exact h.trans (say_quiet _)
  · exact .same rfl rfl rfl

theorem handler_quiet (c : Nat) (e : List Nat) (j : Nat) (h0 : c ≠ 0) (h3 : c ≠ 3) : Quiet s (handler env s c e j) := by
  unfold handler
  split
  · exact absurd rfl h0
  · exact .same rfl rfl rfl
  · exact absurd rfl h3
  · exact .same rfl rfl rfl
  · exact .same rfl rfl rfl
  · unfold loadPsgEnvelope; split <;> exact .same rfl rfl rfl
  · exact .same rfl rfl rfl
  · exact .same rfl rfl rfl
  · exact .same rfl rfl rfl
  · unfold storeProgram; split <;> exact .same rfl rfl rfl
  · unfold clearProgram; split <;> exact .same rfl rfl rfl
  · exact clearAll_quiet e
  · unfold dumpPreset; split
    · split <;> exact .same rfl rfl rfl
    · exact .same rfl rfl rfl
  · unfold dumpChannel; simp only; split
    · exact .same rfl rfl rfl
    split
    · split
      · split <;> exact .same rfl rfl rfl
      · exact .same rfl rfl rfl
    · exact .same rfl rfl rfl
  · exact .refl

/-- Settings of MIDI channels stay. -/
def ChanKept (s t : St) : Prop := ∀ c, (t.chan c).settings = (s.chan c).settings

theorem setDynamicMode_chan (m : Mode) : (setDynamicMode s m).chan = s.chan := by unfold setDynamicMode; split <;> rfl

theorem remap_chan (c i : Nat) : (remap s c i).chan = s.chan := by
  unfold remap; split
  · rfl
  split
  · split <;> rfl
  · split <;> rfl

theorem setPolyphonic_chan (e : Bool) : (setPolyphonic s e).chan = s.chan := by
  unfold setPolyphonic
  simp only
  split
  · have : ∀ (l : List Nat) (t : St), (l.foldl (fun s i => remap s 0 i) t).chan = t.chan := by
      intro l
      induction l with
      | nil => intro t; rfl
      | cons i l ih => intro t; rw [List.foldl_cons, ih, remap_chan]
    rw [this, setDynamicMode_chan]
  · exact setDynamicMode_chan _

theorem fold_chanEq {α : Type} {f : St → α → St} (h : ∀ s a, (f s a).chan = s.chan) (l : List α) (s : St) :
    (l.foldl f s).chan = s.chan := by
  induction l generalizing s with
  | nil => rfl
  | cons a l ih => rw [List.foldl_cons, ih, h]

theorem foreach_chanEq {c : Nat} {body : St → Nat → St} (h : ∀ s a, (body s a).chan = s.chan) (s : St) :
    (foreach s c body).chan = s.chan := by
  refine fold_chanEq (fun s a => ?_) _ _
  split
  · exact h s a
  · rfl

theorem applyDynamicMode_chan : (applyDynamicMode s).chan = s.chan := rfl

theorem resetChannels_chan {c : Nat} (hc : c < 16) : (resetChannels env s).chan c = freshChan := by
  unfold resetChannels
  extract_lets a
  rw [applyDynamicMode_chan, fold_chanEq (initDev_chan env) (List.range 13) a]
  simp [a, hc]

theorem noteOn_settings (c p v : Nat) : ChanKept s (noteOn env s c p v) := by
  unfold noteOn
  split
  · exact (noteOff_quiet c p).chan
  split
  · exact fun _ => rfl
  split
  · exact fun _ => rfl
  split
  · split
    · exact fun _ => rfl
    · split
      · exact fun _ => rfl
      · rename_i st _
        simp only
        have h1 : Quiet s (setChan s c fun m => { m with stack := st, lastVelocity := v }) := .setChan rfl
        generalize setChan s c (fun m => { m with stack := st, lastVelocity := v }) = t at *
        split
        · exact h1.chan
        · intro k; rw [startNote_chan]; exact h1.chan k
  · intro k; rw [startNote_chan]

theorem ccSwitch_7 (c v : Nat) : ccSwitch env s c 7 v =
    foreach (setChan s c fun m => { m with volume := v }) c fun s i => updateVolume env s c i := by unfold ccSwitch; rfl

theorem ccSwitch_10 (c v : Nat) : ccSwitch env s c 10 v =
    foreach (setChan s c fun m => { m with pan := v }) c fun s i => updatePan env s c i := by unfold ccSwitch; rfl

theorem ccSwitch_84 (c v : Nat) : ccSwitch env s c 84 v = setPolyphonic s (v / 64 ≠ 0) := by unfold ccSwitch; rfl

theorem ccSwitch_121 (c v : Nat) : ccSwitch env s c 121 v = resetAllControllers env s c := by unfold ccSwitch; rfl

/-- The settings of every MIDI channel are those its messages asked for, through any history. -/
theorem step_settings {c : Nat} (hc : c < 16) (op : Op) :
    ((step env s op).chan c).settings = (s.chan c).settings.after c op := by
  cases op with
  | noteOn k p v => 
    simp only [step, Settings.after]; split
    · exact noteOn_settings k p v c
    · rfl
  | noteOff k p =>
    simp only [step, Settings.after]; split
    · exact (noteOff_quiet k p).chan c
    · rfl
  | bend k b =>
    simp only [step, Settings.after]; split
    · exact (pitchBend_quiet k b).chan c
    · rfl
  | program k p =>
    simp only [step, Settings.after]
    by_cases hk : k < 16
    · rw [if_pos hk]
      unfold program
      have : (foreach (setChan s k fun m => { m with program := p }) k fun s i => updateProgram env s k i).chan
          = (setChan s k fun m => { m with program := p }).chan := foreach_chanEq (by simp) _
      simp only
      generalize foreach (setChan s k fun m => { m with program := p }) k (fun s i => updateProgram env s k i) = t at *
      rw [emit_chan, this, setChan_chan]
      split
      · rename_i e; subst e; simp [Chan.settings]
      · rename_i e; rw [Psg.upd_other _ _ _ _ (Ne.symm e)]
    · rw [if_neg hk, if_neg (by omega)]; rfl
  | sysex d j =>
    simp only [step, Settings.after]
    unfold sysex
    split
    · rename_i h
      rw [if_neg]
      intro e
      have := congrArg List.length e
      simp at this; omega
    split
    · unfold generalMidiReset
      simp only
      rw [resetChannels_chan hc]; rfl
    rename_i h
    split
    · rfl
    have hh : ((handler env s (d.getD 3 0) (d.drop 4) j).chan c).settings = (s.chan c).settings := by
      by_cases h0 : d.getD 3 0 = 0
      · rw [h0]; show ((remap _ _ _).chan c).settings = _; rw [remap_chan]
      by_cases h3 : d.getD 3 0 = 3
      · rw [h3]; show ((setDynamicMode _ _).chan c).settings = _; rw [setDynamicMode_chan]
      exact (handler_quiet _ _ _ h0 h3).chan c
    simp only
    split
    · rfl
    · split
      · rfl
      · exact hh
    · exact hh
  | remap k i => simp only [step, Settings.after, remap_chan]
  | reset =>
    simp only [step, Settings.after]
    unfold reset
    extract_lets a b e f
    rw [resetChannels_chan hc]; rfl
  | tick => simp only [step, Settings.after]; exact (tick_quiet (env := env) (s := s)).chan c
  | psgTick => simp only [step, Settings.after, psgCall_chan]
  | cc k n v =>
    simp only [step]
    by_cases hk : k < 16
    · rw [if_pos hk]
      unfold cc
      rw [emit_chan]
      simp only [Settings.after]
      by_cases h7 : n = 7
      · subst h7
        rw [ccSwitch_7, foreach_chanEq (body := fun s i => updateVolume env s k i) (fun t a => updateVolume_chan k a), setChan_chan]
        split
        · rename_i e; subst e; simp [Chan.settings]
        · rename_i e; rw [Psg.upd_other _ _ _ _ (Ne.symm e)]
      by_cases h10 : n = 10
      · subst h10
        rw [ccSwitch_10, foreach_chanEq (body := fun s i => updatePan env s k i) (fun t a => updatePan_chan k a), setChan_chan]
        split
        · rename_i e; subst e; simp [Chan.settings]
        · rename_i e; rw [Psg.upd_other _ _ _ _ (Ne.symm e)]
      by_cases h84 : n = 84
      · subst h84
        rw [ccSwitch_84, setPolyphonic_chan]; simp
      by_cases h121 : n = 121
      · subst h121
        rw [ccSwitch_121]
        unfold resetAllControllers
        simp only
        rw [setDynamicMode_chan, foreach_chanEq (initDev_chan env), setChan_chan]
        split
        · rename_i e; subst e; simp; rfl
        · rename_i e; rw [Psg.upd_other _ _ _ _ (Ne.symm e)]
      rw [(ccSwitch_quiet k n v h7 h10 h84 h121).chan c]
      simp [h7, h10, h121]
    · rw [if_neg hk]; simp only [Settings.after]; rw [if_neg (by omega)]; rfl

theorem run_settings {c : Nat} (hc : c < 16) (ops : List Op) (b : Bool) (m : Sram.Mem) :
    ((run env (boot env b m) ops).chan c).settings = settingsOf c ops := by
  have hb : ((boot env b m).chan c).settings = .initial := step_settings (env := env) (s := powerOn env b m) hc .reset
  unfold settingsOf
  rw [← hb]
  generalize boot env b m = s
  clear hb
  induction ops generalizing s with
  | nil => rfl
  | cons o l ih =>
    show ((run env (step env s o) l).chan c).settings = _
    rw [ih, step_settings hc]; rfl

/-! ### Voices agree with their MIDI channel -/

/-- Every voice has the settings of the MIDI channel it is mapped to; in static mode the mapping is the identity. -/
structure Synced (s : St) : Prop where
  map : s.dynamic = false → ∀ j, j < 13 → (s.dev j).midiChannel = j
  set : ∀ j, j < 13 → (s.dev j).midiChannel < 16 → (s.dev j).settings = (s.chan (s.dev j).midiChannel).settings

theorem Quiet.synced (h : Quiet s t) (k : Synced s) : Synced t :=
  ⟨fun d j hj => (h.map j).trans (k.map (h.dynamic ▸ d) j hj), fun j hj hc => by
    rw [h.map j] at hc ⊢; rw [h.dev j, h.chan]; exact k.set j hj hc⟩

theorem Synced.same (k : Synced s) (h1 : t.dev = s.dev) (h2 : t.chan = s.chan) (h3 : t.dynamic = s.dynamic) : Synced t :=
  (Quiet.same h1 h2 h3).synced k

theorem startNote_synced {i c : Nat} (hc : c < 16) (p v : Nat) (k : Synced s) (hm : s.dynamic = false → (s.dev i).midiChannel = c) :
    Synced (startNote env s i c p v) := by
  refine ⟨fun d j hj => ?_, fun j hj h => ?_⟩
  · rw [startNote_dynamic] at d
    have := k.map d j hj
    rw [startNote_dev hc]
    by_cases e : j = i
    · subst e; simp [Dev.sync]; rw [← hm d]; exact this
    · simpa [Psg.upd_other _ _ _ _ e] using this
  · rw [startNote_chan]
    rw [startNote_dev hc] at h ⊢
    by_cases e : j = i
    · subst e; simp [Dev.sync, Dev.settings, Chan.settings]
    · rw [Psg.upd_other _ _ _ _ e] at h ⊢; exact k.set j hj h

theorem noteOn_synced {c : Nat} (hc : c < 16) (p v : Nat) (k : Synced s) : Synced (noteOn env s c p v) := by
  unfold noteOn
  split
  · exact (noteOff_quiet c p).synced k
  split
  · exact k
  split
  · exact (say_quiet _).synced k
  rename_i i hi
  have hm := fun d => findFree_static d hi
  split
  · split
    · exact (say_quiet _).synced k
    split
    · exact k.same rfl rfl rfl
    rename_i st _
    simp only
    have h1 : Quiet s (setChan s c fun m => { m with stack := st, lastVelocity := v }) := .setChan rfl
    generalize setChan s c (fun m => { m with stack := st, lastVelocity := v }) = t at *
    have h2 : ∀ g, Quiet t (setDev t i fun d => { d with glide := g }) := fun g =>
      .upd (i := i) (d := { t.dev i with glide := g }) rfl rfl rfl rfl rfl
    split
    · exact (h2 p).synced (h1.synced k)
    · refine startNote_synced hc p v ((h2 0).synced (h1.synced k)) fun d => ?_
      rw [(h2 0).map, h1.map]; exact hm (by rw [← h1.dynamic]; exact d)
  · exact startNote_synced hc p v k hm

/-- A loop that updates each voice of MIDI channel `c` from the channel. -/
theorem foreach_devs {c : Nat} {g : Chan → Dev → Dev} {body : St → Nat → St}
    (hd : ∀ t i, (body t i).dev = Mdmi.upd t.dev i (g (t.chan c) (t.dev i)))
    (hc : ∀ t i, (body t i).chan = t.chan) (hy : ∀ t i, (body t i).dynamic = t.dynamic) :
    (foreach s c body).dynamic = s.dynamic ∧
    ∀ j, (foreach s c body).dev j = if j < 13 ∧ (s.dev j).midiChannel = c then g (s.chan c) (s.dev j) else s.dev j := by
  unfold foreach
  have : ∀ n, let t := (List.range n).foldl (fun s i => if (s.dev i).midiChannel = c then body s i else s) s
      t.chan = s.chan ∧ t.dynamic = s.dynamic ∧
      ∀ j, t.dev j = if j < n ∧ (s.dev j).midiChannel = c then g (s.chan c) (s.dev j) else s.dev j := by
    intro n
    induction n with
    | zero => exact ⟨rfl, rfl, fun j => by simp⟩
    | succ n ih =>
      obtain ⟨h1, h2, h3⟩ := ih
      rw [List.range_succ, List.foldl_append]
      simp only [List.foldl_cons, List.foldl_nil]
      generalize (List.range n).foldl (fun s i => if (s.dev i).midiChannel = c then body s i else s) s = t at *
      have hn : t.dev n = s.dev n := by rw [h3 n, if_neg (by omega)]
      rw [hn]
      split
      · rename_i e
        refine ⟨by rw [hc, h1], by rw [hy, h2], fun j => ?_⟩
        rw [hd]
        by_cases x : j = n
        · subst x; rw [Psg.upd_same, if_pos ⟨by omega, e⟩, h1, hn]
        · rw [Psg.upd_other _ _ _ _ x, h3 j]
          by_cases y : j < n ∧ (s.dev j).midiChannel = c
          · rw [if_pos y, if_pos ⟨by omega, y.2⟩]
          · rw [if_neg y, if_neg fun z => y ⟨by omega, z.2⟩]
      · rename_i e
        refine ⟨h1, h2, fun j => ?_⟩
        rw [h3 j]
        by_cases y : j < n ∧ (s.dev j).midiChannel = c
        · rw [if_pos y, if_pos ⟨by omega, y.2⟩]
        · rw [if_neg y, if_neg fun z => ?_]
          rcases Nat.lt_or_ge j n with w | w
          · exact y ⟨w, z.2⟩
          · have : j = n := by omega
            subst this; exact e z.2
  exact ⟨(this 13).2.1, (this 13).2.2⟩

/-- A loop that brings the voices of MIDI channel `c` to its new setting. -/
theorem loop_synced {c : Nat} {f : Chan → Chan} {g : Chan → Dev → Dev} {body : St → Nat → St} (k : Synced s)
    (hd : ∀ t i, (body t i).dev = Mdmi.upd t.dev i (g (t.chan c) (t.dev i)))
    (hc : ∀ t i, (body t i).chan = t.chan) (hy : ∀ t i, (body t i).dynamic = t.dynamic)
    (hm : ∀ m d, (g m d).midiChannel = d.midiChannel)
    (hg : ∀ (m : Chan) (d : Dev), d.settings = m.settings → (g (f m) d).settings = (f m).settings) :
    Synced (foreach (setChan s c f) c body) := by
  obtain ⟨h1, h2⟩ := foreach_devs (s := setChan s c f) hd hc hy
  have h3 := foreach_chanEq (c := c) hc (setChan s c f)
  generalize foreach (setChan s c f) c body = t at *
  simp only [setChan_dev, setChan_chan, Psg.upd_same, setChan_dynamic] at h1 h2 h3
  have hmm : ∀ j, (t.dev j).midiChannel = (s.dev j).midiChannel := fun j => by
    rw [h2 j]; split
    · exact hm _ _
    · rfl
  refine ⟨fun d j hj => by rw [hmm j]; exact k.map (by rw [← h1]; exact d) j hj, fun j hj h => ?_⟩
  rw [hmm j] at h ⊢
  rw [h2 j, h3]
  by_cases e : (s.dev j).midiChannel = c
  · rw [if_pos ⟨hj, e⟩, e, Psg.upd_same]; exact hg _ _ (by have := k.set j hj h; rwa [e] at this)
  · rw [if_neg fun x => e x.2, Psg.upd_other _ _ _ _ e]; exact k.set j hj h

theorem initDev_dev (env : Env) (s : St) {i : Nat} (hi : i < 13) : (initDev env s i).dev =
    Mdmi.upd s.dev i (((initDev env s i).dev i)) ∧ ((initDev env s i).dev i).midiChannel = i ∧
    ((initDev env s i).dev i).settings = (s.chan i).settings := by
  unfold initDev
  extract_lets a
  have ea : a.dev = Mdmi.upd s.dev i (a.dev i) ∧ (a.dev i).midiChannel = i ∧ a.chan = s.chan := by
    refine ⟨?_, ?_, rfl⟩
    · simp only [a, setDev_dev, Psg.upd_same]
    · simp only [a, setDev_dev, Psg.upd_same]
  clear_value a
  obtain ⟨h1, h2, h3⟩ := ea
  rw [updateDev_dev (by rw [h2]; omega), Psg.upd_same, h2, h3]
  refine ⟨?_, ?_, ?_⟩
  · rw [h1, Psg.upd_same, upd_upd]
  · exact h2
  · rfl

/-- Initialising every voice, and then setting up the mapping mode. -/
theorem resetChannels_synced : Synced (resetChannels env s) := by
  unfold resetChannels
  extract_lets a
  have key : ∀ n, n ≤ 13 → let t := (List.range n).foldl (initDev env) a
      t.chan = a.chan ∧ ∀ j, j < n → (t.dev j).settings = (a.chan j).settings := by
    intro n
    induction n with
    | zero => intro _; exact ⟨rfl, fun j h => absurd h (by omega)⟩
    | succ n ih =>
      intro hn
      obtain ⟨h1, h2⟩ := ih (by omega)
      simp only [List.range_succ, List.foldl_append, List.foldl_cons, List.foldl_nil]
      generalize (List.range n).foldl (initDev env) a = t at *
      have d := initDev_dev env t (i := n) (by omega)
      refine ⟨by rw [initDev_chan, h1], fun j hj => ?_⟩
      by_cases e : j = n
      · subst e; rw [d.2.2, h1]
      · rw [d.1, Psg.upd_other _ _ _ _ e]; exact h2 j (by omega)
  obtain ⟨h1, h2⟩ := key 13 (by omega)
  generalize (List.range 13).foldl (initDev env) a = t at *
  refine ⟨fun d j hj => ?_, fun j hj h => ?_⟩
  · have d : t.dynamic = false := d
    simp [applyDynamicMode, hj, d]
  · simp only [applyDynamicMode, hj, if_true] at h ⊢
    split at h
    · omega
    · rename_i hdyn
      simp only [hdyn]
      show (t.dev j).settings = (t.chan j).settings
      rw [h2 j hj, h1]

theorem resetAllControllers_synced {c : Nat} (k : Synced s) : Synced (resetAllControllers env s c) := by
  unfold resetAllControllers
  extract_lets a b
  cases hd : s.dynamic with
  | true =>
    have hb : b.dynamic = true := by
      rw [← hd]
      exact List.foldlRecOn (motive := fun (t : St) => t.dynamic = s.dynamic) _ _ rfl fun t h i _ => by
        split
        · rw [initDev_dynamic]; exact h
        · exact h
    clear_value b
    rw [hb]
    refine ⟨fun d => by simp [setDynamicMode, modeOf, applyDynamicMode] at d, fun j hj h => ?_⟩
    simp [setDynamicMode, modeOf, applyDynamicMode, hj] at h
  | false =>
    have hm := k.map hd
    have ca : ∀ j, j ≠ c → a.chan j = s.chan j := fun j e => by simp [a, Psg.upd_other _ _ _ _ e]
    have hb : b.dynamic = false ∧ b.chan = a.chan ∧ ∀ j, j < 13 → (b.dev j).midiChannel = j ∧
        (j ≠ c → (b.dev j).settings = (s.dev j).settings) ∧ (j = c → (b.dev j).settings = (a.chan j).settings) := by
      have := foreach_done (s := a) (c := c) (body := initDev env)
        (I := fun t => t.dynamic = false ∧ t.chan = a.chan ∧ ∀ j, j < 13 → (t.dev j).midiChannel = j ∧
          (j ≠ c → (t.dev j).settings = (s.dev j).settings))
        (Q := fun j t => j = c → (t.dev j).settings = (a.chan j).settings)
        (fun t i hi hic h => by
          have d := initDev_dev env t (i := i) hi
          refine ⟨by rw [initDev_dynamic]; exact h.1, by rw [initDev_chan]; exact h.2.1, fun j hj => ?_⟩
          by_cases e : j = i
          · subst e; exact ⟨d.2.1, fun x => absurd ((h.2.2 j hj).1.symm.trans hic) x⟩
          · rw [d.1, Psg.upd_other _ _ _ _ e]; exact h.2.2 j hj)
        (fun t i j h hi hic => by
          have d := initDev_dev env t (i := i) hi
          by_cases e : j = i
          · subst e; rw [d.2.1, (h.2.2 j hi).1]
          · rw [d.1, Psg.upd_other _ _ _ _ e])
        (fun t i h hi hic e => by rw [(initDev_dev env t (i := i) hi).2.2, h.2.1])
        (fun t i j h hi hj hic e q x => by
          rw [(initDev_dev env t (i := i) hi).1, Psg.upd_other _ _ _ _ e]; exact q x)
        ⟨hd, rfl, fun j hj => ⟨hm j hj, fun _ => rfl⟩⟩
      have eb : foreach a c (initDev env) = b := rfl
      rw [eb] at this
      clear_value b
      refine ⟨this.1.1, this.1.2.1, fun j hj => ⟨(this.1.2.2 j hj).1, (this.1.2.2 j hj).2, fun e => this.2.2 j hj ?_ e⟩⟩
      show (s.dev j).midiChannel = c
      rw [hm j hj]; exact e
    clear_value b
    obtain ⟨h1, h2, h3⟩ := hb
    rw [h1]
    refine ⟨fun _ j hj => by simp [setDynamicMode, modeOf, applyDynamicMode, hj], fun j hj _ => ?_⟩
    show (if j < 13 then ({ b.dev j with midiChannel := j } : Dev) else b.dev j).settings =
      (b.chan (if j < 13 then ({ b.dev j with midiChannel := j } : Dev) else b.dev j).midiChannel).settings
    rw [if_pos hj]
    show (b.dev j).settings = (b.chan j).settings
    rw [h2]
    by_cases e : j = c
    · exact (h3 j hj).2.2 e
    · rw [(h3 j hj).2.1 e, ca j e]
      have := k.set j hj
      rw [hm j hj] at this
      exact this (by omega)

theorem step_synced_reset (s : St) : Synced (reset env s) := by
  unfold reset
  exact resetChannels_synced

theorem step_synced {op : Op} (h : ¬op.rewires) (k : Synced s) : Synced (step env s op) := by
  have kub : Synced (ub s) := k.same rfl rfl rfl
  cases op with
  | noteOn c p v =>
    simp only [step]; split
    · rename_i hc; exact noteOn_synced hc p v k
    · exact kub
  | noteOff c p =>
    simp only [step]; split
    · exact (noteOff_quiet c p).synced k
    · exact kub
  | bend c b =>
    simp only [step]; split
    · exact (pitchBend_quiet c b).synced k
    · exact kub
  | program c p =>
    simp only [step]; split
    · unfold program
      have := loop_synced (c := c) (f := fun m => { m with program := p }) (g := fun m d => { d with program := m.program })
        (body := fun s i => updateProgram env s c i) k (fun t i => updateProgram_dev c i) (fun t i => updateProgram_chan c i)
        (fun t i => updateProgram_dynamic c i) (fun _ _ => rfl) (fun m d h => by
          simp only [Dev.settings, Chan.settings, Settings.mk.injEq] at *; exact ⟨h.1, h.2.1, trivial⟩)
      simp only
      generalize foreach (setChan s c fun m => { m with program := p }) c (fun s i => updateProgram env s c i) = t at *
      exact this.same rfl rfl rfl
    · exact kub
  | remap c i => exact absurd trivial h
  | reset =>
    simp only [step]; unfold reset
    exact resetChannels_synced
  | tick => simp only [step]; exact (tick_quiet (env := env) (s := s)).synced k
  | psgTick => simp only [step]; exact k.same rfl rfl rfl
  | sysex d j =>
    simp only [step]
    unfold sysex
    split
    · exact k
    rename_i hlen
    split
    · unfold generalMidiReset; exact resetChannels_synced
    split
    · exact k
    rename_i h3
    have h3 : d.take 3 = [0, 0x22, 0x77] := by simpa using h3
    have h4 : d.take 4 = [0, 0x22, 0x77, d.getD 3 0] := by
      rw [List.take_add_one, h3, List.getElem?_eq_getElem (by omega), List.getD_eq_getElem?_getD,
        List.getElem?_eq_getElem (by omega)]
      rfl
    have hh : Synced (handler env s (d.getD 3 0) (d.drop 4) j) := by
      refine (handler_quiet _ _ _ ?_ ?_).synced k <;> intro e <;> apply h <;> rw [e] at h4
      · exact .inl h4
      · exact .inr h4
    simp only
    split
    · exact (say_quiet _).synced k
    · split
      · exact (say_quiet _).synced k
      · exact hh
    · exact hh
  | cc c n v =>
    simp only [step]; split
    · have kk : Synced (ccSwitch env s c n v) := by
        by_cases h7 : n = 7
        · subst h7
          rw [ccSwitch_7]
          exact loop_synced (c := c) (g := fun m d => { d with volume := m.volume }) k (fun t i => updateVolume_dev c i)
            (fun t i => updateVolume_chan c i) (fun t i => updateVolume_dynamic c i) (fun _ _ => rfl) (fun m d h => by
              simp only [Dev.settings, Chan.settings, Settings.mk.injEq] at *; exact ⟨trivial, h.2.1, h.2.2⟩)
        by_cases h10 : n = 10
        · subst h10
          rw [ccSwitch_10]
          exact loop_synced (c := c) (g := fun m d => { d with pan := m.pan }) k (fun t i => updatePan_dev c i)
            (fun t i => updatePan_chan c i) (fun t i => updatePan_dynamic c i) (fun _ _ => rfl) (fun m d h => by
              simp only [Dev.settings, Chan.settings, Settings.mk.injEq] at *; exact ⟨h.1, trivial, h.2.2⟩)
        by_cases h121 : n = 121
        · subst h121; rw [ccSwitch_121]; exact resetAllControllers_synced k
        exact (ccSwitch_quiet c n v h7 h10 h h121).synced k
      unfold cc
      generalize ccSwitch env s c n v = t at *
      exact kk.same rfl rfl rfl
    · exact kub

theorem run_synced (ops : List Op) (h : ∀ op ∈ ops, ¬op.rewires) (b : Bool) (m : Sram.Mem) :
    Synced (run env (boot env b m) ops) := by
  have hb : Synced (boot env b m) := step_synced_reset (powerOn env b m)
  unfold run
  exact List.foldlRecOn (motive := Synced) ops _ hb fun t k op ho => step_synced (h op ho) k

/-- Voices have the settings the messages of their MIDI channel asked for. -/
theorem voice_settings (ops : List Op) (h : ∀ op ∈ ops, ¬op.rewires) (b : Bool) (m : Sram.Mem) {i c : Nat} (hi : i < 13)
    (hc : c < 16) (hm : ((run env (boot env b m) ops).dev i).midiChannel = c) :
    ((run env (boot env b m) ops).dev i).settings = settingsOf c ops := by
  rw [(run_synced ops h b m).set i hi (by rw [hm]; exact hc), hm, run_settings hc]

end Mdmi.Midi
