import Verif.Proofs.MidiBend
/-!
# Bends have fourteen bits, remapped voices included
-/
namespace Mdmi.Midi

variable {env : Env} {s t u : St}

/-- The bends of all voices and MIDI channels have fourteen bits. -/
def Small (s : St) : Prop := (∀ j, (s.dev j).pitchBend < 16384) ∧ ∀ c, (s.chan c).pitchBend < 16384

theorem Small.of (k : Small s) (h1 : ∀ j, (t.dev j).pitchBend = (s.dev j).pitchBend)
    (h2 : ∀ c, (t.chan c).pitchBend = (s.chan c).pitchBend) : Small t :=
  ⟨fun j => by rw [h1]; exact k.1 j, fun c => by rw [h2]; exact k.2 c⟩

theorem Calm.small (h : Calm s t) (k : Small s) : Small t := k.of h.bend h.chan

theorem small_upd {i : Nat} {d : Dev} (k : Small s) (h : t.dev = Mdmi.upd s.dev i d) (hd : d.pitchBend < 16384)
    (hc : t.chan = s.chan) : Small t := by
  refine ⟨fun j => ?_, fun c => by rw [hc]; exact k.2 c⟩
  rw [h]
  by_cases e : j = i
  · subst e; simpa using hd
  · rw [Psg.upd_other _ _ _ _ e]; exact k.1 j

theorem startNote_small {i c : Nat} (hc : c < 16) (p v : Nat) (k : Small s) : Small (startNote env s i c p v) :=
  small_upd k (startNote_dev hc) (by simp only [Dev.sync]; exact k.2 _) (startNote_chan ..)

theorem noteOn_small {c : Nat} (hc : c < 16) (p v : Nat) (k : Small s) : Small (noteOn env s c p v) := by
  unfold noteOn
  split
  · exact (noteOff_calm c p).small k
  split
  · exact k
  split
  · exact (say_calm _).small k
  rename_i i hi
  split
  · split
    · exact (say_calm _).small k
    split
    · exact (Calm.same (s := s) (t := ub s) rfl rfl rfl).small k
    rename_i st _
    simp only
    have h1 : Calm s (setChan s c fun m => { m with stack := st, lastVelocity := v }) := .setChan rfl
    generalize setChan s c (fun m => { m with stack := st, lastVelocity := v }) = t at *
    have h2 : ∀ g, Calm t (setDev t i fun d => { d with glide := g }) := fun g =>
      .upd (i := i) (d := { t.dev i with glide := g }) rfl rfl id rfl rfl rfl
    split
    · exact (h2 p).small (h1.small k)
    · exact startNote_small hc p v ((h2 0).small (h1.small k))
  · exact startNote_small hc p v k

theorem fold_small {α : Type} {f : St → α → St} (l : List α) (h : ∀ s a, a ∈ l → Small s → Small (f s a)) (k : Small s) :
    Small (l.foldl f s) := List.foldlRecOn (motive := Small) l f k fun t ht a ha => h t a ha ht

theorem foreach_small {c : Nat} {body : St → Nat → St} (h : ∀ s i, i < 13 → Small s → Small (body s i)) (k : Small s) :
    Small (foreach s c body) := by
  refine fold_small _ (fun s i hi k => ?_) k
  split
  · exact h s i (List.mem_range.1 hi) k
  · exact k

theorem setChan_small {c : Nat} {f : Chan → Chan} (h : (f (s.chan c)).pitchBend < 16384) (k : Small s) :
    Small (setChan s c f) := by
  refine ⟨k.1, fun j => ?_⟩
  rw [setChan_chan]
  by_cases e : j = c
  · subst e; simpa using h
  · rw [Psg.upd_other _ _ _ _ e]; exact k.2 j

theorem pitchBend_small {c b : Nat} (hb : b < 16384) (k : Small s) : Small (pitchBend env s c b) := by
  unfold pitchBend
  refine foreach_small (fun s i _ k => ?_) (setChan_small hb k)
  split
  · exact small_upd k (updatePitchBend_dev c i) (k.2 _) (updatePitchBend_chan c i)
  · exact k

theorem initDev_small {i : Nat} (hi : i < 13) (k : Small s) : Small (initDev env s i) := by
  have d := initDev_dev env s (i := i) hi
  have e : (initDev env s i).chan = s.chan := initDev_chan ..
  refine small_upd k d.1 ?_ e
  unfold initDev
  extract_lets a
  have ea : (a.dev i).midiChannel = i ∧ a.chan = s.chan := by
    simp only [a, setDev_dev, Psg.upd_same, setDev_chan, and_self]
  clear_value a
  rw [updateDev_dev (by rw [ea.1]; omega), Psg.upd_same]
  simp only [Dev.sync, ea.2]
  exact k.2 _

theorem applyDynamicMode_small (k : Small s) : Small (applyDynamicMode s) := by
  refine k.of (fun j => ?_) (fun _ => rfl)
  simp only [applyDynamicMode]
  split <;> rfl

theorem setDynamicMode_small (m : Mode) (k : Small s) : Small (setDynamicMode s m) := by
  unfold setDynamicMode
  cases m
  · exact applyDynamicMode_small k
  · exact applyDynamicMode_small k
  · exact k

theorem resetChannels_small (k : Small s) : Small (resetChannels env s) := by
  unfold resetChannels
  extract_lets a
  have ka : Small a := by
    refine ⟨k.1, fun c => ?_⟩
    simp only [a]
    split
    · exact (by decide : freshChan.pitchBend < 16384)
    · exact k.2 c
  exact applyDynamicMode_small (fold_small _ (fun s i hi k => initDev_small (List.mem_range.1 hi) k) ka)

theorem remap_small (c i : Nat) (k : Small s) : Small (remap s c i) := by
  have set : ∀ a m, Small (setDev s a fun d => { d with midiChannel := m }) := fun a m =>
    small_upd (i := a) (d := { s.dev a with midiChannel := m }) k rfl (k.1 a) rfl
  unfold remap
  split
  · exact k
  split
  · split
    · exact set _ _
    · exact k
  split
  · exact k
  · exact set _ _

theorem handler_small (c : Nat) (e : List Nat) (j : Nat) (k : Small s) : Small (handler env s c e j) := by
  by_cases h0 : c = 0
  · subst h0; exact remap_small _ _ k
  by_cases h3 : c = 3
  · subst h3; exact setDynamicMode_small _ k
  exact (handler_calm c e j h0 h3).small k

theorem step_small {op : Op} (w : op.Wf) (k : Small s) : Small (step env s op) := by
  cases op with
  | noteOn c p v => simp only [step, if_pos w.1]; exact noteOn_small w.1 p v k
  | noteOff c p => simp only [step, if_pos w.1]; exact (noteOff_calm c p).small k
  | bend c b => simp only [step, if_pos w.1]; exact pitchBend_small w.2 k
  | program c p =>
    simp only [step, if_pos w.1]
    unfold program
    have h1 : Small (setChan s c fun m => { m with program := p }) := setChan_small (k.2 c) k
    have h2 := foreach_small (c := c) (body := fun s i => updateProgram env s c i) (fun s i _ k =>
      small_upd k (updateProgram_dev c i) (k.1 i) (by simp)) h1
    simp only
    generalize foreach (setChan s c fun m => { m with program := p }) c (fun s i => updateProgram env s c i) = t at *
    exact h2.of (fun _ => rfl) (fun _ => rfl)
  | remap c i => exact remap_small c i k
  | reset => exact resetChannels_small ⟨k.1, k.2⟩
  | tick => exact (tick_calm (env := env) (s := s)).small k
  | psgTick => exact k
  | sysex d j =>
    simp only [step]
    unfold sysex
    split
    · exact k
    split
    · unfold generalMidiReset
      have h1 : Small ((List.range 16).foldl (allNotesOff env) s) :=
        fold_small _ (fun s c _ k => (allNotesOff_calm c).small k) k
      simp only
      generalize (List.range 16).foldl (allNotesOff env) s = t at *
      refine resetChannels_small ?_
      split <;> exact h1
    split
    · exact k
    simp only
    split
    · exact k
    · split
      · exact k
      · exact handler_small _ _ _ k
    · exact handler_small _ _ _ k
  | cc c n v =>
    simp only [step, if_pos w.1, cc]
    have kk : Small (ccSwitch env s c n v) := by
      by_cases h121 : n = 121
      · subst h121
        rw [ccSwitch_121]
        unfold resetAllControllers
        exact setDynamicMode_small _ (foreach_small (fun s i hi k => initDev_small hi k)
          (setChan_small (by decide : freshChan.pitchBend < 16384) k))
      by_cases h84 : n = 84
      · subst h84
        show Small (setPolyphonic s _)
        unfold setPolyphonic
        split
        · exact fold_small _ (fun s i _ k => remap_small 0 i k) (setDynamicMode_small _ k)
        · exact setDynamicMode_small _ k
      exact (ccSwitch_calm c n v h84 h121).small k
    generalize ccSwitch env s c n v = t at *
    exact kk

theorem run_small (ops : List Op) (h : ∀ op ∈ ops, op.Wf) (b : Bool) (m : Sram.Mem) : Small (run env (boot env b m) ops) := by
  have hb : Small (boot env b m) := by
    unfold boot reset
    exact resetChannels_small ⟨fun _ => by simp [powerOn], fun _ => by simp [powerOn]⟩
  unfold run
  exact List.foldlRecOn (motive := Small) ops _ hb fun t k op ho => step_small (h op ho) k

end Mdmi.Midi
