import Verif.Proofs.MidiNote
/-!
# Calls that neither start notes nor move voices, in every state
-/
namespace Mdmi.Midi

variable {env : Env} {s t u : St}

/-- No voice is mapped elsewhere, none starts to sound, none becomes a PSG voice, and the mapping mode stays. -/
structure Mild (s t : St) : Prop where
  map : ∀ j, (t.dev j).midiChannel = (s.dev j).midiChannel
  on : ∀ j, (t.dev j).noteOn = true → (s.dev j).noteOn = true
  ops : ∀ j, (t.dev j).ops = (s.dev j).ops ∨ (t.dev j).ops ≠ .psg
  dynamic : t.dynamic = s.dynamic

theorem Mild.refl : Mild s s := ⟨fun _ => rfl, fun _ h => h, fun _ => .inl rfl, rfl⟩

theorem Mild.trans (h : Mild s t) (k : Mild t u) : Mild s u :=
  ⟨fun j => (k.map j).trans (h.map j), fun j x => h.on j (k.on j x),
   fun j => by
    rcases k.ops j with e | e
    · rcases h.ops j with f | f
      · exact .inl (e.trans f)
      · exact .inr (e ▸ f)
    · exact .inr e,
   k.dynamic.trans h.dynamic⟩

theorem Mild.same (h : t.dev = s.dev) (hd : t.dynamic = s.dynamic) : Mild s t :=
  ⟨fun _ => by rw [h], fun _ => by rw [h]; exact id, fun _ => .inl (by rw [h]), hd⟩

theorem Mild.upd {i : Nat} {d : Dev} (h : t.dev = Mdmi.upd s.dev i d) (hd : t.dynamic = s.dynamic)
    (h1 : d.midiChannel = (s.dev i).midiChannel) (h2 : d.noteOn = true → (s.dev i).noteOn = true)
    (h3 : d.ops = (s.dev i).ops ∨ d.ops ≠ .psg) : Mild s t := by
  refine ⟨fun j => ?_, fun j => ?_, fun j => ?_, hd⟩ <;> rw [h] <;> by_cases e : j = i
  · subst e; simpa using h1
  · simp [Psg.upd_other _ _ _ _ e]
  · subst e; simpa using h2
  · simp [Psg.upd_other _ _ _ _ e]
  · subst e; simpa using h3
  · simp [Psg.upd_other _ _ _ _ e]

theorem fold_mild {α : Type} {f : St → α → St} (l : List α) (h : ∀ s a, Mild s (f s a)) (s : St) :
    Mild s (l.foldl f s) := by
  induction l generalizing s with
  | nil => exact .refl
  | cons a l ih => exact (h s a).trans (ih _)

theorem foreach_mild {c : Nat} {body : St → Nat → St} (h : ∀ s i, Mild s (body s i)) (s : St) :
    Mild s (foreach s c body) := by
  refine fold_mild _ (fun s i => ?_) s
  split
  · exact h s i
  · exact .refl

/-! ### The mapping mode -/

@[simp] theorem devNoteOn_dynamic (i p c v) : (devNoteOn env s i p c v).dynamic = s.dynamic := by
  unfold devNoteOn; split <;> rfl
@[simp] theorem devNoteOff_dynamic (i) : (devNoteOff env s i).dynamic = s.dynamic := by
  unfold devNoteOff; split <;> rfl
@[simp] theorem devVolume_dynamic (i v) : (devVolume env s i v).dynamic = s.dynamic := by
  unfold devVolume; split <;> rfl
@[simp] theorem devProgram_dynamic (i v) : (devProgram env s i v).dynamic = s.dynamic := by
  unfold devProgram; split <;> rfl
@[simp] theorem devAllNotesOff_dynamic (i) : (devAllNotesOff env s i).dynamic = s.dynamic := by
  unfold devAllNotesOff; split <;> rfl
@[simp] theorem devPan_dynamic (i v) : (devPan env s i v).dynamic = s.dynamic := by
  unfold devPan; split <;> rfl
@[simp] theorem devPitch_dynamic (i p c) : (devPitch env s i p c).dynamic = s.dynamic := by
  unfold devPitch; split <;> rfl
@[simp] theorem setDev_dynamic (i f) : (setDev s i f).dynamic = s.dynamic := rfl
@[simp] theorem setChan_dynamic (i f) : (setChan s i f).dynamic = s.dynamic := rfl
@[simp] theorem fmCall_dynamic (op) : (fmCall env s op).dynamic = s.dynamic := rfl
@[simp] theorem setDownstreamPitch_dynamic (i) : (setDownstreamPitch env s i).dynamic = s.dynamic := by
  unfold setDownstreamPitch withPitch; simp only; split
  · simp
  · rfl
@[simp] theorem setDownstreamNoteOn_dynamic (i v) : (setDownstreamNoteOn env s i v).dynamic = s.dynamic := by
  unfold setDownstreamNoteOn withPitch; simp only; split
  · simp
  · rfl
@[simp] theorem updateVolume_dynamic (c i) : (updateVolume env s c i).dynamic = s.dynamic := by
  unfold updateVolume; split <;> simp
@[simp] theorem updatePan_dynamic (c i) : (updatePan env s c i).dynamic = s.dynamic := by
  unfold updatePan; split <;> simp
@[simp] theorem updateProgram_dynamic (c i) : (updateProgram env s c i).dynamic = s.dynamic := by
  unfold updateProgram; split <;> simp
@[simp] theorem updatePitchBend_dynamic (c i) : (updatePitchBend env s c i).dynamic = s.dynamic := by
  unfold updatePitchBend; split <;> simp
@[simp] theorem updateDev_dynamic (i) : (updateDev env s i).dynamic = s.dynamic := by
  unfold updateDev; simp only; split
  · simp
  · rfl
@[simp] theorem devChanNoteOn_dynamic (i p v) : (devChanNoteOn env s i p v).dynamic = s.dynamic := by
  simp [devChanNoteOn]
@[simp] theorem devChanNoteOff_dynamic (i) : (devChanNoteOff env s i).dynamic = s.dynamic := by
  simp [devChanNoteOff]
@[simp] theorem startNote_dynamic (i c p v) : (startNote env s i c p v).dynamic = s.dynamic := by
  simp only [startNote, setDownstreamNoteOn_dynamic, updateDev_dynamic, setDev_dynamic]
  split <;> simp
@[simp] theorem initDev_dynamic (i) : (initDev env s i).dynamic = s.dynamic := by
  simp only [initDev, updateDev_dynamic, setDev_dynamic]

/-! ### Note off, and the other messages -/

theorem noteOffBody_mild (c p next : Nat) (single : Bool) (x : St × Bool) (i : Nat) :
    Mild x.1 (noteOffBody env c p next single x i).1 := by
  obtain ⟨s, handled⟩ := x
  unfold noteOffBody
  simp only
  split
  · rename_i h
    have ho := isPlaying_on h.2
    split
    · split
      · split
        · exact .same rfl rfl
        · exact .upd (i := i) (d := { s.dev i with glide := next }) rfl rfl rfl (fun h => h) (.inl rfl)
      · exact .upd (devChanNoteOn_dev i _ _) (by simp) rfl (fun _ => ho) (.inl rfl)
    · exact .upd (devChanNoteOff_dev i) (by simp) rfl (by simp) (.inl rfl)
  · exact .refl

theorem noteOff_mild (c p : Nat) : Mild s (noteOff env s c p) := by
  unfold noteOff
  split
  · exact .same rfl rfl
  split
  · exact .same rfl rfl
  rename_i next st _
  have h1 : Mild s (setChan s c fun m => { m with stack := st }) := .same rfl rfl
  refine h1.trans ?_
  simp only
  generalize setChan s c _ = t
  generalize singleVoice t c true = single
  have h : ∀ (l : List Nat) (x : St × Bool), Mild x.1 (l.foldl (noteOffBody env c p next single) x).1 := by
    intro l
    induction l with
    | nil => intro x; exact .refl
    | cons i l ih => intro x; exact Mild.trans (noteOffBody_mild c p next single x i) (ih _)
  exact h _ (t, false)

theorem pitchBend_mild (c b : Nat) : Mild s (pitchBend env s c b) := by
  unfold pitchBend
  refine Mild.trans (t := setChan s c fun m => { m with pitchBend := b }) (.same rfl rfl) (foreach_mild (fun s i => ?_) _)
  split
  · exact .upd (updatePitchBend_dev c i) (by simp) rfl (fun h => h) (.inl rfl)
  · exact .refl

theorem program_mild (c p : Nat) : Mild s (program env s c p) := by
  unfold program
  refine Mild.trans (t := setChan s c fun m => { m with program := p }) (.same rfl rfl) ?_
  simp only
  generalize setChan s c _ = s
  have h := foreach_mild (c := c) (body := fun s i => updateProgram env s c i)
    (fun s i => .upd (updateProgram_dev c i) (by simp) rfl (fun h => h) (.inl rfl)) s
  revert h
  generalize foreach s c _ = t
  intro h
  exact h.trans (.same rfl rfl)

theorem allNotesOff_mild (c : Nat) : Mild s (allNotesOff env s c) :=
  foreach_mild (fun s i => .upd (i := i) (d := { s.dev i with noteOn := false, pitch := 0 }) (by simp) (by simp) rfl
    (by simp) (.inl rfl)) s

theorem setFmParam_mild (i k v : Nat) : Mild s (setFmParam env s i k v) := by
  unfold setFmParam
  split
  · split <;> exact .same rfl rfl
  · split
    · split
      · exact .same rfl rfl
      · refine .upd (i := 5) (d := { s.dev 5 with ops := if (decide (v / 64 ≠ 0)) then .dac else .fm }) rfl rfl rfl
          (fun h => h) (.inr ?_)
        simp only; split <;> simp
    · exact .same rfl rfl

theorem rpnDataEntry_mild (c v : Nat) (b : Bool) : Mild s (rpnDataEntry env s c v b) := by
  unfold rpnDataEntry
  split
  · unfold updatePbRange
    refine Mild.trans (t := setChan s c _) (.same rfl rfl) (foreach_mild (fun s i => ?_) _)
    split
    · exact .same (by simp) (by simp)
    · exact .refl
  · exact .same rfl rfl

theorem tick_mild : Mild s (tick env s) := by
  unfold tick
  refine fold_mild _ (fun s i => ?_) s
  split
  · exact .refl
  split
  · split
    · unfold processGlide
      split
      · exact .refl
      · rename_i g _
        exact .upd (i := i) (d := { s.dev i with pitch := g.pitch, cents := g.cents, glide := g.target }) (by simp)
          (by simp) rfl (fun h => h) (.inl rfl)
    · exact .refl
  · exact .same rfl rfl

theorem ccSwitch_mild (c k v : Nat) (h84 : k ≠ 84) (h121 : k ≠ 121) : Mild s (ccSwitch env s c k v) := by
  unfold ccSwitch
  split
  · split <;> exact .same rfl rfl
  · exact Mild.trans (t := setChan s c _) (.same rfl rfl)
      (foreach_mild (fun s i => .upd (updateVolume_dev c i) (by simp) rfl (fun h => h) (.inl rfl)) _)
  · exact Mild.trans (t := setChan s c _) (.same rfl rfl)
      (foreach_mild (fun s i => .upd (updatePan_dev c i) (by simp) rfl (fun h => h) (.inl rfl)) _)
  · exact allNotesOff_mild c
  · exact allNotesOff_mild c
  · exact absurd rfl h84
  · exact .same rfl rfl
  · exact absurd rfl h121
  · split <;> exact .same rfl rfl
  · split <;> exact .same rfl rfl
  · exact .same rfl rfl
  · split <;> exact .same rfl rfl
  · exact rpnDataEntry_mild c v true
  · exact rpnDataEntry_mild c v false
  · exact .same rfl rfl
  · exact .same rfl rfl
  · exact .refl
  · exact .refl
  · exact .refl
  · exact .refl
  · unfold storeFromChannel; split <;> exact .same rfl rfl
  · exact foreach_mild (fun s i => setFmParam_mild i k v) s

theorem say_mild (m : Msg) : Mild s (say s m) := .same rfl rfl

theorem clearAll_mild (d : List Nat) : Mild s (clearAll env s d) := by
  have h := fold_mild (f := fun s n => fmCall env s (.clear n)) (List.range 128) (fun _ _ => .same rfl rfl) s
  unfold clearAll
  split
  · exact h.trans (say_mild _)
  · exact .same rfl rfl

theorem handler_mild (c : Nat) (e : List Nat) (j : Nat) (h0 : c ≠ 0) (h3 : c ≠ 3) : Mild s (handler env s c e j) := by
  unfold handler
  split
  · exact absurd rfl h0
  · exact .same rfl rfl
  · exact absurd rfl h3
  · exact .same rfl rfl
  · exact .same rfl rfl
  · unfold loadPsgEnvelope; split <;> exact .same rfl rfl
  · exact .same rfl rfl
  · exact .same rfl rfl
  · exact .same rfl rfl
  · unfold storeProgram; split <;> exact .same rfl rfl
  · unfold clearProgram; split <;> exact .same rfl rfl
  · exact clearAll_mild e
  · unfold dumpPreset; split
    · split <;> exact .same rfl rfl
    · exact .same rfl rfl
  · unfold dumpChannel; simp only; split
    · exact .same rfl rfl
    split
    · split
      · split <;> exact .same rfl rfl
      · exact .same rfl rfl
    · exact .same rfl rfl
  · exact .refl

/-- What a system exclusive message does: nothing of note, a General MIDI reset, a remap or a mode switch. -/
theorem sysex_cases (d : List Nat) (j : Nat) :
    Mild s (sysex env s d j) ∨ sysex env s d j = generalMidiReset env s ∨
    (d.take 4 = [0, 0x22, 0x77, 0] ∧ d.length = 6 ∧ sysex env s d j = remap s (d.getD 4 0) (d.getD 5 0)) ∨
    (d.take 4 = [0, 0x22, 0x77, 3] ∧ sysex env s d j = setDynamicMode s (modeOf (d.getD 4 0 ≠ 0))) := by
  unfold sysex
  split
  · exact .inl .refl
  rename_i hlen
  split
  · exact .inr (.inl rfl)
  split
  · exact .inl .refl
  rename_i h3
  have h3 : d.take 3 = [0, 0x22, 0x77] := by simpa using h3
  have h4 : d.take 4 = [0, 0x22, 0x77, d.getD 3 0] := by
    rw [List.take_add_one, h3, List.getElem?_eq_getElem (by omega), List.getD_eq_getElem?_getD,
      List.getElem?_eq_getElem (by omega)]
    rfl
  have gd : ∀ k, (d.drop 4).getD k 0 = d.getD (4 + k) 0 := by
    intro k; simp
  simp only
  by_cases c0 : d.getD 3 0 = 0
  · rw [c0] at h4 ⊢
    simp only [commandLength]
    split
    · exact .inl (.same rfl rfl)
    · rename_i hl
      refine .inr (.inr (.inl ⟨h4, by simp at hl; omega, ?_⟩))
      simp only [handler, gd]
  by_cases c3 : d.getD 3 0 = 3
  · rw [c3] at h4 ⊢
    simp only [commandLength]
    split
    · exact .inl (.same rfl rfl)
    · refine .inr (.inr (.inr ⟨h4, ?_⟩))
      simp only [handler, gd]
  left
  split
  · exact .same rfl rfl
  · split
    · exact .same rfl rfl
    · exact handler_mild _ _ _ c0 c3
  · exact handler_mild _ _ _ c0 c3

end Mdmi.Midi
