import Verif.Proofs.MidiHeld
/-!
# Messages that leave alone the settings of voice assignment and tuning
-/
namespace Mdmi.Midi
variable {env : Env} {s t u : St} {b tn : Bool}

/-- No MIDI channel changes its device selection, nor the assignment its stickiness; with `b` no channel its bend and
fine tune. -/
structure Steady (b : Bool) (s t : St) : Prop where
  sel : ∀ c, (t.chan c).deviceSelect = (s.chan c).deviceSelect
  stick : t.cfg.stick = s.cfg.stick
  tune : b = true → ∀ c, (t.chan c).pitchBend = (s.chan c).pitchBend ∧ (t.chan c).fineTune = (s.chan c).fineTune

/-- The settings in question. -/
def Chan.steady (b : Bool) (m : Chan) : Nat × Nat × Int := (m.deviceSelect, if b then (m.pitchBend, m.fineTune) else (0, 0))

theorem Steady.refl : Steady b s s := ⟨fun _ => rfl, rfl, fun _ _ => ⟨rfl, rfl⟩⟩
theorem Steady.trans (h : Steady b s t) (k : Steady b t u) : Steady b s u :=
  ⟨fun c => (k.sel c).trans (h.sel c), k.stick.trans h.stick,
    fun e c => ⟨(k.tune e c).1.trans (h.tune e c).1, (k.tune e c).2.trans (h.tune e c).2⟩⟩
theorem Steady.weaken (h : Steady true s t) : Steady b s t := ⟨h.sel, h.stick, fun _ => h.tune rfl⟩
theorem Steady.same (h1 : t.chan = s.chan) (h2 : t.cfg = s.cfg) : Steady b s t :=
  ⟨fun _ => by rw [h1], by rw [h2], fun _ _ => by rw [h1]; exact ⟨rfl, rfl⟩⟩
theorem Steady.setDev {i : Nat} {f : Dev → Dev} : Steady b s (setDev s i f) := .same rfl rfl
theorem Steady.fm {op : Fm.Op} : Steady b s (fmCall env s op) := .same rfl rfl
theorem Steady.psg {op : Psg.Op} : Steady b s (psgCall env s op) := .same rfl rfl
theorem Steady.ub : Steady b s (ub s) := .same rfl rfl
theorem Steady.say (m : Msg) : Steady b s (say s m) := .same rfl rfl
theorem Steady.emit (e : Ev) : Steady b s (emit s e) := .same rfl rfl
theorem Steady.setChan {c : Nat} {f : Chan → Chan} (h : (f (s.chan c)).steady b = (s.chan c).steady b) :
    Steady b s (setChan s c f) := by
  simp only [Chan.steady, Prod.mk.injEq] at h
  refine ⟨fun j => ?_, rfl, fun e j => ?_⟩
  · by_cases e : j = c
    · subst e; simpa using h.1
    · simp [Psg.upd_other _ _ _ _ e]
  · subst e
    by_cases e : j = c
    · subst e; simpa using h.2
    · simp [Psg.upd_other _ _ _ _ e]

theorem fold_steady {α : Type} {f : St → α → St} (l : List α) (h : ∀ s a, Steady tn s (f s a)) (s : St) :
    Steady tn s (l.foldl f s) := by
  induction l generalizing s with
  | nil => exact .refl
  | cons a l ih => exact (h s a).trans (ih _)

theorem foreach_steady {c : Nat} {body : St → Nat → St} (h : ∀ s i, Steady tn s (body s i)) (s : St) :
    Steady tn s (foreach s c body) := by
  refine fold_steady _ (fun s i => ?_) s
  split
  · exact h s i
  · exact .refl

theorem devVolume_steady (i v : Nat) : Steady tn s (devVolume env s i v) := by
  unfold devVolume; split
  · exact .fm
  · exact .psg
  · exact .refl
  · exact .refl

theorem devProgram_steady (i v : Nat) : Steady tn s (devProgram env s i v) := by
  unfold devProgram; split
  · exact .fm
  · exact .psg
  · exact .refl
  · exact .refl

theorem devPan_steady (i v : Nat) : Steady tn s (devPan env s i v) := by
  unfold devPan; split
  · exact .fm
  all_goals exact .refl

theorem devPitch_steady (i p : Nat) (x : Int) : Steady tn s (devPitch env s i p x) := by
  unfold devPitch; split
  · exact .fm
  · exact .psg
  · exact .fm
  · exact .refl

theorem setDownstreamPitch_steady (i : Nat) : Steady tn s (setDownstreamPitch env s i) := by
  unfold setDownstreamPitch withPitch; simp only; split
  · exact devPitch_steady ..
  · exact .ub

theorem updateVolume_steady (c i : Nat) : Steady tn s (updateVolume env s c i) := by
  unfold updateVolume; split
  · exact (devVolume_steady i _).trans (.setDev)
  · exact .refl

theorem updatePan_steady (c i : Nat) : Steady tn s (updatePan env s c i) := by
  unfold updatePan; split
  · exact (devPan_steady i _).trans (.setDev)
  · exact .refl

theorem updateProgram_steady (c i : Nat) : Steady tn s (updateProgram env s c i) := by
  unfold updateProgram; split
  · exact (devProgram_steady i _).trans (.setDev)
  · exact .refl

theorem updatePitchBend_steady (c i : Nat) : Steady tn s (updatePitchBend env s c i) := by
  unfold updatePitchBend; split
  · exact Steady.trans (.setDev) (setDownstreamPitch_steady i)
  · exact .refl

theorem updateDev_steady (i : Nat) : Steady tn s (updateDev env s i) := by
  unfold updateDev
  simp only
  split
  · refine Steady.trans ?_ (updatePitchBend_steady ..)
    refine Steady.trans ?_ (updateProgram_steady ..)
    refine Steady.trans ?_ (updatePan_steady ..)
    refine Steady.trans ?_ (updateVolume_steady ..)
    exact .fm
  · exact .ub

theorem pitchBend_steady (c b : Nat) : Steady false s (pitchBend env s c b) := by
  unfold pitchBend
  refine Steady.trans (.setChan rfl) (foreach_steady (fun s i => ?_) _)
  split
  · exact updatePitchBend_steady c i
  · exact .refl

theorem program_steady (c p : Nat) : Steady tn s (program env s c p) := by
  unfold program
  extract_lets a b
  have h1 : Steady tn s a := .setChan rfl
  have h2 : Steady tn a b := foreach_steady (fun s i => updateProgram_steady c i) a
  exact (h1.trans h2).trans (.emit _)

theorem setFmParam_steady (i k v : Nat) (h : k ≠ 78) : Steady tn s (setFmParam env s i k v) := by
  unfold setFmParam
  split
  · rename_i op ho
    split
    · exact .refl
    · exact .fm
  · rw [if_neg h]; exact .say _

theorem rpnDataEntry_steady (c v : Nat) (b : Bool) : Steady tn s (rpnDataEntry env s c v b) := by
  unfold rpnDataEntry
  split
  · unfold updatePbRange
    refine Steady.trans (.setChan rfl) (foreach_steady (fun s i => ?_) _)
    split
    · exact setDownstreamPitch_steady i
    · exact .refl
  · exact .say _

theorem storeFromChannel_steady (c p : Nat) : Steady tn s (storeFromChannel env s c p) := by
  unfold storeFromChannel; split
  · exact Steady.trans (.fm) (.say _)
  · exact .refl

theorem ccSwitch_steady (c k v : Nat) (h : voicing k = false) (h86 : k ≠ 86)
    (h85 : tn = true → k ≠ 85) : Steady tn s (ccSwitch env s c k v) := by
  have hne : k ≠ 65 ∧ k ≠ 78 ∧ k ≠ 84 ∧ k ≠ 120 ∧ k ≠ 121 ∧ k ≠ 123 := by
    simpa [voicing, and_assoc] using h
  unfold ccSwitch
  split
  · split
    · exact .setChan rfl
    · exact .ub
  · exact Steady.trans (.setChan rfl) (foreach_steady (fun s i => updateVolume_steady c i) _)
  · exact Steady.trans (.setChan rfl) (foreach_steady (fun s i => updatePan_steady c i) _)
  · omega
  · omega
  · omega
  · exact .fm
  · omega
  · split
    · exact .refl
    · exact .emit _
  · exact absurd rfl h86
  · omega
  · split
    · exact .refl
    · cases tn
      · exact .setChan rfl
      · exact absurd rfl (h85 rfl)
  · exact rpnDataEntry_steady c v true
  · exact rpnDataEntry_steady c v false
  · exact .setChan rfl
  · exact .setChan rfl
  · exact .refl
  · exact .refl
  · exact .refl
  · exact .refl
  · exact storeFromChannel_steady c v
  · exact foreach_steady (fun s i => setFmParam_steady i k v hne.2.1) s

theorem cc_steady (c k v : Nat) (h : voicing k = false) (h86 : k ≠ 86) (h85 : tn = true → k ≠ 85) :
    Steady tn s (cc env s c k v) :=
  (ccSwitch_steady c k v h h86 h85).trans (.emit _)

theorem sendSysex_steady (d : List Nat) : Steady tn s (sendSysex s d) := .emit _

theorem clearAll_steady (d : List Nat) : Steady tn s (clearAll env s d) := by
  have h := fold_steady (tn := tn) (f := fun s n => fmCall env s (.clear n)) (List.range 128) (fun _ _ => .fm) s
  unfold clearAll
  split
  · exact h.trans (.say _)
  · exact .say _

theorem handler_steady (c : Nat) (e : List Nat) (j : Nat) (h0 : c ≠ 0) (h3 : c ≠ 3) (h5 : c ≠ 5) (h8 : c ≠ 8) (h9 : c ≠ 9) :
    Steady tn s (handler env s c e j) := by
  unfold handler
  split
  · exact absurd rfl h0
  · exact .emit _
  · exact absurd rfl h3
  · exact ⟨fun _ => rfl, rfl, fun _ _ => ⟨rfl, rfl⟩⟩
  · exact absurd rfl h5
  · unfold loadPsgEnvelope; split
    · exact .ub
    · exact Steady.trans .psg (.say _)
  · exact ⟨fun _ => rfl, rfl, fun _ _ => ⟨rfl, rfl⟩⟩
  · exact absurd rfl h8
  · exact absurd rfl h9
  · unfold storeProgram; split
    · exact Steady.trans (.fm) (.say _)
    · exact .say _
  · unfold clearProgram; split
    · exact Steady.trans (.fm) (.say _)
    · exact .say _
  · exact clearAll_steady e
  · unfold dumpPreset; split
    · split
      · exact Steady.trans (.emit _) (.say _)
      · exact .say _
    · exact .say _
  · unfold dumpChannel; simp only; split
    · exact .say _
    split
    · split
      · split
        · exact Steady.trans (.emit _) (.say _)
        · exact .say _
      · exact .say _
    · exact .say _
  · exact .refl

theorem sysex_steady (d : List Nat) (j : Nat) (h : voicingSysex d = false) (h5 : d.take 4 ≠ [0, 0x22, 0x77, 5]) :
    Steady tn s (sysex env s d j) := by
  simp only [voicingSysex, List.mem_cons, List.not_mem_nil, or_false, decide_eq_false_iff_not, not_or] at h
  unfold sysex
  split
  · exact .refl
  rename_i hlen
  rw [if_neg h.1]
  split
  · exact .refl
  rename_i h3
  have h3 : d.take 3 = [0, 0x22, 0x77] := by simpa using h3
  have h4 : d.take 4 = [0, 0x22, 0x77, d.getD 3 0] := by
    rw [List.take_add_one, h3, List.getElem?_eq_getElem (by omega), List.getD_eq_getElem?_getD,
      List.getElem?_eq_getElem (by omega)]
    rfl
  rw [h4] at h h5
  have hh := handler_steady (tn := tn) (env := env) (s := s) (d.getD 3 0) (d.drop 4) j
    (fun e => h.2.1 (by rw [e])) (fun e => h.2.2.1 (by rw [e])) (fun e => h5 (by rw [e]))
    (fun e => h.2.2.2.1 (by rw [e])) (fun e => h.2.2.2.2 (by rw [e]))
  simp only
  split
  · exact .say _
  · split
    · exact .say _
    · exact hh
  · exact hh

theorem devNoteOn_steady (i p : Nat) (x : Int) (v : Nat) : Steady tn s (devNoteOn env s i p x v) := by
  unfold devNoteOn; split
  · exact .fm
  · exact .psg
  · exact .fm
  · exact .fm

theorem setDownstreamNoteOn_steady (i v : Nat) : Steady tn s (setDownstreamNoteOn env s i v) := by
  unfold setDownstreamNoteOn withPitch; simp only; split
  · exact devNoteOn_steady ..
  · exact .ub

theorem startNote_steady (i c p v : Nat) : Steady tn s (startNote env s i c p v) := by
  unfold startNote
  extract_lets a b d
  have h1 : Steady tn s a := by
    show Steady tn s (if _ then _ else _)
    split
    · exact devProgram_steady ..
    · exact .refl
  exact ((h1.trans (t := a) (u := b) .setDev).trans (updateDev_steady i)).trans (setDownstreamNoteOn_steady i v)

theorem noteOffBody_steady (c p next : Nat) (single : Bool) (x : St × Bool) (i : Nat) :
    Steady tn x.1 (noteOffBody env c p next single x i).1 := by
  obtain ⟨s, handled⟩ := x
  unfold noteOffBody
  simp only
  split
  · split
    · split
      · split
        · exact .ub
        · rename_i st _
          have h : Steady tn s (Midi.setChan s c fun m => { m with stack := st }) := .setChan rfl
          exact h.trans (.same rfl rfl)
      · exact Steady.trans .setDev (setDownstreamNoteOn_steady ..)
    · have k : ∀ s : St, Steady tn s (devNoteOff env s i) := fun s => by
        unfold devNoteOff; split
        · exact .fm
        · exact .psg
        · exact .refl
        · exact .fm
      exact Steady.trans .setDev (k _)
  · exact .refl

theorem noteOff_steady (c p : Nat) : Steady tn s (noteOff env s c p) := by
  unfold noteOff
  split
  · exact .ub
  split
  · exact .ub
  rename_i next st _
  extract_lets a
  have ka : Steady tn s a := .setChan rfl
  have h : ∀ (l : List Nat) (x : St × Bool), Steady tn x.1 (l.foldl (noteOffBody env c p next (singleVoice a c true)) x).1 := by
    intro l
    induction l with
    | nil => intro x; exact .refl
    | cons i l ih => intro x; exact (noteOffBody_steady c p next _ x i).trans (ih _)
  exact ka.trans (h _ (a, false))

theorem noteOn_steady (c p v : Nat) : Steady tn s (noteOn env s c p v) := by
  unfold noteOn
  split
  · exact noteOff_steady c p
  split
  · exact .refl
  split
  · exact .say _
  split
  · split
    · exact .say _
    split
    · exact .ub
    · extract_lets a
      have h : Steady tn s a := .setChan rfl
      split
      · exact h.trans .setDev
      · exact (h.trans .setDev).trans (startNote_steady ..)
  · exact startNote_steady ..

theorem processGlide_steady (i k : Nat) : Steady tn s (processGlide env s i k) := by
  unfold processGlide; split
  · exact .refl
  · exact Steady.trans .setDev (setDownstreamPitch_steady i)

theorem tick_steady : Steady tn s (tick env s) := by
  unfold tick
  refine fold_steady _ (fun s i => ?_) s
  split
  · exact .refl
  split
  · split
    · exact processGlide_steady ..
    · exact .refl
  · exact .ub

end Mdmi.Midi
