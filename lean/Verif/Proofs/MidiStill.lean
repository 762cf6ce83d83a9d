import Verif.Proofs.Velocity
/-!
# Messages that leave alone which voice plays what
-/
namespace Mdmi.Midi
open Mdmi.Synth (keyed)

variable {env : Env} {s t u : St}

/-- What a device channel plays, without the settings it carries over from its MIDI channel. -/
def Dev.core (d : Dev) : Dev := { d with program := 0, volume := 0, pan := 0, pitchBend := 0 }

/-- The notes a MIDI channel remembers, its portamento switch and the velocity of its last note. -/
def Chan.core (m : Chan) : NotePriority.Stack × Bool × Nat := (m.stack, m.portamento, m.lastVelocity)

/-- Every voice plays what it played, every MIDI channel remembers the notes it did, no key and no velocity changes. -/
structure Still (s t : St) : Prop where
  dev : ∀ j, (t.dev j).core = (s.dev j).core
  chan : ∀ c, (t.chan c).core = (s.chan c).core
  dynamic : t.dynamic = s.dynamic
  key : ∀ n, keyed t.fm.synth.out n = keyed s.fm.synth.out n
  vel : ∀ n, (t.fm.ch n).velocity = (s.fm.ch n).velocity
  pvel : ∀ n, (t.psg.ch n).velocity = (s.psg.ch n).velocity

theorem Dev.core_eq {a b : Dev} (h : a.core = b.core) : a.num = b.num ∧ a.ops = b.ops ∧ a.noteOn = b.noteOn ∧
    a.midiChannel = b.midiChannel ∧ a.pitch = b.pitch ∧ a.cents = b.cents ∧ a.glide = b.glide := by
  simp only [Dev.core, Dev.mk.injEq] at h
  obtain ⟨h1, h2, h3, h4, -, h5, -, -, -, h6, h7⟩ := h
  exact ⟨h1, h2, h3, h4, h5, h6, h7⟩

theorem Chan.core_eq {a b : Chan} (h : a.core = b.core) : a.stack = b.stack ∧ a.portamento = b.portamento := by
  simp only [Chan.core, Prod.mk.injEq] at h
  exact ⟨h.1, h.2.1⟩

theorem Chan.core_velocity {a b : Chan} (h : a.core = b.core) : a.lastVelocity = b.lastVelocity := by
  simp only [Chan.core, Prod.mk.injEq] at h
  exact h.2.2

theorem Still.refl : Still s s := ⟨fun _ => rfl, fun _ => rfl, rfl, fun _ => rfl, fun _ => rfl, fun _ => rfl⟩

theorem Still.trans (h : Still s t) (k : Still t u) : Still s u :=
  ⟨fun j => (k.dev j).trans (h.dev j), fun c => (k.chan c).trans (h.chan c), k.dynamic.trans h.dynamic,
    fun n => (k.key n).trans (h.key n), fun n => (k.vel n).trans (h.vel n), fun n => (k.pvel n).trans (h.pvel n)⟩

/-- Stores to settings. -/
theorem Still.setDev {i : Nat} {f : Dev → Dev} (h : (f (s.dev i)).core = (s.dev i).core) : Still s (setDev s i f) := by
  refine ⟨fun j => ?_, fun _ => rfl, rfl, fun _ => rfl, fun _ => rfl, fun _ => rfl⟩
  by_cases e : j = i
  · subst e; simpa using h
  · simp [Psg.upd_other _ _ _ _ e]

theorem Still.setChan {c : Nat} {f : Chan → Chan} (h : (f (s.chan c)).core = (s.chan c).core) :
    Still s (setChan s c f) := by
  refine ⟨fun _ => rfl, fun j => ?_, rfl, fun _ => rfl, fun _ => rfl, fun _ => rfl⟩
  by_cases e : j = c
  · subst e; simpa using h
  · simp [Psg.upd_other _ _ _ _ e]

theorem Still.fm {op : Fm.Op} (h : op.keyless = true) : Still s (fmCall env s op) :=
  ⟨fun _ => rfl, fun _ => rfl, rfl, fun n => Fm.step_keyless env.fm s.fm h n,
    fun n => Fm.step_strikes env.fm s.fm (op.keyless_strikes h n), fun _ => rfl⟩

theorem Still.psg {op : Psg.Op} (h : ∀ n, op.strikes n = false) : Still s (psgCall env s op) :=
  ⟨fun _ => rfl, fun _ => rfl, rfl, fun _ => rfl, fun _ => rfl, fun n => Psg.step_strikes env.psg s.psg (h n)⟩
theorem Still.ub : Still s (ub s) := ⟨fun _ => rfl, fun _ => rfl, rfl, fun _ => rfl, fun _ => rfl, fun _ => rfl⟩
theorem Still.say (m : Msg) : Still s (say s m) := ⟨fun _ => rfl, fun _ => rfl, rfl, fun _ => rfl, fun _ => rfl, fun _ => rfl⟩
theorem Still.emit (e : Ev) : Still s (emit s e) := ⟨fun _ => rfl, fun _ => rfl, rfl, fun _ => rfl, fun _ => rfl, fun _ => rfl⟩
theorem Still.cfg (c : Config) : Still s { s with cfg := c } := ⟨fun _ => rfl, fun _ => rfl, rfl, fun _ => rfl, fun _ => rfl, fun _ => rfl⟩

theorem fold_still {α : Type} {f : St → α → St} (l : List α) (h : ∀ s a, Still s (f s a)) (s : St) :
    Still s (l.foldl f s) := by
  induction l generalizing s with
  | nil => exact .refl
  | cons a l ih => exact (h s a).trans (ih _)

theorem foreach_still {c : Nat} {body : St → Nat → St} (h : ∀ s i, Still s (body s i)) (s : St) :
    Still s (foreach s c body) := by
  refine fold_still _ (fun s i => ?_) s
  split
  · exact h s i
  · exact .refl

theorem devVolume_still (i v : Nat) : Still s (devVolume env s i v) := by
  unfold devVolume; split
  · exact .fm rfl
  · exact .psg fun _ => rfl
  · exact .refl
  · exact .refl

theorem devProgram_still (i v : Nat) : Still s (devProgram env s i v) := by
  unfold devProgram; split
  · exact .fm rfl
  · exact .psg fun _ => rfl
  · exact .refl
  · exact .refl

theorem devPan_still (i v : Nat) : Still s (devPan env s i v) := by
  unfold devPan; split
  · exact .fm rfl
  all_goals exact .refl

theorem devPitch_still (i p : Nat) (x : Int) : Still s (devPitch env s i p x) := by
  unfold devPitch; split
  · exact .fm rfl
  · exact .psg fun _ => rfl
  · exact .fm rfl
  · exact .refl

theorem setDownstreamPitch_still (i : Nat) : Still s (setDownstreamPitch env s i) := by
  unfold setDownstreamPitch withPitch; simp only; split
  · exact devPitch_still ..
  · exact .ub

theorem updateVolume_still (c i : Nat) : Still s (updateVolume env s c i) := by
  unfold updateVolume; split
  · exact (devVolume_still i _).trans (.setDev rfl)
  · exact .refl

theorem updatePan_still (c i : Nat) : Still s (updatePan env s c i) := by
  unfold updatePan; split
  · exact (devPan_still i _).trans (.setDev rfl)
  · exact .refl

theorem updateProgram_still (c i : Nat) : Still s (updateProgram env s c i) := by
  unfold updateProgram; split
  · exact (devProgram_still i _).trans (.setDev rfl)
  · exact .refl

theorem updatePitchBend_still (c i : Nat) : Still s (updatePitchBend env s c i) := by
  unfold updatePitchBend; split
  · exact Still.trans (.setDev rfl) (setDownstreamPitch_still i)
  · exact .refl

theorem updateDev_still (i : Nat) : Still s (updateDev env s i) := by
  unfold updateDev
  simp only
  split
  · refine Still.trans ?_ (updatePitchBend_still ..)
    refine Still.trans ?_ (updateProgram_still ..)
    refine Still.trans ?_ (updatePan_still ..)
    refine Still.trans ?_ (updateVolume_still ..)
    exact .fm rfl
  · exact .ub

theorem pitchBend_still (c b : Nat) : Still s (pitchBend env s c b) := by
  unfold pitchBend
  refine Still.trans (.setChan rfl) (foreach_still (fun s i => ?_) _)
  split
  · exact updatePitchBend_still c i
  · exact .refl

theorem program_still (c p : Nat) : Still s (program env s c p) := by
  unfold program
  extract_lets a b
  have h1 : Still s a := .setChan rfl
  have h2 : Still a b := foreach_still (fun s i => updateProgram_still c i) a
  exact (h1.trans h2).trans (.emit _)

theorem fmParam_keyless {inv : Bool} {num k v : Nat} {op : Synth.Op} (h : fmParam inv num k v = some op) :
    op.keyless = true := by
  unfold fmParam at h
  split at h <;> first | (cases h; rfl) | cases h

theorem setFmParam_still (i k v : Nat) (h : k ≠ 78) : Still s (setFmParam env s i k v) := by
  unfold setFmParam
  split
  · rename_i op ho
    split
    · exact .refl
    · exact .fm (fmParam_keyless ho)
  · rw [if_neg h]; exact .say _

theorem rpnDataEntry_still (c v : Nat) (b : Bool) : Still s (rpnDataEntry env s c v b) := by
  unfold rpnDataEntry
  split
  · unfold updatePbRange
    refine Still.trans (.setChan rfl) (foreach_still (fun s i => ?_) _)
    split
    · exact setDownstreamPitch_still i
    · exact .refl
  · exact .say _

theorem storeFromChannel_still (c p : Nat) : Still s (storeFromChannel env s c p) := by
  unfold storeFromChannel; split
  · exact Still.trans (.fm rfl) (.say _)
  · exact .refl

/-- Controllers that change which voice plays what: portamento, sample playback, polyphonic mode, all sound off,
reset all controllers, all notes off. -/
def voicing (k : Nat) : Bool := k == 65 || k == 78 || k == 84 || k == 120 || k == 121 || k == 123

theorem ccSwitch_still (c k v : Nat) (h : voicing k = false) : Still s (ccSwitch env s c k v) := by
  have hne : k ≠ 65 ∧ k ≠ 78 ∧ k ≠ 84 ∧ k ≠ 120 ∧ k ≠ 121 ∧ k ≠ 123 := by
    simpa [voicing, and_assoc] using h
  unfold ccSwitch
  split
  · split
    · exact .setChan rfl
    · exact .ub
  · exact Still.trans (.setChan rfl) (foreach_still (fun s i => updateVolume_still c i) _)
  · exact Still.trans (.setChan rfl) (foreach_still (fun s i => updatePan_still c i) _)
  · omega
  · omega
  · omega
  · exact .fm rfl
  · omega
  · split
    · exact .refl
    · exact .emit _
  · split
    · exact .refl
    · exact .setChan rfl
  · omega
  · split
    · exact .refl
    · exact .setChan rfl
  · exact rpnDataEntry_still c v true
  · exact rpnDataEntry_still c v false
  · exact .setChan rfl
  · exact .setChan rfl
  · exact .refl
  · exact .refl
  · exact .refl
  · exact .refl
  · exact storeFromChannel_still c v
  · exact foreach_still (fun s i => setFmParam_still i k v hne.2.1) s

theorem cc_still (c k v : Nat) (h : voicing k = false) : Still s (cc env s c k v) :=
  (ccSwitch_still c k v h).trans (.emit _)

theorem sendSysex_still (d : List Nat) : Still s (sendSysex s d) := .emit _

theorem clearAll_still (d : List Nat) : Still s (clearAll env s d) := by
  have h := fold_still (f := fun s n => fmCall env s (.clear n)) (List.range 128) (fun _ _ => .fm rfl) s
  unfold clearAll
  split
  · exact h.trans (.say _)
  · exact .say _

theorem handler_still (c : Nat) (e : List Nat) (j : Nat) (h0 : c ≠ 0) (h3 : c ≠ 3) (h8 : c ≠ 8) (h9 : c ≠ 9) :
    Still s (handler env s c e j) := by
  unfold handler
  split
  · exact absurd rfl h0
  · exact .emit _
  · exact absurd rfl h3
  · exact .cfg _
  · exact .cfg _
  · unfold loadPsgEnvelope; split
    · exact .ub
    · exact Still.trans (.psg fun _ => rfl) (.say _)
  · exact .cfg _
  · exact absurd rfl h8
  · exact absurd rfl h9
  · unfold storeProgram; split
    · exact Still.trans (.fm rfl) (.say _)
    · exact .say _
  · unfold clearProgram; split
    · exact Still.trans (.fm rfl) (.say _)
    · exact .say _
  · exact clearAll_still e
  · unfold dumpPreset; split
    · split
      · exact Still.trans (.emit _) (.say _)
      · exact .say _
    · exact .say _
  · unfold dumpChannel; simp only; split
    · exact .say _
    split
    · split
      · split
        · exact Still.trans (.emit _) (.say _)
        · exact .say _
      · exact .say _
    · exact .say _
  · exact .refl

/-- System exclusive messages that change which voice plays what: the General MIDI reset, and of this device's commands
remapping, mapping mode and raw register writes. -/
def voicingSysex (d : List Nat) : Bool :=
  decide (d.take 4 ∈ [[0x7E, 0x7F, 0x09, 0x01], [0, 0x22, 0x77, 0], [0, 0x22, 0x77, 3], [0, 0x22, 0x77, 8], [0, 0x22, 0x77, 9]])

theorem sysex_still (d : List Nat) (j : Nat) (h : voicingSysex d = false) : Still s (sysex env s d j) := by
  simp only [voicingSysex, List.mem_cons, List.not_mem_nil, or_false, decide_eq_false_iff_not, not_or] at h
  unfold sysex
  split
  · exact .refl
  rename_i hlen
  rw [if_neg h.1]
  split
  · exact .refl
  rename_i h3
  have h3 : d.take 3 = [0, 0x22, 0x77] := by simpa using h3
  have h4 : d.take 4 = [0, 0x22, 0x77, d.getD 3 0] := by
    rw [List.take_add_one, h3, List.getElem?_eq_getElem (by omega), List.getD_eq_getElem?_getD,
      List.getElem?_eq_getElem (by omega)]
    rfl
  rw [h4] at h
  have hh := handler_still (env := env) (s := s) (d.getD 3 0) (d.drop 4) j
    (fun e => h.2.1 (by rw [e])) (fun e => h.2.2.1 (by rw [e])) (fun e => h.2.2.2.1 (by rw [e])) (fun e => h.2.2.2.2 (by rw [e]))
  simp only
  split
  · exact .say _
  · split
    · exact .say _
    · exact hh
  · exact hh

end Mdmi.Midi
