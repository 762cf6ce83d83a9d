import Verif.Proofs.MidiPsg
/-!
# The engine's record of the PSG channels

Volume and program of a PSG device channel are those the PSG driver holds.
-/
namespace Mdmi.Psg

variable {env : Env}

/-- Volume and envelope number of a channel. -/
def Chan.memo (c : Chan) : Nat × Nat := (c.volume, c.envelope)

theorem applyTone_memo (n : Nat) (o : Out) (t : Nat) : (applyTone n o t).1.memo = o.1.memo := by
  unfold applyTone; split <;> rfl

theorem applyAttenuation_memo (n : Nat) (o : Out) (t : Nat) : (applyAttenuation n o t).1.memo = o.1.memo := by
  unfold applyAttenuation; split <;> rfl

theorem noteOffChan_memo (n : Nat) (o : Out) : (noteOffChan n o).1.memo = o.1.memo := applyAttenuation_memo n o 15

theorem applyLevel_memo {buf : Nat → Nat} {n : Nat} {o o' : Out} (h : applyLevel env buf n o = some o') :
    o'.1.memo = o.1.memo := by
  unfold applyLevel at h
  split at h
  · cases h
  split at h
  · cases h
  simp only at h
  split at h
  · cases h
  injection h with h
  subst h
  rw [applyAttenuation_memo, applyTone_memo]

theorem stepLoopStart_memo {buf : Nat → Nat} {c c' : Chan} (h : stepLoopStart env buf c = some c') :
    c'.memo = c.memo := by
  unfold stepLoopStart at h
  split at h
  · cases h
  injection h with h
  subst h
  split <;> rfl

theorem stepLoopEnd_memo {buf : Nat → Nat} {c c' : Chan} (h : stepLoopEnd env buf c = some c') :
    c'.memo = c.memo := by
  unfold stepLoopEnd at h
  split at h
  · cases h
  split at h
  · split at h
    · injection h with h
      subst h
      split <;> rfl
    · injection h with h
      rw [h]
  · injection h with h
    rw [h]

theorem applyEnvelopeStep_memo {buf : Nat → Nat} {n : Nat} {c : Chan} {o : Out}
    (h : applyEnvelopeStep env buf n c = some o) : o.1.memo = c.memo := by
  unfold applyEnvelopeStep at h
  cases e1 : stepLoopStart env buf c with
  | none => rw [e1] at h; cases h
  | some c1 =>
    rw [e1] at h
    cases e2 : stepLoopEnd env buf c1 with
    | none => simp only [Option.bind_some, e2] at h; cases h
    | some c2 =>
      simp only [Option.bind_some, e2] at h
      rw [← stepLoopStart_memo e1, ← stepLoopEnd_memo e2]
      split at h
      · cases h
      split at h
      · split at h
        · exact applyLevel_memo h
        · injection h with h
          rw [← h]; exact noteOffChan_memo n _
      · exact applyLevel_memo h

theorem initEnvelope_memo {u : Bool} {c c' : Chan} (h : initEnvelope env u c = some c') : c'.memo = c.memo := by
  unfold initEnvelope at h
  split at h
  · injection h with h; rw [← h]; rfl
  split at h
  · injection h with h; rw [← h]; rfl
  · cases h

theorem onChan_fault (s : St) (n : Nat) (f : Chan → Option Out) (h : s.fault = true) : (onChan s n f).fault = true := by
  unfold onChan; split
  · split
    · rfl
    · exact h
  · rfl

theorem onChan_memo (s : St) (n m : Nat) (f : Chan → Option Out)
    (h : ∀ o, f (s.ch n) = some o → o.1.memo = (s.ch n).memo) : ((onChan s n f).ch m).memo = (s.ch m).memo := by
  by_cases e : m = n
  · subst e
    unfold onChan; split
    · cases e : f (s.ch m) with
      | none => rfl
      | some o => simp only [upd_same]; exact h o e
    · rfl
  · rw [onChan_other s n m f e]

theorem tickChan_memo {buf : Nat → Nat} {n : Nat} {c : Chan} {o : Out} (h : tickChan env buf n c = some o) :
    o.1.memo = c.memo := by
  unfold tickChan at h
  split at h
  · cases e : deref env buf c.step with
    | none => rw [e] at h; cases h
    | some b =>
      rw [e] at h
      simp only [Option.bind_some] at h
      rw [applyEnvelopeStep_memo h]
      split <;> rfl
  · injection h with h; rw [← h]

theorem tick_memo (s : St) (m : Nat) : ((tick env s).ch m).memo = (s.ch m).memo ∧ (s.fault = true → (tick env s).fault = true) := by
  unfold tick
  exact List.foldlRecOn (motive := fun u : St => (u.ch m).memo = (s.ch m).memo ∧ (s.fault = true → u.fault = true))
    (List.range 4) _ ⟨rfl, id⟩ fun u hu n _ =>
      ⟨(onChan_memo _ _ _ _ fun o h => tickChan_memo h).trans hu.1, fun h => onChan_fault _ _ _ (hu.2 h)⟩

/-- From `x` to `y` volume and envelope number of channel `m` stay the same, and faults stay. -/
structure Stays (m : Nat) (x y : St) : Prop where
  memo : (y.ch m).memo = (x.ch m).memo
  fault : x.fault = true → y.fault = true

theorem Stays.refl {m : Nat} {x : St} : Stays m x x := ⟨rfl, id⟩

theorem Stays.trans {m : Nat} {x y z : St} (h : Stays m x y) (k : Stays m y z) : Stays m x z :=
  ⟨k.memo.trans h.memo, k.fault ∘ h.fault⟩

/-- The call sets neither volume nor envelope of channel `m`. -/
def Op.leaves (m : Nat) : Op → Prop
  | .volume n _ | .program n _ => n ≠ m
  | .reset => False
  | _ => True

theorem step_held {s : St} {op : Op} {m : Nat} (h : op.leaves m) : Stays m s (step env s op) := by
  cases op with
  | noteOn n p c v =>
    simp only [step, noteOn]
    split
    · exact .refl
    refine ⟨onChan_memo _ _ _ _ fun o h => ?_, onChan_fault _ _ _⟩
    unfold noteOnChan at h
    simp only at h
    cases e : initEnvelope env s.userLoaded { (s.ch n) with noteReleased := false, pitch := p, cents := c, velocity := v, noteOn := true } with
    | none => rw [e] at h; cases h
    | some c1 =>
      rw [e] at h
      simp only [Option.bind_some] at h
      rw [applyEnvelopeStep_memo h, initEnvelope_memo e]; rfl
  | noteOff n | allNotesOff n =>
    refine ⟨onChan_memo _ _ _ _ fun o h => ?_, onChan_fault _ _ _⟩
    unfold releaseChan at h
    split at h
    · split at h
      · injection h with h; rw [← h]; rfl
      · injection h with h; rw [← h]; exact noteOffChan_memo n _
    · injection h with h; rw [← h]
  | volume n v => exact ⟨by rw [Chan.memo, step, volume, onChan_other _ _ _ _ (Ne.symm h)]; rfl, onChan_fault _ _ _⟩
  | program n v => exact ⟨by rw [Chan.memo, step, program, onChan_other _ _ _ _ (Ne.symm h)]; rfl, onChan_fault _ _ _⟩
  | pitch n p c =>
    refine ⟨onChan_memo _ _ _ _ fun o h => ?_, onChan_fault _ _ _⟩
    unfold pitchChan at h
    simp only at h
    cases e : deref env s.userBuf (s.ch n).step with
    | none => rw [e] at h; cases h
    | some b =>
      rw [e] at h
      simp only [Option.bind_some] at h
      cases e2 : envelopeTone env.isPAL { (s.ch n) with pitch := p, cents := c } b with
      | none => rw [e2] at h; cases h
      | some t =>
        rw [e2] at h
        injection h with h
        rw [← h, applyTone_memo]; rfl
  | tick => exact ⟨(tick_memo s m).1, (tick_memo s m).2⟩
  | loadEnvelope e =>
    simp only [step, loadEnvelope]
    split
    · exact ⟨rfl, fun _ => rfl⟩
    · exact ⟨rfl, id⟩
  | reset => exact h.elim

theorem volume_memo {s : St} {n v : Nat} : (step env s (.volume n v)).fault = true ∨
    ((step env s (.volume n v)).ch n).memo = (v, (s.ch n).envelope) := by
  simp only [step, volume, onChan]
  split
  · cases e : volumeChan env s n v (s.ch n) with
    | none => exact .inl rfl
    | some o =>
      refine .inr ?_
      simp only [upd_same]
      unfold volumeChan at e
      simp only at e
      split at e
      · cases e1 : deref env s.userBuf (s.ch n).step with
        | none => rw [e1] at e; cases e
        | some b =>
          rw [e1] at e
          simp only [Option.bind_some] at e
          cases e2 : effectiveAttenuation { (s.ch n) with volume := v } b with
          | none => rw [e2] at e; cases e
          | some a =>
            rw [e2] at e
            injection e with e
            rw [← e, applyAttenuation_memo]; rfl
      · injection e with e
        rw [← e]; rfl
  · exact .inl rfl

theorem program_memo {s : St} {n v : Nat} : (step env s (.program n v)).fault = true ∨
    ((step env s (.program n v)).ch n).memo = ((s.ch n).volume, v) := by
  simp only [step, program, onChan]
  split
  · exact .inr (by simp only [upd_same]; rfl)
  · exact .inl rfl

end Mdmi.Psg

namespace Mdmi.Midi

variable {env : Env} {s t u : St} {i j c : Nat} {w : Prop}

/-- What of a device channel matters here. -/
def Dev.sig (d : Dev) : Ops × Nat × Nat × Nat := (d.ops, d.num, d.volume, d.program)

/-- Voice `j` is the PSG channel `j - 6` (once set up, `w`), and no other voice is. -/
structure PsgWired (w : Prop) (j : Nat) (s : St) : Prop where
  own : w → (s.dev j).ops = .psg ∧ (s.dev j).num = j - 6
  only : ∀ i, (s.dev i).ops = .psg → (s.dev i).num = j - 6 → i = j

/-- The volume of voice `j` is the one the driver holds. -/
def VolOk (j : Nat) (s : St) : Prop := s.psg.fault = true ∨ (s.psg.ch (j - 6)).volume = (s.dev j).volume
/-- The program of voice `j` is the one the driver holds. -/
def ProgOk (j : Nat) (s : St) : Prop := s.psg.fault = true ∨ (s.psg.ch (j - 6)).envelope = (s.dev j).program

structure Memo (j : Nat) (s : St) : Prop where
  wired : PsgWired True j s
  vol : VolOk j s
  prog : ProgOk j s

theorem PsgWired.of (k : PsgWired w j s) (h : ∀ i, (t.dev i).sig = (s.dev i).sig) : PsgWired w j t := by
  have h1 : ∀ i, (t.dev i).ops = (s.dev i).ops := fun i => congrArg (·.1) (h i)
  have h2 : ∀ i, (t.dev i).num = (s.dev i).num := fun i => congrArg (·.2.1) (h i)
  exact ⟨fun w => by rw [h1, h2]; exact k.own w, fun i => by rw [h1, h2]; exact k.only i⟩

theorem VolOk.of (k : VolOk j s) (h : (t.dev j).volume = (s.dev j).volume) (hp : Psg.Stays (j - 6) s.psg t.psg) : VolOk j t := by
  rcases k with k | k
  · exact .inl (hp.fault k)
  · exact .inr (by rw [h, ← k]; exact congrArg (·.1) hp.memo)

theorem ProgOk.of (k : ProgOk j s) (h : (t.dev j).program = (s.dev j).program) (hp : Psg.Stays (j - 6) s.psg t.psg) : ProgOk j t := by
  rcases k with k | k
  · exact .inl (hp.fault k)
  · exact .inr (by rw [h, ← k]; exact congrArg (·.2) hp.memo)

theorem Memo.of (k : Memo j s) (h : ∀ i, (t.dev i).sig = (s.dev i).sig) (hp : Psg.Stays (j - 6) s.psg t.psg) : Memo j t :=
  ⟨k.wired.of h, k.vol.of (congrArg (·.2.2.1) (h j)) hp, k.prog.of (congrArg (·.2.2.2) (h j)) hp⟩

theorem Memo.psg (k : Memo j s) (h : t.dev = s.dev) (hp : Psg.Stays (j - 6) s.psg t.psg) : Memo j t :=
  k.of (fun i => by rw [h]) hp

theorem Memo.same (k : Memo j s) (h : t.dev = s.dev) (hp : t.psg = s.psg) : Memo j t :=
  k.psg h (hp ▸ .refl)

theorem setDev_sig {f : Dev → Dev} (h : (f (s.dev i)).sig = (s.dev i).sig) : ∀ l, ((setDev s i f).dev l).sig = (s.dev l).sig := by
  intro l
  by_cases e : l = i
  · subst e; simpa using h
  · simp [Psg.upd_other _ _ _ _ e]

theorem Memo.setDev {f : Dev → Dev} (k : Memo j s) (h : (f (s.dev i)).sig = (s.dev i).sig) : Memo j (setDev s i f) :=
  k.of (setDev_sig h) .refl

theorem psgCall_held {o : Psg.Op} (h : o.leaves (j - 6)) : Psg.Stays (j - 6) s.psg (psgCall env s o).psg := Psg.step_held h

/-! ### Calls through the vtable -/

theorem devNoteOn_held (p : Nat) (x : Int) (v : Nat) : Psg.Stays (j - 6) s.psg (devNoteOn env s i p x v).psg := by
  unfold devNoteOn; split
  any_goals exact .refl
  exact psgCall_held trivial

theorem devNoteOff_held : Psg.Stays (j - 6) s.psg (devNoteOff env s i).psg := by
  unfold devNoteOff; split
  any_goals exact .refl
  exact psgCall_held trivial

theorem devAllNotesOff_held : Psg.Stays (j - 6) s.psg (devAllNotesOff env s i).psg := by
  unfold devAllNotesOff; split
  any_goals exact .refl
  exact psgCall_held trivial

theorem devPitch_held (p : Nat) (x : Int) : Psg.Stays (j - 6) s.psg (devPitch env s i p x).psg := by
  unfold devPitch; split
  any_goals exact .refl
  exact psgCall_held trivial

theorem devPan_held (v : Nat) : Psg.Stays (j - 6) s.psg (devPan env s i v).psg := by
  unfold devPan; split <;> exact .refl

theorem devVolume_held (k : PsgWired w j s) (h : i ≠ j) (v : Nat) : Psg.Stays (j - 6) s.psg (devVolume env s i v).psg := by
  unfold devVolume; split
  any_goals exact .refl
  rename_i e
  exact psgCall_held fun e' => h (k.only i e e')

theorem devProgram_held (k : PsgWired w j s) (h : i ≠ j) (v : Nat) : Psg.Stays (j - 6) s.psg (devProgram env s i v).psg := by
  unfold devProgram; split
  any_goals exact .refl
  rename_i e
  exact psgCall_held fun e' => h (k.only i e e')

theorem setDownstreamPitch_held : Psg.Stays (j - 6) s.psg (setDownstreamPitch env s i).psg := by
  unfold setDownstreamPitch withPitch
  simp only
  split
  · exact devPitch_held _ _
  · exact .refl

theorem setDownstreamNoteOn_held (v : Nat) : Psg.Stays (j - 6) s.psg (setDownstreamNoteOn env s i v).psg := by
  unfold setDownstreamNoteOn withPitch
  simp only
  split
  · exact devNoteOn_held _ _ _
  · exact .refl

/-! ### Bringing a voice up to date -/

/-- Ready to be brought up to date with MIDI channel `c`: what the engine will not send again is already there. -/
structure Ready (w : Prop) (c j : Nat) (s : St) : Prop where
  wired : PsgWired w j s
  vol : (s.dev j).volume = (s.chan c).volume → VolOk j s
  prog : (s.dev j).program = (s.chan c).program → ProgOk j s

theorem Memo.ready (k : Memo j s) : Ready True c j s := ⟨k.wired, fun _ => k.vol, fun _ => k.prog⟩

theorem Ready.of (k : Ready w c j s) (h : ∀ i, (t.dev i).sig = (s.dev i).sig) (hp : Psg.Stays (j - 6) s.psg t.psg)
    (hc : t.chan c = s.chan c) : Ready w c j t := by
  have h1 : (t.dev j).volume = (s.dev j).volume := congrArg (·.2.2.1) (h j)
  have h2 : (t.dev j).program = (s.dev j).program := congrArg (·.2.2.2) (h j)
  exact ⟨k.wired.of h, fun e => (k.vol (by rw [← h1, e, hc])).of h1 hp, fun e => (k.prog (by rw [← h2, e, hc])).of h2 hp⟩

theorem updateVolume_ready (k : Ready True c j s) : Ready True c j (updateVolume env s c j) ∧ VolOk j (updateVolume env s c j) := by
  unfold updateVolume
  split
  · have e : devVolume env s j (s.chan c).volume = psgCall env s (.volume (j - 6) (s.chan c).volume) := by
      simp only [devVolume, (k.wired.own trivial).1, (k.wired.own trivial).2]
    rw [e]
    rcases Psg.volume_memo (env := env.psg) (s := s.psg) (n := j - 6) (v := (s.chan c).volume) with h | h
    · exact ⟨⟨⟨fun _ => by simpa using k.wired.own trivial, fun i => by
          by_cases e : i = j
          · subst e; simp
          · simpa [Psg.upd_other _ _ _ _ e] using k.wired.only i⟩, fun _ => .inl h, fun _ => .inl h⟩, .inl h⟩
    · have hv : VolOk j (setDev (psgCall env s (.volume (j - 6) (s.chan c).volume)) j fun d => { d with volume := (s.chan c).volume }) :=
        .inr (by simp only [setDev_dev, Psg.upd_same]; exact congrArg (·.1) h)
      refine ⟨⟨⟨fun _ => by simpa using k.wired.own trivial, fun i => by
          by_cases e : i = j
          · subst e; simp
          · simpa [Psg.upd_other _ _ _ _ e] using k.wired.only i⟩, fun _ => hv, fun e => ?_⟩, hv⟩
      rcases k.prog (by simpa using e) with f | f
      · exact .inl (Psg.onChan_fault _ _ _ f)
      · refine .inr ?_
        have := congrArg (·.2) h
        simp only [setDev_dev, Psg.upd_same]
        exact (this.trans f)
  · rename_i h
    exact ⟨k, k.vol (by simpa using h)⟩

theorem updateProgram_ready (k : Ready True c j s) (hv : VolOk j s) : Memo j (updateProgram env s c j) := by
  unfold updateProgram
  split
  · have e : devProgram env s j (s.chan c).program = psgCall env s (.program (j - 6) (s.chan c).program) := by
      simp only [devProgram, (k.wired.own trivial).1, (k.wired.own trivial).2]
    rw [e]
    have w : PsgWired True j (setDev (psgCall env s (.program (j - 6) (s.chan c).program)) j fun d => { d with program := (s.chan c).program }) :=
      ⟨fun _ => by simpa using k.wired.own trivial, fun i => by
          by_cases e : i = j
          · subst e; simp
          · simpa [Psg.upd_other _ _ _ _ e] using k.wired.only i⟩
    rcases Psg.program_memo (env := env.psg) (s := s.psg) (n := j - 6) (v := (s.chan c).program) with h | h
    · exact ⟨w, .inl h, .inl h⟩
    · refine ⟨w, ?_, .inr (by simp only [setDev_dev, Psg.upd_same]; exact congrArg (·.2) h)⟩
      rcases hv with f | f
      · exact .inl (Psg.onChan_fault _ _ _ f)
      · refine .inr ?_
        simp only [setDev_dev, Psg.upd_same]
        exact (congrArg (·.1) h).trans f
  · rename_i h
    exact ⟨k.wired, hv, k.prog (by simpa using h)⟩

theorem updatePan_sig (l : Nat) : ((updatePan env s c i).dev l).sig = (s.dev l).sig := by
  unfold updatePan; split
  · rw [setDev_sig rfl]; simp
  · rfl

theorem updatePan_held : Psg.Stays (j - 6) s.psg (updatePan env s c i).psg := by
  unfold updatePan; split
  · exact devPan_held _
  · exact .refl

theorem updatePitchBend_sig (l : Nat) : ((updatePitchBend env s c i).dev l).sig = (s.dev l).sig := by
  unfold updatePitchBend; split
  · rw [setDownstreamPitch_dev, setDev_sig rfl]
  · rfl

theorem updatePitchBend_held : Psg.Stays (j - 6) s.psg (updatePitchBend env s c i).psg := by
  unfold updatePitchBend; split
  · exact setDownstreamPitch_held (s := setDev s i _)
  · exact .refl

theorem updateDev_own_memo (k : Ready True (s.dev j).midiChannel j s) (hc : (s.dev j).midiChannel < 16) : Memo j (updateDev env s j) := by
  simp only [updateDev, if_pos hc]
  generalize (s.dev j).midiChannel = c at *
  have k1 : Ready True c j (fmCall env s (.percussive (s.dev j).num (c == 9))) := k.of (fun _ => rfl) .refl rfl
  generalize fmCall env s (.percussive (s.dev j).num (c == 9)) = a at *
  obtain ⟨k2, v2⟩ := updateVolume_ready (env := env) k1
  generalize updateVolume env a c j = b at *
  have k3 : Ready True c j (updatePan env b c j) := k2.of updatePan_sig updatePan_held (by simp)
  have v3 : VolOk j (updatePan env b c j) := v2.of (congrArg (·.2.2.1) (updatePan_sig j)) updatePan_held
  generalize updatePan env b c j = d at *
  exact (updateProgram_ready k3 v3).of updatePitchBend_sig updatePitchBend_held

/-- Untouched by what happens to other voices. -/
structure Beside (w : Prop) (j : Nat) (s t : St) : Prop where
  wired : PsgWired w j t
  stays : Psg.Stays (j - 6) s.psg t.psg
  vol : (t.dev j).volume = (s.dev j).volume
  prog : (t.dev j).program = (s.dev j).program
  chan : t.chan = s.chan

theorem Beside.trans (h : Beside w j s t) (k : Beside w j t u) : Beside w j s u :=
  ⟨k.wired, h.stays.trans k.stays, k.vol.trans h.vol, k.prog.trans h.prog, k.chan.trans h.chan⟩

theorem Beside.memo (h : Beside True j s t) (k : Memo j s) : Memo j t := ⟨h.wired, k.vol.of h.vol h.stays, k.prog.of h.prog h.stays⟩

theorem Beside.ready (h : Beside w j s t) (k : Ready w c j s) : Ready w c j t :=
  ⟨h.wired, fun e => (k.vol (by rw [← h.vol, e, h.chan])).of h.vol h.stays,
    fun e => (k.prog (by rw [← h.prog, e, h.chan])).of h.prog h.stays⟩

theorem PsgWired.setDev {f : Dev → Dev} (k : PsgWired w j s) (h : i ≠ j)
    (hf : (f (s.dev i)).ops = .psg → (f (s.dev i)).num ≠ j - 6) : PsgWired w j (setDev s i f) :=
  ⟨fun w => by simpa [Psg.upd_other _ _ _ _ (Ne.symm h)] using k.own w, fun l => by
    by_cases e : l = i
    · subst e; simp only [setDev_dev, Psg.upd_same]; exact fun a b => absurd b (hf a)
    · simpa [Psg.upd_other _ _ _ _ e] using k.only l⟩

theorem PsgWired.setDev' {f : Dev → Dev} (k : PsgWired w j s) (h1 : (f (s.dev i)).ops = (s.dev i).ops)
    (h2 : (f (s.dev i)).num = (s.dev i).num) : PsgWired w j (Midi.setDev s i f) := by
  have h : ∀ l, ((Midi.setDev s i f).dev l).ops = (s.dev l).ops ∧ ((Midi.setDev s i f).dev l).num = (s.dev l).num := by
    intro l
    by_cases e : l = i
    · subst e; simpa using ⟨h1, h2⟩
    · simp [Psg.upd_other _ _ _ _ e]
  exact ⟨fun w => by rw [(h j).1, (h j).2]; exact k.own w, fun l => by rw [(h l).1, (h l).2]; exact k.only l⟩

theorem Beside.setDev {f : Dev → Dev} (k : PsgWired w j s) (h : i ≠ j)
    (hf : (f (s.dev i)).ops = .psg → (f (s.dev i)).num ≠ j - 6) : Beside w j s (setDev s i f) :=
  ⟨k.setDev h hf, .refl, by simp [Psg.upd_other _ _ _ _ (Ne.symm h)], by simp [Psg.upd_other _ _ _ _ (Ne.symm h)], rfl⟩

theorem Beside.of (k : PsgWired w j s) (h : t.dev = s.dev) (hp : Psg.Stays (j - 6) s.psg t.psg) (hc : t.chan = s.chan) :
    Beside w j s t :=
  ⟨k.of fun i => by rw [h], hp, by rw [h], by rw [h], hc⟩

theorem Beside.of' (k : PsgWired w j s) (h : ∀ i, (t.dev i).sig = (s.dev i).sig) (hp : Psg.Stays (j - 6) s.psg t.psg)
    (hc : t.chan = s.chan) : Beside w j s t :=
  ⟨k.of h, hp, congrArg (·.2.2.1) (h j), congrArg (·.2.2.2) (h j), hc⟩

theorem updateVolume_beside (k : PsgWired w j s) (h : i ≠ j) : Beside w j s (updateVolume env s c i) := by
  unfold updateVolume; split
  · have b : Beside w j s (devVolume env s i (s.chan c).volume) := .of k (by simp) (devVolume_held k h _) (by simp)
    refine b.trans (.setDev b.wired h fun a e => h (b.wired.only i a e))
  · exact .of k rfl .refl rfl

theorem updateProgram_beside (k : PsgWired w j s) (h : i ≠ j) : Beside w j s (updateProgram env s c i) := by
  unfold updateProgram; split
  · have b : Beside w j s (devProgram env s i (s.chan c).program) := .of k (by simp) (devProgram_held k h _) (by simp)
    refine b.trans (.setDev b.wired h fun a e => h (b.wired.only i a e))
  · exact .of k rfl .refl rfl

theorem updateDev_beside (k : PsgWired w j s) (h : i ≠ j) : Beside w j s (updateDev env s i) := by
  simp only [updateDev]
  split
  · have b1 : Beside w j s (fmCall env s (.percussive (s.dev i).num ((s.dev i).midiChannel == 9))) := .of k rfl .refl rfl
    have b2 := b1.trans (updateVolume_beside (env := env) (c := (s.dev i).midiChannel) b1.wired h)
    have b3 := b2.trans (.of' b2.wired (updatePan_sig (env := env) (c := (s.dev i).midiChannel) (i := i)) updatePan_held (by simp))
    have b4 := b3.trans (updateProgram_beside (env := env) (c := (s.dev i).midiChannel) b3.wired h)
    exact b4.trans (.of' b4.wired updatePitchBend_sig updatePitchBend_held (by simp))
  · exact .of k rfl .refl rfl

theorem updateVolume_mem (k : Memo j s) : Memo j (updateVolume env s c i) := by
  by_cases e : i = j
  · subst e
    obtain ⟨h1, h2⟩ := updateVolume_ready (env := env) (k.ready (c := c))
    refine ⟨h1.wired, h2, ?_⟩
    have := k.prog
    unfold updateVolume at h1 h2 ⊢
    split
    · have e : devVolume env s i (s.chan c).volume = psgCall env s (.volume (i - 6) (s.chan c).volume) := by
        simp only [devVolume, (k.wired.own trivial).1, (k.wired.own trivial).2]
      rw [e]
      rcases Psg.volume_memo (env := env.psg) (s := s.psg) (n := i - 6) (v := (s.chan c).volume) with h | h
      · exact .inl h
      · rcases this with f | f
        · exact .inl (Psg.onChan_fault _ _ _ f)
        · refine .inr ?_
          simp only [setDev_dev, Psg.upd_same]
          exact (congrArg (·.2) h).trans f
    · exact this
  · exact (updateVolume_beside k.wired e).memo k

theorem updateProgram_mem (k : Memo j s) : Memo j (updateProgram env s c i) := by
  by_cases e : i = j
  · subst e; exact updateProgram_ready k.ready k.vol
  · exact (updateProgram_beside k.wired e).memo k

theorem updatePan_mem (k : Memo j s) : Memo j (updatePan env s c i) := k.of updatePan_sig updatePan_held

theorem updatePitchBend_mem (k : Memo j s) : Memo j (updatePitchBend env s c i) := k.of updatePitchBend_sig updatePitchBend_held

theorem updateDev_mem (k : Memo j s) : Memo j (updateDev env s i) := by
  by_cases e : i = j
  · subst e
    by_cases hc : (s.dev i).midiChannel < 16
    · exact updateDev_own_memo k.ready hc
    · simp only [updateDev, if_neg hc]; exact k.same rfl rfl
  · exact (updateDev_beside k.wired e).memo k

/-! ### Notes -/

theorem devChanNoteOn_mem (p v : Nat) (k : Memo j s) : Memo j (devChanNoteOn env s i p v) :=
  (k.setDev (i := i) (f := fun d => { d with noteOn := true, cents := 0, pitch := p }) rfl).psg (devChanNoteOn_dev i p v) (setDownstreamNoteOn_held v)

theorem devChanNoteOff_mem (k : Memo j s) : Memo j (devChanNoteOff env s i) :=
  (k.setDev (i := i) (f := fun d => { d with noteOn := false, pitch := 0 }) rfl).psg (devChanNoteOff_dev i) devNoteOff_held

theorem foreach_mem {body : St → Nat → St} (h : ∀ s i, Memo j s → Memo j (body s i)) (c : Nat) (k : Memo j s) :
    Memo j (foreach s c body) := by
  unfold foreach
  refine List.foldlRecOn (motive := fun u : St => Memo j u) (List.range 13) _ k fun t ht i _ => ?_
  split
  · exact h t i ht
  · exact ht

theorem noteOff_mem (c p : Nat) (k : Memo j s) : Memo j (noteOff env s c p) := by
  unfold noteOff
  split
  · exact k.same rfl rfl
  split
  · exact k.same rfl rfl
  rename_i next st _
  extract_lets a
  have ka : Memo j a := k.same rfl rfl
  generalize singleVoice a c true = single
  refine List.foldlRecOn (motive := fun x : St × Bool => Memo j x.1) (List.range 13) (b := (a, false)) _ ka fun x k i _ => ?_
  obtain ⟨s, handled⟩ := x
  unfold noteOffBody
  simp only
  split
  · split
    · split
      · split
        · exact k.same rfl rfl
        · exact Memo.setDev (s := setChan s c _) (i := i) (f := fun d => { d with glide := next }) (k.same rfl rfl) rfl
      · exact devChanNoteOn_mem _ _ k
    · exact devChanNoteOff_mem k
  · exact k

theorem startNote_mem (hc : c < 16) (p v : Nat) (k : Memo j s) : Memo j (startNote env s i c p v) := by
  unfold startNote
  extract_lets a b d
  have kd : Memo j d := by
    by_cases e : i = j
    · subst e
      have ka : Ready True c i a := by
        simp only [a]
        split
        · have e : devProgram env s i (s.chan c).program = psgCall env s (.program (i - 6) (s.chan c).program) := by
            simp only [devProgram, (k.wired.own trivial).1, (k.wired.own trivial).2]
          rw [e]
          refine ⟨k.wired.of fun _ => rfl, fun _ => ?_, fun hp => ?_⟩
          · rcases Psg.program_memo (env := env.psg) (s := s.psg) (n := i - 6) (v := (s.chan c).program) with h | h
            · exact .inl h
            · rcases k.vol with f | f
              · exact .inl (Psg.onChan_fault _ _ _ f)
              · exact .inr ((congrArg (·.1) h).trans f)
          · rcases Psg.program_memo (env := env.psg) (s := s.psg) (n := i - 6) (v := (s.chan c).program) with h | h
            · exact .inl h
            · exact .inr ((congrArg (·.2) h).trans hp.symm)
        · exact k.ready
      have kb : Ready True c i b := ka.of (setDev_sig rfl) .refl rfl
      have hb : (b.dev i).midiChannel = c := by simp [b]
      exact updateDev_own_memo (hb ▸ kb) (hb ▸ hc)
    · have ka : Memo j a := by
        simp only [a]
        split
        · exact k.psg (by simp) (devProgram_held k.wired e _)
        · exact k
      have kb : Memo j b := ka.setDev rfl
      exact updateDev_mem kb
  exact kd.psg (by simp) (setDownstreamNoteOn_held v)

theorem noteOn_mem (hc : c < 16) (p v : Nat) (k : Memo j s) : Memo j (noteOn env s c p v) := by
  unfold noteOn
  split
  · exact noteOff_mem c p k
  split
  · exact k
  split
  · exact k.same rfl rfl
  split
  · split
    · exact k.same rfl rfl
    split
    · exact k.same rfl rfl
    · extract_lets a
      have ka : Memo j a := k.same rfl rfl
      split
      · exact ka.setDev rfl
      · exact startNote_mem hc p v (ka.setDev rfl)
  · exact startNote_mem hc p v k

theorem allNotesOff_mem (c : Nat) (k : Memo j s) : Memo j (allNotesOff env s c) :=
  foreach_mem (fun s i k => (k.setDev (i := i) (f := fun d => { d with noteOn := false, pitch := 0 }) rfl).psg (by simp)
    devAllNotesOff_held) c k

theorem tick_mem (k : Memo j s) : Memo j (tick env s) := by
  unfold tick
  refine List.foldlRecOn (motive := fun u : St => Memo j u) (List.range 13) _ k fun s k i _ => ?_
  split
  · exact k
  split
  · split
    · unfold processGlide
      split
      · exact k
      · rename_i g _
        exact (k.setDev (i := i) (f := fun d => { d with pitch := g.pitch, cents := g.cents, glide := g.target }) rfl).psg
          (by simp) setDownstreamPitch_held
    · exact k
  · exact k.same rfl rfl

/-! ### Mapping and resets -/

theorem applyDynamicMode_mem (k : Memo j s) : Memo j (applyDynamicMode s) :=
  k.of (fun i => by unfold applyDynamicMode; simp only; split <;> rfl) .refl

theorem setDynamicMode_mem (m : Mode) (k : Memo j s) : Memo j (setDynamicMode s m) := by
  cases m
  all_goals simp only [setDynamicMode]
  any_goals exact applyDynamicMode_mem (k.same rfl rfl)
  exact k.same rfl rfl

theorem remap_mem (c l : Nat) (k : Memo j s) : Memo j (remap s c l) := by
  unfold remap
  split
  · exact k.same rfl rfl
  split
  · split
    · exact k.setDev rfl
    · exact k
  split
  · exact k.same rfl rfl
  · exact k.setDev rfl

theorem setPolyphonic_mem (b : Bool) (k : Memo j s) : Memo j (setPolyphonic s b) := by
  unfold setPolyphonic
  extract_lets a
  have ka : Memo j a := setDynamicMode_mem _ k
  clear_value a
  split
  · exact List.foldlRecOn (motive := fun u : St => Memo j u) (List.range 6) _ ka fun t k i _ => remap_mem 0 i k
  · exact ka

theorem initDev_own_mem (h6 : 6 ≤ j) (h9 : j ≤ 9) (k : Ready w j j s) : Memo j (initDev env s j) := by
  unfold initDev
  extract_lets a
  have ad : a.dev j = { s.dev j with num := j - 6, ops := .psg, noteOn := false, midiChannel := j, pitch := 0, cents := 0, pitchBend := 0x2000, glide := 0 } := by
    simp only [a, setDev_dev, Psg.upd_same]
    rw [if_neg (by omega), if_pos h9]
  have ao : ∀ i, i ≠ j → a.dev i = s.dev i := fun i h => by simp [a, Psg.upd_other _ _ _ _ h]
  have ka : Ready True j j a := by
    refine ⟨⟨fun _ => by rw [ad]; exact ⟨rfl, rfl⟩, fun i h1 h2 => ?_⟩, fun e => ?_, fun e => ?_⟩
    · by_cases e : i = j
      · exact e
      · rw [ao i e] at h1 h2; exact k.wired.only i h1 h2
    · rcases k.vol (by rw [ad] at e; exact e) with f | f
      · exact .inl f
      · exact .inr (by rw [ad]; exact f)
    · rcases k.prog (by rw [ad] at e; exact e) with f | f
      · exact .inl f
      · exact .inr (by rw [ad]; exact f)
  clear_value a
  have hm : (a.dev j).midiChannel = j := by rw [ad]
  exact updateDev_own_memo (hm.symm ▸ ka) (by omega)

theorem initDev_beside (h6 : 6 ≤ j) (k : PsgWired w j s) (h : i ≠ j) : Beside w j s (initDev env s i) := by
  unfold initDev
  have b : Beside w j s (setDev s i (freshDev i)) := .setDev k h fun h1 h2 => by
    unfold freshDev at h1 h2
    simp only at h1 h2
    split at h1
    · cases h1
    · rename_i h5
      rw [if_neg h5] at h2
      split at h1
      · rename_i h9
        rw [if_pos h9] at h2
        simp only at h2
        omega
      · cases h1
  exact b.trans (updateDev_beside b.wired h)

theorem initDev_mem (h6 : 6 ≤ j) (h9 : j ≤ 9) (k : Memo j s) : Memo j (initDev env s i) := by
  by_cases e : i = j
  · subst e; exact initDev_own_mem h6 h9 k.ready
  · exact (initDev_beside h6 k.wired e).memo k

theorem initDevs_mem (h6 : 6 ≤ j) (h9 : j ≤ 9) (k : Ready False j j s) : ∀ n,
    (n ≤ j → Ready False j j ((List.range n).foldl (initDev env) s)) ∧
    (j < n → Memo j ((List.range n).foldl (initDev env) s)) := by
  intro n
  induction n with
  | zero => exact ⟨fun _ => k, fun h => absurd h (by omega)⟩
  | succ n ih =>
    rw [List.range_succ, List.foldl_append]
    revert ih
    generalize (List.range n).foldl (initDev env) s = t
    intro ih
    simp only [List.foldl_cons, List.foldl_nil]
    refine ⟨fun h => ?_, fun h => ?_⟩
    · have k := ih.1 (by omega)
      exact (initDev_beside h6 k.wired (by omega)).ready k
    · by_cases e : n = j
      · subst e; exact initDev_own_mem h6 h9 (ih.1 (by omega))
      · exact initDev_mem h6 h9 (ih.2 (by omega))

/-- What start-up and the resets need. -/
structure Clear (j : Nat) (s : St) : Prop where
  only : ∀ i, (s.dev i).ops = .psg → (s.dev i).num = j - 6 → i = j
  vol : (s.dev j).volume = 127 → VolOk j s
  prog : (s.dev j).program = 0 → ProgOk j s

theorem resetChannels_mem (h6 : 6 ≤ j) (h9 : j ≤ 9) (k : Clear j s) : Memo j (resetChannels env s) := by
  unfold resetChannels
  extract_lets a
  have ka : Ready False j j a := by
    have hc : a.chan j = freshChan := by simp only [a]; rw [if_pos (by omega)]
    exact ⟨⟨False.elim, k.only⟩, fun e => k.vol (by rw [hc] at e; exact e), fun e => k.prog (by rw [hc] at e; exact e)⟩
  clear_value a
  have := (initDevs_mem (env := env) h6 h9 ka 13).2 (by omega)
  revert this
  generalize (List.range 13).foldl (initDev env) a = t
  exact fun this => applyDynamicMode_mem this

theorem Memo.clear (k : Memo j s) : Clear j s := ⟨k.wired.only, fun _ => k.vol, fun _ => k.prog⟩

theorem reset_clear (he : env.Ok) (h6 : 6 ≤ j) (h9 : j ≤ 9) (hf : s.psg.fault = false)
    (k : ∀ i, (s.dev i).ops = .psg → (s.dev i).num = j - 6 → i = j) : Memo j (reset env s) := by
  unfold reset
  refine resetChannels_mem h6 h9 ?_
  have h := (psgReset_eq he.psg hf).2.2.2 (j - 6) (by omega)
  refine ⟨k, fun e => .inr ?_, fun e => .inr ?_⟩
  · exact (congrArg Psg.Chan.volume h).trans e.symm
  · exact (congrArg Psg.Chan.envelope h).trans e.symm

theorem boot_mem (he : env.Ok) (h6 : 6 ≤ j) (h9 : j ≤ 9) (b : Bool) (m : Sram.Mem) : Memo j (boot env b m) := by
  unfold boot
  refine reset_clear he h6 h9 (Psg.init_eq he.psg).1 fun i h _ => ?_
  simp [powerOn] at h

/-! ### Messages -/

theorem resetAllControllers_mem (h6 : 6 ≤ j) (h9 : j ≤ 9) (c : Nat) (k : Memo j s) : Memo j (resetAllControllers env s c) := by
  unfold resetAllControllers
  extract_lets a b
  have ka : Memo j a := k.same rfl rfl
  have kb : Memo j b := foreach_mem (fun t i k => initDev_mem h6 h9 k) c ka
  clear_value b
  exact setDynamicMode_mem _ kb

theorem generalMidiReset_mem (h6 : 6 ≤ j) (h9 : j ≤ 9) (k : Memo j s) : Memo j (generalMidiReset env s) := by
  unfold generalMidiReset
  extract_lets a b
  have ka : Memo j a := List.foldlRecOn (motive := fun u : St => Memo j u) (List.range 16) _ k fun t k i _ => allNotesOff_mem i k
  clear_value a
  have kb : Memo j b := by
    simp only [b]; split
    · exact ka.same rfl rfl
    · exact ka
  clear_value b
  exact resetChannels_mem h6 h9 kb.clear

theorem setDownstreamPitch_mem (k : Memo j s) : Memo j (setDownstreamPitch env s i) := k.psg (by simp) setDownstreamPitch_held

theorem updatePbRange_mem (c v : Nat) (b : Bool) (k : Memo j s) : Memo j (updatePbRange env s c v b) := by
  unfold updatePbRange
  refine foreach_mem (fun t i k => ?_) c (k.same rfl rfl)
  split
  · exact setDownstreamPitch_mem k
  · exact k

theorem enableDac_mem (h6 : 6 ≤ j) (e : Bool) (k : Memo j s) : Memo j (enableDac env s e) := by
  unfold enableDac
  refine Memo.same (s := setDev s 5 fun d => { d with ops := if e then .dac else .fm }) ?_ rfl rfl
  exact (Beside.setDev (i := 5) k.wired (by omega) fun h => by cases e <;> cases h).memo k

theorem setFmParam_mem (h6 : 6 ≤ j) (a v : Nat) (k : Memo j s) : Memo j (setFmParam env s i a v) := by
  unfold setFmParam
  split
  · split
    · exact k
    · exact k.same rfl rfl
  · split
    · split
      · exact k
      · exact enableDac_mem h6 _ k
    · exact k.same rfl rfl

theorem ccSwitch_mem (h6 : 6 ≤ j) (h9 : j ≤ 9) (c a v : Nat) (k : Memo j s) : Memo j (ccSwitch env s c a v) := by
  have same : ∀ t : St, t.dev = s.dev → t.psg = s.psg → Memo j t := fun t => k.same
  unfold ccSwitch
  split
  · split <;> exact same _ rfl rfl
  · exact foreach_mem (fun t i k => updateVolume_mem k) c (same (setChan s c fun m => { m with volume := v }) rfl rfl)
  · exact foreach_mem (fun t i k => updatePan_mem k) c (same (setChan s c fun m => { m with pan := v }) rfl rfl)
  · exact allNotesOff_mem c k
  · exact allNotesOff_mem c k
  · exact setPolyphonic_mem _ k
  · exact same _ rfl rfl
  · exact resetAllControllers_mem h6 h9 c k
  · split <;> exact same _ rfl rfl
  · split <;> exact same _ rfl rfl
  · exact same _ rfl rfl
  · split <;> exact same _ rfl rfl
  · unfold rpnDataEntry; split
    · exact updatePbRange_mem c v true k
    · exact same _ rfl rfl
  · unfold rpnDataEntry; split
    · exact updatePbRange_mem c v false k
    · exact same _ rfl rfl
  iterate 6 exact same _ rfl rfl
  · unfold storeFromChannel; split <;> exact same _ rfl rfl
  · exact foreach_mem (fun t i k => setFmParam_mem h6 a v k) c k

theorem clears_mem (l : List Nat) (k : Memo j s) : Memo j (l.foldl (fun s n => fmCall env s (.clear n)) s) :=
  List.foldlRecOn (motive := fun u : St => Memo j u) l _ k fun _ k _ _ => k.same rfl rfl

theorem Memo.emit (k : Memo j s) (m : Ev) : Memo j (emit s m) := k.same rfl rfl

theorem Memo.say (k : Memo j s) (m : Msg) : Memo j (say s m) := k.same rfl rfl

theorem clearAll_mem (d : List Nat) (k : Memo j s) : Memo j (clearAll env s d) := by
  unfold clearAll
  split
  · exact (clears_mem _ k).say _
  · exact k.say _

theorem handler_mem (c : Nat) (d : List Nat) (l : Nat) (k : Memo j s) : Memo j (handler env s c d l) := by
  have same : ∀ t : St, t.dev = s.dev → t.psg = s.psg → Memo j t := fun t => k.same
  unfold handler
  split
  · exact remap_mem _ _ k
  · exact same _ rfl rfl
  · exact setDynamicMode_mem _ k
  · exact same _ rfl rfl
  · exact same _ rfl rfl
  · unfold loadPsgEnvelope
    split
    · exact same _ rfl rfl
    · exact Memo.say (s := psgCall env s (.loadEnvelope _)) (k.psg rfl (psgCall_held trivial)) _
  · exact same _ rfl rfl
  · exact same _ rfl rfl
  · exact same _ rfl rfl
  · unfold storeProgram; split <;> exact same _ rfl rfl
  · unfold clearProgram; split <;> exact same _ rfl rfl
  · exact clearAll_mem d k
  · unfold dumpPreset; split
    · split <;> exact same _ rfl rfl
    · exact same _ rfl rfl
  · unfold dumpChannel; simp only; split
    · exact same _ rfl rfl
    · split
      · split
        · split <;> exact same _ rfl rfl
        · exact same _ rfl rfl
      · exact same _ rfl rfl
  · exact same _ rfl rfl

theorem sysex_mem (h6 : 6 ≤ j) (h9 : j ≤ 9) (d : List Nat) (l : Nat) (k : Memo j s) : Memo j (sysex env s d l) := by
  unfold sysex
  split
  · exact k
  split
  · exact generalMidiReset_mem h6 h9 k
  split
  · exact k
  simp only
  split
  · exact k.say _
  · split
    · exact k.say _
    · exact handler_mem _ _ _ k
  · exact handler_mem _ _ _ k

theorem step_mem (he : env.Ok) (h6 : 6 ≤ j) (h9 : j ≤ 9) (hf : s.psg.fault = false) (op : Op) (hw : op.Wf) (k : Memo j s) :
    Memo j (step env s op) := by
  cases op with
  | noteOn c p v => simp only [step, if_pos hw.1]; exact noteOn_mem hw.1 p v k
  | noteOff c p => simp only [step, if_pos hw.1]; exact noteOff_mem c p k
  | bend c b =>
    simp only [step, if_pos hw.1, pitchBend]
    refine foreach_mem (fun t i k => ?_) c (Memo.same (t := setChan s c fun m => { m with pitchBend := b }) k rfl rfl)
    split
    · exact updatePitchBend_mem k
    · exact k
  | cc c a v =>
    simp only [step, if_pos hw.1, cc]
    exact (ccSwitch_mem h6 h9 c a v k).emit _
  | program c p =>
    simp only [step, if_pos hw.1, program]
    exact (foreach_mem (fun t i k => updateProgram_mem k) c
      (Memo.same (t := setChan s c fun m => { m with program := p }) k rfl rfl)).emit _
  | sysex d l => exact sysex_mem h6 h9 d l k
  | remap c i => exact remap_mem c i k
  | reset => exact reset_clear he h6 h9 hf k.wired.only
  | tick => exact tick_mem k
  | psgTick =>
    simp only [step]
    exact k.psg rfl (psgCall_held (o := .tick) trivial)

theorem run_mem {tame : Bool} (he : env.Ok) (h6 : 6 ≤ j) (h9 : j ≤ 9) (ops : List Op) : ∀ s, Ok env tame s → Memo j s → (∀ op ∈ ops, op.Wf) →
    (tame = false → ∀ op ∈ ops, ¬op.enablesDac) → (tame = true → ∀ op ∈ ops, ¬op.detunes) → Memo j (run env s ops) := by
  induction ops with
  | nil => intro s _ k _ _ _; exact k
  | cons op ops ih =>
    intro s hs k hw hd hb
    exact ih _ (step_ok he hs (hw op (by simp)) (fun h => hd h op (by simp)) (fun h => hb h op (by simp)))
      (step_mem he h6 h9 hs.psg.nofault op (hw op (by simp)) k)
      (fun o ho => hw o (by simp [ho])) (fun h o ho => hd h o (by simp [ho])) (fun h o ho => hb h o (by simp [ho]))

theorem Reached.memo (he : env.Ok) (h6 : 6 ≤ j) (h9 : j ≤ 9) (h : Reached env s) : Memo j s := by
  obtain ⟨b, m, ops, hw, hd, rfl⟩ := h
  rcases hd with hd | hd
  · exact run_mem (tame := false) he h6 h9 ops _ (boot_ok he b m) (boot_mem he h6 h9 b m) hw (fun _ => hd) (by simp)
  · exact run_mem (tame := true) he h6 h9 ops _ (boot_ok he b m) (boot_mem he h6 h9 b m) hw (by simp) (fun _ => hd)

/-- In every state the engine reaches, volume and program of a PSG voice are those the driver holds. -/
theorem Reached.mem (he : env.Ok) (h6 : 6 ≤ j) (h9 : j ≤ 9) (h : Reached env s) :
    (s.psg.ch (j - 6)).volume = (s.dev j).volume ∧ (s.psg.ch (j - 6)).envelope = (s.dev j).program := by
  obtain ⟨tame, hs⟩ := h.ok he
  have hf := hs.psg.nofault
  have k := h.memo he h6 h9
  exact ⟨k.vol.resolve_left (by simp [hf]), k.prog.resolve_left (by simp [hf])⟩

end Mdmi.Midi
