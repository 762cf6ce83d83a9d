import Verif.Proofs.MidiStep
/-! Which calls leave alone the notes of the voices, the held notes and portamento settings of the channels, and the
messages sent; and the range of sounding pitches. -/
namespace Mdmi.Midi
open NotePriority (Rep)

/-- The note of a voice. -/
def Dev.note (d : Dev) : Nat × Int × Bool × Nat := (d.pitch, d.cents, d.noteOn, d.glide)
/-- Held notes and portamento of a channel. -/
def Chan.hold (m : Chan) : NotePriority.Stack × Bool × Nat := (m.stack, m.portamento, m.interval)

/-- Notes, held notes, messages sent. -/
structure Bare where
  note : Nat → Nat × Int × Bool × Nat
  hold : Nat → NotePriority.Stack × Bool × Nat
  out : List Ev

def bare (s : St) : Bare := ⟨fun i => (s.dev i).note, fun c => (s.chan c).hold, s.out⟩

variable {env : Env} {s : St}

theorem setDev_bare (i : Nat) (f : Dev → Dev) (h : (f (s.dev i)).note = (s.dev i).note) :
    bare (setDev s i f) = bare s := by
  simp only [bare, setDev, Bare.mk.injEq, and_true]
  funext j; simp only [upd]; split
  · subst_vars; exact h
  · rfl
theorem setChan_bare (c : Nat) (f : Chan → Chan) (h : (f (s.chan c)).hold = (s.chan c).hold) :
    bare (setChan s c f) = bare s := by
  simp only [bare, setChan, Bare.mk.injEq, true_and, and_true]
  funext j; simp only [upd]; split
  · subst_vars; exact h
  · rfl
theorem fmCall_bare (op : Fm.Op) : bare (fmCall env s op) = bare s := rfl
theorem psgCall_bare (op : Psg.Op) : bare (psgCall env s op) = bare s := rfl
theorem say_bare (m : Msg) : bare (say s m) = bare s := rfl
theorem ub_bare : bare (ub s) = bare s := rfl

theorem foldl_bare {α : Type} (f : St → α → St) (l : List α) (h : ∀ s a, bare (f s a) = bare s) (s : St) :
    bare (l.foldl f s) = bare s := by
  induction l generalizing s with
  | nil => rfl
  | cons a l ih => exact (ih _).trans (h s a)

theorem foreach_bare (c : Nat) (f : St → Nat → St) (h : ∀ s i, bare (f s i) = bare s) :
    bare (foreach s c f) = bare s := by
  unfold foreach
  refine foldl_bare _ _ (fun s i => ?_) s
  split
  · exact h s i
  · rfl

theorem devNoteOn_bare (i p : Nat) (x : Int) (v : Nat) : bare (devNoteOn env s i p x v) = bare s := by
  unfold devNoteOn; split <;> rfl
theorem devNoteOff_bare (i : Nat) : bare (devNoteOff env s i) = bare s := by unfold devNoteOff; split <;> rfl
theorem devVolume_bare (i v : Nat) : bare (devVolume env s i v) = bare s := by unfold devVolume; split <;> rfl
theorem devProgram_bare (i v : Nat) : bare (devProgram env s i v) = bare s := by unfold devProgram; split <;> rfl
theorem devAllNotesOff_bare (i : Nat) : bare (devAllNotesOff env s i) = bare s := by
  unfold devAllNotesOff; split <;> rfl
theorem devPan_bare (i v : Nat) : bare (devPan env s i v) = bare s := by unfold devPan; split <;> rfl
theorem devPitch_bare (i p : Nat) (x : Int) : bare (devPitch env s i p x) = bare s := by unfold devPitch; split <;> rfl

theorem setDownstreamPitch_bare (i : Nat) : bare (setDownstreamPitch env s i) = bare s := by
  unfold setDownstreamPitch withPitch
  simp only
  split
  · exact devPitch_bare _ _ _
  · rfl
theorem setDownstreamNoteOn_bare (i v : Nat) : bare (setDownstreamNoteOn env s i v) = bare s := by
  unfold setDownstreamNoteOn withPitch
  simp only
  split
  · exact devNoteOn_bare _ _ _ _
  · rfl
theorem updateVolume_bare (c i : Nat) : bare (updateVolume env s c i) = bare s := by
  unfold updateVolume
  split
  · exact (setDev_bare i _ rfl).trans (devVolume_bare _ _)
  · rfl
theorem updatePan_bare (c i : Nat) : bare (updatePan env s c i) = bare s := by
  unfold updatePan
  split
  · exact (setDev_bare i _ rfl).trans (devPan_bare _ _)
  · rfl
theorem updateProgram_bare (c i : Nat) : bare (updateProgram env s c i) = bare s := by
  unfold updateProgram
  split
  · exact (setDev_bare i _ rfl).trans (devProgram_bare _ _)
  · rfl
theorem updatePitchBend_bare (c i : Nat) : bare (updatePitchBend env s c i) = bare s := by
  unfold updatePitchBend
  split
  · exact (setDownstreamPitch_bare _).trans (setDev_bare i _ rfl)
  · rfl
theorem updateDev_bare (i : Nat) : bare (updateDev env s i) = bare s := by
  unfold updateDev
  simp only
  split
  · exact (updatePitchBend_bare _ _).trans ((updateProgram_bare _ _).trans ((updatePan_bare _ _).trans
      (updateVolume_bare _ _)))
  · rfl

theorem pitchBend_bare (c b : Nat) : bare (pitchBend env s c b) = bare s := by
  unfold pitchBend
  refine (foreach_bare _ _ fun s i => ?_).trans (setChan_bare _ _ rfl)
  split
  · exact updatePitchBend_bare _ _
  · rfl

theorem applyDynamicMode_bare : bare (applyDynamicMode s) = bare s := by
  simp only [bare, applyDynamicMode, Bare.mk.injEq, and_true]
  funext j; split <;> rfl
theorem setDynamicMode_bare (m : Mode) : bare (setDynamicMode s m) = bare s := by
  unfold setDynamicMode
  simp only
  split
  · exact applyDynamicMode_bare
  · exact applyDynamicMode_bare
  · rfl
theorem remap_bare (c i : Nat) : bare (remap s c i) = bare s := by
  unfold remap
  split
  · rfl
  · split
    · split
      · exact setDev_bare _ _ rfl
      · rfl
    · split
      · rfl
      · exact setDev_bare _ _ rfl
theorem setPolyphonic_bare (b : Bool) : bare (setPolyphonic s b) = bare s := by
  unfold setPolyphonic
  simp only
  split
  · exact (foldl_bare _ _ (fun s i => remap_bare 0 i) _).trans (setDynamicMode_bare _)
  · exact setDynamicMode_bare _
theorem setFmParam_bare (i k v : Nat) : bare (setFmParam env s i k v) = bare s := by
  unfold setFmParam
  split
  · split <;> rfl
  · split
    · split
      · rfl
      · unfold enableDac; exact (fmCall_bare _).trans (setDev_bare 5 _ rfl)
    · rfl
theorem updatePbRange_bare (c v : Nat) (m : Bool) : bare (updatePbRange env s c v m) = bare s := by
  unfold updatePbRange
  refine (foreach_bare _ _ fun s i => ?_).trans (setChan_bare _ _ rfl)
  split
  · exact setDownstreamPitch_bare _
  · rfl
theorem rpnDataEntry_bare (c v : Nat) (m : Bool) : bare (rpnDataEntry env s c v m) = bare s := by
  unfold rpnDataEntry
  split
  · exact updatePbRange_bare _ _ _
  · rfl
theorem storeFromChannel_bare (c p : Nat) : bare (storeFromChannel env s c p) = bare s := by
  unfold storeFromChannel
  split <;> rfl

/-! ### Range of the sounding pitches -/

/-- The note of a voice is a key or lies between two; with `b`, glides do not aim below key 12. -/
structure NoteIn (b : Bool) (n : Nat × Int × Bool × Nat) : Prop where
  pitch : n.1 < 128
  cents0 : 0 ≤ n.2.1
  cents1 : n.2.1 < 100
  glide : n.2.2.2 < 128
  high : b = true → n.2.2.2 = 0 ∨ 12 ≤ n.2.2.2

/-- Held notes are keys; with `b`, none is below key 12, and without it portamento is off. -/
structure HoldIn (b : Bool) (h : NotePriority.Stack × Bool × Nat) : Prop where
  stack : ∃ l, Rep h.1 l ∧ ∀ p ∈ l, p < 128 ∧ (b = true → 12 ≤ p)
  plain : b = false → h.2.1 = false
  interval : h.2.2 ≤ 1145

/-- The state of notes stays in range. -/
structure Range (b : Bool) (x : Bare) : Prop where
  note : ∀ i, NoteIn b (x.note i)
  hold : ∀ c, HoldIn b (x.hold c)

theorem Range.setDev {b : Bool} {s : St} (h : Range b (bare s)) (i : Nat) (f : Dev → Dev)
    (hf : NoteIn b (f (s.dev i)).note) : Range b (bare (setDev s i f)) := by
  refine ⟨fun j => ?_, h.hold⟩
  show NoteIn b (upd s.dev i (f (s.dev i)) j).note
  unfold upd
  split
  · exact hf
  · exact h.note j
theorem Range.setChan {b : Bool} {s : St} (h : Range b (bare s)) (c : Nat) (f : Chan → Chan)
    (hf : HoldIn b (f (s.chan c)).hold) : Range b (bare (setChan s c f)) := by
  refine ⟨h.note, fun j => ?_⟩
  show HoldIn b (upd s.chan c (f (s.chan c)) j).hold
  unfold upd
  split
  · exact hf
  · exact h.hold j
theorem Range.of {b : Bool} {s t : St} (h : Range b (bare s)) (e : bare t = bare s) : Range b (bare t) := e ▸ h
theorem Range.foreach {b : Bool} {s : St} (h : Range b (bare s)) (c : Nat) (f : St → Nat → St)
    (hf : ∀ s i, Range b (bare s) → Range b (bare (f s i))) : Range b (bare (foreach s c f)) := by
  unfold Midi.foreach
  refine List.foldlRecOn (motive := fun t => Range b (bare t)) _ _ h fun t ht i _ => ?_
  split
  · exact hf t i ht
  · exact ht

theorem glideStep_in {b : Bool} {iv : Nat} {d : Dev} {n : Bool} {g : Glide} (hd : NoteIn b d.note) (hiv : iv ≤ 1145)
    (hb : d.glide = 0 ∨ 12 ≤ d.glide) (h : glideStep iv ⟨d.pitch, d.cents, d.glide⟩ = some g) :
    NoteIn b (g.pitch, g.cents, n, g.target) := by
  obtain ⟨h1, h2, h3, h4, h5⟩ := hd
  simp only [Dev.note] at h1 h2 h3 h4 h5
  generalize d.pitch = p at *
  generalize d.cents = c at *
  generalize d.glide = t at *
  unfold glideStep at h
  split at h
  · exact absurd h (by simp)
  rename_i hstart
  simp only at hstart
  have ht : 12 ≤ t := by omega
  have e1 : toS16 (iv : Int) = iv := toS16_of (by omega) (by omega)
  have e2 : toS16 (0 - (iv : Int)) = -iv := by rw [toS16_of] <;> omega
  have e3 : toU8 (t : Int) = t := toU8_nat (by omega)
  by_cases hup : t > p
  · have s := pcShift_exact ⟨p, c⟩ iv (by simp only; omega) (by simp only; omega)
    simp only at s
    simp only [hup, if_true, e1, e3] at h
    generalize pcShift ⟨p, c⟩ iv = q at *
    split at h <;> (injection h with h; subst h; refine ⟨?_, ?_, ?_, ?_, fun _ => ?_⟩ <;> simp only <;> first | omega | exact .inl trivial)
  · have hdn : t < p ∨ (t = p ∧ c > 0) := by
      rcases Nat.lt_or_ge t p with k | k
      · exact .inl k
      · have : t = p := by omega
        exact .inr ⟨this, by
          have : ¬ (t = p ∧ c = 0) := fun k => hstart (.inr k)
          omega⟩
    have s := pcShift_exact ⟨p, c⟩ (-iv) (by simp only; omega) (by simp only; omega)
    simp only at s
    simp only [hup, hdn, if_true, if_false, e2, e3] at h
    generalize pcShift ⟨p, c⟩ (-iv) = q at *
    split at h <;> (injection h with h; subst h; refine ⟨?_, ?_, ?_, ?_, fun _ => ?_⟩ <;> simp only <;> first | omega | exact .inl trivial)

theorem devChanNoteOn_range {b : Bool} (h : Range b (bare s)) {i p v : Nat} (hp : p < 128) :
    Range b (bare (devChanNoteOn env s i p v)) := by
  unfold devChanNoteOn
  refine (h.setDev i _ ?_).of (setDownstreamNoteOn_bare i v)
  obtain ⟨_, _, _, h4, h5⟩ := h.note i
  exact ⟨hp, Int.le_refl 0, by simp [Dev.note], h4, h5⟩

theorem devChanNoteOff_range {b : Bool} (h : Range b (bare s)) {i : Nat} :
    Range b (bare (devChanNoteOff env s i)) := by
  unfold devChanNoteOff
  refine (h.setDev i _ ?_).of (devNoteOff_bare i)
  obtain ⟨_, h2, h3, h4, h5⟩ := h.note i
  exact ⟨by simp [Dev.note], h2, h3, h4, h5⟩

theorem startNote_range {b : Bool} (h : Range b (bare s)) {i c p v : Nat} (hp : p < 128) :
    Range b (bare (startNote env s i c p v)) := by
  unfold startNote
  extract_lets s1 s2 s3
  have h1 : Range b (bare s1) := by
    refine h.of ?_
    show bare (ite _ _ _) = _
    split
    · exact devProgram_bare _ _
    · rfl
  have h2 : Range b (bare s2) := by
    refine h1.setDev i _ ?_
    obtain ⟨_, _, _, h4, h5⟩ := h1.note i
    exact ⟨hp, Int.le_refl 0, by simp [Dev.note], h4, h5⟩
  exact (h2.of (updateDev_bare i)).of (setDownstreamNoteOn_bare i v)

/-- What is popped, and what remains, are held notes. -/
theorem popNewest_in {b : Bool} {l : List Nat} (h : ∀ p ∈ l, p < 128 ∧ (b = true → 12 ≤ p)) :
    ((NoteStack.popNewest l).1 = 0 ∨ (NoteStack.popNewest l).1 < 128 ∧ (b = true → 12 ≤ (NoteStack.popNewest l).1)) ∧
    ∀ p ∈ (NoteStack.popNewest l).2, p < 128 ∧ (b = true → 12 ≤ p) := by
  unfold NoteStack.popNewest
  constructor
  · rcases List.eq_nil_or_concat l with e | ⟨l', a, e⟩
    · simp [e]
    · subst e; right; simpa using h a (by simp)
  · intro p hp; exact h p (List.dropLast_subset l hp)

theorem noteOffBody_range {b : Bool} {c p next : Nat} {single : Bool}
    (hn : next = 0 ∨ next < 128 ∧ (b = true → 12 ≤ next)) (x : St × Bool) (i : Nat) (h : Range b (bare x.1)) :
    Range b (bare (noteOffBody env c p next single x i).1) := by
  obtain ⟨s, handled⟩ := x
  simp only at h
  unfold noteOffBody
  simp only
  have hn' : next < 128 := by omega
  split
  · split
    · rename_i hne
      have hn0 : next ≠ 0 := by
        simp only [Bool.and_eq_true, bne_iff_ne, ne_eq] at hne; exact hne.2
      have hnb : b = true → 12 ≤ next := fun e => by
        rcases hn with k | k
        · exact absurd k hn0
        · exact k.2 e
      split
      · split
        · exact h
        · rename_i st e
          obtain ⟨⟨l, hl, hl'⟩, h2, h3⟩ := h.hold c
          obtain ⟨st', e', hr⟩ := hl.push next
          have e2 : st' = st := by
            have : NotePriority.push (s.chan c).stack next = some st' := e'
            rw [e] at this; injection this with this; exact this.symm
          subst e2
          have k : Range b (bare (setChan s c fun m => { m with stack := st' })) := by
            refine h.setChan c _ ⟨⟨_, hr, ?_⟩, h2, h3⟩
            intro q hq
            split at hq
            · exact hl' q hq
            · rcases List.mem_append.1 hq with hq | hq
              · exact hl' q hq
              · simp only [List.mem_singleton] at hq; subst hq; exact ⟨hn', hnb⟩
          refine Range.setDev (s := setChan s c fun m => { m with stack := st' }) k i (fun d => { d with glide := next }) ?_
          obtain ⟨g1, g2, g3, g4, g5⟩ := k.note i
          exact ⟨g1, g2, g3, hn', fun e => .inr (hnb e)⟩
      · exact devChanNoteOn_range h hn'
    · exact devChanNoteOff_range h
  · exact h

theorem noteOff_range {b : Bool} (h : Range b (bare s)) {c p : Nat} : Range b (bare (noteOff env s c p)) := by
  obtain ⟨⟨l, hl, hl'⟩, h2, h3⟩ := h.hold c
  obtain ⟨st, e, hr⟩ := hl.remove p
  obtain ⟨st', e', hr'⟩ := hr.pop
  have hlt := popNewest_in (b := b) (l := l.filter (· ≠ p)) (fun q hq => hl' q (List.mem_filter.1 hq |>.1))
  have e : NotePriority.remove (s.chan c).stack p = some st := e
  simp only [noteOff, e, e']
  have k : Range b (bare (setChan s c fun m => { m with stack := st' })) :=
    h.setChan c _ ⟨⟨_, hr', hlt.2⟩, h2, h3⟩
  have key : ∀ (sg : Bool) (l' : List Nat) (x : St × Bool), Range b (bare x.1) →
      Range b (bare (l'.foldl (noteOffBody env c p (NoteStack.popNewest (l.filter (· ≠ p))).1 sg) x).1) := by
    intro sg l'
    induction l' with
    | nil => exact fun x hx => hx
    | cons a l' ih => exact fun x hx => ih _ (noteOffBody_range hlt.1 x a hx)
  exact key _ _ _ k

theorem noteOn_range {b : Bool} (h : Range b (bare s)) {c p v : Nat} (hp : p < 128) (hb : b = true → 12 ≤ p) :
    Range b (bare (noteOn env s c p v)) := by
  unfold noteOn
  split
  · exact noteOff_range h
  split
  · exact h
  split
  · exact h
  rename_i i _
  split
  · split
    · exact h
    · split
      · exact h
      · rename_i st e
        obtain ⟨⟨l, hl, hl'⟩, h2, h3⟩ := h.hold c
        obtain ⟨st', e', hr⟩ := hl.push p
        have e2 : st' = st := by
          have : NotePriority.push (s.chan c).stack p = some st' := e'
          rw [e] at this; injection this with this; exact this.symm
        subst e2
        have k : Range b (bare (setChan s c fun m => { m with stack := st', lastVelocity := v })) := by
          refine h.setChan c _ ⟨⟨_, hr, ?_⟩, h2, h3⟩
          intro q hq
          split at hq
          · exact hl' q hq
          · rcases List.mem_append.1 hq with hq | hq
            · exact hl' q hq
            · simp only [List.mem_singleton] at hq; subst hq; exact ⟨hp, hb⟩
        obtain ⟨g1, g2, g3, g4, g5⟩ := k.note i
        simp only
        split
        · exact k.setDev i _ ⟨g1, g2, g3, hp, fun e => .inr (hb e)⟩
        · exact startNote_range (k.setDev i (fun d => { d with glide := 0 }) ⟨g1, g2, g3, by simp [Dev.note], fun _ => .inl rfl⟩) hp
  · exact startNote_range h hp

theorem allNotesOff_range {b : Bool} (h : Range b (bare s)) {c : Nat} : Range b (bare (allNotesOff env s c)) := by
  unfold allNotesOff
  refine h.foreach c _ fun s i h => ?_
  refine (h.setDev i _ ?_).of (devAllNotesOff_bare i)
  obtain ⟨_, h2, h3, h4, h5⟩ := h.note i
  exact ⟨by simp [Dev.note], h2, h3, h4, h5⟩

theorem freshChan_in (b : Bool) : HoldIn b freshChan.hold :=
  ⟨⟨[], Rep.init, by simp⟩, fun _ => rfl, by simp [Chan.hold, freshChan]⟩

theorem initDev_range {b : Bool} (h : Range b (bare s)) {i : Nat} : Range b (bare (initDev env s i)) := by
  unfold initDev
  refine Range.of (h.setDev i _ ?_) (updateDev_bare i)
  exact ⟨by simp [Dev.note], Int.le_refl 0, by simp [Dev.note], by simp [Dev.note], fun _ => .inl rfl⟩

theorem resetChannels_range {b : Bool} (h : Range b (bare s)) : Range b (bare (resetChannels env s)) := by
  unfold resetChannels
  refine Range.of ?_ applyDynamicMode_bare
  refine List.foldlRecOn (motive := fun t => Range b (bare t)) _ _ ?_ fun t ht i _ => initDev_range ht
  refine ⟨h.note, fun c => ?_⟩
  show HoldIn b (ite _ _ _ : Chan).hold
  split
  · exact freshChan_in b
  · exact h.hold c

theorem reset_range {b : Bool} (h : Range b (bare s)) : Range b (bare (reset env s)) := by
  unfold reset
  exact resetChannels_range ⟨h.note, h.hold⟩

theorem generalMidiReset_range {b : Bool} (h : Range b (bare s)) : Range b (bare (generalMidiReset env s)) := by
  unfold generalMidiReset
  refine resetChannels_range ?_
  have k : Range b (bare ((List.range 16).foldl (allNotesOff env) s)) :=
    List.foldlRecOn (motive := fun t => Range b (bare t)) _ _ h fun t ht c _ => allNotesOff_range ht
  revert k
  generalize (List.range 16).foldl (allNotesOff env) s = u
  intro k
  split
  · exact ⟨k.note, k.hold⟩
  · exact k

theorem resetAllControllers_range {b : Bool} (h : Range b (bare s)) {c : Nat} :
    Range b (bare (resetAllControllers env s c)) := by
  unfold resetAllControllers
  refine Range.of ?_ (setDynamicMode_bare _)
  refine Range.foreach (h.setChan c _ (freshChan_in b)) c _ fun s i h => initDev_range h

theorem interval_le {v x : Nat} (h : portaTimeToInterval[v]? = some x) : x ≤ 1145 := by
  have : ∀ x ∈ portaTimeToInterval, x ≤ 1145 := by decide +kernel
  exact this x (List.mem_of_getElem? h)

theorem Range.emit {b : Bool} (h : Range b (bare s)) (e : Ev) : Range b (bare (emit s e)) := ⟨h.note, h.hold⟩

theorem ccSwitch_range {b : Bool} (h : Range b (bare s)) {c k v : Nat} (hb : b = false → ¬(k = 65 ∧ 64 ≤ v)) :
    Range b (bare (ccSwitch env s c k v)) := by
  unfold ccSwitch
  split
  · split
    · rename_i x e
      obtain ⟨h1, h2, _⟩ := h.hold c
      exact h.setChan c _ ⟨h1, h2, interval_le e⟩
    · exact h
  · exact (h.of (setChan_bare c _ rfl)).of (foreach_bare c _ fun s i => updateVolume_bare c i)
  · exact (h.of (setChan_bare c _ rfl)).of (foreach_bare c _ fun s i => updatePan_bare c i)
  · exact allNotesOff_range h
  · exact allNotesOff_range h
  · exact h.of (setPolyphonic_bare _)
  · exact h
  · exact resetAllControllers_range h
  · split
    · exact h
    · exact h.emit _
  · split
    · exact h
    · exact h.of (setChan_bare c _ rfl)
  · obtain ⟨h1, h2, h3⟩ := h.hold c
    refine h.setChan c _ ⟨h1, fun e => ?_, h3⟩
    have := hb e
    simp only [Chan.hold, decide_eq_false_iff_not]
    have : v / 64 = 0 := by omega
    simp [this]
  · split
    · exact h
    · exact h.of (setChan_bare c _ rfl)
  · exact h.of (rpnDataEntry_bare _ _ _)
  · exact h.of (rpnDataEntry_bare _ _ _)
  · exact h.of (setChan_bare c _ rfl)
  · exact h.of (setChan_bare c _ rfl)
  · exact h
  · exact h
  · exact h
  · exact h
  · exact h.of (storeFromChannel_bare _ _)
  · exact h.of (foreach_bare c _ fun s i => setFmParam_bare i _ _)

theorem handler_range {b : Bool} (h : Range b (bare s)) {k : Nat} {d : List Nat} {j : Nat} :
    Range b (bare (handler env s k d j)) := by
  unfold handler
  split
  · exact h.of (remap_bare _ _)
  · exact h.emit _
  · exact h.of (setDynamicMode_bare _)
  · exact h
  · exact h
  · unfold loadPsgEnvelope; split <;> exact h
  · exact h
  · exact h
  · exact h
  · unfold storeProgram; split <;> exact h
  · unfold clearProgram; split <;> exact h
  · unfold clearAll
    split
    · exact h.of ((say_bare _).trans (foldl_bare (fun s n => fmCall env s (.clear n)) _ (fun s n => rfl) s))
    · exact h
  · unfold dumpPreset
    split
    · split
      · exact (h.emit _).of (say_bare _)
      · exact h
    · exact h
  · unfold dumpChannel
    simp only
    split
    · exact h
    · split
      · split
        · split
          · exact (h.emit _).of (say_bare _)
          · exact h
        · exact h
      · exact h
  · exact h

theorem sysex_range {b : Bool} (h : Range b (bare s)) {d : List Nat} {j : Nat} : Range b (bare (sysex env s d j)) := by
  unfold sysex
  split
  · exact h
  · split
    · exact generalMidiReset_range h
    · split
      · exact h
      · simp only
        split
        · exact h
        · split
          · exact h
          · exact handler_range h
        · exact handler_range h

theorem processGlide_range {b : Bool} (h : Range b (bare s)) {i iv : Nat} (hb : b = true) (hiv : iv ≤ 1145) :
    Range b (bare (processGlide env s i iv)) := by
  unfold processGlide
  split
  · exact h
  · rename_i g e
    refine Range.of (h.setDev i _ ?_) (setDownstreamPitch_bare i)
    exact glideStep_in (h.note i) hiv ((h.note i).high hb) e

theorem tick_range {b : Bool} (h : Range b (bare s)) : Range b (bare (tick env s)) := by
  unfold tick
  refine List.foldlRecOn (motive := fun t => Range b (bare t)) _ _ h fun t ht i _ => ?_
  split
  · exact ht
  · split
    · split
      · rename_i hp
        obtain ⟨_, h2, h3⟩ := ht.hold (t.dev i).midiChannel
        refine processGlide_range ht ?_ h3
        cases b with
        | true => rfl
        | false =>
          have e : (t.chan (t.dev i).midiChannel).portamento = false := h2 rfl
          simp [e] at hp
      · exact ht
    · exact ht

/-- A call that keeps pitches in range: with `b` notes are at key 12 or above, without it portamento is not
switched on. -/
def Op.Ranged (b : Bool) : Op → Prop
  | .noteOn _ p _ => p < 128 ∧ (b = true → 12 ≤ p)
  | .cc _ k v => b = false → ¬(k = 65 ∧ 64 ≤ v)
  | _ => True

theorem step_range {b : Bool} (h : Range b (bare s)) {op : Op} (ho : op.Ranged b) : Range b (bare (step env s op)) := by
  cases op with
  | noteOn c p v =>
    simp only [step]
    split
    · exact noteOn_range h ho.1 ho.2
    · exact h
  | noteOff c p =>
    simp only [step]
    split
    · exact noteOff_range h
    · exact h
  | bend c v =>
    simp only [step]
    split
    · exact h.of (pitchBend_bare _ _)
    · exact h
  | cc c k v =>
    simp only [step]
    split
    · exact (ccSwitch_range h ho).emit _
    · exact h
  | program c p =>
    simp only [step]
    split
    · exact ((h.of (setChan_bare c _ rfl)).of (foreach_bare c _ fun s i => updateProgram_bare c i)).emit _
    · exact h
  | sysex d j => exact sysex_range h
  | remap c i => exact h.of (remap_bare _ _)
  | reset => exact reset_range h
  | tick => exact tick_range h
  | psgTick => exact h

theorem powerOn_range (b : Bool) (env : Env) (t : Bool) (m : Sram.Mem) : Range b (bare (powerOn env t m)) := by
  have e : bare (powerOn env t m) =
      ⟨fun _ => (0, 0, false, 0), fun _ => (NotePriority.init, false, 0), []⟩ := rfl
  rw [e]
  exact ⟨fun i => ⟨by simp, by simp, by simp, by simp, fun _ => .inl rfl⟩,
    fun c => ⟨⟨[], Rep.init, by simp⟩, fun _ => rfl, by simp⟩⟩

theorem boot_range (b : Bool) (env : Env) (t : Bool) (m : Sram.Mem) : Range b (bare (boot env t m)) :=
  reset_range (powerOn_range b env t m)

/-! ### Messages sent -/

theorem out_of {s t : St} (e : bare t = bare s) : t.out = s.out := congrArg Bare.out e
theorem foldl_out {α : Type} (f : St → α → St) (l : List α) (h : ∀ s a, (f s a).out = s.out) (s : St) :
    (l.foldl f s).out = s.out := by
  induction l generalizing s with
  | nil => rfl
  | cons a l ih => exact (ih _).trans (h s a)
theorem foreach_out (c : Nat) (f : St → Nat → St) (h : ∀ s i, (f s i).out = s.out) : (foreach s c f).out = s.out := by
  unfold foreach
  refine foldl_out _ _ (fun s i => ?_) s
  split
  · exact h s i
  · rfl

theorem devChanNoteOn_out (i p v : Nat) : (devChanNoteOn env s i p v).out = s.out := by
  unfold devChanNoteOn; exact out_of (s := setDev s i _) (setDownstreamNoteOn_bare i v)
theorem devChanNoteOff_out (i : Nat) : (devChanNoteOff env s i).out = s.out := by
  unfold devChanNoteOff; exact out_of (s := setDev s i _) (devNoteOff_bare i)
theorem startNote_out (i c p v : Nat) : (startNote env s i c p v).out = s.out := by
  unfold startNote
  extract_lets s1 s2 s3
  have h1 : s1.out = s.out := by
    show St.out (ite _ _ _) = _
    split
    · exact out_of (devProgram_bare _ _)
    · rfl
  exact (out_of (setDownstreamNoteOn_bare (s := s3) i v)).trans ((out_of (updateDev_bare (s := s2) i)).trans h1)
theorem noteOffBody_out (c p next : Nat) (single : Bool) (x : St × Bool) (i : Nat) :
    (noteOffBody env c p next single x i).1.out = x.1.out := by
  obtain ⟨s, handled⟩ := x
  unfold noteOffBody
  simp only
  split
  · split
    · split
      · split <;> rfl
      · exact devChanNoteOn_out _ _ _
    · exact devChanNoteOff_out _
  · rfl
theorem noteOff_out (c p : Nat) : (noteOff env s c p).out = s.out := by
  unfold noteOff
  split
  · rfl
  · split
    · rfl
    · rename_i next st e
      have key : ∀ (sg : Bool) (l' : List Nat) (x : St × Bool),
          (l'.foldl (noteOffBody env c p next sg) x).1.out = x.1.out := by
        intro sg l'
        induction l' with
        | nil => exact fun x => rfl
        | cons a l' ih => exact fun x => (ih _).trans (noteOffBody_out _ _ _ _ x a)
      exact key _ _ _
theorem noteOn_out (c p v : Nat) : (noteOn env s c p v).out = s.out := by
  unfold noteOn
  split
  · exact noteOff_out _ _
  split
  · rfl
  split
  · rfl
  split
  · split
    · rfl
    · split
      · rfl
      · simp only
        split
        · rfl
        · exact startNote_out _ _ _ _
  · exact startNote_out _ _ _ _
theorem allNotesOff_out (c : Nat) : (allNotesOff env s c).out = s.out := by
  unfold allNotesOff
  exact foreach_out c _ fun s i => out_of (s := setDev s i _) (devAllNotesOff_bare i)
theorem initDev_out (i : Nat) : (initDev env s i).out = s.out := by
  unfold initDev
  exact out_of (s := setDev s i _) (updateDev_bare i)
theorem resetChannels_out : (resetChannels env s).out = s.out := by
  unfold resetChannels
  refine (out_of applyDynamicMode_bare).trans ?_
  exact foldl_out _ _ (fun s i => initDev_out i) _
theorem reset_out : (reset env s).out = s.out := by
  unfold reset
  exact resetChannels_out
theorem generalMidiReset_out : (generalMidiReset env s).out = s.out := by
  unfold generalMidiReset
  refine resetChannels_out.trans ?_
  have k : ((List.range 16).foldl (allNotesOff env) s).out = s.out := foldl_out _ _ (fun s c => allNotesOff_out c) s
  revert k
  generalize (List.range 16).foldl (allNotesOff env) s = u
  intro k
  split <;> exact k
theorem resetAllControllers_out (c : Nat) : (resetAllControllers env s c).out = s.out := by
  unfold resetAllControllers
  refine (out_of (setDynamicMode_bare _)).trans ?_
  exact foreach_out c _ fun s i => initDev_out i
theorem processGlide_out (i iv : Nat) : (processGlide env s i iv).out = s.out := by
  unfold processGlide
  split
  · rfl
  · exact out_of (s := setDev s i _) (setDownstreamPitch_bare i)
theorem tick_out : (tick env s).out = s.out := by
  unfold tick
  refine foldl_out _ _ (fun s i => ?_) s
  split
  · rfl
  · split
    · split
      · exact processGlide_out _ _
      · rfl
    · rfl

/-- Only controller 83 sends anything of its own. -/
theorem ccSwitch_out (c k v : Nat) :
    (ccSwitch env s c k v).out =
      (if k = 83 ∧ s.cfg.disableNonGm = false then [.showParams c (v / 64)] else []) ++ s.out := by
  unfold ccSwitch
  split <;> try simp only [false_and, if_false, List.nil_append, Nat.reduceEqDiff, true_and]
  · split <;> rfl
  · exact foreach_out c _ fun s i => out_of (updateVolume_bare c i)
  · exact foreach_out c _ fun s i => out_of (updatePan_bare c i)
  · exact allNotesOff_out _
  · exact allNotesOff_out _
  · exact out_of (setPolyphonic_bare _)
  · rfl
  · exact resetAllControllers_out _
  · cases s.cfg.disableNonGm <;> rfl
  · split <;> rfl
  · rfl
  · split <;> rfl
  · exact out_of (rpnDataEntry_bare _ _ _)
  · exact out_of (rpnDataEntry_bare _ _ _)
  · rfl
  · rfl
  · exact out_of (storeFromChannel_bare _ _)
  · rw [if_neg (by rintro ⟨e, _⟩; exact absurd e (by assumption))]
    exact foreach_out c _ fun s i => out_of (setFmParam_bare i _ _)

/-- What handlers of exclusive messages send are messages. -/
theorem handler_out (k : Nat) (d : List Nat) (j : Nat) :
    ∃ l, (handler env s k d j).out = l ++ s.out ∧ ∀ e ∈ l, ∃ b, e = .tx b := by
  have no : ∀ {t : St}, t.out = s.out → ∃ l, t.out = l ++ s.out ∧ ∀ e ∈ l, ∃ b, e = .tx b :=
    fun e => ⟨[], e, by simp⟩
  have one : ∀ {t : St} {b}, t.out = .tx b :: s.out → ∃ l, t.out = l ++ s.out ∧ ∀ e ∈ l, ∃ b, e = .tx b :=
    fun {t b} e => ⟨[.tx b], e, fun e' h => ⟨b, by simpa using h⟩⟩
  unfold handler
  split
  · exact no (out_of (remap_bare _ _))
  · exact one rfl
  · exact no (out_of (setDynamicMode_bare _))
  · exact no rfl
  · exact no rfl
  · unfold loadPsgEnvelope; split <;> exact no rfl
  · exact no rfl
  · exact no rfl
  · exact no rfl
  · unfold storeProgram; split <;> exact no rfl
  · unfold clearProgram; split <;> exact no rfl
  · unfold clearAll
    split
    · exact no (out_of ((say_bare _).trans (foldl_bare (fun s n => fmCall env s (.clear n)) _ (fun s n => rfl) s)))
    · exact no rfl
  · unfold dumpPreset
    split
    · split
      · exact one rfl
      · exact no rfl
    · exact no rfl
  · unfold dumpChannel
    simp only
    split
    · exact no rfl
    · split
      · split
        · split
          · exact one rfl
          · exact no rfl
        · exact no rfl
      · exact no rfl
  · exact no rfl

theorem sysex_out (d : List Nat) (j : Nat) :
    ∃ l, (sysex env s d j).out = l ++ s.out ∧ ∀ e ∈ l, ∃ b, e = .tx b := by
  unfold sysex
  split
  · exact ⟨[], rfl, by simp⟩
  · split
    · exact ⟨[], generalMidiReset_out, by simp⟩
    · split
      · exact ⟨[], rfl, by simp⟩
      · simp only
        split
        · exact ⟨[], rfl, by simp⟩
        · split
          · exact ⟨[], rfl, by simp⟩
          · exact handler_out _ _ _
        · exact handler_out _ _ _

/-- What a call sends: controllers and programs announce themselves last, controller 83 switches the panel, and
exclusive messages may be answered. -/
def Sends (s : St) : Op → List Ev → Prop
  | .cc c k v, l => l = .changedCc c k v :: if k = 83 ∧ s.cfg.disableNonGm = false then [.showParams c (v / 64)] else []
  | .program c p, l => l = [.changedProgram c p]
  | .sysex _ _, l => ∀ e ∈ l, ∃ b, e = .tx b
  | _, l => l = []

theorem step_out (s : St) {op : Op} (h : op.Wf) : ∃ l, (step env s op).out = l ++ s.out ∧ Sends s op l := by
  cases op with
  | noteOn c p v => exact ⟨[], by simp only [step, if_pos h.1]; exact noteOn_out _ _ _, rfl⟩
  | noteOff c p => exact ⟨[], by simp only [step, if_pos h.1]; exact noteOff_out _ _, rfl⟩
  | bend c v => exact ⟨[], by simp only [step, if_pos h.1]; exact out_of (pitchBend_bare _ _), rfl⟩
  | cc c k v =>
    refine ⟨_, ?_, rfl⟩
    simp only [step, if_pos h.1]
    show Ev.changedCc c k v :: (ccSwitch env s c k v).out = _
    rw [ccSwitch_out]; rfl
  | program c p =>
    refine ⟨_, ?_, rfl⟩
    simp only [step, if_pos h.1, program]
    show Ev.changedProgram c p :: St.out (foreach _ _ _) = _
    rw [foreach_out c _ fun s i => out_of (updateProgram_bare c i)]; rfl
  | sysex d j => exact sysex_out d j
  | remap c i => exact ⟨[], out_of (remap_bare _ _), rfl⟩
  | reset => exact ⟨[], reset_out, rfl⟩
  | tick => exact ⟨[], tick_out, rfl⟩
  | psgTick => exact ⟨[], rfl, rfl⟩

end Mdmi.Midi
