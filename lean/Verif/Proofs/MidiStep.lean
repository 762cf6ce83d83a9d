import Verif.Proofs.Midi
/-!
# The MIDI engine: every message keeps the invariant
-/
namespace Mdmi.Midi
open NotePriority (Rep)

variable {env : Env} {tame : Bool} {D A C : Nat → Prop} {G : Fm.Op → Prop} {H : Psg.Op → Prop} {s t u : St}

/-! ### Choice of a device channel -/

theorem mem_span {a b i : Nat} : i ∈ span a b ↔ a ≤ i ∧ i ≤ b := by
  simp [span, List.mem_range'_1]; omega

theorem devByMidi_some {c i : Nat} (h : devByMidi s c = some i) : i < 13 ∧ (s.dev i).midiChannel = c := by
  unfold devByMidi at h
  have h1 := List.mem_of_find?_eq_some h
  have h2 := List.find?_some h
  simp at h1 h2; exact ⟨h1, h2⟩

theorem minMax_lt (s : St) (c : Nat) : (minMax s c).2 ≤ 9 := by
  unfold minMax; split <;> simp

theorem findInSpan_some {c lo hi i : Nat} (h : findInSpan s c lo hi = some i) :
    lo ≤ i ∧ i ≤ hi ∧ (suitable (s.dev i) c = true ∨
      ((s.dev i).midiChannel = c ∧ psgPercussive (s.dev i) c = false)) := by
  unfold findInSpan at h
  split at h
  · rename_i j hj
    simp only [Option.some.injEq] at h; subst h
    have h1 := mem_span.1 (List.mem_of_find?_eq_some hj)
    have h2 := List.find?_some hj
    exact ⟨h1.1, h1.2, .inl h2⟩
  · have h1 := mem_span.1 (List.mem_of_find?_eq_some h)
    have h2 := List.find?_some h
    simp at h2
    exact ⟨h1.1, h1.2, .inr h2⟩

theorem findFree_lt {c i : Nat} (h : findFree s c = some i) : i < 13 := by
  have hm := minMax_lt s c
  unfold findFree at h
  revert h hm
  rcases minMax s c with ⟨lo, hi⟩
  intro h hm
  simp only at h hm
  split at h
  · rename_i j hj
    simp only [Option.some.injEq] at h; subst h
    have := mem_span.1 (List.mem_of_find?_eq_some hj); omega
  · split at h
    · exact (devByMidi_some h).1
    · split at h
      · rename_i j hj
        simp only [Option.some.injEq] at h; subst h
        unfold findFreePsgSquare at hj
        split at hj
        · have := List.mem_of_find?_eq_some hj; simp at this; omega
        · cases hj
      · split at h
        · rename_i j hj
          simp only [Option.some.injEq] at h; subst h
          unfold findDeviceSpecific at hj
          split at hj
          · split at hj
            · cases hj
            · split at hj <;> (have := findInSpan_some hj; omega)
          · have := findInSpan_some hj; omega
        · have := List.mem_of_find?_eq_some h
          simp [List.mem_range'_1] at this; omega

/-! ### Loops over the device channels -/

/-- No device channel was mapped elsewhere. -/
def SameMap (s t : St) : Prop := ∀ j, (t.dev j).midiChannel = (s.dev j).midiChannel

theorem SameMap.refl (s : St) : SameMap s s := fun _ => rfl
theorem SameMap.trans (h : SameMap s t) (h' : SameMap t u) : SameMap s u := fun j => (h' j).trans (h j)

theorem sameMap_setDev {i : Nat} {f : Dev → Dev} (h : (f (s.dev i)).midiChannel = (s.dev i).midiChannel) :
    SameMap s (setDev s i f) := by
  intro j
  by_cases e : j = i
  · subst e; simpa using h
  · simp [Psg.upd_other _ _ _ _ e]

theorem sameMap_upd {i : Nat} {d : Dev} (e : t.dev = upd s.dev i d) (h : d.midiChannel = (s.dev i).midiChannel) :
    SameMap s t := by
  intro j; rw [e]
  by_cases e : j = i
  · subst e; simpa using h
  · simp [Psg.upd_other _ _ _ _ e]

theorem sameMap_of_dev (e : t.dev = s.dev) : SameMap s t := by intro j; rw [e]

/-- A loop whose body, run on a voice in `A`, is such a sequence and maps no voice elsewhere. -/
theorem fold_path (he : env.Ok) (s0 : St) (f : St → Nat → St) (l : List Nat) (hl : ∀ i ∈ l, i < 13)
    (hf : ∀ s i, Ok env tame s → SameMap s0 s → i < 13 → Path env tame A C G H s (f s i) ∧ SameMap s (f s i)) :
    ∀ s, Ok env tame s → SameMap s0 s →
      Path env tame A C G H s (l.foldl f s) ∧ SameMap s0 (l.foldl f s) := by
  induction l with
  | nil => intro s _ hm; exact ⟨.refl, hm⟩
  | cons a l ih =>
    intro s hs hm
    have h1 := hf s a hs hm (hl a (by simp))
    have h2 := ih (fun i hi => hl i (by simp [hi])) (f s a) (h1.1.ok he hs) (hm.trans h1.2)
    exact ⟨h1.1.trans h2.1, h2.2⟩

/-- `FOREACH_DEV_CHAN_WITH_MIDI`. -/
theorem foreach_path (he : env.Ok) (hs : Ok env tame s) {c : Nat} (body : St → Nat → St)
    (hb : ∀ t i, Ok env tame t → SameMap s t → i < 13 → (t.dev i).midiChannel = c →
      Path env tame A C G H t (body t i) ∧ SameMap t (body t i)) :
    Path env tame A C G H s (foreach s c body) ∧
      SameMap s (foreach s c body) := by
  unfold foreach
  refine fold_path he s _ _ (by simp) (fun t i ht hm hi => ?_) s hs (SameMap.refl s)
  split
  · rename_i h; exact hb t i ht hm hi h
  · exact ⟨.refl, SameMap.refl t⟩

/-! ### Notes -/

theorem popNewest_lt {l : List Nat} (h : ∀ p ∈ l, p < top tame) :
    (NoteStack.popNewest l).1 < top tame ∧ ∀ p ∈ (NoteStack.popNewest l).2, p < top tame := by
  unfold NoteStack.popNewest
  constructor
  · rcases List.eq_nil_or_concat l with e | ⟨l', a, e⟩
    · subst e; exact lt_top (by decide : 0 < 128)
    · subst e; simpa using h a (by simp)
  · intro p hp; exact h p (List.dropLast_subset l hp)

theorem noteOffBody_path (he : env.Ok) (s0 : St) {c p next : Nat} {single : Bool} (hc : c < 16) (hn : next < top tame)
    (x : St × Bool) (i : Nat) (hs : Ok env tame x.1) (hm : SameMap s0 x.1) (hi : i < 13) :
    Path env tame (fun i => (s0.dev i).midiChannel = c) (· = c) G H x.1 (noteOffBody env c p next single x i).1 ∧
      SameMap x.1 (noteOffBody env c p next single x i).1 := by
  obtain ⟨s, handled⟩ := x
  simp only at hs hm
  unfold noteOffBody
  simp only
  split
  · rename_i h
    have hA : (s0.dev i).midiChannel = c := by rw [← hm i]; exact h.1
    split
    · split
      · obtain ⟨l, hl, hl'⟩ := (hs.chan c hc).stack
        obtain ⟨st, e, hr⟩ := hl.push next
        simp only [e]
        refine ⟨Path.dev (i := i) (Path.chan (c := c) .refl ?_ hc ?_) hA hi ?_, ?_⟩
        · rfl
        · refine { (hs.chan c hc) with stack := ⟨_, hr, ?_⟩ }
          intro q hq
          split at hq
          · exact hl' q hq
          · rcases List.mem_append.1 hq with hq | hq
            · exact hl' q hq
            · simp at hq; omega
        · exact { (hs.dev i hi) with glide := hn }
        · exact sameMap_setDev (s := setChan s c _) rfl
      · refine ⟨devChanNoteOn_path hs hi hA he hn (hs.chan c hc).velocity (by rw [h.1]; exact hc), ?_⟩
        exact sameMap_upd (devChanNoteOn_dev i _ _) rfl
    · exact ⟨devChanNoteOff_path hs hi hA he, sameMap_upd (devChanNoteOff_dev i) rfl⟩
  · exact ⟨.refl, SameMap.refl s⟩

theorem noteOffFold_path (he : env.Ok) (s0 : St) {c p next : Nat} {single : Bool} (hc : c < 16) (hn : next < top tame)
    (l : List Nat) (hl : ∀ i ∈ l, i < 13) : ∀ (x : St × Bool), Ok env tame x.1 → SameMap s0 x.1 →
    Path env tame (fun i => (s0.dev i).midiChannel = c) (· = c) G H x.1
      (l.foldl (noteOffBody env c p next single) x).1 ∧
    SameMap s0 (l.foldl (noteOffBody env c p next single) x).1 := by
  induction l with
  | nil => intro x _ hm; exact ⟨.refl, hm⟩
  | cons a l ih =>
    intro x hs hm
    have h1 := noteOffBody_path (G := G) (H := H) (p := p) (single := single) he s0 hc hn x a hs hm (hl a (by simp))
    have h2 := ih (fun i hi => hl i (by simp [hi])) _ (h1.1.ok he hs) (hm.trans h1.2)
    exact ⟨h1.1.trans h2.1, h2.2⟩

theorem noteOff_path (he : env.Ok) (hs : Ok env tame s) {c p : Nat} (hc : c < 16) :
    Path env tame (fun i => (s.dev i).midiChannel = c) (· = c) G H s (noteOff env s c p) ∧
      SameMap s (noteOff env s c p) := by
  obtain ⟨l, hl, hl'⟩ := (hs.chan c hc).stack
  obtain ⟨st, e, hr⟩ := hl.remove p
  obtain ⟨st', e', hr'⟩ := hr.pop
  have hlt := popNewest_lt (l := l.filter (· ≠ p)) (fun q hq => hl' q (List.mem_filter.1 hq |>.1))
  simp only [noteOff, e, e']
  have h1 : Path env tame (fun i => (s.dev i).midiChannel = c) (· = c) G H s
      (setChan s c fun m => { m with stack := st' }) :=
    Path.refl.chan rfl hc { (hs.chan c hc) with stack := ⟨_, hr', hlt.2⟩ }
  have h2 := noteOffFold_path (G := G) (H := H) (p := p)
    (single := singleVoice (setChan s c fun m => { m with stack := st' }) c true) he s hc hlt.1 (List.range 13)
    (by simp) (setChan s c fun m => { m with stack := st' }, false) (h1.ok he hs) (SameMap.refl s)
  exact ⟨h1.trans h2.1, h2.2⟩

theorem noteOn_path (he : env.Ok) (hs : Ok env tame s) {c p v : Nat} (hc : c < 16) (hp : p < top tame) (hv : v < 128)
    (hv0 : v ≠ 0) : Path env tame (fun i => findFree s c = some i) (· = c) G H s (noteOn env s c p v) := by
  unfold noteOn
  rw [if_neg hv0]
  split
  · exact .refl
  split
  · exact Path.refl.say
  rename_i i hi
  have hi13 := findFree_lt hi
  split
  · split
    · exact Path.refl.say
    obtain ⟨l, hl, hl'⟩ := (hs.chan c hc).stack
    obtain ⟨st, e, hr⟩ := hl.push p
    simp only [e]
    have h1 : Path env tame (fun i => findFree s c = some i) (· = c) G H s
        (setChan s c fun m => { m with stack := st, lastVelocity := v }) := by
      refine Path.refl.chan rfl hc { (hs.chan c hc) with velocity := hv, stack := ⟨_, hr, ?_⟩ }
      intro q hq
      split at hq
      · exact hl' q hq
      · rcases List.mem_append.1 hq with hq | hq
        · exact hl' q hq
        · simp at hq; omega
    split
    · exact h1.dev hi hi13 { (h1.ok he hs).dev i hi13 with glide := hp }
    · have h2 := h1.dev (f := fun d => { d with glide := 0 }) hi hi13
        { (h1.ok he hs).dev i hi13 with glide := lt_top (by decide : 0 < 128) }
      exact h2.trans (startNote_path (h2.ok he hs) hi13 hi he hc hp hv)
  · exact startNote_path hs hi13 hi he hc hp hv

/-! ### Channel messages -/

theorem pitchBend_path (he : env.Ok) (hs : Ok env tame s) {c b : Nat} (hc : c < 16)
    (hb : tame = true → b = 0x2000) :
    Path env tame (fun i => (s.dev i).midiChannel = c) (· = c) G H s (pitchBend env s c b) := by
  simp only [pitchBend]
  have h1 : Path env tame (fun i => (s.dev i).midiChannel = c) (· = c) G H s
      (setChan s c fun m => { m with pitchBend := b }) :=
    Path.refl.chan rfl hc
      { (hs.chan c hc) with bend := fun ht => ⟨hb ht, ((hs.chan c hc).bend ht).2⟩ }
  refine h1.trans (foreach_path he (h1.ok he hs) _ ?_).1
  intro t i ht hm hi hic
  have hA : ((setChan s c fun m => { m with pitchBend := b }).dev i).midiChannel = c := (hm i).symm.trans hic
  split
  · exact ⟨updatePitchBend_path ht hi hA hc he (hic ▸ hc),
      sameMap_upd (updatePitchBend_dev c i) rfl⟩
  · exact ⟨.refl, SameMap.refl t⟩

theorem updateProgram_all (he : env.Ok) (hs : Ok env tame s) {c : Nat} (hc : c < 16) :
    Path env tame (fun i => (s.dev i).midiChannel = c) C G H s
      (foreach s c fun s i => updateProgram env s c i) := by
  refine (foreach_path he hs _ ?_).1
  intro t i ht hm hi hic
  have hA : (s.dev i).midiChannel = c := (hm i).symm.trans hic
  exact ⟨updateProgram_path ht hi hA hc, sameMap_upd (updateProgram_dev c i) rfl⟩

theorem updateVolume_all (he : env.Ok) (hs : Ok env tame s) {c : Nat} (hc : c < 16) :
    Path env tame (fun i => (s.dev i).midiChannel = c) C G H s
      (foreach s c fun s i => updateVolume env s c i) := by
  refine (foreach_path he hs _ ?_).1
  intro t i ht hm hi hic
  have hA : (s.dev i).midiChannel = c := (hm i).symm.trans hic
  exact ⟨updateVolume_path ht hi hA hc, sameMap_upd (updateVolume_dev c i) rfl⟩

theorem updatePan_all (he : env.Ok) (hs : Ok env tame s) {c : Nat} :
    Path env tame (fun i => (s.dev i).midiChannel = c) C G H s
      (foreach s c fun s i => updatePan env s c i) := by
  refine (foreach_path he hs _ ?_).1
  intro t i ht hm hi hic
  have hA : (s.dev i).midiChannel = c := (hm i).symm.trans hic
  exact ⟨updatePan_path ht hi hA, sameMap_upd (updatePan_dev c i) rfl⟩

theorem allNotesOff_path (he : env.Ok) (hs : Ok env tame s) {c : Nat} :
    Path env tame (fun i => (s.dev i).midiChannel = c) C G H s (allNotesOff env s c) ∧
      SameMap s (allNotesOff env s c) := by
  unfold allNotesOff
  refine foreach_path he hs _ ?_
  intro t i ht hm hi hic
  have hA := (hm i).symm.trans hic
  have h1 : Path env tame (fun i => (s.dev i).midiChannel = c) C G H t
      (setDev t i fun d => { d with noteOn := false, pitch := 0 }) :=
    Path.refl.dev hA hi { (ht.dev i hi) with }
  exact ⟨h1.trans (devAllNotesOff_path (h1.ok he ht) hi hA),
    (sameMap_setDev rfl).trans (sameMap_of_dev (devAllNotesOff_dev i))⟩

/-- The program message without the notification of the display. -/
theorem program_path (he : env.Ok) (hs : Ok env tame s) {c p : Nat} (hc : c < 16) (hp : p < 128) :
    ∃ t, program env s c p = emit t (.changedProgram c p) ∧
      Path env tame (fun i => (s.dev i).midiChannel = c) (· = c) G H s t := by
  refine ⟨_, rfl, ?_⟩
  have h1 : Path env tame (fun i => (s.dev i).midiChannel = c) (· = c) G H s
      (setChan s c fun m => { m with program := p }) :=
    Path.refl.chan rfl hc { (hs.chan c hc) with program := hp }
  exact h1.trans (updateProgram_all he (h1.ok he hs) hc)

/-! ### Glide -/

/-- A glide keeps its target or ends. -/
theorem glideStep_target {k : Nat} {g g' : Glide} (h : glideStep k g = some g') :
    (g'.target = 0 ∧ g'.pitch = toU8 g.target) ∨ g'.target = g.target := by
  unfold glideStep at h
  split at h
  · cases h
  · extract_lets inc pc at h
    clear_value pc inc
    generalize toU8 (g.target : Int) = x at h ⊢
    split at h <;> (injection h with h; subst h)
    · exact .inl ⟨rfl, rfl⟩
    · exact .inr rfl

theorem processGlide_path (he : env.Ok) (hs : Ok env tame s) {i : Nat} (hi : i < 13) (hA : A i) {k : Nat}
    (hm : (s.dev i).midiChannel < 16) :
    Path env tame A C G H s (processGlide env s i k) ∧ SameMap s (processGlide env s i k) := by
  unfold processGlide
  split
  · exact ⟨.refl, SameMap.refl s⟩
  · rename_i g hg
    have hgt : g.target < top tame := by
      have := (hs.dev i hi).glide
      rcases glideStep_target hg with h | h
      · rw [h.1]; exact lt_top (by decide)
      · rw [h]; exact this
    have h1 : Path env tame A C G H s
        (setDev s i fun d => { d with pitch := g.pitch, cents := g.cents, glide := g.target }) :=
      Path.refl.dev hA hi { (hs.dev i hi) with glide := hgt }
    exact ⟨h1.trans (setDownstreamPitch_path (h1.ok he hs) hi hA (by simpa using hm)),
      (sameMap_setDev rfl).trans (sameMap_of_dev (setDownstreamPitch_dev i))⟩

theorem tick_path (he : env.Ok) (hs : Ok env tame s) :
    Path env tame (fun i => (s.dev i).midiChannel < 16 ∧ (s.dev i).noteOn = true ∧
      (s.chan (s.dev i).midiChannel).portamento = true) C G H s (tick env s) := by
  unfold tick
  suffices h : ∀ (l : List Nat), (∀ i ∈ l, i < 13) → ∀ t, Ok env tame t → t.chan = s.chan → SameMap s t →
      (∀ j, (t.dev j).noteOn = (s.dev j).noteOn) →
      Path env tame (fun i => (s.dev i).midiChannel < 16 ∧ (s.dev i).noteOn = true ∧
        (s.chan (s.dev i).midiChannel).portamento = true) C G H t (l.foldl (fun s i =>
    if (s.dev i).midiChannel = 0x7F then s
    else if (s.dev i).midiChannel < 16 then
      if (s.chan (s.dev i).midiChannel).portamento && (s.dev i).noteOn then
        processGlide env s i (s.chan (s.dev i).midiChannel).interval
      else s
    else ub s) t) from h _ (by simp) s hs rfl (SameMap.refl s) (fun _ => rfl)
  intro l
  induction l with
  | nil => intro _ t _ _ _ _; exact .refl
  | cons i l ih =>
    intro hl t ht hch hm hn
    have hi : i < 13 := hl i (by simp)
    simp only [List.foldl_cons]
    have hl' : ∀ i ∈ l, i < 13 := fun j hj => hl j (by simp [hj])
    split
    · exact ih hl' t ht hch hm hn
    split
    · rename_i h1
      split
      · rename_i h2
        simp only [Bool.and_eq_true] at h2
        have hA : (s.dev i).midiChannel < 16 ∧ (s.dev i).noteOn = true ∧
            (s.chan (s.dev i).midiChannel).portamento = true := by
          rw [← hm i, ← hn i, ← hch]; exact ⟨h1, h2.2, h2.1⟩
        obtain ⟨p1, p2⟩ := processGlide_path (C := C) (G := G) (H := H)
          (A := fun i => (s.dev i).midiChannel < 16 ∧ (s.dev i).noteOn = true ∧
            (s.chan (s.dev i).midiChannel).portamento = true)
          (k := (t.chan (t.dev i).midiChannel).interval) he ht hi hA h1
        refine p1.trans (ih hl' _ (p1.ok he ht) ?_ (hm.trans p2) ?_)
        · rw [← hch]; unfold processGlide; split <;> simp
        · intro j; rw [← hn j]; unfold processGlide
          split
          · rfl
          · simp only [setDownstreamPitch_dev, setDev_dev]
            by_cases e : j = i
            · subst e; simp
            · simp [Psg.upd_other _ _ _ _ e]
      · exact ih hl' t ht hch hm hn
    · rename_i h0 h1
      exact absurd ((ht.dev i hi).map) (by unfold MapOk; omega)

/-! ### Controllers -/

theorem fmParam_legal {inv : Bool} {num k v : Nat} {op : Synth.Op} (hn : num < 6)
    (h : fmParam inv num k v = some op) : op.Legal := by
  unfold fmParam at h
  split at h <;> simp only [Option.some.injEq, reduceCtorEq] at h <;> subst h <;>
    simp [Synth.Op.Legal, Synth.Op.chan, Synth.Op.oper, hn]

theorem setFmParam_path (hs : Ok env tame s) {i k v : Nat} (hi : i < 13) (hA : k = 78 → A 5)
    (hG : ∀ op, fmParam s.cfg.invert (s.dev i).num k v = some op → G (.synth op))
    (hG' : k = 78 → ∀ e, G (.synth (.enableDac e))) (ht : tame = false → ¬(k = 78 ∧ 64 ≤ v)) :
    Path env tame A C G H s (setFmParam env s i k v) ∧ SameMap s (setFmParam env s i k v) := by
  unfold setFmParam
  split
  · rename_i op e
    split
    · exact ⟨.refl, SameMap.refl s⟩
    · exact ⟨Path.refl.fm (.inr (hG op e)) (.inl (fmParam_legal ((hs.dev i hi).numLt hi) e)), SameMap.refl s⟩
  · split
    · rename_i hk
      split
      · exact ⟨.refl, SameMap.refl s⟩
      · have hd := hs.dev 5 (by decide)
        refine ⟨Path.fm (Path.dev .refl (hA hk) (by decide) ?_) (.inr (hG' hk _)) (.inl ?_),
          (sameMap_setDev (i := 5) (f := fun d => { d with ops := if v / 64 ≠ 0 then .dac else .fm }) rfl).trans
            (sameMap_of_dev (by simp [enableDac]))⟩
        · refine { hd with kind := ?_, dac := ?_ }
          · simp only; split
            · exact .inr (.inl ⟨rfl, rfl⟩)
            · exact .inl ⟨by decide, rfl⟩
          · intro h e
            simp only at e
            split at e
            · rename_i h2
              have := ht h
              simp at h2; omega
            · cases e
        · simp [Synth.Op.Legal, Synth.Op.chan, Synth.Op.oper]
    · exact ⟨Path.refl.say, SameMap.refl s⟩

theorem updatePbRange_path (he : env.Ok) (hs : Ok env tame s) {c v : Nat} {msb : Bool} (hc : c < 16) :
    Path env tame (fun i => (s.dev i).midiChannel = c) (· = c) G H s (updatePbRange env s c v msb) := by
  simp only [updatePbRange]
  have h1 : Path env tame (fun i => (s.dev i).midiChannel = c) (· = c) G H s
      (setChan s c fun m =>
        { m with range := if msb then { m.range with pitch := v } else { m.range with cents := toS8 v } }) :=
    Path.refl.chan rfl hc { (hs.chan c hc) with }
  refine h1.trans (foreach_path he (h1.ok he hs) _ ?_).1
  intro t i ht hm hi hic
  have hA : (s.dev i).midiChannel = c := (hm i).symm.trans hic
  split
  · exact ⟨setDownstreamPitch_path ht hi hA (hic ▸ hc), sameMap_of_dev (setDownstreamPitch_dev i)⟩
  · exact ⟨.refl, SameMap.refl t⟩

theorem rpnDataEntry_path (he : env.Ok) (hs : Ok env tame s) {c v : Nat} {msb : Bool} (hc : c < 16) :
    Path env tame (fun i => (s.dev i).midiChannel = c) (· = c) G H s (rpnDataEntry env s c v msb) := by
  unfold rpnDataEntry
  split
  · exact updatePbRange_path he hs hc
  · exact Path.refl.say

theorem storeFromChannel_path (hs : Ok env tame s) {c p : Nat} (hp : p < 128)
    (hG : ∀ n, G (.storeFrom n p)) : Path env tame A C G H s (storeFromChannel env s c p) := by
  unfold storeFromChannel
  split
  · rename_i i h
    have h1 := List.mem_of_find?_eq_some h
    simp at h1
    exact (Path.refl.fm (.inr (hG _)) ⟨(hs.dev i h1).numLt h1, hp⟩).say
  · exact .refl

/-! ### Mapping and resets -/

theorem applyDynamicMode_ok (h : OkOn env tame D s) : OkOn env tame D (applyDynamicMode s) := by
  refine { h with dev := fun i hi => ?_ }
  have hd := h.dev i hi
  simp only [applyDynamicMode]
  rw [if_pos (h.lt i hi)]
  refine { hd with map := ?_ }
  simp only
  split
  · exact .inr rfl
  · exact .inl (by have := h.lt i hi; omega)

theorem setDynamicMode_ok (h : Ok env tame s) (m : Mode) : Ok env tame (setDynamicMode s m) := by
  unfold setDynamicMode
  cases m
  · exact applyDynamicMode_ok (s := { s with cfg := _, dynamic := _ }) { h with }
  · exact applyDynamicMode_ok (s := { s with cfg := _, dynamic := _ }) { h with }
  · exact { h with }

theorem setDev_ok {i : Nat} {f : Dev → Dev} (hs : Ok env tame s) (h : DevOk tame i (f (s.dev i))) :
    Ok env tame (setDev s i f) := by
  refine { hs with dev := fun j hj => ?_ }
  by_cases e : j = i
  · subst e; simpa using h
  · simpa [Psg.upd_other _ _ _ _ e] using hs.dev j hj

theorem remap_ok (hs : Ok env tame s) (c i : Nat) : Ok env tame (remap s c i) := by
  unfold remap
  split
  · exact { hs with }
  split
  · split
    · rename_i a h
      exact setDev_ok hs { hs.dev a (devByMidi_some h).1 with map := .inr rfl }
    · exact hs
  split
  · exact { hs with }
  · exact setDev_ok hs { hs.dev i (by omega) with map := by show MapOk c; unfold MapOk; omega }

theorem setPolyphonic_ok (hs : Ok env tame s) (e : Bool) : Ok env tame (setPolyphonic s e) := by
  unfold setPolyphonic
  simp only
  split
  · have h := setDynamicMode_ok hs (modeOf e)
    revert h
    generalize setDynamicMode s (modeOf e) = t
    intro h
    exact List.foldlRecOn (List.range 6) _ h (fun b hb a _ => remap_ok hb 0 a)
  · exact setDynamicMode_ok hs _

theorem freshChan_ok : ChanOk tame freshChan :=
  ⟨by decide, by decide, by decide, ⟨[], Rep.init, by simp⟩, fun _ => ⟨rfl, rfl⟩⟩

/-- A device channel after the first part of its initialisation. -/
def freshDev (i : Nat) (d : Dev) : Dev :=
  let d := if i ≤ 5 then { d with num := i, ops := .fm }
    else if i ≤ 9 then { d with num := i - 6, ops := .psg }
    else { d with num := i - 10, ops := .sm }
  { d with noteOn := false, midiChannel := i, pitch := 0, cents := 0, pitchBend := 0x2000, glide := 0 }

theorem freshDev_ok {i : Nat} (hi : i < 13) (d : Dev) : DevOk tame i (freshDev i d) := by
  unfold freshDev
  constructor
  · unfold chipNum; simp only; split
    · rfl
    · split <;> rfl
  · unfold KindOk; simp only; split
    · simp; omega
    · split <;> simp <;> omega
  · exact .inl (by simp only; omega)
  · intro _; simp only; split
    · simp
    · split <;> simp
  · intro _; rfl
  · exact lt_top (by decide : 0 < 128)

theorem initDev_path (he : env.Ok) (hs : OkOn env tame D s) {i : Nat} (hD : D i) (hA : A i) :
    Path env tame A C G H s (initDev env s i) := by
  have hi := hs.lt i hD
  have h1 : Path env tame A C G H s (setDev s i (freshDev i)) := Path.refl.dev hA hi (freshDev_ok hi _)
  exact h1.trans (updateDev_path (h1.ok he hs) hD hA he (by
    show ((setDev s i (freshDev i)).dev i).midiChannel < 16
    simp [freshDev]; omega))

/-- Initialisation of the first `n` device channels, whatever they held. -/
theorem initDevs_ok (he : env.Ok) : ∀ n, n ≤ 13 → ∀ s, OkOn env tame (fun _ => False) s →
    OkOn env tame (· < n) ((List.range n).foldl (initDev env) s) := by
  intro n
  induction n with
  | zero => intro _ s h; simpa using h
  | succ n ih =>
    intro hn s h
    rw [List.range_succ, List.foldl_append]
    have h1 := ih (by omega) s h
    revert h1
    generalize (List.range n).foldl (initDev env) s = t
    intro h1
    simp only [List.foldl_cons, List.foldl_nil]
    have h2 : OkOn env tame (· < n + 1) (setDev t n (freshDev n)) := by
      refine { h1 with lt := fun i hi => by omega, dev := fun i hi => ?_ }
      by_cases e : i = n
      · subst e; simpa using freshDev_ok (by omega) _
      · simpa [Psg.upd_other _ _ _ _ e] using h1.dev i (by omega)
    refine Path.ok (A := fun _ => True) (C := fun _ => True) (G := fun _ => True) (H := fun _ => True) he h2
      (updateDev_path (i := n) h2 (by omega) trivial he ?_)
    simp [freshDev]; omega

theorem resetChannels_ok (he : env.Ok) (hf : Fm.FmSafe s.fm) (hp : Psg.Good env.psg s.psg)
    (hu : s.fault = false) : Ok env tame (resetChannels env s) := by
  unfold resetChannels
  refine applyDynamicMode_ok (initDevs_ok he 13 (by omega) _ ?_)
  refine ⟨by simp, by simp, fun c hc => ?_, hf, hp, hu⟩
  simp only [if_pos hc]; exact freshChan_ok

theorem reset_ok (he : env.Ok) (hf : Fm.FmSafe s.fm) (hp : Psg.Good env.psg s.psg) (hu : s.fault = false) :
    Ok env tame (reset env s) := by
  unfold reset
  refine resetChannels_ok he ?_ ?_ ?_
  · exact (hf.step he.fm (op := .reset) trivial).step he.fm (op := .smReset) trivial
  · exact Psg.step_good he.psg hp .reset trivial
  · exact hu

theorem resetAllControllers_ok (he : env.Ok) (hs : Ok env tame s) {c : Nat} (hc : c < 16) :
    Ok env tame (resetAllControllers env s c) := by
  unfold resetAllControllers
  refine setDynamicMode_ok ?_ _
  have h1 : Path env tame (fun _ => True) (· = c) (fun _ => True) (fun _ => True) s
    (setChan s c fun _ => freshChan) := Path.refl.chan rfl hc freshChan_ok
  have h1' := h1.ok he hs
  unfold foreach
  refine List.foldlRecOn (List.range 13) _ h1' (fun t ht i hi => ?_)
  split
  · exact (initDev_path (A := fun _ => True) (C := fun _ => True) (G := fun _ => True) (H := fun _ => True)
      he ht (List.mem_range.1 hi) trivial).ok he ht
  · exact ht

theorem generalMidiReset_ok (he : env.Ok) (hs : Ok env tame s) : Ok env tame (generalMidiReset env s) := by
  unfold generalMidiReset
  have h1 : Ok env tame ((List.range 16).foldl (allNotesOff env) s) :=
    List.foldlRecOn (List.range 16) _ hs (fun t ht c _ =>
      ((allNotesOff_path (C := fun _ => True) (G := fun _ => True) (H := fun _ => True) he ht).1).ok he ht)
  revert h1
  generalize (List.range 16).foldl (allNotesOff env) s = t
  intro h1
  simp only
  split
  · exact resetChannels_ok he h1.fm h1.psg h1.fault
  · exact resetChannels_ok he h1.fm h1.psg h1.fault

/-! ### Every call -/

theorem emit_ok (hs : Ok env tame s) (e : Ev) : Ok env tame (emit s e) := { hs with }
theorem say_ok (hs : Ok env tame s) (e : Msg) : Ok env tame (say s e) := { hs with }

/-- Sequences without restriction. -/
abbrev Any (env : Env) (tame : Bool) (s t : St) : Prop :=
  Path env tame (fun _ => True) (fun _ => True) (fun _ => True) (fun _ => True) s t

theorem Path.any (h : Path env tame A C G H s t) : Any env tame s t :=
  h.mono (fun _ _ => trivial) (fun _ _ => trivial) (fun _ _ => trivial) (fun _ _ => trivial)

theorem setChan_ok {c : Nat} {f : Chan → Chan} (hs : Ok env tame s) (h : c < 16 → ChanOk tame (f (s.chan c))) :
    Ok env tame (setChan s c f) := by
  refine { hs with chan := fun j hj => ?_ }
  by_cases e : j = c
  · subst e; simpa using h hj
  · simpa [Psg.upd_other _ _ _ _ e] using hs.chan j hj

theorem portaTimeToInterval_length : portaTimeToInterval.length = 128 := by simp [portaTimeToInterval]

theorem ccSwitch_ok (he : env.Ok) (hs : Ok env tame s) {c k v : Nat} (hc : c < 16)
    (hv : k = 5 ∨ k = 7 ∨ k = 87 → v < 128)
    (hd : tame = false → ¬(k = 78 ∧ 64 ≤ v)) (hb : tame = true → ¬(k = 85 ∧ v ≠ 64)) :
    Ok env tame (ccSwitch env s c k v) := by
  have fm : ∀ op : Fm.Op, op.Legal → Ok env tame (fmCall env s op) := fun op h =>
    (Path.refl.fm (op := op) (.inr trivial) h : Any env tame s _).ok he hs
  unfold ccSwitch
  split
  · have hl := portaTimeToInterval_length
    have hv := hv (by simp)
    rw [List.getElem?_eq_getElem (by omega)]
    exact setChan_ok hs fun h => { hs.chan c h with }
  · have h1 : Ok env tame (setChan s c fun m => { m with volume := v }) :=
      setChan_ok hs fun h => { hs.chan c h with volume := hv (by simp) }
    exact (updateVolume_all (C := fun _ => True) (G := fun _ => True) (H := fun _ => True) he h1 hc).ok he h1
  · have h1 : Ok env tame (setChan s c fun m => { m with pan := v }) :=
      setChan_ok hs fun h => { hs.chan c h with }
    exact (updatePan_all (C := fun _ => True) (G := fun _ => True) (H := fun _ => True) he h1).ok he h1
  · exact (allNotesOff_path (C := fun _ => True) (G := fun _ => True) (H := fun _ => True) he hs).1.ok he hs
  · exact (allNotesOff_path (C := fun _ => True) (G := fun _ => True) (H := fun _ => True) he hs).1.ok he hs
  · exact setPolyphonic_ok hs _
  · exact fm _ (.inl (by simp [Synth.Op.Legal, Synth.Op.chan, Synth.Op.oper]))
  · exact resetAllControllers_ok he hs hc
  · split
    · exact hs
    · exact emit_ok hs _
  · split
    · exact hs
    · exact setChan_ok hs fun h => { hs.chan c h with }
  · exact setChan_ok hs fun h => { hs.chan c h with }
  · split
    · exact hs
    · refine setChan_ok hs fun h => { hs.chan c h with bend := fun ht => ⟨((hs.chan c h).bend ht).1, ?_⟩ }
      have := hb ht
      have hv : v = 64 := by simpa using this
      subst hv; rfl
  · exact (rpnDataEntry_path (G := fun _ => True) (H := fun _ => True) he hs hc).ok he hs
  · exact (rpnDataEntry_path (G := fun _ => True) (H := fun _ => True) he hs hc).ok he hs
  · exact setChan_ok hs fun h => { hs.chan c h with }
  · exact setChan_ok hs fun h => { hs.chan c h with }
  iterate 4 exact hs
  · exact (storeFromChannel_path (A := fun _ => True) (C := fun _ => True) (G := fun _ => True) (H := fun _ => True)
      hs (hv (by simp)) (fun _ => trivial)).ok he hs
  · refine (foreach_path (A := fun _ => True) (C := fun _ => True) (G := fun _ => True) (H := fun _ => True)
      he hs _ ?_).1.ok he hs
    intro t i ht _ hi _
    exact setFmParam_path ht hi (fun _ => trivial) (fun _ _ => trivial) (fun _ _ => trivial) hd

theorem operOf_ok (d : List Nat) (i : Nat) : (operOf d i).Ok := by
  constructor <;> exact Nat.mod_lt _ (by decide)

theorem presetOf_ok (d : List Nat) : (presetOf d).Ok :=
  ⟨Nat.mod_lt _ (by decide), Nat.mod_lt _ (by decide), Nat.mod_lt _ (by decide), Nat.mod_lt _ (by decide),
    ⟨operOf_ok d 0, operOf_ok d 1, operOf_ok d 2, operOf_ok d 3⟩⟩

theorem envelopeBytes_length (j : Nat) (d : List Nat) : (envelopeBytes j d).length = (d.length + 1) / 2 := by
  fun_induction envelopeBytes j d <;> simp_all <;> omega

theorem getD_lt {d : List Nat} {n : Nat} (h : ∀ b ∈ d, b < n) (hn : 0 < n) (i : Nat) : d.getD i 0 < n := by
  rw [List.getD_eq_getElem?_getD]
  cases e : d[i]? with
  | none => simpa using hn
  | some x => exact h x (List.mem_of_getElem? e)

theorem handler_ok (he : env.Ok) (hs : Ok env tame s) {k : Nat} {d : List Nat} {j : Nat}
    (hd : k = 0x0A ∨ k = 0x0B → d.getD 0 0 = 0 → d.getD 1 0 < 128) (hl : d.length ≤ 256) :
    Ok env tame (handler env s k d j) := by
  have fm : ∀ s, Ok env tame s → ∀ op : Fm.Op, op.Legal → Ok env tame (fmCall env s op) := fun s hs op h =>
    (Path.refl.fm (op := op) (.inr trivial) h : Any env tame s _).ok he hs
  unfold handler
  split
  · exact remap_ok hs _ _
  · exact emit_ok hs _
  · exact setDynamicMode_ok hs _
  · exact { hs with }
  · exact { hs with }
  · unfold loadPsgEnvelope
    rw [if_neg (by omega)]
    refine say_ok ((Path.refl.psg (.inr trivial) ?_ : Any env tame s _).ok he hs) _
    refine ⟨(envelopeBytes j d).length, ?_, by simp⟩
    rw [envelopeBytes_length]; omega
  · exact { hs with }
  · exact fm s hs _ (.inr ⟨_, _, _, rfl⟩)
  · exact fm s hs _ (.inr ⟨_, _, _, rfl⟩)
  · unfold storeProgram; split
    · exact say_ok (fm s hs (.store _ _) ⟨hd (by simp) (by assumption), presetOf_ok d⟩) _
    · exact say_ok hs _
  · unfold clearProgram; split
    · exact say_ok (fm s hs (.clear _) (hd (by simp) (by assumption))) _
    · exact say_ok hs _
  · unfold clearAll; split
    · exact say_ok (List.foldlRecOn (List.range 128) _ hs
        (fun t ht n hn => fm t ht (.clear n) (List.mem_range.1 hn))) _
    · exact say_ok hs _
  · unfold dumpPreset; split
    · split
      · exact say_ok (emit_ok hs _) _
      · exact say_ok hs _
    · exact say_ok hs _
  · unfold dumpChannel; simp only; split
    · exact say_ok hs _
    · split
      · split
        · split
          · exact say_ok (emit_ok hs _) _
          · exact say_ok hs _
        · exact say_ok hs _
      · exact say_ok hs _
  · exact hs

theorem drop4 {d : List Nat} {k n : Nat} {r : List Nat} (h3 : d.take 3 = [0x00, 0x22, 0x77]) (hk : d.getD 3 0 = k)
    (h : d.drop 4 = 0 :: n :: r) : d = [0x00, 0x22, 0x77, k, 0, n] ++ r := by
  match d, h3, hk, h with
  | a :: b :: c :: e :: rest, h3, hk, h =>
    simp at h3 hk h
    simp [h3, hk, h]

theorem sysex_ok (he : env.Ok) (hs : Ok env tame s) {d : List Nat} {j : Nat}
    (hd : ∀ n rest, d = [0x00, 0x22, 0x77, 0x0A, 0, n] ++ rest ∧ rest.length = 48 ∨
      d = [0x00, 0x22, 0x77, 0x0B, 0, n] → n < 128) (hl : d.length ≤ 256) : Ok env tame (sysex env s d j) := by
  have h5 : (d.drop 4).length ≤ 256 := by simp; omega
  unfold sysex
  split
  · exact hs
  split
  · exact generalMidiReset_ok he hs
  split
  · exact hs
  rename_i h3
  have h3 : d.take 3 = [0x00, 0x22, 0x77] := Decidable.byContradiction h3
  simp only
  split
  · exact say_ok hs _
  · rename_i n hn
    split
    · exact say_ok hs _
    · rename_i hlen
      refine handler_ok he hs (fun hk h0 => ?_) h5
      have hlen : (d.drop 4).length = n := Decidable.byContradiction hlen
      match e : d.drop 4 with
      | [] => simp
      | [x] => simp
      | x :: m :: r =>
        rw [e] at h0; simp at h0; subst h0
        rcases hk with hk | hk
        · rw [hk] at hn; simp [commandLength] at hn
          refine hd _ r (.inl ⟨drop4 h3 hk e, ?_⟩)
          rw [e] at hlen; simp at hlen; omega
        · rw [hk] at hn; simp [commandLength] at hn
          rw [e] at hlen; simp at hlen
          have : r = [] := List.length_eq_zero_iff.1 (by omega)
          subst this
          exact hd _ [] (.inr (drop4 h3 hk e))
  · rename_i hn
    refine handler_ok he hs (fun hk h0 => ?_) h5
    rcases hk with hk | hk <;> (rw [hk] at hn; simp [commandLength] at hn)

/-- Calls of the standard are harmless. -/
theorem Op.Wf.harmless {op : Op} (h : op.Wf) : op.Harmless tame := by
  cases op with
  | noteOn c p v => exact ⟨h.1, .inr ⟨h.2.2, by have := h.2.1; omega, fun _ => h.2.1⟩⟩
  | noteOff c p => exact h.1
  | bend c b => exact h.1
  | cc c k v => exact ⟨h.1, fun _ => h.2.2⟩
  | program c p => exact h
  | sysex d j =>
    refine ⟨h.2.1, fun n rest e => h.1 n ?_⟩
    rcases e with ⟨e, _⟩ | e <;> simp [e]
  | remap _ _ => trivial
  | reset => trivial
  | tick => trivial
  | psgTick => trivial

theorem step_safe (he : env.Ok) (hs : Ok env tame s) {op : Op} (hw : op.Harmless tame)
    (hd : tame = false → ¬op.enablesDac) (hb : tame = true → ¬op.detunes) : Ok env tame (step env s op) := by
  cases op with
  | noteOn c p v =>
    simp only [step, if_pos hw.1]
    by_cases h0 : v = 0
    · simp only [noteOn, if_pos h0]
      exact (noteOff_path (G := fun _ => True) (H := fun _ => True) he hs hw.1).1.ok he hs
    · obtain ⟨hv, hp, ht⟩ := hw.2.resolve_left h0
      have hp : p < top tame := by
        unfold top; split
        · rename_i h; exact ht h
        · exact hp
      exact (noteOn_path (G := fun _ => True) (H := fun _ => True) he hs hw.1 hp hv h0).ok he hs
  | noteOff c p =>
    have hw : c < 16 := hw
    simp only [step, if_pos hw]
    exact (noteOff_path (G := fun _ => True) (H := fun _ => True) he hs hw).1.ok he hs
  | bend c b =>
    have hw : c < 16 := hw
    simp only [step, if_pos hw]
    exact (pitchBend_path (G := fun _ => True) (H := fun _ => True) he hs hw
      (fun ht => by simpa [Op.detunes] using hb ht)).ok he hs
  | cc c k v =>
    simp only [step, if_pos hw.1]
    exact emit_ok (ccSwitch_ok he hs hw.1 hw.2 hd hb) _
  | program c p =>
    simp only [step, if_pos hw.1]
    obtain ⟨t, e, h⟩ := program_path (G := fun _ => True) (H := fun _ => True) he hs hw.1 hw.2
    rw [e]; exact emit_ok (h.ok he hs) _
  | sysex d j => exact sysex_ok he hs hw.2 hw.1
  | remap c i => exact remap_ok hs c i
  | reset => exact reset_ok he hs.fm hs.psg hs.fault
  | tick =>
    exact (tick_path (C := fun _ => True) (G := fun _ => True) (H := fun _ => True) he hs).ok he hs
  | psgTick => exact (Path.refl.psg (op := .tick) (.inr trivial) trivial : Any env tame s _).ok he hs

theorem step_ok (he : env.Ok) (hs : Ok env tame s) {op : Op} (hw : op.Wf)
    (hd : tame = false → ¬op.enablesDac) (hb : tame = true → ¬op.detunes) : Ok env tame (step env s op) :=
  step_safe he hs hw.harmless hd hb

theorem run_safe (he : env.Ok) (ops : List Op) : ∀ s, Ok env tame s → (∀ op ∈ ops, op.Harmless tame) →
    (tame = false → ∀ op ∈ ops, ¬op.enablesDac) → (tame = true → ∀ op ∈ ops, ¬op.detunes) →
    Ok env tame (run env s ops) := by
  induction ops with
  | nil => intro s hs _ _ _; exact hs
  | cons op ops ih =>
    intro s hs hw hd hb
    refine ih _ (step_safe he hs (hw op (by simp)) (fun h => hd h op (by simp)) (fun h => hb h op (by simp)))
      (fun o ho => hw o (by simp [ho])) (fun h o ho => hd h o (by simp [ho])) (fun h o ho => hb h o (by simp [ho]))

theorem run_ok (he : env.Ok) (ops : List Op) (s : St) (hs : Ok env tame s) (hw : ∀ op ∈ ops, op.Wf)
    (hd : tame = false → ∀ op ∈ ops, ¬op.enablesDac) (hb : tame = true → ∀ op ∈ ops, ¬op.detunes) :
    Ok env tame (run env s ops) :=
  run_safe he ops s hs (fun op ho => (hw op ho).harmless) hd hb

theorem boot_ok (he : env.Ok) (b : Bool) (m : Sram.Mem) : Ok env tame (boot env b m) := by
  unfold boot reset
  refine resetChannels_ok he ?_ ?_ rfl
  · exact (Fm.boot_ok he.fm b m).1.step he.fm (op := .smReset) trivial
  · exact Psg.step_good he.psg (Psg.init_good he.psg) .reset trivial

end Mdmi.Midi
