import Verif.Proofs.MidiMild
import Verif.Spec.Example
/-! C10: percussion polyphony and placement. -/
namespace Mdmi.Props
open Mdmi Mdmi.Midi

/-- Whether voice `i` sounds a percussion note (MIDI channel 10, numbered 9). -/
def drum (s : St) (i : Nat) : Bool := (s.dev i).noteOn && (s.dev i).midiChannel == 9

/-- Number of voices that sound percussion notes. -/
def drums (s : St) : Nat := (List.range 13).countP (drum s)

/-- Voices never move onto the percussion channel by hand. -/
def RemapsDrums : Op → Prop
  | .remap c _ => c = 9
  | .sysex d _ => d.take 4 = [0x00, 0x22, 0x77, 0x00] ∧ d.getD 4 0 = 9
  | _ => False

/-! ### Proof -/

private theorem count_le {s t : St} (h : ∀ i, drum t i = true → drum s i = true) : drums t ≤ drums s :=
  List.countP_mono_left fun i _ => h i

private theorem count_one {p q : Nat → Bool} {k : Nat} (l : List Nat) (hn : l.Nodup)
    (h : ∀ i, i ≠ k → p i = true → q i = true) : l.countP p ≤ l.countP q + 1 := by
  induction l with
  | nil => simp
  | cons a l ih =>
    obtain ⟨ha, hn⟩ := List.nodup_cons.1 hn
    by_cases e : a = k
    · subst e
      have : l.countP p ≤ l.countP q := List.countP_mono_left fun i hi => h i (fun e => ha (e ▸ hi))
      simp only [List.countP_cons]
      split <;> split <;> omega
    · have := ih hn
      have := h a e
      simp only [List.countP_cons]
      cases hp : p a <;> cases hq : q a <;> simp_all
      omega

private theorem drum_mild {s t : St} (h : Mild s t) : drums t ≤ drums s :=
  count_le fun i hi => by
    unfold drum at hi ⊢
    simp only [Bool.and_eq_true, beq_iff_eq] at hi ⊢
    exact ⟨h.on i hi.1, (h.map i).symm.trans hi.2⟩

private theorem tooMany_iff (s : St) (c : Nat) : tooManyPercussive s c = true ↔ c = 9 ∧ 2 ≤ drums s := by
  unfold tooManyPercussive drums
  rw [List.countP_eq_length_filter]
  have : (drum s) = fun i => (s.dev i).midiChannel == 9 && (s.dev i).noteOn := by
    funext i; unfold drum; rw [Bool.and_comm]
  rw [this]
  simp

/-- What a note-on does to the other voices, to the mapping mode, and to the voice it takes. -/
private theorem noteOn_cases {env : Env} {s : St} {c p v : Nat} (hc : c < 16) (hv : v ≠ 0) :
    (noteOn env s c p v).dynamic = s.dynamic ∧
    (((∀ i, ((noteOn env s c p v).dev i).noteOn = (s.dev i).noteOn ∧
        ((noteOn env s c p v).dev i).midiChannel = (s.dev i).midiChannel ∧
        ((noteOn env s c p v).dev i).ops = (s.dev i).ops)) ∨
     ∃ i, findFree s c = some i ∧ tooManyPercussive s c = false ∧
       ((noteOn env s c p v).dev i).midiChannel = c ∧ ((noteOn env s c p v).dev i).ops = (s.dev i).ops) := by
  unfold noteOn
  rw [if_neg hv]
  split
  · exact ⟨rfl, .inl fun _ => ⟨rfl, rfl, rfl⟩⟩
  rename_i few
  split
  · exact ⟨rfl, .inl fun _ => ⟨rfl, rfl, rfl⟩⟩
  rename_i j hj
  have started : ∀ t : St, t.dev j = s.dev j → t.dynamic = s.dynamic →
      (startNote env t j c p v).dynamic = s.dynamic ∧
      ((startNote env t j c p v).dev j).midiChannel = c ∧ ((startNote env t j c p v).dev j).ops = (s.dev j).ops := by
    intro t h1 h2
    rw [startNote_dev hc]
    simp [Dev.sync, h1, h2]
  have few : tooManyPercussive s c = false := by simpa using few
  split
  · split
    · exact ⟨rfl, .inl fun _ => ⟨rfl, rfl, rfl⟩⟩
    split
    · exact ⟨rfl, .inl fun _ => ⟨rfl, rfl, rfl⟩⟩
    rename_i st _
    simp only
    split
    · refine ⟨rfl, .inl fun i => ?_⟩
      by_cases e : i = j
      · subst e; simp
      · simp [Psg.upd_other _ _ _ _ e]
    · rw [startNote_dev hc]
      refine ⟨by simp, .inr ⟨j, hj, few, ?_, ?_⟩⟩ <;> simp [Dev.sync]
  · obtain ⟨h1, h2, h3⟩ := started s rfl rfl
    exact ⟨h1, .inr ⟨j, hj, few, h2, h3⟩⟩

/-- Dynamic mode never chooses a PSG voice for percussion. -/
private theorem findFree_drum {s : St} {i : Nat} (hd : s.dynamic = true) (h : findFree s 9 = some i) :
    (s.dev i).ops ≠ .psg := by
  have suit : suitable (s.dev i) 9 = true → (s.dev i).ops ≠ .psg := fun h k => (suitable_iff.1 h).2 ⟨k, rfl⟩
  unfold findFree at h
  revert h
  rcases minMax s 9 with ⟨lo, hi⟩
  intro h
  simp only [hd, Bool.not_true, Bool.false_eq_true, if_false] at h
  split at h
  · rename_i j hj
    simp only [Option.some.injEq] at h; subst h
    have := List.find?_some hj
    simp only [Bool.and_eq_true] at this
    exact suit this.2
  · split at h
    · rename_i j hj
      simp only [Option.some.injEq] at h; subst h
      unfold findFreePsgSquare at hj
      split at hj
      · have := List.find?_some hj
        exact suit this
      · cases hj
    · split at h
      · rename_i j hj
        simp only [Option.some.injEq] at h; subst h
        have k : ∀ lo hi, findInSpan s 9 lo hi = some j → (s.dev j).ops ≠ .psg := by
          intro lo hi h
          rcases (findInSpan_some h).2.2 with h | ⟨_, h⟩
          · exact suit h
          · intro e; simp [psgPercussive, e] at h
        unfold findDeviceSpecific at hj
        split at hj
        · split at hj
          · cases hj
          · split at hj <;> exact k _ _ hj
        · exact k _ _ hj
      · unfold findAnyFree at h
        have := List.find?_some h
        exact suit this

private theorem noteOn_drums {env : Env} {s : St} {c p v : Nat} (hc : c < 16) (hv : v ≠ 0) :
    drums (noteOn env s c p v) ≤ drums s ∨ (c = 9 ∧ drums s < 2 ∧ drums (noteOn env s c p v) ≤ drums s + 1) := by
  rcases (noteOn_cases (env := env) (p := p) hc hv).2 with h | ⟨i, hi, few, hm, ho⟩
  · left
    refine count_le fun i hi => ?_
    unfold drum at hi ⊢
    rwa [(h i).1, (h i).2.1] at hi
  · have other : ∀ j, j ≠ i → drum (noteOn env s c p v) j = true → drum s j = true := by
      intro j hj h
      unfold drum at h ⊢
      rwa [noteOn_dev hc hv (by rw [hi]; exact fun e => hj (Option.some.inj e).symm)] at h
    by_cases e : c = 9
    · right
      refine ⟨e, ?_, count_one _ List.nodup_range other⟩
      apply Nat.lt_of_not_le; intro h
      rw [(tooMany_iff s c).2 ⟨e, h⟩] at few; cases few
    · left
      refine count_le fun j hj => ?_
      by_cases k : j = i
      · subst k
        unfold drum at hj
        rw [hm] at hj
        simp [e] at hj
      · exact other j k hj

/-- Percussion polyphony and, in dynamic mode, placement. -/
private structure Perc (s : St) : Prop where
  two : drums s ≤ 2
  noPsg : s.dynamic = true → ∀ i, i < 13 → (s.dev i).midiChannel = 9 → (s.dev i).ops ≠ .psg

private theorem Perc.mild {s t : St} (h : Perc s) (m : Mild s t) : Perc t :=
  ⟨Nat.le_trans (drum_mild m) h.two, fun hd i hi hm => by
    rcases m.ops i with e | e
    · rw [e]; exact h.noPsg (m.dynamic ▸ hd) i hi ((m.map i).symm.trans hm)
    · exact e⟩

private theorem Perc.apply (s : St) : Perc (applyDynamicMode s) := by
  constructor
  · have : drums (applyDynamicMode s) ≤ (List.range 13).countP (fun i => i == 9) := by
      refine List.countP_mono_left fun i hi h => ?_
      have hi : i < 13 := by simpa using hi
      unfold drum at h
      simp only [applyDynamicMode, hi, if_true, Bool.and_eq_true, beq_iff_eq] at h
      split at h
      · omega
      · simpa using h.2
    exact Nat.le_trans this (by decide)
  · intro hd i hi hm
    have hd : s.dynamic = true := hd
    simp [applyDynamicMode, hi, hd] at hm

private theorem Perc.mode {s : St} (h : Perc s) (m : Mode) : Perc (setDynamicMode s m) := by
  unfold setDynamicMode
  cases m
  · exact Perc.apply _
  · exact Perc.apply _
  · exact ⟨h.two, h.noPsg⟩

private theorem Perc.mode' (s : St) (b : Bool) : Perc (setDynamicMode s (modeOf b)) := by
  cases b <;> exact Perc.apply _

private theorem Perc.setMap {s : St} (h : Perc s) {c : Nat} (i : Nat) (hc : c ≠ 9) :
    Perc (setDev s i fun d => { d with midiChannel := c }) := by
  constructor
  · refine Nat.le_trans (count_le fun j hj => ?_) h.two
    unfold drum at hj ⊢
    by_cases e : j = i
    · subst e; simp at hj; exact absurd hj.2 hc
    · simpa [Psg.upd_other _ _ _ _ e] using hj
  · intro hd j hj hm
    by_cases e : j = i
    · subst e; simp at hm; exact absurd hm hc
    · simp only [setDev_dev, Psg.upd_other _ _ _ _ e] at hm ⊢
      exact h.noPsg hd j hj hm

private theorem Perc.remap {s : St} (h : Perc s) (c i : Nat) (hc : c ≠ 9) : Perc (remap s c i) := by
  unfold Midi.remap
  split
  · exact ⟨h.two, h.noPsg⟩
  split
  · split
    · exact h.setMap _ (by omega)
    · exact h
  split
  · exact ⟨h.two, h.noPsg⟩
  · exact h.setMap _ hc

private theorem Perc.noteOn {env : Env} {s : St} (h : Perc s) {c p v : Nat} (hc : c < 16) (hv : v ≠ 0) :
    Perc (noteOn env s c p v) := by
  constructor
  · have := h.two
    rcases noteOn_drums (env := env) (s := s) (p := p) hc hv with k | k <;> omega
  · intro hd i hi hm
    obtain ⟨hdy, k⟩ := noteOn_cases (env := env) (s := s) (p := p) hc hv
    rw [hdy] at hd
    rcases k with k | ⟨j, hj, _, hjm, hjo⟩
    · rw [(k i).2.2]; exact h.noPsg hd i hi ((k i).2.1.symm.trans hm)
    · by_cases e : i = j
      · subst e
        rw [hjo]
        exact findFree_drum hd (by rw [← hjm, hm] at hj; exact hj)
      · have ne : findFree s c ≠ some i := by rw [hj]; exact fun k => e (Option.some.inj k).symm
        rw [noteOn_dev hc hv ne] at hm ⊢
        exact h.noPsg hd i hi hm

private theorem cc84 (env : Env) (s : St) (c v : Nat) : ccSwitch env s c 84 v = setPolyphonic s (v / 64 ≠ 0) := rfl

private theorem cc121 (env : Env) (s : St) (c v : Nat) : ccSwitch env s c 121 v = resetAllControllers env s c := rfl

private theorem Perc.controllers (env : Env) (s : St) (c : Nat) : Perc (resetAllControllers env s c) := by
  unfold resetAllControllers
  extract_lets t u
  exact Perc.mode' u u.dynamic

private theorem Perc.step {env : Env} {s : St} (h : Perc s) (op : Op) (hop : ¬RemapsDrums op) :
    Perc (step env s op) := by
  have same : ∀ t : St, Mild s t → Perc t := fun t m => h.mild m
  cases op with
  | noteOn c p v =>
    simp only [Midi.step]; split
    · rename_i hc
      by_cases hv : v = 0
      · simp only [Midi.noteOn, hv, if_true]; exact same _ (noteOff_mild c p)
      · exact h.noteOn hc hv
    · exact same _ (.same rfl rfl)
  | noteOff c p =>
    simp only [Midi.step]; split
    · exact same _ (noteOff_mild c p)
    · exact same _ (.same rfl rfl)
  | bend c b =>
    simp only [Midi.step]; split
    · exact same _ (pitchBend_mild c b)
    · exact same _ (.same rfl rfl)
  | program c p =>
    simp only [Midi.step]; split
    · exact same _ (program_mild c p)
    · exact same _ (.same rfl rfl)
  | cc c k v =>
    simp only [Midi.step]; split
    · have e : ∀ t, Perc t → Perc (emit t (.changedCc c k v)) := fun t ht => ⟨ht.two, ht.noPsg⟩
      refine e _ ?_
      by_cases h84 : k = 84
      · subst h84
        rw [cc84]
        unfold setPolyphonic
        split
        · exact List.foldlRecOn (motive := Perc) (List.range 6) _ (h.mode _) (fun t ht i _ => ht.remap 0 i (by omega))
        · exact h.mode _
      by_cases h121 : k = 121
      · subst h121
        rw [cc121]
        exact Perc.controllers env s c
      · exact same _ (ccSwitch_mild c k v h84 h121)
    · exact same _ (.same rfl rfl)
  | sysex d j =>
    simp only [Midi.step]
    rcases sysex_cases (env := env) (s := s) d j with m | e | ⟨h4, _, e⟩ | ⟨_, e⟩
    · exact same _ m
    · rw [e]; unfold generalMidiReset resetChannels; exact Perc.apply _
    · rw [e]; exact h.remap _ _ fun k => hop ⟨h4, k⟩
    · rw [e]; exact h.mode _
  | remap c i => exact h.remap c i hop
  | reset => simp only [Midi.step]; unfold reset resetChannels; exact Perc.apply _
  | tick => exact same _ tick_mild
  | psgTick => exact same _ (.same rfl rfl)

/-! ### Theorems -/

/-- **C10**, every state: a note message on the percussion channel does not raise the number of sounding percussion
voices above two. -/
theorem C10_at_most_two (env : Env) (s : St) (p v : Nat) :
    drums (step env s (.noteOn 9 p v)) ≤ max 2 (drums s) := by
  simp only [step, show 9 < 16 by omega, if_true]
  by_cases hv : v = 0
  · simp only [noteOn, hv, if_true]
    have := drum_mild (noteOff_mild (env := env) (s := s) 9 p); omega
  · rcases noteOn_drums (env := env) (s := s) (p := p) (show 9 < 16 by omega) hv with k | k <;> omega

/-- **C10**, every state in dynamic mode: a percussion note changes no PSG voice. -/
theorem C10_never_on_psg (env : Env) (s : St) (p v : Nat) (hv : v ≠ 0) (hd : s.dynamic = true) (i : Nat)
    (hi : (step env s (.noteOn 9 p v)).dev i ≠ s.dev i) : (s.dev i).ops ≠ .psg := by
  simp only [step, show 9 < 16 by omega, if_true] at hi
  exact findFree_drum hd (Decidable.byContradiction fun h => hi (noteOn_dev (by omega) hv h))

/-- **C10**, chips: in every reachable state in dynamic mode, a percussion note leaves the PSG silent or sounding as
it was. -/
theorem C10_psg_untouched (env : Env) (he : env.Ok) (s : St) (hs : Reached env s) (p v : Nat)
    (hw : Op.Wf (.noteOn 9 p v)) (hv : v ≠ 0) (hd : s.dynamic = true) (n : Nat) (hn : n < 4) :
    Psg.chipTone (step env s (.noteOn 9 p v)).psg.out n = Psg.chipTone s.psg.out n ∧
    Psg.chipAtt (step env s (.noteOn 9 p v)).psg.out n = Psg.chipAtt s.psg.out n := by
  obtain ⟨tame, hs⟩ := hs.ok he
  have f : ChipFrame (fun i => ¬(6 ≤ i ∧ i < 10)) s (step env s (.noteOn 9 p v)) := by
    simp only [step, hw.1, if_true]
    refine ((noteOn_path he hs hw.1 (lt_top hw.2.1) hw.2.2 hv).mono (fun i h k => ?_) (fun _ h => h)
      (fun _ h => h) (fun _ h => h)).frame.chip
    have := (hs.dev i (findFree_lt h)).kind
    have := findFree_drum hd h
    unfold KindOk at *
    grind
  exact ⟨f.tone n hn (by omega), f.att n hn (by omega)⟩

/-- **C10**, histories: from start-up, as long as no voice is moved onto the percussion channel by a remap, at most two
percussion notes sound at any time, and in dynamic mode no PSG voice is on the percussion channel. -/
theorem C10_always (env : Env) (b : Bool) (m : Sram.Mem) (ops : List Op) (h : ∀ op ∈ ops, ¬RemapsDrums op) :
    drums (run env (boot env b m) ops) ≤ 2 ∧
    ((run env (boot env b m) ops).dynamic = true → ∀ i, i < 13 →
      ((run env (boot env b m) ops).dev i).midiChannel = 9 → ((run env (boot env b m) ops).dev i).ops ≠ .psg) := by
  have : Perc (run env (boot env b m) ops) :=
    List.foldlRecOn (motive := Perc) ops _
      (by unfold boot reset resetChannels; exact Perc.apply _) (fun s hs op ho => hs.step op (h op ho))
  exact ⟨this.two, this.noPsg⟩

/-! ### Examples -/

/-- Two percussion notes sound, the third is dropped; after a release there is room again. -/
example : drums (Ex.after .dynamic [.noteOn 9 40 100, .noteOn 9 42 100]) = 2 ∧
    drums (Ex.after .dynamic [.noteOn 9 40 100, .noteOn 9 42 100, .noteOn 9 44 100]) = 2 ∧
    isPlaying ((Ex.after .dynamic [.noteOn 9 40 100, .noteOn 9 42 100, .noteOff 9 40, .noteOn 9 44 100]).dev 0) 44 ∧
    Synth.keyed (Ex.after .dynamic [.noteOn 9 40 100]).fm.synth.out 0 := by decide +kernel

/-- The remap in the hypothesis matters: it can move a third sounding voice onto the percussion channel. -/
example : drums (Ex.after .dynamic [.noteOn 9 40 100, .noteOn 9 42 100, .noteOn 0 60 100,
    .sysex [0x00, 0x22, 0x77, 0x00, 9, 2] 0]) = 3 := by decide +kernel

end Mdmi.Props
