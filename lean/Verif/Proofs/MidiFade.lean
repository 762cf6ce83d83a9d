import Verif.Proofs.MidiBend
import Verif.Proofs.MidiPsg
import Verif.Proofs.PsgWane
/-!
# What the engine does to the PSG channel of a voice that does not sound
-/
namespace Mdmi.Midi
open Mdmi.Psg (Rest Wane)

variable {env : Env} {tame : Bool} {s t u : St} {i : Nat}

/-- Voice `i` is the PSG channel `i - 6`, and no other voice is. -/
structure IsPsg (i : Nat) (s : St) : Prop where
  ops : (s.dev i).ops = .psg
  num : (s.dev i).num = i - 6
  others : ∀ j, j < 13 → j ≠ i → (s.dev j).ops = .psg → (s.dev j).num ≠ i - 6

structure Fading (i : Nat) (s t : St) : Prop where
  psg : IsPsg i t
  on : (t.dev i).noteOn = true → (s.dev i).noteOn = true
  rest : (s.dev i).noteOn = true → (t.dev i).noteOn = false → Rest (t.psg.ch (i - 6))
  wane : (s.dev i).noteOn = false → Wane (s.psg.ch (i - 6)) (t.psg.ch (i - 6)) 0

/-- No note is started on voice `i`; if it is stopped then its PSG channel was told; and if it was silent before, then nothing
that happened to its PSG channel prolongs a release. -/
structure Fade (i : Nat) (s t : St) : Prop where
  get : IsPsg i s → Fading i s t

theorem Fade.refl : Fade i s s := ⟨fun h => ⟨h, id, fun a b => (nomatch (a.symm.trans b)), fun _ => .refl⟩⟩

theorem Fade.trans (h : Fade i s t) (k : Fade i t u) : Fade i s u := by
  refine ⟨fun p => ?_⟩
  have a := h.get p
  have b := k.get a.psg
  refine ⟨b.psg, fun x => a.on (b.on x), fun x y => ?_, fun x => ?_⟩
  · cases e : (t.dev i).noteOn with
    | true => exact b.rest e y
    | false => exact (b.wane e).rest (a.rest x e)
  · have e : (t.dev i).noteOn = false := by
      cases e : (t.dev i).noteOn with
      | true => rw [a.on e] at x; cases x
      | false => rfl
    exact (a.wane x).trans (b.wane e)

/-- The voices keep what counts, and PSG calls, if any, do not start voice `i`. -/
theorem Fade.mild (h1 : (t.dev i).noteOn = (s.dev i).noteOn) (h2 : ∀ j, (t.dev j).ops = (s.dev j).ops)
    (h3 : ∀ j, (t.dev j).num = (s.dev j).num) (h4 : Wane (s.psg.ch (i - 6)) (t.psg.ch (i - 6)) 0) : Fade i s t := by
  refine ⟨fun p => ?_⟩
  refine ⟨⟨(h2 i).trans p.ops, (h3 i).trans p.num, fun j hj e q => ?_⟩, fun x => h1 ▸ x, fun a b => ?_, fun _ => h4⟩
  · rw [h3]; exact p.others j hj e ((h2 j).symm.trans q)
  · rw [h1, a] at b
    exact nomatch b

theorem Fade.same (h1 : t.dev = s.dev) (h2 : t.psg = s.psg) : Fade i s t :=
  .mild (by rw [h1]) (fun _ => by rw [h1]) (fun _ => by rw [h1]) (h2 ▸ .refl)

theorem psgCall_fade {o : Psg.Op} (h : o.Mild (i - 6)) : Fade i s (psgCall env s o) :=
  .mild rfl (fun _ => rfl) (fun _ => rfl) (Psg.mild_wane h)

theorem put_fade (j : Nat) {f : Dev → Dev} (h1 : ∀ d, (f d).noteOn = d.noteOn) (h2 : ∀ d, (f d).ops = d.ops)
    (h3 : ∀ d, (f d).num = d.num) : Fade i s (setDev s j f) := by
  refine .mild ?_ (fun k => ?_) (fun k => ?_) .refl
  · by_cases e : i = j
    · subst e; simp [h1]
    · simp [Psg.upd_other _ _ _ _ e]
  · by_cases e : k = j
    · subst e; simp [h2]
    · simp [Psg.upd_other _ _ _ _ e]
  · by_cases e : k = j
    · subst e; simp [h3]
    · simp [Psg.upd_other _ _ _ _ e]

theorem devVolume_fade (j v : Nat) : Fade i s (devVolume env s j v) := by
  unfold devVolume
  split
  · exact .same rfl rfl
  · exact psgCall_fade (by trivial)
  · exact .refl
  · exact .refl

theorem devProgram_fade (j v : Nat) : Fade i s (devProgram env s j v) := by
  unfold devProgram
  split
  · exact .same rfl rfl
  · exact psgCall_fade (by trivial)
  · exact .refl
  · exact .refl

theorem devPan_fade (j v : Nat) : Fade i s (devPan env s j v) := by
  unfold devPan
  split
  · exact .same rfl rfl
  · exact .refl
  · exact .refl
  · exact .refl

theorem devPitch_fade (j p : Nat) (x : Int) : Fade i s (devPitch env s j p x) := by
  unfold devPitch
  split
  · exact .same rfl rfl
  · exact psgCall_fade (by trivial)
  · exact .same rfl rfl
  · exact .refl

theorem setDownstreamPitch_fade (j : Nat) : Fade i s (setDownstreamPitch env s j) := by
  simp only [setDownstreamPitch, withPitch]
  split
  · exact devPitch_fade _ _ _
  · exact .same rfl rfl

theorem updateVolume_fade (c j : Nat) : Fade i s (updateVolume env s c j) := by
  unfold updateVolume
  split
  · exact (devVolume_fade _ _).trans (put_fade j (fun _ => rfl) (fun _ => rfl) (fun _ => rfl))
  · exact .refl

theorem updatePan_fade (c j : Nat) : Fade i s (updatePan env s c j) := by
  unfold updatePan
  split
  · exact (devPan_fade _ _).trans (put_fade j (fun _ => rfl) (fun _ => rfl) (fun _ => rfl))
  · exact .refl

theorem updateProgram_fade (c j : Nat) : Fade i s (updateProgram env s c j) := by
  unfold updateProgram
  split
  · exact (devProgram_fade _ _).trans (put_fade j (fun _ => rfl) (fun _ => rfl) (fun _ => rfl))
  · exact .refl

theorem updatePitchBend_fade (c j : Nat) : Fade i s (updatePitchBend env s c j) := by
  unfold updatePitchBend
  split
  · exact Fade.trans (t := setDev s j fun d => { d with pitchBend := (s.chan c).pitchBend })
      (put_fade j (fun _ => rfl) (fun _ => rfl) (fun _ => rfl)) (setDownstreamPitch_fade _)
  · exact .refl

theorem setChan_fade (c : Nat) (f : Chan → Chan) : Fade i s (setChan s c f) := .same rfl rfl

/-! ### Notes -/

theorem other_fade {j : Nat} (e : j ≠ i) {f : Dev → Dev} (h2 : ∀ d, (f d).ops = d.ops) (h3 : ∀ d, (f d).num = d.num) :
    Fade i s (setDev s j f) := by
  refine .mild ?_ (fun k => ?_) (fun k => ?_) .refl
  · simp [Psg.upd_other _ _ _ _ (Ne.symm e)]
  · by_cases e : k = j
    · subst e; simp [h2]
    · simp [Psg.upd_other _ _ _ _ e]
  · by_cases e : k = j
    · subst e; simp [h3]
    · simp [Psg.upd_other _ _ _ _ e]

theorem IsPsg.upd (p : IsPsg i s) {j : Nat} {d : Dev} (h : t.dev = Mdmi.upd s.dev j d) (h2 : d.ops = (s.dev j).ops)
    (h3 : d.num = (s.dev j).num) : IsPsg i t := by
  have key : ∀ k, (t.dev k).ops = (s.dev k).ops ∧ (t.dev k).num = (s.dev k).num := fun k => by
    rw [h]
    by_cases e : k = j
    · subst e; simp [h2, h3]
    · simp [Psg.upd_other _ _ _ _ e]
  exact ⟨(key i).1.trans p.ops, (key i).2.trans p.num, fun k hk e q => by rw [(key k).2]; exact p.others k hk e ((key k).1.symm.trans q)⟩

/-- The voice sounded before and still does. -/
theorem Fade.keeps {d : Dev} (h : t.dev = Mdmi.upd s.dev i d) (h2 : d.ops = (s.dev i).ops) (h3 : d.num = (s.dev i).num)
    (h4 : d.noteOn = true) (h5 : (s.dev i).noteOn = true) : Fade i s t := by
  refine ⟨fun p => ⟨p.upd h h2 h3, fun _ => h5, fun _ x => ?_, fun x => ?_⟩⟩
  · rw [h, Psg.upd_same, h4] at x; exact nomatch x
  · rw [h5] at x; exact nomatch x

theorem devNoteOn_fade {j : Nat} (hj : j < 13) (e : j ≠ i) (p : Nat) (c : Int) (v : Nat) : Fade i s (devNoteOn env s j p c v) := by
  unfold devNoteOn
  split
  · exact .same rfl rfl
  · rename_i q
    exact ⟨fun x => (psgCall_fade (i := i) (o := .noteOn (s.dev j).num p c v) (x.others j hj e q)).get x⟩
  · exact .same rfl rfl
  · exact .same rfl rfl

theorem setDownstreamNoteOn_fade {j : Nat} (hj : j < 13) (e : j ≠ i) (v : Nat) : Fade i s (setDownstreamNoteOn env s j v) := by
  simp only [setDownstreamNoteOn, withPitch]
  split
  · exact devNoteOn_fade hj e _ _ _
  · exact .same rfl rfl

theorem devChanNoteOn_fade {j : Nat} (hj : j < 13) (p v : Nat) (h : j = i → (s.dev i).noteOn = true) : Fade i s (devChanNoteOn env s j p v) := by
  by_cases e : j = i
  · subst e
    exact .keeps (devChanNoteOn_dev _ _ _) rfl rfl rfl (h rfl)
  · unfold devChanNoteOn
    exact Fade.trans (t := setDev s j fun d => { d with noteOn := true, cents := 0, pitch := p })
      (other_fade e (fun _ => rfl) (fun _ => rfl)) (setDownstreamNoteOn_fade hj e _)

theorem devNoteOff_fade (j : Nat) : Fade i s (devNoteOff env s j) := by
  unfold devNoteOff
  split
  · exact .same rfl rfl
  · exact psgCall_fade (by trivial)
  · exact .refl
  · exact .same rfl rfl

theorem devAllNotesOff_fade (j : Nat) : Fade i s (devAllNotesOff env s j) := by
  unfold devAllNotesOff
  split
  · exact .same rfl rfl
  · exact psgCall_fade (by trivial)
  · exact .refl
  · exact .refl

theorem devChanNoteOff_fade (hi : i < 10) (j : Nat) : Fade i s (devChanNoteOff env s j) := by
  unfold devChanNoteOff
  by_cases e : j = i
  · subst e
    refine ⟨fun p => ?_⟩
    have q : IsPsg j (setDev s j fun d => { d with noteOn := false, pitch := 0 }) := p.upd rfl rfl rfl
    have w := ((devNoteOff_fade (env := env) (i := j) (s := setDev s j fun d => { d with noteOn := false, pitch := 0 }) j).get q)
    have e1 : ((setDev s j fun d => { d with noteOn := false, pitch := 0 }).dev j).noteOn = false := by simp
    refine ⟨w.psg, fun x => ?_, fun _ _ => ?_, fun x => w.wane e1⟩
    · have := w.on x; rw [e1] at this; exact nomatch this
    · simp only [devNoteOff, q.ops, q.num]
      exact Psg.noteOff_rest (env := env.psg) (by omega)
  · exact Fade.trans (t := setDev s j fun d => { d with noteOn := false, pitch := 0 })
      (other_fade e (fun _ => rfl) (fun _ => rfl)) (devNoteOff_fade _)

theorem devChanAllOff_fade (hi : i < 10) (j : Nat) :
    Fade i s (devAllNotesOff env (setDev s j fun d => { d with noteOn := false, pitch := 0 }) j) := by
  by_cases e : j = i
  · subst e
    refine ⟨fun p => ?_⟩
    have q : IsPsg j (setDev s j fun d => { d with noteOn := false, pitch := 0 }) := p.upd rfl rfl rfl
    have w := ((devAllNotesOff_fade (env := env) (i := j) (s := setDev s j fun d => { d with noteOn := false, pitch := 0 }) j).get q)
    have e1 : ((setDev s j fun d => { d with noteOn := false, pitch := 0 }).dev j).noteOn = false := by simp
    refine ⟨w.psg, fun x => ?_, fun _ _ => ?_, fun x => w.wane e1⟩
    · have := w.on x; rw [e1] at this; exact nomatch this
    · simp only [devAllNotesOff, q.ops, q.num]
      exact Psg.allNotesOff_rest (env := env.psg) (by omega)
  · exact Fade.trans (t := setDev s j fun d => { d with noteOn := false, pitch := 0 })
      (other_fade e (fun _ => rfl) (fun _ => rfl)) (devAllNotesOff_fade _)

/-! ### Messages -/

theorem fold_fade {α : Type} {f : St → α → St} (l : List α) (h : ∀ s a, Fade i s (f s a)) (s : St) :
    Fade i s (l.foldl f s) := by
  induction l generalizing s with
  | nil => exact .refl
  | cons a l ih => exact (h s a).trans (ih _)

theorem foreach_fade {c : Nat} {body : St → Nat → St} (h : ∀ s j, Fade i s (body s j)) (s : St) :
    Fade i s (foreach s c body) := by
  refine fold_fade _ (fun s j => ?_) s
  split
  · exact h s j
  · exact .refl

theorem noteOffBody_fade (hi : i < 10) (c p next : Nat) (single : Bool) (x : St × Bool) {j : Nat} (hj : j < 13) :
    Fade i x.1 (noteOffBody env c p next single x j).1 := by
  obtain ⟨s, handled⟩ := x
  unfold noteOffBody
  simp only
  split
  · rename_i h
    split
    · split
      · split
        · exact .same rfl rfl
        · rename_i st _
          refine Fade.trans (t := setChan s c fun m => { m with stack := st }) (setChan_fade _ _) ?_
          exact put_fade j (f := fun d => { d with glide := next }) (fun _ => rfl) (fun _ => rfl) (fun _ => rfl)
      · exact devChanNoteOn_fade hj _ _ (fun e => e ▸ playing_on h.2)
    · exact devChanNoteOff_fade hi _
  · exact .refl

theorem noteOff_fade (hi : i < 10) (c p : Nat) : Fade i s (noteOff env s c p) := by
  unfold noteOff
  split
  · exact .same rfl rfl
  split
  · exact .same rfl rfl
  rename_i next st _
  refine (setChan_fade (s := s) c fun m => { m with stack := st }).trans ?_
  simp only
  generalize setChan s c _ = t
  generalize singleVoice t c true = single
  have h : ∀ (l : List Nat), (∀ j ∈ l, j < 13) → ∀ (x : St × Bool), Fade i x.1 (l.foldl (noteOffBody env c p next single) x).1 := by
    intro l
    induction l with
    | nil => intro _ x; exact .refl
    | cons j l ih =>
      intro hl x
      exact Fade.trans (noteOffBody_fade hi c p next single x (hl j (by simp))) (ih (fun k hk => hl k (by simp [hk])) _)
  exact h _ (fun j hj => List.mem_range.1 hj) (t, false)

theorem fmCall_fade (o : Fm.Op) : Fade i s (fmCall env s o) := .same rfl rfl

theorem updateDev_fade (j : Nat) : Fade i s (updateDev env s j) := by
  unfold updateDev
  simp only
  split
  · exact ((((fmCall_fade _).trans (updateVolume_fade _ _)).trans (updatePan_fade _ _)).trans (updateProgram_fade _ _)).trans
      (updatePitchBend_fade _ _)
  · exact .same rfl rfl

theorem startNote_fade {j : Nat} (hj : j < 13) (e : j ≠ i) (c p v : Nat) : Fade i s (startNote env s j c p v) := by
  unfold startNote
  extract_lets a b d
  have h1 : Fade i s a := by
    simp only [a]; split
    · exact devProgram_fade _ _
    · exact .refl
  have h2 : Fade i a b := other_fade e (fun _ => rfl) (fun _ => rfl)
  have h3 : Fade i b d := updateDev_fade _
  exact ((h1.trans h2).trans h3).trans (setDownstreamNoteOn_fade hj e _)

theorem startNote_on {c : Nat} (hc : c < 16) (p v : Nat) : ((startNote env s i c p v).dev i).noteOn = true := by
  rw [startNote_dev hc, Psg.upd_same]; rfl

theorem noteOn_fade (hi : i < 10) {c : Nat} (hc : c < 16) (p v : Nat) :
    Fade i s (noteOn env s c p v) ∨ ((noteOn env s c p v).dev i).noteOn = true := by
  unfold noteOn
  split
  · exact .inl (noteOff_fade hi c p)
  split
  · exact .inl .refl
  split
  · exact .inl (.same rfl rfl)
  rename_i j hj
  replace hj := findFree_lt hj
  split
  · split
    · exact .inl (.same rfl rfl)
    split
    · exact .inl (.same rfl rfl)
    rename_i st _
    simp only
    have h1 := setChan_fade (i := i) (s := s) c (fun m => { m with stack := st, lastVelocity := v })
    generalize setChan s c (fun m => { m with stack := st, lastVelocity := v }) = t at *
    have h2 : ∀ g, Fade i t (setDev t j fun d => { d with glide := g }) := fun g =>
      put_fade j (fun _ => rfl) (fun _ => rfl) (fun _ => rfl)
    split
    · exact .inl (h1.trans (h2 p))
    · by_cases e : j = i
      · subst e; exact .inr (startNote_on hc p v)
      · exact .inl ((h1.trans (h2 0)).trans (startNote_fade hj e c p v))
  · by_cases e : j = i
    · subst e; exact .inr (startNote_on hc p v)
    · exact .inl (startNote_fade hj e c p v)

theorem allNotesOff_fade (hi : i < 10) (c : Nat) : Fade i s (allNotesOff env s c) :=
  foreach_fade (fun _ j => devChanAllOff_fade hi j) s

theorem tick_fade : Fade i s (tick env s) := by
  unfold tick
  refine fold_fade _ (fun s j => ?_) s
  split
  · exact .refl
  split
  · split
    · unfold processGlide
      split
      · exact .refl
      · rename_i g _
        exact Fade.trans (t := setDev s j fun d => { d with pitch := g.pitch, cents := g.cents, glide := g.target })
          (put_fade j (fun _ => rfl) (fun _ => rfl) (fun _ => rfl)) (setDownstreamPitch_fade _)
    · exact .refl
  · exact .same rfl rfl

theorem setFmParam_fade (hi : 6 ≤ i) (j k v : Nat) : Fade i s (setFmParam env s j k v) := by
  unfold setFmParam
  split
  · split <;> exact .same rfl rfl
  · split
    · split
      · exact .refl
      · refine ⟨fun p => ?_⟩
        have e : i ≠ 5 := by omega
        unfold enableDac
        refine ⟨⟨?_, ?_, fun k hk13 hk q => ?_⟩, ?_, ?_, fun _ => .refl⟩
        · simp [fmCall, Psg.upd_other _ _ _ _ e, p.ops]
        · simp [fmCall, Psg.upd_other _ _ _ _ e, p.num]
        · by_cases f : k = 5
          · subst f
            simp only [fmCall, setDev_dev, Psg.upd_same] at q
            split at q <;> exact nomatch q
          · simp only [fmCall, setDev_dev, Psg.upd_other _ _ _ _ f] at q ⊢
            exact p.others k hk13 hk q
        · simp [fmCall, Psg.upd_other _ _ _ _ e]
        · intro x y
          simp only [fmCall, setDev_dev, Psg.upd_other _ _ _ _ e, x] at y
          exact nomatch y
    · exact .same rfl rfl

theorem applyDynamicMode_fade : Fade i s (applyDynamicMode s) := by
  refine .mild ?_ (fun j => ?_) (fun j => ?_) .refl <;> simp only [applyDynamicMode] <;> split <;> rfl

theorem setDynamicMode_fade (m : Mode) : Fade i s (setDynamicMode s m) := by
  have h : ∀ (f : Config) (d : Bool), Fade i s (applyDynamicMode { s with cfg := f, dynamic := d }) := fun f d =>
    Fade.trans (t := { s with cfg := f, dynamic := d }) (.same rfl rfl) applyDynamicMode_fade
  cases m
  · exact h _ _
  · exact h _ _
  · exact .same rfl rfl

theorem remap_fade (c j : Nat) : Fade i s (remap s c j) := by
  unfold remap
  split
  · exact .same rfl rfl
  split
  · split
    · exact put_fade _ (fun _ => rfl) (fun _ => rfl) (fun _ => rfl)
    · exact .refl
  split
  · exact .same rfl rfl
  · exact put_fade _ (fun _ => rfl) (fun _ => rfl) (fun _ => rfl)

theorem setPolyphonic_fade (b : Bool) : Fade i s (setPolyphonic s b) := by
  unfold setPolyphonic
  simp only
  split
  · exact (setDynamicMode_fade _).trans (fold_fade _ (fun s j => remap_fade 0 j) _)
  · exact setDynamicMode_fade _

theorem rpnDataEntry_fade (c v : Nat) (b : Bool) : Fade i s (rpnDataEntry env s c v b) := by
  unfold rpnDataEntry
  split
  · unfold updatePbRange
    refine Fade.trans (t := setChan s c _) (setChan_fade _ _) (foreach_fade (fun s i => ?_) _)
    split
    · exact setDownstreamPitch_fade _
    · exact .refl
  · exact .same rfl rfl

theorem ccSwitch_fade (hi : 6 ≤ i) (hi' : i < 10) (c k v : Nat) (h121 : k ≠ 121) : Fade i s (ccSwitch env s c k v) := by
  unfold ccSwitch
  split
  · split
    · exact setChan_fade _ _
    · exact .same rfl rfl
  · exact Fade.trans (t := setChan s c _) (setChan_fade _ _) (foreach_fade (fun s j => updateVolume_fade c j) _)
  · exact Fade.trans (t := setChan s c _) (setChan_fade _ _) (foreach_fade (fun s j => updatePan_fade c j) _)
  · exact allNotesOff_fade hi' c
  · exact allNotesOff_fade hi' c
  · exact setPolyphonic_fade _
  · exact fmCall_fade _
  · exact absurd rfl h121
  · split <;> exact .same rfl rfl
  · split
    · exact .refl
    · exact setChan_fade _ _
  · exact setChan_fade _ _
  · split
    · exact .refl
    · exact setChan_fade _ _
  · exact rpnDataEntry_fade c v true
  · exact rpnDataEntry_fade c v false
  · exact setChan_fade _ _
  · exact setChan_fade _ _
  · exact .refl
  · exact .refl
  · exact .refl
  · exact .refl
  · unfold storeFromChannel; split <;> exact .same rfl rfl
  · exact foreach_fade (fun s j => setFmParam_fade hi j k v) s

theorem say_fade (m : Msg) : Fade i s (say s m) := .same rfl rfl

theorem emit_fade (e : Ev) : Fade i s (emit s e) := .same rfl rfl

theorem clearAll_fade (d : List Nat) : Fade i s (clearAll env s d) := by
  have h := fold_fade (i := i) (f := fun s n => fmCall env s (.clear n)) (List.range 128) (fun _ _ => fmCall_fade _) s
  unfold clearAll
  split
  · exact h.trans (say_fade _)
  · exact say_fade _

theorem handler_fade (c : Nat) (e : List Nat) (j : Nat) : Fade i s (handler env s c e j) := by
  unfold handler
  split
  · exact remap_fade _ _
  · exact .same rfl rfl
  · exact setDynamicMode_fade _
  · exact .same rfl rfl
  · exact .same rfl rfl
  · unfold loadPsgEnvelope; split
    · exact .same rfl rfl
    · exact Fade.trans (t := psgCall env s (.loadEnvelope (envelopeBytes j e ++ [0xFF])))
        (psgCall_fade (by trivial)) (say_fade _)
  · exact .same rfl rfl
  · exact .same rfl rfl
  · exact .same rfl rfl
  · unfold storeProgram; split <;> exact .same rfl rfl
  · unfold clearProgram; split <;> exact .same rfl rfl
  · exact clearAll_fade e
  · unfold dumpPreset; split
    · split <;> exact .same rfl rfl
    · exact .same rfl rfl
  · unfold dumpChannel; simp only; split
    · exact .same rfl rfl
    split
    · split
      · split <;> exact .same rfl rfl
      · exact .same rfl rfl
    · exact .same rfl rfl
  · exact .refl

theorem sysex_fade (d : List Nat) (j : Nat) (h : d.take 4 ≠ [0x7E, 0x7F, 0x09, 0x01]) : Fade i s (sysex env s d j) := by
  unfold sysex
  split
  · exact .refl
  split
  · exact .refl
  simp only
  split
  · exact .same rfl rfl
  · split
    · exact .same rfl rfl
    · exact handler_fade _ _ _
  · exact handler_fade _ _ _

theorem pitchBend_fade (c b : Nat) : Fade i s (pitchBend env s c b) := by
  unfold pitchBend
  refine Fade.trans (t := setChan s c _) (setChan_fade _ _) (foreach_fade (fun s j => ?_) _)
  split
  · exact updatePitchBend_fade _ _
  · exact .refl

theorem program_fade (c p : Nat) : Fade i s (program env s c p) := by
  unfold program
  simp only
  exact ((setChan_fade _ _).trans (foreach_fade (fun s j => updateProgram_fade c j) _)).trans (emit_fade _)

/-- The calls that make the engine forget its notes without always releasing them. -/
def Op.forgets : Op → Prop
  | .reset => True
  | .cc _ k _ => k = 121
  | .sysex d _ => d.take 4 = [0x7E, 0x7F, 0x09, 0x01]
  | _ => False

theorem step_fade (hi : 6 ≤ i) (hi' : i < 10) {o : Op} (hf : ¬o.forgets) (ht : o ≠ .psgTick) :
    Fade i s (step env s o) ∨ ((step env s o).dev i).noteOn = true := by
  cases o with
  | noteOn c p v =>
    unfold step; simp only; split
    · rename_i h; exact noteOn_fade hi' h p v
    · exact .inl (.same rfl rfl)
  | noteOff c p =>
    unfold step; simp only; split
    · exact .inl (noteOff_fade hi' c p)
    · exact .inl (.same rfl rfl)
  | bend c b =>
    unfold step; simp only; split
    · exact .inl (pitchBend_fade c b)
    · exact .inl (.same rfl rfl)
  | cc c k v =>
    unfold step; simp only; split
    · exact .inl ((ccSwitch_fade hi hi' c k v hf).trans (emit_fade _))
    · exact .inl (.same rfl rfl)
  | program c p =>
    unfold step; simp only; split
    · exact .inl (program_fade c p)
    · exact .inl (.same rfl rfl)
  | sysex d j => exact .inl (sysex_fade d j hf)
  | remap c j => exact .inl (remap_fade c j)
  | reset => exact absurd trivial hf
  | tick => exact .inl tick_fade
  | psgTick => exact absurd rfl ht

/-! ### Histories -/

theorem Ok.isPsg (hs : Ok env tame s) (hi : 6 ≤ i) (hi' : i < 10) : IsPsg i s := by
  refine ⟨?_, (hs.dev i (by omega)).psgNum hi hi', fun j hj e q => ?_⟩
  · rcases (hs.dev i (by omega)).kind with h | h | h | h
    · omega
    · omega
    · exact h.2.2
    · omega
  · rcases (hs.dev j hj).kind with h | h | h | h
    · rw [h.2] at q; cases q
    · rw [h.2] at q; cases q
    · rw [(hs.dev j hj).psgNum h.1 h.2.1]; omega
    · rw [h.2.2] at q; cases q

/-- A voice that does not sound has its PSG channel silent or released. -/
def Resting (i : Nat) (s : St) : Prop := (s.dev i).noteOn = false → Rest (s.psg.ch (i - 6))

theorem step_resting (hs : Ok env tame s) (hi : 6 ≤ i) (hi' : i < 10) {o : Op} (hf : ¬o.forgets) (h : Resting i s) :
    Resting i (step env s o) := by
  intro off
  by_cases ht : o = .psgTick
  · subst ht
    exact (Psg.tick_wane hs.psg (n := i - 6) (by omega)).rest (h off)
  · rcases step_fade (s := s) (env := env) hi hi' hf ht with w | w
    · have w := w.get (hs.isPsg hi hi')
      cases e : (s.dev i).noteOn with
      | true => exact w.rest e off
      | false => exact (w.wane e).rest (h e)
    · rw [w] at off; exact nomatch off

/-- A step between two states in which the voice does not sound. -/
theorem step_wane (hs : Ok env tame s) (hi : 6 ≤ i) (hi' : i < 10) {o : Op} (hf : ¬o.forgets) (h1 : (s.dev i).noteOn = false)
    (h2 : ((step env s o).dev i).noteOn = false) :
    Wane (s.psg.ch (i - 6)) ((step env s o).psg.ch (i - 6)) (if o = .psgTick then 1 else 0) := by
  by_cases ht : o = .psgTick
  · subst ht
    exact Psg.tick_wane hs.psg (n := i - 6) (by omega)
  · rw [if_neg ht]
    rcases step_fade (s := s) (env := env) hi hi' hf ht with w | w
    · exact (w.get (hs.isPsg hi hi')).wane h1
    · rw [w] at h2; exact nomatch h2

theorem run_resting (he : env.Ok) (hi : 6 ≤ i) (hi' : i < 10) (ops : List Op) : ∀ s, Ok env tame s → (∀ op ∈ ops, op.Wf) →
    (tame = false → ∀ op ∈ ops, ¬op.enablesDac) → (tame = true → ∀ op ∈ ops, ¬op.detunes) → (∀ op ∈ ops, ¬op.forgets) →
    Resting i s → Resting i (run env s ops) := by
  induction ops with
  | nil => intro s _ _ _ _ _ h; exact h
  | cons o ops ih =>
    intro s hs hw hd hb hf h
    have hs' : Ok env tame (run env s [o]) := run_ok he [o] s hs (fun op ho => hw op (by simp_all)) (fun e op ho => hd e op (by simp_all))
      (fun e op ho => hb e op (by simp_all))
    exact ih _ hs' (fun op ho => hw op (by simp [ho])) (fun e op ho => hd e op (by simp [ho])) (fun e op ho => hb e op (by simp [ho]))
      (fun op ho => hf op (by simp [ho])) (step_resting hs hi hi' (hf o (by simp)) h)

theorem run_wane (he : env.Ok) (hi : 6 ≤ i) (hi' : i < 10) (ops : List Op) : ∀ s, Ok env tame s → (∀ op ∈ ops, op.Wf) →
    (tame = false → ∀ op ∈ ops, ¬op.enablesDac) → (tame = true → ∀ op ∈ ops, ¬op.detunes) → (∀ op ∈ ops, ¬op.forgets) →
    (∀ k, k ≤ ops.length → ((run env s (ops.take k)).dev i).noteOn = false) →
    Wane (s.psg.ch (i - 6)) ((run env s ops).psg.ch (i - 6)) (ops.count .psgTick) := by
  induction ops with
  | nil => intro s _ _ _ _ _ _; exact .refl
  | cons o ops ih =>
    intro s hs hw hd hb hf h
    have hs' : Ok env tame (run env s [o]) := run_ok he [o] s hs (fun op ho => hw op (by simp_all)) (fun e op ho => hd e op (by simp_all))
      (fun e op ho => hb e op (by simp_all))
    have h0 := h 0 (by simp)
    have h1 := h 1 (by simp)
    have a := step_wane hs hi hi' (hf o (by simp)) h0 h1
    have b := ih _ hs' (fun op ho => hw op (by simp [ho])) (fun e op ho => hd e op (by simp [ho])) (fun e op ho => hb e op (by simp [ho]))
      (fun op ho => hf op (by simp [ho])) (fun k hk => h (k + 1) (by simp; omega))
    have c := a.trans b
    rw [List.count_cons, Nat.add_comm]
    simp only [beq_iff_eq]
    exact c

/-! ### Start-up -/

theorem boot_silent (he : env.Ok) (b : Bool) (m : Sram.Mem) {n : Nat} (hn : n < 4) : ((boot env b m).psg.ch n).noteOn = false := by
  obtain ⟨u, e, -, e2, -⟩ := reset_split env (powerOn env b m)
  have h0 : PsgQuiet u.psg := by
    intro k hk
    rw [e2, (psgReset_eq he.psg (f := (powerOn env b m).psg) (Psg.init_eq he.psg).1).2.2.2 k hk]
  have h := (resetChannels_hush (env := env) h0).1 n hn
  unfold boot
  rw [e]
  exact h

end Mdmi.Midi
