import Verif.Proofs.MidiTune
/-!
# Sounding voices have the bend of their MIDI channel
-/
namespace Mdmi.Midi

variable {env : Env} {s t u : St}

/-- Mapping and bends stay, and no further voice sounds. -/
structure Calm (s t : St) : Prop where
  map : ∀ j, (t.dev j).midiChannel = (s.dev j).midiChannel
  on : ∀ j, (t.dev j).noteOn = true → (s.dev j).noteOn = true
  bend : ∀ j, (t.dev j).pitchBend = (s.dev j).pitchBend
  chan : ∀ c, (t.chan c).pitchBend = (s.chan c).pitchBend
  dynamic : t.dynamic = s.dynamic

theorem Calm.refl : Calm s s := ⟨fun _ => rfl, fun _ => id, fun _ => rfl, fun _ => rfl, rfl⟩

theorem Calm.trans (h : Calm s t) (k : Calm t u) : Calm s u :=
  ⟨fun j => (k.map j).trans (h.map j), fun j x => h.on j (k.on j x), fun j => (k.bend j).trans (h.bend j),
    fun j => (k.chan j).trans (h.chan j), k.dynamic.trans h.dynamic⟩

theorem Calm.same (h1 : t.dev = s.dev) (h2 : t.chan = s.chan) (h3 : t.dynamic = s.dynamic) : Calm s t :=
  ⟨fun _ => by rw [h1], fun j x => by rw [h1] at x; exact x, fun _ => by rw [h1], fun _ => by rw [h2], h3⟩

theorem Calm.upd {i : Nat} {d : Dev} (h : t.dev = Mdmi.upd s.dev i d) (h1 : d.midiChannel = (s.dev i).midiChannel)
    (h2 : d.noteOn = true → (s.dev i).noteOn = true) (h3 : d.pitchBend = (s.dev i).pitchBend)
    (h4 : t.chan = s.chan) (h5 : t.dynamic = s.dynamic) : Calm s t := by
  refine ⟨fun j => ?_, fun j => ?_, fun j => ?_, fun _ => by rw [h4], h5⟩ <;> rw [h] <;> by_cases e : j = i
  · subst e; simpa using h1
  · simp [Psg.upd_other _ _ _ _ e]
  · subst e; simpa using h2
  · simp [Psg.upd_other _ _ _ _ e]
  · subst e; simpa using h3
  · simp [Psg.upd_other _ _ _ _ e]

theorem Calm.setChan {c : Nat} {f : Chan → Chan} (h : (f (s.chan c)).pitchBend = (s.chan c).pitchBend) :
    Calm s (setChan s c f) := by
  refine ⟨fun _ => rfl, fun _ => id, fun _ => rfl, fun j => ?_, rfl⟩
  rw [setChan_chan]
  by_cases e : j = c
  · subst e; simpa using h
  · simp [Psg.upd_other _ _ _ _ e]

theorem playing_on {d : Dev} {p : Nat} (h : isPlaying d p = true) : d.noteOn = true := by
  unfold isPlaying at h; exact (Bool.and_eq_true_iff.1 h).1

theorem fold_calm {α : Type} {f : St → α → St} (l : List α) (h : ∀ s a, Calm s (f s a)) (s : St) :
    Calm s (l.foldl f s) := by
  induction l generalizing s with
  | nil => exact .refl
  | cons a l ih => exact (h s a).trans (ih _)

theorem foreach_calm {c : Nat} {body : St → Nat → St} (h : ∀ s i, Calm s (body s i)) (s : St) :
    Calm s (foreach s c body) := by
  refine fold_calm _ (fun s i => ?_) s
  split
  · exact h s i
  · exact .refl

theorem noteOffBody_calm (c p next : Nat) (single : Bool) (x : St × Bool) (i : Nat) :
    Calm x.1 (noteOffBody env c p next single x i).1 := by
  obtain ⟨s, handled⟩ := x
  unfold noteOffBody
  simp only
  split
  · split
    · split
      · split
        · exact .same rfl rfl rfl
        · rename_i st _
          refine Calm.trans (t := setChan s c fun m => { m with stack := st }) (.setChan rfl) ?_
          exact .upd (i := i) (d := { s.dev i with glide := next }) rfl rfl id rfl rfl rfl
      · exact .upd (devChanNoteOn_dev i _ _) rfl (fun _ => by rename_i h _ _ _; exact playing_on h.2) rfl (by simp) (by simp)
    · exact .upd (devChanNoteOff_dev i) rfl (fun h => nomatch h) rfl (by simp) (by simp)
  · exact .refl

theorem noteOff_calm (c p : Nat) : Calm s (noteOff env s c p) := by
  unfold noteOff
  split
  · exact .same rfl rfl rfl
  split
  · exact .same rfl rfl rfl
  rename_i next st _
  have h1 : Calm s (setChan s c fun m => { m with stack := st }) := .setChan rfl
  refine h1.trans ?_
  simp only
  generalize setChan s c _ = t
  generalize singleVoice t c true = single
  have h : ∀ (l : List Nat) (x : St × Bool), Calm x.1 (l.foldl (noteOffBody env c p next single) x).1 := by
    intro l
    induction l with
    | nil => intro x; exact .refl
    | cons i l ih => intro x; exact Calm.trans (noteOffBody_calm c p next single x i) (ih _)
  exact h _ (t, false)

theorem allNotesOff_calm (c : Nat) : Calm s (allNotesOff env s c) :=
  foreach_calm (fun s i => .upd (i := i) (d := { s.dev i with noteOn := false, pitch := 0 }) (by simp) rfl (fun h => nomatch h) rfl
    (by simp) (by simp)) s

theorem setFmParam_calm (i k v : Nat) : Calm s (setFmParam env s i k v) := by
  unfold setFmParam
  split
  · split <;> exact .same rfl rfl rfl
  · split
    · split
      · exact .same rfl rfl rfl
      · exact .upd (i := 5) (d := { s.dev 5 with ops := if (decide (v / 64 ≠ 0)) then .dac else .fm }) rfl rfl id rfl rfl rfl
    · exact .same rfl rfl rfl

theorem rpnDataEntry_calm (c v : Nat) (b : Bool) : Calm s (rpnDataEntry env s c v b) := by
  unfold rpnDataEntry
  split
  · unfold updatePbRange
    refine Calm.trans (t := setChan s c _) (.setChan rfl) (foreach_calm (fun s i => ?_) _)
    split
    · exact .same (by simp) (by simp) (by simp)
    · exact .refl
  · exact .same rfl rfl rfl

theorem tick_calm : Calm s (tick env s) := by
  unfold tick
  refine fold_calm _ (fun s i => ?_) s
  split
  · exact .refl
  split
  · split
    · unfold processGlide
      split
      · exact .refl
      · rename_i g _
        exact .upd (i := i) (d := { s.dev i with pitch := g.pitch, cents := g.cents, glide := g.target }) (by simp)
          rfl id rfl (by simp) (by simp)
    · exact .refl
  · exact .same rfl rfl rfl

theorem ccSwitch_calm (c k v : Nat) (h84 : k ≠ 84) (h121 : k ≠ 121) :
    Calm s (ccSwitch env s c k v) := by
  unfold ccSwitch
  split
  · split
    · exact .setChan rfl
    · exact .same rfl rfl rfl
  · refine Calm.trans (t := setChan s c _) (.setChan rfl) (foreach_calm (fun s i => ?_) _)
    exact .upd (updateVolume_dev c i) rfl id rfl (by simp) (by simp)
  · refine Calm.trans (t := setChan s c _) (.setChan rfl) (foreach_calm (fun s i => ?_) _)
    exact .upd (updatePan_dev c i) rfl id rfl (by simp) (by simp)
  · exact allNotesOff_calm c
  · exact allNotesOff_calm c
  · exact absurd rfl h84
  · exact .same rfl rfl rfl
  · exact absurd rfl h121
  · split <;> exact .same rfl rfl rfl
  · split
    · exact .refl
    · exact .setChan rfl
  · exact .setChan rfl
  · split
    · exact .refl
    · exact .setChan rfl
  · exact rpnDataEntry_calm c v true
  · exact rpnDataEntry_calm c v false
  · exact .setChan rfl
  · exact .setChan rfl
  · exact .refl
  · exact .refl
  · exact .refl
  · exact .refl
  · unfold storeFromChannel; split <;> exact .same rfl rfl rfl
  · exact foreach_calm (fun s i => setFmParam_calm i k v) s

theorem say_calm (m : Msg) : Calm s (say s m) := .same rfl rfl rfl

theorem clearAll_calm (d : List Nat) : Calm s (clearAll env s d) := by
  have h := fold_calm (f := fun s n => fmCall env s (.clear n)) (List.range 128) (fun _ _ => .same rfl rfl rfl) s
  unfold clearAll
  split
  · exact h.trans (say_calm _)
  · exact .same rfl rfl rfl

theorem handler_calm (c : Nat) (e : List Nat) (j : Nat) (h0 : c ≠ 0) (h3 : c ≠ 3) : Calm s (handler env s c e j) := by
  unfold handler
  split
  · exact absurd rfl h0
  · exact .same rfl rfl rfl
  · exact absurd rfl h3
  · exact .same rfl rfl rfl
  · exact .same rfl rfl rfl
  · unfold loadPsgEnvelope; split <;> exact .same rfl rfl rfl
  · exact .same rfl rfl rfl
  · exact .same rfl rfl rfl
  · exact .same rfl rfl rfl
  · unfold storeProgram; split <;> exact .same rfl rfl rfl
  · unfold clearProgram; split <;> exact .same rfl rfl rfl
  · exact clearAll_calm e
  · unfold dumpPreset; split
    · split <;> exact .same rfl rfl rfl
    · exact .same rfl rfl rfl
  · unfold dumpChannel; simp only; split
    · exact .same rfl rfl rfl
    split
    · split
      · split <;> exact .same rfl rfl rfl
      · exact .same rfl rfl rfl
    · exact .same rfl rfl rfl
  · exact .refl

/-! ### The invariant -/

/-- Every sounding voice has the bend of the MIDI channel it is mapped to. -/
def Bent (s : St) : Prop :=
  ∀ j, j < 13 → (s.dev j).midiChannel < 16 → (s.dev j).noteOn = true →
    (s.dev j).pitchBend = (s.chan (s.dev j).midiChannel).pitchBend

theorem Calm.bent (h : Calm s t) (k : Bent s) : Bent t := fun j hj hc hn => by
  rw [h.map j] at hc ⊢
  rw [h.bend j, h.chan]
  exact k j hj hc (h.on j hn)

theorem startNote_bent {i c : Nat} (hc : c < 16) (p v : Nat) (k : Bent s) : Bent (startNote env s i c p v) := by
  intro j hj h hn
  rw [startNote_chan]
  rw [startNote_dev hc] at h hn ⊢
  by_cases e : j = i
  · subst e; simp [Dev.sync]
  · rw [Psg.upd_other _ _ _ _ e] at h hn ⊢; exact k j hj h hn

theorem noteOn_bent {c : Nat} (hc : c < 16) (p v : Nat) (k : Bent s) : Bent (noteOn env s c p v) := by
  unfold noteOn
  split
  · exact (noteOff_calm c p).bent k
  split
  · exact k
  split
  · exact (say_calm _).bent k
  rename_i i hi
  split
  · split
    · exact (say_calm _).bent k
    split
    · exact (Calm.same (s := s) (t := ub s) rfl rfl rfl).bent k
    rename_i st _
    simp only
    have h1 : Calm s (setChan s c fun m => { m with stack := st, lastVelocity := v }) := .setChan rfl
    generalize setChan s c (fun m => { m with stack := st, lastVelocity := v }) = t at *
    have h2 : ∀ g, Calm t (setDev t i fun d => { d with glide := g }) := fun g =>
      .upd (i := i) (d := { t.dev i with glide := g }) rfl rfl id rfl rfl rfl
    split
    · exact (h2 p).bent (h1.bent k)
    · exact startNote_bent hc p v ((h2 0).bent (h1.bent k))
  · exact startNote_bent hc p v k

theorem pitchBend_bent {c : Nat} (b : Nat) (k : Bent s) : Bent (pitchBend env s c b) := by
  unfold pitchBend
  obtain ⟨-, h2⟩ := foreach_devs (s := setChan s c fun m => { m with pitchBend := b }) (c := c)
    (body := fun s i => if (s.dev i).noteOn then updatePitchBend env s c i else s)
    (g := fun m d => if d.noteOn then { d with pitchBend := m.pitchBend } else d)
    (fun t i => by
      by_cases e : (t.dev i).noteOn = true
      · simp only [if_pos e]; exact updatePitchBend_dev c i
      · simp only [if_neg e]; exact (upd_triv _ _).symm)
    (fun t i => by
      by_cases e : (t.dev i).noteOn = true
      · simp only [if_pos e]; exact updatePitchBend_chan c i
      · simp only [if_neg e])
    (fun t i => by
      by_cases e : (t.dev i).noteOn = true
      · simp only [if_pos e]; exact updatePitchBend_dynamic c i
      · simp only [if_neg e])
  have h3 := foreach_chanEq (c := c) (body := fun s i => if (s.dev i).noteOn then updatePitchBend env s c i else s)
    (fun t i => by
      show (if (t.dev i).noteOn then updatePitchBend env t c i else t).chan = t.chan
      split
      · exact updatePitchBend_chan c i
      · rfl) (setChan s c fun m => { m with pitchBend := b })
  simp only
  generalize foreach (setChan s c fun m => { m with pitchBend := b }) c
    (fun s i => if (s.dev i).noteOn then updatePitchBend env s c i else s) = t at *
  simp only [setChan_dev, setChan_chan, Psg.upd_same] at h2 h3
  intro j hj hc hn
  rw [h3]
  rw [h2 j] at hc hn ⊢
  by_cases e : (s.dev j).midiChannel = c
  · rw [if_pos ⟨hj, e⟩] at hc hn ⊢
    by_cases o : (s.dev j).noteOn = true
    · rw [if_pos o]; simp [e]
    · rw [if_neg o] at hn; exact absurd hn o
  · rw [if_neg fun x => e x.2] at hc hn ⊢
    rw [Psg.upd_other _ _ _ _ e]; exact k j hj hc hn

theorem initDev_off (env : Env) (s : St) {i : Nat} (hi : i < 13) : ((initDev env s i).dev i).noteOn = false := by
  unfold initDev
  extract_lets a
  have ea : (a.dev i).noteOn = false ∧ (a.dev i).midiChannel = i := by
    simp only [a, setDev_dev, Psg.upd_same, and_self]
  clear_value a
  rw [updateDev_dev (by rw [ea.2]; omega), Psg.upd_same]
  exact ea.1

theorem resetChannels_bent : Bent (resetChannels env s) := by
  unfold resetChannels
  extract_lets a
  have key : ∀ n, n ≤ 13 → ∀ j, j < n → (((List.range n).foldl (initDev env) a).dev j).noteOn = false := by
    intro n
    induction n with
    | zero => intro _ j h; exact absurd h (by omega)
    | succ n ih =>
      intro hn j hj
      have h2 := ih (by omega)
      simp only [List.range_succ, List.foldl_append, List.foldl_cons, List.foldl_nil]
      generalize (List.range n).foldl (initDev env) a = t at *
      by_cases e : j = n
      · subst e; exact initDev_off env t (by omega)
      · rw [(initDev_dev env t (i := n) (by omega)).1, Psg.upd_other _ _ _ _ e]; exact h2 j (by omega)
  have h2 := key 13 (by omega)
  generalize (List.range 13).foldl (initDev env) a = t at *
  intro j hj _ hn
  simp only [applyDynamicMode, hj, if_true] at hn
  rw [h2 j hj] at hn
  cases hn

theorem resetAllControllers_bent {c : Nat} (sy : Synced s) (k : Bent s) : Bent (resetAllControllers env s c) := by
  unfold resetAllControllers
  extract_lets a b
  cases hd : s.dynamic with
  | true =>
    have hb : b.dynamic = true := by
      rw [← hd]
      exact List.foldlRecOn (motive := fun (t : St) => t.dynamic = s.dynamic) _ _ rfl fun t h i _ => by
        split
        · rw [initDev_dynamic]; exact h
        · exact h
    clear_value b
    rw [hb]
    intro j hj h
    simp [setDynamicMode, modeOf, applyDynamicMode, hj] at h
  | false =>
    have hm := sy.map hd
    have ca : ∀ j, j ≠ c → a.chan j = s.chan j := fun j e => by simp [a, Psg.upd_other _ _ _ _ e]
    have hb : b.dynamic = false ∧ b.chan = a.chan ∧ ∀ j, j < 13 → 
        (j ≠ c → b.dev j = s.dev j) ∧ (j = c → (b.dev j).noteOn = false) := by
      have := foreach_done (s := a) (c := c) (body := initDev env)
        (I := fun t => t.dynamic = false ∧ t.chan = a.chan ∧ ∀ j, j < 13 → (t.dev j).midiChannel = j ∧
          (j ≠ c → t.dev j = s.dev j))
        (Q := fun j t => j = c → (t.dev j).noteOn = false)
        (fun t i hi hic h => by
          have d := initDev_dev env t (i := i) hi
          refine ⟨by rw [initDev_dynamic]; exact h.1, by rw [initDev_chan]; exact h.2.1, fun j hj => ?_⟩
          by_cases e : j = i
          · subst e; exact ⟨d.2.1, fun x => absurd ((h.2.2 j hj).1.symm.trans hic) x⟩
          · rw [d.1, Psg.upd_other _ _ _ _ e]; exact h.2.2 j hj)
        (fun t i j h hi hic => by
          have d := initDev_dev env t (i := i) hi
          by_cases e : j = i
          · subst e; rw [d.2.1, (h.2.2 j hi).1]
          · rw [d.1, Psg.upd_other _ _ _ _ e])
        (fun t i h hi hic e => initDev_off env t hi)
        (fun t i j h hi hj hic e q x => by
          rw [(initDev_dev env t (i := i) hi).1, Psg.upd_other _ _ _ _ e]; exact q x)
        ⟨hd, rfl, fun j hj => ⟨hm j hj, fun _ => rfl⟩⟩
      have eb : foreach a c (initDev env) = b := rfl
      rw [eb] at this
      clear_value b
      refine ⟨this.1.1, this.1.2.1, fun j hj => ⟨(this.1.2.2 j hj).2, fun e => this.2.2 j hj ?_ e⟩⟩
      show (s.dev j).midiChannel = c
      rw [hm j hj]; exact e
    clear_value b
    obtain ⟨h1, h2, h3⟩ := hb
    rw [h1]
    intro j hj _ hn
    have ed : ((setDynamicMode b (modeOf false)).dev j) = { b.dev j with midiChannel := j } := by
      simp [setDynamicMode, modeOf, applyDynamicMode, hj]
    rw [ed] at hn ⊢
    rw [setDynamicMode_chan, h2]
    by_cases e : j = c
    · have := (h3 j hj).2 e; simp only at hn; rw [this] at hn; cases hn
    · have q := (h3 j hj).1 e
      simp only at hn ⊢
      rw [q] at hn ⊢
      rw [ca j e]
      have := k j hj
      rw [hm j hj] at this
      exact this (by omega) hn

theorem step_bent {op : Op} (h : ¬op.rewires) (sy : Synced s) (k : Bent s) : Bent (step env s op) := by
  have kub : Bent (ub s) := (Calm.same (s := s) (t := ub s) rfl rfl rfl).bent k
  cases op with
  | noteOn c p v =>
    simp only [step]; split
    · rename_i hc; exact noteOn_bent hc p v k
    · exact kub
  | noteOff c p =>
    simp only [step]; split
    · exact (noteOff_calm c p).bent k
    · exact kub
  | bend c b =>
    simp only [step]; split
    · exact pitchBend_bent b k
    · exact kub
  | program c p =>
    simp only [step]; split
    · unfold program
      have := Calm.trans (t := setChan s c fun m => { m with program := p }) (s := s) (.setChan rfl)
        (foreach_calm (c := c) (body := fun s i => updateProgram env s c i) (fun s i =>
          .upd (updateProgram_dev c i) rfl id rfl (by simp) (by simp)) _)
      simp only
      generalize foreach (setChan s c fun m => { m with program := p }) c (fun s i => updateProgram env s c i) = t at *
      exact (this.trans (.same rfl rfl rfl)).bent k
    · exact kub
  | remap c i => exact absurd trivial h
  | reset =>
    simp only [step]; unfold reset
    exact resetChannels_bent
  | tick => simp only [step]; exact (tick_calm (env := env) (s := s)).bent k
  | psgTick => simp only [step]; exact (Calm.same (s := s) (t := psgCall env s .tick) rfl rfl rfl).bent k
  | sysex d j =>
    simp only [step]
    unfold sysex
    split
    · exact k
    rename_i hlen
    split
    · unfold generalMidiReset; exact resetChannels_bent
    split
    · exact k
    rename_i h3
    have h3 : d.take 3 = [0, 0x22, 0x77] := by simpa using h3
    have h4 : d.take 4 = [0, 0x22, 0x77, d.getD 3 0] := by
      rw [List.take_add_one, h3, List.getElem?_eq_getElem (by omega), List.getD_eq_getElem?_getD,
        List.getElem?_eq_getElem (by omega)]
      rfl
    have hh : Bent (handler env s (d.getD 3 0) (d.drop 4) j) := by
      refine (handler_calm _ _ _ ?_ ?_).bent k <;> intro e <;> apply h <;> rw [e] at h4
      · exact .inl h4
      · exact .inr h4
    simp only
    split
    · exact (say_calm _).bent k
    · split
      · exact (say_calm _).bent k
      · exact hh
    · exact hh
  | cc c n v =>
    simp only [step]; split
    · have kk : Bent (ccSwitch env s c n v) := by
        by_cases h121 : n = 121
        · subst h121; rw [ccSwitch_121]; exact resetAllControllers_bent sy k
        exact (ccSwitch_calm c n v h h121).bent k
      unfold cc
      generalize ccSwitch env s c n v = t at *
      exact (Calm.same (s := t) (t := emit t (.changedCc c n v)) rfl rfl rfl).bent kk
    · exact kub

theorem run_bent (ops : List Op) (h : ∀ op ∈ ops, ¬op.rewires) (b : Bool) (m : Sram.Mem) :
    Bent (run env (boot env b m) ops) := by
  have hb : Synced (boot env b m) ∧ Bent (boot env b m) :=
    ⟨step_synced_reset (powerOn env b m), resetChannels_bent⟩
  unfold run
  exact (List.foldlRecOn (motive := fun t => Synced t ∧ Bent t) ops _ hb fun t k op ho =>
    ⟨step_synced (h op ho) k.1, step_bent (h op ho) k.1 k.2⟩).2

end Mdmi.Midi
