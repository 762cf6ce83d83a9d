import Verif.Proofs.MidiSync
import Verif.Spec.Tuning
/-!
# Bend, bend range and fine tune of MIDI channels
-/
namespace Mdmi.Midi

variable {env : Env} {s t u : St}

/-! ### The configuration -/

@[simp] theorem devNoteOn_cfg (i p c v) : (devNoteOn env s i p c v).cfg = s.cfg := by
  unfold devNoteOn; split <;> rfl
@[simp] theorem devNoteOff_cfg (i) : (devNoteOff env s i).cfg = s.cfg := by
  unfold devNoteOff; split <;> rfl
@[simp] theorem devVolume_cfg (i v) : (devVolume env s i v).cfg = s.cfg := by
  unfold devVolume; split <;> rfl
@[simp] theorem devProgram_cfg (i v) : (devProgram env s i v).cfg = s.cfg := by
  unfold devProgram; split <;> rfl
@[simp] theorem devAllNotesOff_cfg (i) : (devAllNotesOff env s i).cfg = s.cfg := by
  unfold devAllNotesOff; split <;> rfl
@[simp] theorem devPan_cfg (i v) : (devPan env s i v).cfg = s.cfg := by
  unfold devPan; split <;> rfl
@[simp] theorem devPitch_cfg (i p c) : (devPitch env s i p c).cfg = s.cfg := by
  unfold devPitch; split <;> rfl
@[simp] theorem setDev_cfg (i f) : (setDev s i f).cfg = s.cfg := rfl
@[simp] theorem setChan_cfg (i f) : (setChan s i f).cfg = s.cfg := rfl
@[simp] theorem fmCall_cfg (op) : (fmCall env s op).cfg = s.cfg := rfl
@[simp] theorem setDownstreamPitch_cfg (i) : (setDownstreamPitch env s i).cfg = s.cfg := by
  unfold setDownstreamPitch withPitch; simp only; split
  · simp
  · rfl
@[simp] theorem setDownstreamNoteOn_cfg (i v) : (setDownstreamNoteOn env s i v).cfg = s.cfg := by
  unfold setDownstreamNoteOn withPitch; simp only; split
  · simp
  · rfl
@[simp] theorem updateVolume_cfg (c i) : (updateVolume env s c i).cfg = s.cfg := by
  unfold updateVolume; split <;> simp
@[simp] theorem updatePan_cfg (c i) : (updatePan env s c i).cfg = s.cfg := by
  unfold updatePan; split <;> simp
@[simp] theorem updateProgram_cfg (c i) : (updateProgram env s c i).cfg = s.cfg := by
  unfold updateProgram; split <;> simp
@[simp] theorem updatePitchBend_cfg (c i) : (updatePitchBend env s c i).cfg = s.cfg := by
  unfold updatePitchBend; split <;> simp
@[simp] theorem updateDev_cfg (i) : (updateDev env s i).cfg = s.cfg := by
  unfold updateDev; simp only; split
  · simp
  · rfl
@[simp] theorem devChanNoteOn_cfg (i p v) : (devChanNoteOn env s i p v).cfg = s.cfg := by
  simp [devChanNoteOn]
@[simp] theorem devChanNoteOff_cfg (i) : (devChanNoteOff env s i).cfg = s.cfg := by
  simp [devChanNoteOff]
@[simp] theorem startNote_cfg (i c p v) : (startNote env s i c p v).cfg = s.cfg := by
  simp only [startNote, setDownstreamNoteOn_cfg, updateDev_cfg, setDev_cfg]
  split <;> simp
@[simp] theorem initDev_cfg (i) : (initDev env s i).cfg = s.cfg := by
  simp only [initDev, updateDev_cfg, setDev_cfg]



/-- Tuning of a MIDI channel. -/
def Chan.tune (m : Chan) : Nat × PitchCents × Int × Nat := (m.pitchBend, m.range, m.fineTune, m.rpn)

/-- The tuning of every MIDI channel stays. -/
structure Tuned (s t : St) : Prop where
  chan : ∀ c, (t.chan c).tune = (s.chan c).tune
  gm : t.cfg.disableNonGm = s.cfg.disableNonGm

theorem Tuned.refl : Tuned s s := ⟨fun _ => rfl, rfl⟩

theorem Tuned.trans (h : Tuned s t) (k : Tuned t u) : Tuned s u :=
  ⟨fun j => (k.chan j).trans (h.chan j), k.gm.trans h.gm⟩

theorem Tuned.same (h1 : t.chan = s.chan) (h2 : t.cfg = s.cfg) : Tuned s t := ⟨fun _ => by rw [h1], by rw [h2]⟩

theorem Tuned.setChan {c : Nat} {f : Chan → Chan} (h : (f (s.chan c)).tune = (s.chan c).tune) :
    Tuned s (setChan s c f) := by
  refine ⟨fun j => ?_, rfl⟩
  rw [setChan_chan]
  by_cases e : j = c
  · subst e; simpa using h
  · simp [Psg.upd_other _ _ _ _ e]

theorem fold_tuned {α : Type} {f : St → α → St} (l : List α) (h : ∀ s a, Tuned s (f s a)) (s : St) :
    Tuned s (l.foldl f s) := by
  induction l generalizing s with
  | nil => exact .refl
  | cons a l ih => exact (h s a).trans (ih _)

theorem foreach_tuned {c : Nat} {body : St → Nat → St} (h : ∀ s i, Tuned s (body s i)) (s : St) :
    Tuned s (foreach s c body) := by
  refine fold_tuned _ (fun s i => ?_) s
  split
  · exact h s i
  · exact .refl

theorem noteOffBody_tuned (c p next : Nat) (single : Bool) (x : St × Bool) (i : Nat) :
    Tuned x.1 (noteOffBody env c p next single x i).1 := by
  obtain ⟨s, handled⟩ := x
  unfold noteOffBody
  simp only
  split
  · split
    · split
      · split
        · exact .same rfl rfl
        · rename_i st _
          exact Tuned.trans (t := Midi.setChan s c fun m => { m with stack := st }) (.setChan rfl) (.same rfl rfl)
      · exact .same (by simp) (by simp)
    · exact .same (by simp) (by simp)
  · exact .refl

theorem noteOff_tuned (c p : Nat) : Tuned s (noteOff env s c p) := by
  unfold noteOff
  split
  · exact .same rfl rfl
  split
  · exact .same rfl rfl
  rename_i next st _
  have h1 : Tuned s (setChan s c fun m => { m with stack := st }) := .setChan rfl
  refine h1.trans ?_
  simp only
  generalize setChan s c _ = t
  generalize singleVoice t c true = single
  have h : ∀ (l : List Nat) (x : St × Bool), Tuned x.1 (l.foldl (noteOffBody env c p next single) x).1 := by
    intro l
    induction l with
    | nil => intro x; exact .refl
    | cons i l ih => intro x; exact Tuned.trans (noteOffBody_tuned c p next single x i) (ih _)
  exact h _ (t, false)

theorem say_tuned (m : Msg) : Tuned s (say s m) := .same rfl rfl

theorem noteOn_tuned (c p v : Nat) : Tuned s (noteOn env s c p v) := by
  unfold noteOn
  split
  · exact noteOff_tuned c p
  split
  · exact .refl
  split
  · exact say_tuned _
  split
  · split
    · exact say_tuned _
    · split
      · exact .same rfl rfl
      · rename_i st _
        simp only
        have h1 : Tuned s (setChan s c fun m => { m with stack := st, lastVelocity := v }) := .setChan rfl
        generalize setChan s c (fun m => { m with stack := st, lastVelocity := v }) = t at *
        split
        · exact h1.trans (.same rfl rfl)
        · exact h1.trans (.same (by simp) (by simp))
  · exact .same (by simp) (by simp)

theorem program_tuned (c p : Nat) : Tuned s (program env s c p) := by
  unfold program
  refine Tuned.trans (t := setChan s c fun m => { m with program := p }) (.setChan rfl) ?_
  simp only
  generalize setChan s c _ = s
  have h := foreach_tuned (c := c) (body := fun s i => updateProgram env s c i) (fun s i => .same (by simp) (by simp)) s
  revert h
  generalize foreach s c _ = t
  intro h
  exact h.trans (.same rfl rfl)

theorem allNotesOff_tuned (c : Nat) : Tuned s (allNotesOff env s c) :=
  foreach_tuned (fun s i => .same (by simp) (by simp)) s

theorem setFmParam_tuned (i k v : Nat) : Tuned s (setFmParam env s i k v) := by
  unfold setFmParam
  split
  · split <;> exact .same rfl rfl
  · split
    · split
      · exact .same rfl rfl
      · exact .same rfl rfl
    · exact .same rfl rfl

theorem tick_tuned : Tuned s (tick env s) := by
  unfold tick
  refine fold_tuned _ (fun s i => ?_) s
  split
  · exact .refl
  split
  · split
    · unfold processGlide
      split
      · exact .refl
      · exact .same (by simp) (by simp)
    · exact .refl
  · exact .same rfl rfl

theorem updatePbRange_loop (c : Nat) (s : St) : Tuned s
    (foreach s c fun s i => if (s.dev i).pitchBend ≠ 0x2000 then setDownstreamPitch env s i else s) := by
  refine foreach_tuned (fun s i => ?_) _
  split
  · exact .same (by simp) (by simp)
  · exact .refl

theorem setDynamicMode_gm (m : Mode) : (setDynamicMode s m).cfg.disableNonGm = s.cfg.disableNonGm := by
  unfold setDynamicMode; split <;> rfl

theorem remap_cfg (c i : Nat) : (remap s c i).cfg = s.cfg := by
  unfold remap; split
  · rfl
  split
  · split <;> rfl
  · split <;> rfl

theorem setDynamicMode_tuned (m : Mode) : Tuned s (setDynamicMode s m) :=
  ⟨fun _ => by rw [setDynamicMode_chan], setDynamicMode_gm m⟩

theorem setPolyphonic_tuned (e : Bool) : Tuned s (setPolyphonic s e) := by
  unfold setPolyphonic
  simp only
  split
  · exact (setDynamicMode_tuned _).trans (fold_tuned _ (fun s i => .same (remap_chan 0 i) (remap_cfg 0 i)) _)
  · exact setDynamicMode_tuned _

/-- Controllers of the tuning. -/
def tuneCc (k : Nat) : Bool := k == 101 || k == 100 || k == 6 || k == 38 || k == 85 || k == 121

theorem ccSwitch_tuned (c k v : Nat) (h : tuneCc k = false) : Tuned s (ccSwitch env s c k v) := by
  unfold ccSwitch
  split
  · split
    · exact .setChan rfl
    · exact .same rfl rfl
  · refine Tuned.trans (t := setChan s c _) (.setChan rfl) (foreach_tuned (fun s i => ?_) _)
    exact .same (by simp) (by simp)
  · refine Tuned.trans (t := setChan s c _) (.setChan rfl) (foreach_tuned (fun s i => ?_) _)
    exact .same (by simp) (by simp)
  · exact allNotesOff_tuned c
  · exact allNotesOff_tuned c
  · exact setPolyphonic_tuned _
  · exact .same rfl rfl
  · exact absurd h (by decide)
  · split <;> exact .same rfl rfl
  · split
    · exact .refl
    · exact .setChan rfl
  · exact .setChan rfl
  · exact absurd h (by decide)
  · exact absurd h (by decide)
  · exact absurd h (by decide)
  · exact absurd h (by decide)
  · exact absurd h (by decide)
  · exact .refl
  · exact .refl
  · exact .refl
  · exact .refl
  · unfold storeFromChannel; split <;> exact .same rfl rfl
  · exact foreach_tuned (fun s i => setFmParam_tuned i k v) s

theorem clearAll_tuned (d : List Nat) : Tuned s (clearAll env s d) := by
  have h := fold_tuned (f := fun s n => fmCall env s (.clear n)) (List.range 128) (fun _ _ => .same rfl rfl) s
  unfold clearAll
  split
  · exact h.trans (say_tuned _)
  · exact .same rfl rfl

theorem handler_tuned (c : Nat) (e : List Nat) (j : Nat) (h4 : c ≠ 4) : Tuned s (handler env s c e j) := by
  unfold handler
  split
  · exact .same (remap_chan _ _) (remap_cfg _ _)
  · exact .same rfl rfl
  · exact setDynamicMode_tuned _
  · exact absurd rfl h4
  · exact ⟨fun _ => rfl, rfl⟩
  · unfold loadPsgEnvelope; split <;> exact .same rfl rfl
  · exact ⟨fun _ => rfl, rfl⟩
  · exact .same rfl rfl
  · exact .same rfl rfl
  · unfold storeProgram; split <;> exact .same rfl rfl
  · unfold clearProgram; split <;> exact .same rfl rfl
  · exact clearAll_tuned e
  · unfold dumpPreset; split
    · split <;> exact .same rfl rfl
    · exact .same rfl rfl
  · unfold dumpChannel; simp only; split
    · exact .same rfl rfl
    split
    · split
      · split <;> exact .same rfl rfl
      · exact .same rfl rfl
    · exact .same rfl rfl
  · exact .refl

theorem fold_cfgEq {α : Type} {f : St → α → St} (h : ∀ s a, (f s a).cfg = s.cfg) (l : List α) (s : St) :
    (l.foldl f s).cfg = s.cfg := by
  induction l generalizing s with
  | nil => rfl
  | cons a l ih => rw [List.foldl_cons, ih, h]

theorem foreach_cfgEq {c : Nat} {body : St → Nat → St} (h : ∀ s a, (body s a).cfg = s.cfg) (s : St) :
    (foreach s c body).cfg = s.cfg := by
  refine fold_cfgEq (fun s a => ?_) _ _
  split
  · exact h s a
  · rfl

theorem applyDynamicMode_cfg : (applyDynamicMode s).cfg = s.cfg := rfl

theorem resetChannels_cfg : (resetChannels env s).cfg = s.cfg := by
  unfold resetChannels
  extract_lets a
  rw [applyDynamicMode_cfg, fold_cfgEq (fun s i => initDev_cfg i)]

theorem ccSwitch_101 (c v : Nat) : ccSwitch env s c 101 v = updateRpn s c v true := by unfold ccSwitch; rfl
theorem ccSwitch_100 (c v : Nat) : ccSwitch env s c 100 v = updateRpn s c v false := by unfold ccSwitch; rfl
theorem ccSwitch_6 (c v : Nat) : ccSwitch env s c 6 v = rpnDataEntry env s c v true := by unfold ccSwitch; rfl
theorem ccSwitch_38 (c v : Nat) : ccSwitch env s c 38 v = rpnDataEntry env s c v false := by unfold ccSwitch; rfl
theorem ccSwitch_85 (c v : Nat) : ccSwitch env s c 85 v =
    if s.cfg.disableNonGm then s else setChan s c fun m => { m with fineTune := toS8 ((v : Int) - 64) } := by
  unfold ccSwitch; rfl

/-- The tuning of MIDI channel `c` is `x`. -/
structure HasTuning (x : Tuning) (c : Nat) (s : St) : Prop where
  bend : (s.chan c).pitchBend = x.bend
  semitones : (s.chan c).range.pitch = x.semitones
  cents : (s.chan c).range.cents = x.cents
  fine : (s.chan c).fineTune = x.fine
  lsb : (s.chan c).rpn % 128 = x.rpnLsb
  msb : (s.chan c).rpn / 128 = x.rpnMsb ∨ (s.chan c).rpn / 128 = 254 ∧ x.rpnMsb = 127
  gm : s.cfg.disableNonGm = x.gmOnly

theorem Tuned.has {x : Tuning} {c : Nat} (h : Tuned s t) (k : HasTuning x c s) : HasTuning x c t := by
  have e := h.chan c
  simp only [Chan.tune, Prod.mk.injEq] at e
  obtain ⟨e1, e2, e3, e4⟩ := e
  obtain ⟨a, b, d, f, g, i, j⟩ := k
  exact ⟨by rw [e1, a], by rw [e2, b], by rw [e2, d], by rw [e3, f], by rw [e4, g], by rw [e4]; exact i, by rw [h.gm, j]⟩

theorem HasTuning.fresh {x : Tuning} {c : Nat} (h : s.chan c = freshChan) (hg : s.cfg.disableNonGm = x.gmOnly) :
    HasTuning { Tuning.initial with gmOnly := x.gmOnly } c s := by
  constructor <;> try rw [h]
  · rfl
  · rfl
  · rfl
  · rfl
  · rfl
  · exact .inr ⟨rfl, rfl⟩
  · exact hg

theorem HasTuning.rpn {x : Tuning} {c : Nat} (k : HasTuning x c s) : (s.chan c).rpn = 0 ↔ x.rpnMsb = 0 ∧ x.rpnLsb = 0 := by
  have := k.lsb; have := k.msb
  omega

theorem HasTuning.of {x : Tuning} {c : Nat} {m : Chan} (hc : t.chan c = m) (hg : t.cfg.disableNonGm = x.gmOnly)
    (h : m.pitchBend = x.bend ∧ m.range.pitch = x.semitones ∧ m.range.cents = x.cents ∧ m.fineTune = x.fine ∧
      m.rpn % 128 = x.rpnLsb ∧ (m.rpn / 128 = x.rpnMsb ∨ m.rpn / 128 = 254 ∧ x.rpnMsb = 127)) : HasTuning x c t := by
  subst hc
  exact ⟨h.1, h.2.1, h.2.2.1, h.2.2.2.1, h.2.2.2.2.1, h.2.2.2.2.2, hg⟩

theorem setChan_own (c : Nat) (f : Chan → Chan) : (setChan s c f).chan c = f (s.chan c) := by simp

theorem setChan_else {c l : Nat} (h : l ≠ c) (f : Chan → Chan) : (setChan s l f).chan c = s.chan c := by
  rw [setChan_chan, Psg.upd_other _ _ _ _ (Ne.symm h)]

theorem step_tuning {x : Tuning} {c : Nat} (hc : c < 16) {op : Op} (hw : op.Wf) (k : HasTuning x c s) :
    HasTuning (x.after c op) c (step env s op) := by
  cases op with
  | noteOn l p v =>
    simp only [step, Tuning.after, hw.1, if_true]
    exact (noteOn_tuned l p v).has k
  | noteOff l p =>
    simp only [step, Tuning.after, hw.1, if_true]
    exact (noteOff_tuned l p).has k
  | program l p =>
    simp only [step, Tuning.after, hw.1, if_true]
    exact (program_tuned l p).has k
  | remap l i => exact (Tuned.same (remap_chan l i) (remap_cfg l i)).has k
  | tick => simp only [step, Tuning.after]; exact (tick_tuned (env := env) (s := s)).has k
  | psgTick => simp only [step, Tuning.after]; exact (Tuned.same (s := s) (t := psgCall env s .tick) rfl rfl).has k
  | reset =>
    simp only [step, Tuning.after]
    unfold reset
    extract_lets a b e f
    have := HasTuning.fresh (s := resetChannels env f) (x := .initial) (resetChannels_chan hc) (by rw [resetChannels_cfg]; rfl)
    exact this
  | bend l b =>
    simp only [step, Tuning.after, hw.1, if_true]
    unfold pitchBend
    have h := foreach_tuned (c := l) (body := fun s i => if (s.dev i).noteOn then updatePitchBend env s l i else s)
      (fun s i => by
        show Tuned s (if (s.dev i).noteOn then updatePitchBend env s l i else s)
        split
        · exact .same (by simp) (by simp)
        · exact .refl) (setChan s l fun m => { m with pitchBend := b })
    refine h.has ?_
    by_cases e : l = c
    · subst e
      rw [if_pos rfl]
      exact .of (setChan_own l _) k.gm ⟨rfl, k.semitones, k.cents, k.fine, k.lsb, k.msb⟩
    · rw [if_neg e]
      exact .of (setChan_else e _) k.gm ⟨k.bend, k.semitones, k.cents, k.fine, k.lsb, k.msb⟩
  | sysex d j =>
    simp only [step, Tuning.after]
    unfold sysex
    by_cases hlen : d.length < 4
    · rw [if_pos hlen, if_neg, if_neg]
      · exact k
      · rintro ⟨-, e⟩; omega
      · intro e
        have := congrArg List.length e
        simp at this; omega
    rw [if_neg hlen]
    by_cases g : d.take 4 = [0x7E, 0x7F, 0x09, 0x01]
    · rw [if_pos g, if_pos g]
      unfold generalMidiReset
      extract_lets a b
      have hb : b.cfg = s.cfg := by
        have ha : a.cfg = s.cfg := fold_cfgEq (fun t l => foreach_cfgEq (fun u i => by simp) t) _ _
        clear_value a
        simp only [b]; split
        · exact ha
        · exact ha
      clear_value b
      exact HasTuning.fresh (resetChannels_chan hc) (by rw [resetChannels_cfg, hb]; exact k.gm)
    rw [if_neg g, if_neg g]
    by_cases h3 : d.take 3 ≠ [0, 0x22, 0x77]
    · rw [if_pos h3, if_neg]
      · exact k
      · rintro ⟨e, -⟩
        refine h3 ?_
        have := congrArg (List.take 3) e
        simpa [List.take_take] using this
    rw [if_neg h3]
    have h3 : d.take 3 = [0, 0x22, 0x77] := by simpa using h3
    have h4 : d.take 4 = [0, 0x22, 0x77, d.getD 3 0] := by
      rw [List.take_add_one, h3, List.getElem?_eq_getElem (by omega), List.getD_eq_getElem?_getD,
        List.getElem?_eq_getElem (by omega)]
      rfl
    by_cases e4 : d.getD 3 0 = 4
    · rw [e4] at h4
      simp only [e4, commandLength]
      by_cases hl : (d.drop 4).length ≠ 1
      · rw [if_pos hl, if_neg (fun e => hl (by simp; omega))]
        exact (say_tuned _).has k
      · rw [if_neg hl]
        simp at hl
        rw [if_pos ⟨h4, by omega⟩]
        have g : (d.drop 4).getD 0 0 = d.getD 4 0 := by simp
        simp only [handler, g]
        exact ⟨k.bend, k.semitones, k.cents, k.fine, k.lsb, k.msb, rfl⟩
    · rw [if_neg (by rw [h4]; rintro ⟨e, -⟩; simp at e; exact e4 (by simpa using e))]
      have hh := (handler_tuned (env := env) (s := s) (d.getD 3 0) (d.drop 4) j e4).has k
      simp only
      split
      · exact (say_tuned _).has k
      · split
        · exact (say_tuned _).has k
        · exact hh
      · exact hh
  | cc l n v =>
    obtain ⟨hl, -, hv⟩ := hw
    simp only [step, hl, if_true]
    unfold cc
    suffices kk : HasTuning (x.after c (.cc l n v)) c (ccSwitch env s l n v) by
      generalize ccSwitch env s l n v = t at *
      exact (Tuned.same (s := t) (t := emit t (.changedCc l n v)) rfl rfl).has kk
    by_cases e101 : n = 101
    · subst e101
      rw [ccSwitch_101]
      unfold updateRpn
      simp only [Tuning.after]
      by_cases e : l = c
      · subst e
        refine .of (setChan_own l _) ?_ ?_
        · simp; exact k.gm
        have o : ((v * 128 ||| ((s.chan l).rpn % 128)) % 65536) = v * 128 + (s.chan l).rpn % 128 := by
          rw [show v * 128 = v <<< 7 by simp [Nat.shiftLeft_eq], ← Nat.shiftLeft_add_eq_or_of_lt (by omega)]
          simp only [Nat.shiftLeft_eq]; omega
        have := k.lsb
        simp only [if_true, o]
        exact ⟨k.bend, k.semitones, k.cents, k.fine, by omega, .inl (by omega)⟩
      · rw [if_neg e]
        exact .of (setChan_else e _) k.gm ⟨k.bend, k.semitones, k.cents, k.fine, k.lsb, k.msb⟩
    by_cases e100 : n = 100
    · subst e100
      rw [ccSwitch_100]
      unfold updateRpn
      simp only [Tuning.after]
      by_cases e : l = c
      · subst e
        refine .of (setChan_own l _) ?_ ?_
        · simp; exact k.gm
        have := k.msb
        simp only [if_true]
        refine ⟨k.bend, k.semitones, k.cents, k.fine, ?_, ?_⟩
        · simp; omega
        · simp; omega
      · rw [if_neg e]
        exact .of (setChan_else e _) k.gm ⟨k.bend, k.semitones, k.cents, k.fine, k.lsb, k.msb⟩
    by_cases e6 : n = 6
    · subst e6
      rw [ccSwitch_6]
      unfold rpnDataEntry
      by_cases e : l = c
      · subst e
        by_cases r : (s.chan l).rpn = 0
        · rw [if_pos r]
          unfold updatePbRange
          refine (updatePbRange_loop l _).has ?_
          refine .of (setChan_own l _) ?_ ?_
          · simp [Tuning.after, k.rpn.1 r]; exact k.gm
          · simp [Tuning.after, k.rpn.1 r]
            have := k.rpn.1 r
            exact ⟨k.bend, k.cents, k.fine, by omega, by omega⟩
        · rw [if_neg r]
          have nr : ¬(x.rpnMsb = 0 ∧ x.rpnLsb = 0) := fun h => r (k.rpn.2 h)
          simp [Tuning.after, nr]
          exact (say_tuned _).has k
      · have ka : x.after c (.cc l 6 v) = x := by simp [Tuning.after, e]
        rw [ka]
        split
        · unfold updatePbRange
          refine (updatePbRange_loop l _).has ?_
          exact .of (setChan_else e _) k.gm ⟨k.bend, k.semitones, k.cents, k.fine, k.lsb, k.msb⟩
        · exact (say_tuned _).has k
    by_cases e38 : n = 38
    · subst e38
      rw [ccSwitch_38]
      unfold rpnDataEntry
      by_cases e : l = c
      · subst e
        by_cases r : (s.chan l).rpn = 0
        · rw [if_pos r]
          unfold updatePbRange
          refine (updatePbRange_loop l _).has ?_
          refine .of (setChan_own l _) ?_ ?_
          · simp [Tuning.after, k.rpn.1 r]; exact k.gm
          · simp [Tuning.after, k.rpn.1 r]
            exact ⟨k.bend, k.semitones, toS8_of (by omega) (by omega), k.fine, by omega, by omega⟩
        · rw [if_neg r]
          have nr : ¬(x.rpnMsb = 0 ∧ x.rpnLsb = 0) := fun h => r (k.rpn.2 h)
          simp [Tuning.after, nr]
          exact (say_tuned _).has k
      · have ka : x.after c (.cc l 38 v) = x := by simp [Tuning.after, e]
        rw [ka]
        split
        · unfold updatePbRange
          refine (updatePbRange_loop l _).has ?_
          exact .of (setChan_else e _) k.gm ⟨k.bend, k.semitones, k.cents, k.fine, k.lsb, k.msb⟩
        · exact (say_tuned _).has k
    by_cases e85 : n = 85
    · subst e85
      rw [ccSwitch_85]
      by_cases e : l = c
      · subst e
        cases g : x.gmOnly with
        | true => rw [if_pos (by rw [k.gm, g])]; simp [Tuning.after, g]; exact k
        | false =>
          rw [if_neg (by rw [k.gm, g]; simp)]
          simp [Tuning.after, g]
          exact .of (setChan_own l _) (by rw [← g]; exact k.gm) ⟨k.bend, k.semitones, k.cents, toS8_of (by omega) (by omega), k.lsb, k.msb⟩
      · have ka : x.after c (.cc l 85 v) = x := by simp [Tuning.after, e]
        rw [ka]
        split
        · exact k
        · exact .of (setChan_else e _) k.gm ⟨k.bend, k.semitones, k.cents, k.fine, k.lsb, k.msb⟩
    by_cases e121 : n = 121
    · subst e121
      rw [ccSwitch_121]
      unfold resetAllControllers
      extract_lets a b
      have hb : b.chan = a.chan ∧ b.cfg = s.cfg :=
        ⟨foreach_chanEq (initDev_chan env) _, foreach_cfgEq (fun s i => initDev_cfg i) _⟩
      clear_value b
      refine (setDynamicMode_tuned _).has ?_
      by_cases e : l = c
      · subst e
        simp [Tuning.after]
        exact HasTuning.fresh (by rw [hb.1]; exact setChan_own l _) (by rw [hb.2]; exact k.gm)
      · have ka : x.after c (.cc l 121 v) = x := by simp [Tuning.after, e]
        rw [ka]
        exact .of (by rw [hb.1]; exact setChan_else e _) (by rw [hb.2]; exact k.gm)
          ⟨k.bend, k.semitones, k.cents, k.fine, k.lsb, k.msb⟩
    have ka : x.after c (.cc l n v) = x := by simp [Tuning.after, e101, e100, e6, e38, e85, e121]
    rw [ka]
    exact (ccSwitch_tuned l n v (by simp [tuneCc, *])).has k

theorem run_tuning {c : Nat} (hc : c < 16) (ops : List Op) (hw : ∀ op ∈ ops, op.Wf) (b : Bool) (m : Sram.Mem) :
    HasTuning (tuningOf c ops) c (run env (boot env b m) ops) := by
  have hb : HasTuning .initial c (boot env b m) := by
    unfold boot reset
    extract_lets a b e f
    exact HasTuning.fresh (s := resetChannels env f) (x := .initial) (resetChannels_chan hc) (by rw [resetChannels_cfg]; rfl)
  unfold tuningOf
  generalize boot env b m = s at *
  generalize Tuning.initial = x at *
  induction ops generalizing s x with
  | nil => exact hb
  | cons o l ih =>
    exact ih (fun y hy => hw y (.tail _ hy)) (step env s o) (x.after c o) (step_tuning hc (hw o (.head _)) hb)

end Mdmi.Midi
