import Verif.Proofs.MidiNote
/-!
# The FM calls the engine makes
-/
namespace Mdmi.Midi

variable {env : Env} {tame : Bool} {D A C : Nat → Prop} {G : Fm.Op → Prop} {H : Psg.Op → Prop} {s t u : St}

/-- Raw register writes: system exclusive commands 08 and 09. -/
def Op.raw : Op → Prop
  | .sysex d _ => d.take 3 = [0x00, 0x22, 0x77] ∧ (d.getD 3 0 = 0x08 ∨ d.getD 3 0 = 0x09)
  | _ => False

/-- Messages that write user preset `n`: commands 0A, 0B (one program), 0C (all), and controller 87. -/
def Op.stores (n : Nat) : Op → Prop
  | .sysex d _ => d.take 3 = [0x00, 0x22, 0x77] ∧
      ((d.getD 3 0 = 0x0A ∨ d.getD 3 0 = 0x0B) ∧ d.getD 5 0 = n ∨ d.getD 3 0 = 0x0C)
  | .cc _ k v => k = 87 ∧ v = n
  | _ => False

/-- The FM calls a message may lead to. -/
def Op.makes (op : Op) (o : Fm.Op) : Prop :=
  match o with
  | .synth q =>
    (∃ p r d, q = .directWrite p r d ∧ op.raw) ∨
    (∃ c k v, op = .cc c k v ∧ ((k = 78 ∧ ∃ e, q = .enableDac e) ∨ (k = 80 ∧ q = .specialMode (v / 64 ≠ 0)) ∨
      ∃ inv n, fmParam inv n k v = some q))
  | .store n _ | .clear n | .storeFrom _ n => op.stores n
  | .reset | .smReset => op = .reset
  | _ => True

/-- A sequence of legal FM calls in `P`. -/
def FmBy (env : Env) (P : Fm.Op → Prop) (f g : Fm.St) : Prop :=
  ∃ l : List Fm.Op, (∀ o ∈ l, P o ∧ o.Legal) ∧ g = Fm.run env.fm f l

variable {P Q : Fm.Op → Prop} {f g h : Fm.St}

theorem FmBy.refl : FmBy env P f f := ⟨[], by simp, rfl⟩

theorem FmBy.of_eq (e : g = f) : FmBy env P f g := e ▸ FmBy.refl

theorem FmBy.trans (a : FmBy env P f g) (b : FmBy env P g h) : FmBy env P f h := by
  obtain ⟨l, hl, rfl⟩ := a
  obtain ⟨k, hk, rfl⟩ := b
  refine ⟨l ++ k, fun o ho => ?_, by simp [Fm.run]⟩
  rcases List.mem_append.1 ho with ho | ho
  · exact hl o ho
  · exact hk o ho

theorem FmBy.one {o : Fm.Op} (h1 : P o) (h2 : o.Legal) : FmBy env P f (Fm.step env.fm f o) :=
  ⟨[o], by simp [h1, h2], rfl⟩

theorem FmBy.mono (a : FmBy env P f g) (k : ∀ o, P o → Q o) : FmBy env Q f g :=
  let ⟨l, h1, h2⟩ := a; ⟨l, fun o ho => ⟨k o (h1 o ho).1, (h1 o ho).2⟩, h2⟩

theorem fmCall_by {o : Fm.Op} (h1 : P o) (h2 : o.Legal) : FmBy env P s.fm (fmCall env s o).fm := .one h1 h2

theorem say_by {m : Msg} (h : FmBy env P f s.fm) : FmBy env P f (say s m).fm := h

theorem emit_by {m : Ev} (h : FmBy env P f s.fm) : FmBy env P f (emit s m).fm := h

theorem voiceFm_makes {i : Nat} {op : Op} {o : Fm.Op} (h : voiceFm i o) : op.makes o := by
  cases o <;> first | trivial | exact False.elim h

theorem Path.fmBy {op : Op} (h : Path env tame A C op.makes H s t) : FmBy env op.makes s.fm t.fm := by
  obtain ⟨l, hl, e⟩ := h.frame.fm
  exact ⟨l, fun o ho => ⟨(hl o ho).1.elim (fun ⟨i, _, _, h⟩ => voiceFm_makes h) id, (hl o ho).2⟩, e⟩

theorem initDev_fmBy {op : Op} (he : env.Ok) (hs : OkOn env tame D s) {i : Nat} (hD : D i) :
    FmBy env op.makes s.fm (initDev env s i).fm :=
  (initDev_path (A := fun _ => True) (C := fun _ => True) (H := fun _ => True) he hs hD trivial).fmBy

theorem initDevs_fmBy {op : Op} (he : env.Ok) : ∀ n, n ≤ 13 → ∀ s, OkOn env tame (fun _ => False) s →
    FmBy env op.makes s.fm ((List.range n).foldl (initDev env) s).fm := by
  intro n
  induction n with
  | zero => intro _ s _; exact .refl
  | succ n ih =>
    intro hn s h
    have h0 := ih (by omega) s h
    have h1 := initDevs_ok he n (by omega) s h
    rw [List.range_succ, List.foldl_append]
    revert h1 h0
    generalize (List.range n).foldl (initDev env) s = t
    intro h0 h1
    simp only [List.foldl_cons, List.foldl_nil]
    refine h0.trans ?_
    have h2 : OkOn env tame (· < n + 1) (setDev t n (freshDev n)) := by
      refine { h1 with lt := fun i hi => by omega, dev := fun i hi => ?_ }
      by_cases e : i = n
      · subst e; simpa using freshDev_ok (by omega) _
      · simpa [Psg.upd_other _ _ _ _ e] using h1.dev i (by omega)
    have := (updateDev_path (A := fun _ => True) (C := fun _ => True) (G := op.makes) (H := fun _ => True) (i := n) h2
      (by omega) trivial he (by simp [freshDev]; omega)).fmBy
    exact this

theorem applyDynamicMode_fm : (applyDynamicMode s).fm = s.fm := rfl

theorem resetChannels_fmBy {op : Op} (he : env.Ok) (hf : Fm.FmSafe s.fm) (hp : Psg.Good env.psg s.psg)
    (hu : s.fault = false) : FmBy env op.makes s.fm (resetChannels env s).fm := by
  have h : OkOn env false (fun _ => False) { s with chan := fun c => if c < 16 then freshChan else s.chan c } := by
    refine ⟨by simp, by simp, fun c hc => ?_, hf, hp, hu⟩
    simp only [if_pos hc]; exact freshChan_ok
  unfold resetChannels
  simp only [applyDynamicMode_fm]
  have e : ({ s with chan := fun c => if c < 16 then freshChan else s.chan c } : St).fm = s.fm := rfl
  revert h e
  generalize ({ s with chan := fun c => if c < 16 then freshChan else s.chan c } : St) = w
  intro h e
  rw [← e]
  exact initDevs_fmBy he 13 (by omega) _ h

theorem reset_split (env : Env) (s : St) : ∃ u, reset env s = resetChannels env u ∧
    u.fm = Fm.step env.fm (Fm.step env.fm s.fm .reset) .smReset ∧ u.psg = Psg.step env.psg s.psg .reset ∧
    u.fault = s.fault := ⟨_, rfl, rfl, rfl, rfl⟩

theorem reset_fmBy (he : env.Ok) (hf : Fm.FmSafe s.fm) (hp : Psg.Good env.psg s.psg) (hu : s.fault = false) :
    FmBy env Op.reset.makes s.fm (reset env s).fm := by
  obtain ⟨u, e, e1, e2, e3⟩ := reset_split env s
  have f1 : Fm.FmSafe (Fm.step env.fm s.fm .reset) := hf.step he.fm trivial
  have f2 : Fm.FmSafe u.fm := e1 ▸ f1.step he.fm trivial
  have a : FmBy env Op.reset.makes s.fm u.fm :=
    e1 ▸ FmBy.trans (.one (o := .reset) rfl trivial) (.one (o := .smReset) rfl trivial)
  rw [e]
  exact a.trans (resetChannels_fmBy he f2 (e2 ▸ Psg.step_good he.psg hp .reset trivial) (e3.trans hu))

theorem setDynamicMode_fm (m : Mode) : (setDynamicMode s m).fm = s.fm := by cases m <;> rfl

theorem remap_fm (c i : Nat) : (remap s c i).fm = s.fm := by
  unfold remap
  split
  · rfl
  split
  · split <;> rfl
  split <;> rfl

theorem setPolyphonic_fm (b : Bool) : (setPolyphonic s b).fm = s.fm := by
  unfold setPolyphonic
  have h := setDynamicMode_fm (s := s) (modeOf b)
  generalize setDynamicMode s (modeOf b) = t at h
  simp only
  split
  · exact List.foldlRecOn (motive := fun u : St => u.fm = s.fm) _ _ h fun u hu i _ => (remap_fm 0 i).trans hu
  · exact h

theorem resetAllControllers_fmBy {op : Op} (he : env.Ok) (hs : Ok env tame s) {c : Nat} (hc : c < 16) :
    FmBy env op.makes s.fm (resetAllControllers env s c).fm := by
  unfold resetAllControllers
  simp only [setDynamicMode_fm]
  have h1 : Path env tame (fun _ => True) (· = c) (fun _ => True) (fun _ => True) s
    (setChan s c fun _ => freshChan) := Path.refl.chan rfl hc freshChan_ok
  have h1' := h1.ok he hs
  have h2 : (setChan s c fun _ => freshChan).fm = s.fm := rfl
  clear h1
  generalize (setChan s c fun _ => freshChan) = w at *
  rw [← h2]
  unfold foreach
  refine (List.foldlRecOn (motive := fun u : St => FmBy env op.makes w.fm u.fm ∧ Ok env tame u) (List.range 13) _
    ⟨.refl, h1'⟩ fun t ht i hi => ?_).1
  split
  · exact ⟨ht.1.trans (initDev_fmBy he ht.2 (List.mem_range.1 hi)),
      (initDev_path (A := fun _ => True) (C := fun _ => True) (G := fun _ => True) (H := fun _ => True)
      he ht.2 (List.mem_range.1 hi) trivial).ok he ht.2⟩
  · exact ht

theorem generalMidiReset_fmBy {op : Op} (he : env.Ok) (hs : Ok env tame s) :
    FmBy env op.makes s.fm (generalMidiReset env s).fm := by
  unfold generalMidiReset
  have h1 : FmBy env op.makes s.fm ((List.range 16).foldl (allNotesOff env) s).fm ∧
      Ok env tame ((List.range 16).foldl (allNotesOff env) s) := by
    refine List.foldlRecOn (motive := fun u : St => FmBy env op.makes s.fm u.fm ∧ Ok env tame u) (List.range 16) _
      ⟨.refl, hs⟩ fun t ht c _ => ?_
    have k := (allNotesOff_path (C := fun _ => True) (G := op.makes) (H := fun _ => True) (c := c) he ht.2).1
    exact ⟨ht.1.trans k.fmBy, k.ok he ht.2⟩
  revert h1
  generalize (List.range 16).foldl (allNotesOff env) s = t
  intro h1
  refine h1.1.trans ?_
  simp only
  split
  · exact resetChannels_fmBy (s := { t with dynamic := true }) he h1.2.fm h1.2.psg h1.2.fault
  · exact resetChannels_fmBy he h1.2.fm h1.2.psg h1.2.fault

theorem ccSwitch_fmBy (he : env.Ok) (hs : Ok env tame s) {c k v : Nat} (hc : c < 16) (hv : v < 128)
    (hd : tame = false → ¬(k = 78 ∧ 64 ≤ v)) : FmBy env (Op.cc c k v).makes s.fm (ccSwitch env s c k v).fm := by
  by_cases h80 : k = 80
  · subst h80
    refine FmBy.one (o := .synth (.specialMode (v / 64 ≠ 0))) (.inr ⟨c, 80, v, rfl, .inr (.inl ⟨rfl, rfl⟩)⟩)
      (.inl (by simp [Synth.Op.Legal, Synth.Op.chan, Synth.Op.oper]))
  by_cases h87 : k = 87
  · subst h87
    exact (storeFromChannel_path (env := env) (A := fun _ => True) (C := fun _ => True) (G := (Op.cc c 87 v).makes)
      (H := fun _ => True) hs hv (fun _ => ⟨rfl, rfl⟩)).fmBy
  unfold ccSwitch
  split
  · split <;> exact .refl
  · have h1 : Ok env tame (setChan s c fun m => { m with volume := v }) :=
      setChan_ok hs fun h => { hs.chan c h with volume := hv }
    exact (updateVolume_all (C := fun _ => True) (H := fun _ => True) he h1 hc).fmBy
  · have h1 : Ok env tame (setChan s c fun m => { m with pan := v }) :=
      setChan_ok hs fun h => { hs.chan c h with }
    exact (updatePan_all (C := fun _ => True) (H := fun _ => True) he h1).fmBy
  · exact (allNotesOff_path (C := fun _ => True) (H := fun _ => True) he hs).1.fmBy
  · exact (allNotesOff_path (C := fun _ => True) (H := fun _ => True) he hs).1.fmBy
  · exact .of_eq (setPolyphonic_fm _)
  · exact absurd rfl h80
  · exact resetAllControllers_fmBy he hs hc
  · split <;> exact .refl
  · split <;> exact .refl
  · exact .refl
  · split <;> exact .refl
  · exact (rpnDataEntry_path (H := fun _ => True) he hs hc).fmBy
  · exact (rpnDataEntry_path (H := fun _ => True) he hs hc).fmBy
  iterate 6 exact .refl
  · exact absurd rfl h87
  · refine (foreach_path (A := fun _ => True) (C := fun _ => True) (G := (Op.cc c k v).makes) (H := fun _ => True)
      he hs _ ?_).1.fmBy
    intro t i ht _ hi _
    refine setFmParam_path ht hi (fun _ => trivial)
      (fun q hq => .inr ⟨c, k, v, rfl, .inr (.inr ⟨_, _, hq⟩)⟩) 
      (fun h e => .inr ⟨c, k, v, rfl, .inl ⟨h, e, rfl⟩⟩) hd

/-- Calls other than notes of the special mode of channel 3. -/
def _root_.Mdmi.Fm.Op.plain : Fm.Op → Prop
  | .smNoteOn _ _ _ _ => False
  | _ => True

theorem handler_plain {k : Nat} {d e : List Nat} {j : Nat} (hd : ∀ b ∈ d, b < 128)
    (h1 : e.take 3 = [0x00, 0x22, 0x77]) (h2 : e.getD 3 0 = k) (h3 : e.drop 4 = d) :
    FmBy env (fun o => (Op.sysex e j).makes o ∧ o.plain) s.fm (handler env s k d j).fm := by
  have hb := getD_lt hd (by decide)
  have h5 : ∀ i, d.getD i 0 = e.getD (4 + i) 0 := by
    intro i; rw [← h3]; simp [List.getD_eq_getElem?_getD, List.getElem?_drop]
  have raw : k = 8 ∨ k = 9 → (Op.sysex e j).raw := fun h => ⟨h1, h2 ▸ h⟩
  unfold handler
  split
  · exact .of_eq (remap_fm _ _)
  · exact .refl
  · exact .of_eq (setDynamicMode_fm _)
  · exact .refl
  · exact .refl
  · unfold loadPsgEnvelope; split <;> exact .refl
  · exact .refl
  · exact fmCall_by (o := .synth _) ⟨.inl ⟨_, _, _, rfl, raw (.inl rfl)⟩, trivial⟩ (.inr ⟨_, _, _, rfl⟩)
  · exact fmCall_by (o := .synth _) ⟨.inl ⟨_, _, _, rfl, raw (.inr rfl)⟩, trivial⟩ (.inr ⟨_, _, _, rfl⟩)
  · unfold storeProgram; split
    · exact say_by (fmCall_by (o := .store _ _) ⟨⟨h1, .inl ⟨.inl h2, (h5 1).symm⟩⟩, trivial⟩ ⟨hb 1, presetOf_ok d⟩)
    · exact say_by .refl
  · unfold clearProgram; split
    · exact say_by (fmCall_by (o := .clear _) ⟨⟨h1, .inl ⟨.inr h2, (h5 1).symm⟩⟩, trivial⟩ (hb 1))
    · exact say_by .refl
  · unfold clearAll; split
    · refine say_by ?_
      exact List.foldlRecOn (motive := fun u : St => FmBy env (fun o => (Op.sysex e j).makes o ∧ o.plain) s.fm u.fm) _ _ .refl
        fun u hu n hn => hu.trans (fmCall_by (o := .clear n) ⟨⟨h1, .inr h2⟩, trivial⟩ (List.mem_range.1 hn))
    · exact say_by .refl
  · unfold dumpPreset; split
    · split <;> exact .refl
    · exact say_by .refl
  · unfold dumpChannel; simp only; split
    · exact say_by .refl
    · split
      · split
        · split <;> exact .refl
        · exact say_by .refl
      · exact say_by .refl
  · exact .refl

theorem handler_fmBy {k : Nat} {d e : List Nat} {j : Nat} (hd : ∀ b ∈ d, b < 128)
    (h1 : e.take 3 = [0x00, 0x22, 0x77]) (h2 : e.getD 3 0 = k) (h3 : e.drop 4 = d) :
    FmBy env (Op.sysex e j).makes s.fm (handler env s k d j).fm :=
  (handler_plain hd h1 h2 h3).mono fun _ h => h.1

theorem sysex_fmBy (he : env.Ok) (hs : Ok env tame s) {d : List Nat} {j : Nat} (hd : ∀ b ∈ d, b < 128) :
    FmBy env (Op.sysex d j).makes s.fm (sysex env s d j).fm := by
  have h4 : ∀ b ∈ d.drop 4, b < 128 := fun b hb => hd b (List.mem_of_mem_drop hb)
  unfold sysex
  split
  · exact .refl
  split
  · exact generalMidiReset_fmBy he hs
  split
  · exact .refl
  rename_i h
  simp only [ne_eq, Decidable.not_not] at h
  simp only
  split
  · exact .refl
  · split
    · exact .refl
    · exact handler_fmBy h4 h rfl rfl
  · exact handler_fmBy h4 h rfl rfl

/-- The FM calls of one message. -/
theorem step_fmBy (he : env.Ok) (hs : Ok env tame s) {op : Op} (hw : op.Wf)
    (hd : tame = false → ¬op.enablesDac) (hb : tame = true → ¬op.detunes) :
    FmBy env op.makes s.fm (step env s op).fm := by
  cases op with
  | noteOn c p v =>
    simp only [step, if_pos hw.1]
    by_cases h0 : v = 0
    · simp only [noteOn, if_pos h0]
      exact (noteOff_path (H := fun _ => True) he hs hw.1).1.fmBy
    · exact (noteOn_path (H := fun _ => True) he hs hw.1 (lt_top hw.2.1) hw.2.2 h0).fmBy
  | noteOff c p =>
    simp only [step, if_pos hw.1]
    exact (noteOff_path (H := fun _ => True) he hs hw.1).1.fmBy
  | bend c b =>
    simp only [step, if_pos hw.1]
    exact (pitchBend_path (H := fun _ => True) he hs hw.1
      (fun ht => by simpa [Op.detunes] using hb ht)).fmBy
  | cc c k v =>
    simp only [step, if_pos hw.1]
    exact ccSwitch_fmBy he hs hw.1 hw.2.2 hd
  | program c p =>
    simp only [step, if_pos hw.1]
    obtain ⟨t, e, h⟩ := program_path (G := (Op.program c p).makes) (H := fun _ => True) he hs hw.1 hw.2
    rw [e]; exact h.fmBy
  | sysex d j => exact sysex_fmBy he hs hw.1
  | remap c i => exact .of_eq (remap_fm c i)
  | reset => exact reset_fmBy he hs.fm hs.psg hs.fault
  | tick => exact (tick_path (C := fun _ => True) (H := fun _ => True) he hs).fmBy
  | psgTick => exact .refl

/-! ### Histories -/

theorem boot_fmBy (he : env.Ok) (b : Bool) (m : Sram.Mem) :
    FmBy env Op.reset.makes (Fm.boot env.fm b m) (boot env b m).fm := by
  obtain ⟨u, e, e1, e2, e3⟩ := reset_split env (powerOn env b m)
  have e0 : Fm.step env.fm (powerOn env b m).fm .reset = Fm.boot env.fm b m := by unfold Fm.boot powerOn; simp only [Fm.step]
  have e2 : u.psg = Psg.step env.psg (Psg.init env.psg) .reset := e2
  rw [e0] at e1
  have f2 : Fm.FmSafe u.fm := e1 ▸ (Fm.boot_ok he.fm b m).1.step he.fm trivial
  have a : FmBy env Op.reset.makes (Fm.boot env.fm b m) u.fm := e1 ▸ .one (o := .smReset) rfl trivial
  unfold boot
  rw [e]
  exact a.trans (resetChannels_fmBy he f2 (e2 ▸ Psg.step_good he.psg (Psg.init_good he.psg) .reset trivial) e3)

theorem run_fmBy (he : env.Ok) (ops : List Op) : ∀ s, Ok env tame s → (∀ op ∈ ops, op.Wf) →
    (tame = false → ∀ op ∈ ops, ¬op.enablesDac) → (tame = true → ∀ op ∈ ops, ¬op.detunes) →
    FmBy env (fun o => ∃ op ∈ ops, op.makes o) s.fm (run env s ops).fm := by
  induction ops with
  | nil => intro s _ _ _ _; exact .refl
  | cons op ops ih =>
    intro s hs hw hd hb
    have h1 := step_fmBy he hs (hw op (by simp)) (fun h => hd h op (by simp)) (fun h => hb h op (by simp))
    have h2 := ih _ (step_ok he hs (hw op (by simp)) (fun h => hd h op (by simp)) (fun h => hb h op (by simp)))
      (fun o ho => hw o (by simp [ho])) (fun h o ho => hd h o (by simp [ho])) (fun h o ho => hb h o (by simp [ho]))
    exact (h1.mono fun o ho => ⟨op, by simp, ho⟩).trans (h2.mono fun o ⟨p, hp, ho⟩ => ⟨p, by simp [hp], ho⟩)

/-- The FM device after a history is where a history of its own calls leads. -/
theorem history_fmBy (he : env.Ok) (b : Bool) (m : Sram.Mem) (ops : List Op) (hw : ∀ op ∈ ops, op.Wf)
    (hd : (∀ op ∈ ops, ¬op.enablesDac) ∨ (∀ op ∈ ops, ¬op.detunes)) :
    FmBy env (fun o => ∃ op ∈ Op.reset :: ops, op.makes o) (Fm.boot env.fm b m) (run env (boot env b m) ops).fm := by
  have h1 := (boot_fmBy he b m).mono (Q := fun o => ∃ op ∈ Op.reset :: ops, op.makes o)
    fun o ho => ⟨.reset, by simp, ho⟩
  refine h1.trans ?_
  rcases hd with hd | hd
  · exact (run_fmBy (tame := false) he ops _ (boot_ok he b m) hw (fun _ => hd) (by simp)).mono
      fun o ⟨p, hp, ho⟩ => ⟨p, by simp [hp], ho⟩
  · exact (run_fmBy (tame := true) he ops _ (boot_ok he b m) hw (by simp) (fun _ => hd)).mono
      fun o ⟨p, hp, ho⟩ => ⟨p, by simp [hp], ho⟩

theorem makes_proper {op : Op} {o : Fm.Op} (h : op.makes o) (hr : ¬op.raw) (p r d : Nat) :
    o ≠ .synth (.directWrite p r d) := by
  rintro rfl
  rcases h with ⟨_, _, _, _, h⟩ | ⟨_, k, v, rfl, ⟨_, _, h⟩ | ⟨_, h⟩ | ⟨inv, n, h⟩⟩
  · exact hr h
  · cases h
  · cases h
  · unfold fmParam at h; split at h <;> simp at h

/-- States reached without raw register writes: the driver's picture of the chip is true. -/
def Clean (env : Env) (s : St) : Prop :=
  ∃ b m ops, (∀ op ∈ ops, op.Wf ∧ ¬op.raw) ∧ ((∀ op ∈ ops, ¬op.enablesDac) ∨ (∀ op ∈ ops, ¬op.detunes)) ∧
    s = run env (boot env b m) ops

theorem Clean.reached (h : Clean env s) : Reached env s :=
  let ⟨b, m, ops, h1, h2, h3⟩ := h; ⟨b, m, ops, fun o ho => (h1 o ho).1, h2, h3⟩

theorem FmBy.inv (he : env.Ok) (a : FmBy env P f g) (hP : ∀ o, P o → ∀ p r d, o ≠ .synth (.directWrite p r d))
    (hs : Fm.FmSafe f) (hi : Synth.Inv f.synth) : Synth.Inv g.synth := by
  obtain ⟨l, hl, rfl⟩ := a
  exact Fm.inv_run he.fm hs hi l fun o ho => ⟨(hl o ho).2, hP o (hl o ho).1⟩

theorem Clean.inv (he : env.Ok) (h : Clean env s) : Synth.Inv s.fm.synth := by
  obtain ⟨b, m, ops, h1, h2, rfl⟩ := h
  have hb := Fm.boot_ok he.fm b m
  refine (history_fmBy he b m ops (fun o ho => (h1 o ho).1) h2).inv he ?_ hb.1 hb.2
  rintro o ⟨op, hop, ho⟩
  refine makes_proper ho ?_
  rcases List.mem_cons.1 hop with rfl | hop
  · exact id
  · exact (h1 op hop).2

end Mdmi.Midi
