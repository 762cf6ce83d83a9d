import Verif.Proofs.MidiPlay
import Verif.Proofs.MidiCtl
import Verif.Proofs.MidiReset
import Verif.Proofs.PsgSync
/-!
# The PSG calls the engine makes
-/
namespace Mdmi.Midi

variable {env : Env} {tame : Bool} {D A C : Nat → Prop} {G : Fm.Op → Prop} {H : Psg.Op → Prop} {s t u : St}

/-- The PSG calls a message may lead to: the reset, the frame tick and the envelope loader each belong to one kind of
message; the others address one channel. -/
def Op.plays (op : Op) (o : Psg.Op) : Prop :=
  match o with
  | .reset => op = .reset
  | .tick => op = .psgTick
  | .loadEnvelope _ => ∃ d j, op = .sysex d j ∧ d.take 4 = [0x00, 0x22, 0x77, 0x06]
  | _ => True

/-- A sequence of legal PSG calls in `P`. -/
def PsgBy (env : Env) (P : Psg.Op → Prop) (f g : Psg.St) : Prop :=
  ∃ l : List Psg.Op, (∀ o ∈ l, P o ∧ o.Legal) ∧ g = Psg.run env.psg f l

variable {P Q : Psg.Op → Prop} {f g h : Psg.St}

theorem PsgBy.refl : PsgBy env P f f := ⟨[], by simp, rfl⟩

theorem PsgBy.of_eq (e : g = f) : PsgBy env P f g := e ▸ PsgBy.refl

theorem PsgBy.trans (a : PsgBy env P f g) (b : PsgBy env P g h) : PsgBy env P f h := by
  obtain ⟨l, hl, rfl⟩ := a
  obtain ⟨k, hk, rfl⟩ := b
  refine ⟨l ++ k, fun o ho => ?_, by simp [Psg.run]⟩
  rcases List.mem_append.1 ho with ho | ho
  · exact hl o ho
  · exact hk o ho

theorem PsgBy.one {o : Psg.Op} (h1 : P o) (h2 : o.Legal) : PsgBy env P f (Psg.step env.psg f o) :=
  ⟨[o], by simp [h1, h2], rfl⟩

theorem PsgBy.mono (a : PsgBy env P f g) (k : ∀ o, P o → Q o) : PsgBy env Q f g :=
  let ⟨l, h1, h2⟩ := a; ⟨l, fun o ho => ⟨k o (h1 o ho).1, (h1 o ho).2⟩, h2⟩

theorem voicePsg_plays {i : Nat} {op : Op} {o : Psg.Op} (h : voicePsg i o) : op.plays o := by
  cases o <;> first | trivial | exact (by simp [voicePsg, Psg.Op.target] at h)

theorem Path.psgBy {op : Op} (h : Path env tame A C G op.plays s t) : PsgBy env op.plays s.psg t.psg := by
  obtain ⟨l, hl, e⟩ := h.frame.psg
  exact ⟨l, fun o ho => ⟨(hl o ho).1.elim (fun ⟨i, _, h⟩ => voicePsg_plays h) id, (hl o ho).2⟩, e⟩

theorem initDev_psgBy {op : Op} (he : env.Ok) (hs : OkOn env tame D s) {i : Nat} (hD : D i) :
    PsgBy env op.plays s.psg (initDev env s i).psg :=
  (initDev_path (A := fun _ => True) (C := fun _ => True) (G := fun _ => True) he hs hD trivial).psgBy

theorem initDevs_psgBy {op : Op} (he : env.Ok) : ∀ n, n ≤ 13 → ∀ s, OkOn env tame (fun _ => False) s →
    PsgBy env op.plays s.psg ((List.range n).foldl (initDev env) s).psg := by
  intro n
  induction n with
  | zero => intro _ s _; exact .refl
  | succ n ih =>
    intro hn s h
    have h0 := ih (by omega) s h
    have h1 := initDevs_ok he n (by omega) s h
    rw [List.range_succ, List.foldl_append]
    revert h1 h0
    generalize (List.range n).foldl (initDev env) s = t
    intro h0 h1
    simp only [List.foldl_cons, List.foldl_nil]
    refine h0.trans ?_
    have h2 : OkOn env tame (· < n + 1) (setDev t n (freshDev n)) := by
      refine { h1 with lt := fun i hi => by omega, dev := fun i hi => ?_ }
      by_cases e : i = n
      · subst e; simpa using freshDev_ok (by omega) _
      · simpa [Psg.upd_other _ _ _ _ e] using h1.dev i (by omega)
    have := (updateDev_path (A := fun _ => True) (C := fun _ => True) (G := fun _ => True) (H := op.plays) (i := n) h2
      (by omega) trivial he (by simp [freshDev]; omega)).psgBy
    exact this

theorem resetChannels_psgBy {op : Op} (he : env.Ok) (hf : Fm.FmSafe s.fm) (hp : Psg.Good env.psg s.psg)
    (hu : s.fault = false) : PsgBy env op.plays s.psg (resetChannels env s).psg := by
  have h : OkOn env false (fun _ => False) { s with chan := fun c => if c < 16 then freshChan else s.chan c } := by
    refine ⟨by simp, by simp, fun c hc => ?_, hf, hp, hu⟩
    simp only [if_pos hc]; exact freshChan_ok
  unfold resetChannels
  simp only [applyDynamicMode_psg]
  have e : ({ s with chan := fun c => if c < 16 then freshChan else s.chan c } : St).psg = s.psg := rfl
  revert h e
  generalize ({ s with chan := fun c => if c < 16 then freshChan else s.chan c } : St) = w
  intro h e
  rw [← e]
  exact initDevs_psgBy he 13 (by omega) _ h

theorem reset_psgBy (he : env.Ok) (hf : Fm.FmSafe s.fm) (hp : Psg.Good env.psg s.psg) (hu : s.fault = false) :
    PsgBy env Op.reset.plays s.psg (reset env s).psg := by
  obtain ⟨u, e, e1, e2, e3⟩ := reset_split env s
  have f1 : Fm.FmSafe (Fm.step env.fm s.fm .reset) := hf.step he.fm trivial
  have f2 : Fm.FmSafe u.fm := e1 ▸ f1.step he.fm trivial
  have a : PsgBy env Op.reset.plays s.psg u.psg := e2 ▸ .one (o := .reset) rfl trivial
  rw [e]
  exact a.trans (resetChannels_psgBy he f2 (e2 ▸ Psg.step_good he.psg hp .reset trivial) (e3.trans hu))

theorem setDynamicMode_psg (m : Mode) : (setDynamicMode s m).psg = s.psg := by cases m <;> rfl

theorem remap_psg (c i : Nat) : (remap s c i).psg = s.psg := by
  unfold remap
  split
  · rfl
  split
  · split <;> rfl
  split <;> rfl

theorem setPolyphonic_psg (b : Bool) : (setPolyphonic s b).psg = s.psg := by
  unfold setPolyphonic
  have h := setDynamicMode_psg (s := s) (modeOf b)
  generalize setDynamicMode s (modeOf b) = t at h
  simp only
  split
  · exact List.foldlRecOn (motive := fun u : St => u.psg = s.psg) _ _ h fun u hu i _ => (remap_psg 0 i).trans hu
  · exact h

theorem resetAllControllers_psgBy {op : Op} (he : env.Ok) (hs : Ok env tame s) {c : Nat} (hc : c < 16) :
    PsgBy env op.plays s.psg (resetAllControllers env s c).psg := by
  unfold resetAllControllers
  simp only [setDynamicMode_psg]
  have h1 : Path env tame (fun _ => True) (· = c) (fun _ => True) (fun _ => True) s
    (setChan s c fun _ => freshChan) := Path.refl.chan rfl hc freshChan_ok
  have h1' := h1.ok he hs
  have h2 : (setChan s c fun _ => freshChan).psg = s.psg := rfl
  clear h1
  generalize (setChan s c fun _ => freshChan) = w at *
  rw [← h2]
  unfold foreach
  refine (List.foldlRecOn (motive := fun u : St => PsgBy env op.plays w.psg u.psg ∧ Ok env tame u) (List.range 13) _
    ⟨.refl, h1'⟩ fun t ht i hi => ?_).1
  split
  · exact ⟨ht.1.trans (initDev_psgBy he ht.2 (List.mem_range.1 hi)),
      (initDev_path (A := fun _ => True) (C := fun _ => True) (G := fun _ => True) (H := fun _ => True)
      he ht.2 (List.mem_range.1 hi) trivial).ok he ht.2⟩
  · exact ht

theorem generalMidiReset_psgBy {op : Op} (he : env.Ok) (hs : Ok env tame s) :
    PsgBy env op.plays s.psg (generalMidiReset env s).psg := by
  unfold generalMidiReset
  have h1 : PsgBy env op.plays s.psg ((List.range 16).foldl (allNotesOff env) s).psg ∧
      Ok env tame ((List.range 16).foldl (allNotesOff env) s) := by
    refine List.foldlRecOn (motive := fun u : St => PsgBy env op.plays s.psg u.psg ∧ Ok env tame u) (List.range 16) _
      ⟨.refl, hs⟩ fun t ht c _ => ?_
    have k := (allNotesOff_path (C := fun _ => True) (G := fun _ => True) (H := op.plays) (c := c) he ht.2).1
    exact ⟨ht.1.trans k.psgBy, k.ok he ht.2⟩
  revert h1
  generalize (List.range 16).foldl (allNotesOff env) s = t
  intro h1
  refine h1.1.trans ?_
  simp only
  split
  · exact resetChannels_psgBy (s := { t with dynamic := true }) he h1.2.fm h1.2.psg h1.2.fault
  · exact resetChannels_psgBy he h1.2.fm h1.2.psg h1.2.fault

theorem say_psgBy {m : Msg} (h : PsgBy env P f s.psg) : PsgBy env P f (say s m).psg := h

theorem psgCall_by {o : Psg.Op} (h1 : P o) (h2 : o.Legal) : PsgBy env P s.psg (psgCall env s o).psg := .one h1 h2

theorem ccSwitch_psgBy (he : env.Ok) (hs : Ok env tame s) {c k v : Nat} (hc : c < 16) (hv : v < 128)
    (hd : tame = false → ¬(k = 78 ∧ 64 ≤ v)) : PsgBy env (Op.cc c k v).plays s.psg (ccSwitch env s c k v).psg := by
  unfold ccSwitch
  split
  · split <;> exact .refl
  · have h1 : Ok env tame (setChan s c fun m => { m with volume := v }) :=
      setChan_ok hs fun h => { hs.chan c h with volume := hv }
    exact (updateVolume_all (C := fun _ => True) (G := fun _ => True) he h1 hc).psgBy
  · have h1 : Ok env tame (setChan s c fun m => { m with pan := v }) :=
      setChan_ok hs fun h => { hs.chan c h with }
    exact (updatePan_all (C := fun _ => True) (G := fun _ => True) he h1).psgBy
  · exact (allNotesOff_path (C := fun _ => True) (G := fun _ => True) he hs).1.psgBy
  · exact (allNotesOff_path (C := fun _ => True) (G := fun _ => True) he hs).1.psgBy
  · exact .of_eq (setPolyphonic_psg _)
  · exact .refl
  · exact resetAllControllers_psgBy he hs hc
  · split <;> exact .refl
  · split <;> exact .refl
  · exact .refl
  · split <;> exact .refl
  · exact (rpnDataEntry_path (G := fun _ => True) he hs hc).psgBy
  · exact (rpnDataEntry_path (G := fun _ => True) he hs hc).psgBy
  iterate 6 exact .refl
  · exact (storeFromChannel_path (env := env) (A := fun _ => True) (C := fun _ => True) (G := fun _ => True)
      hs hv (fun _ => trivial)).psgBy
  · refine (foreach_path (A := fun _ => True) (C := fun _ => True) (G := fun _ => True) he hs _ ?_).1.psgBy
    intro t i ht _ hi _
    exact setFmParam_path ht hi (fun _ => trivial) (fun q hq => trivial) (fun h e => trivial) hd

theorem handler_psgBy {k : Nat} {d e : List Nat} {j : Nat} (hl : d.length ≤ 256)
    (h1 : e.take 3 = [0x00, 0x22, 0x77]) (h2 : e.getD 3 0 = k) (h3 : 4 ≤ e.length) :
    PsgBy env (Op.sysex e j).plays s.psg (handler env s k d j).psg := by
  have psg : ∀ (u : St) (o : Fm.Op), (fmCall env u o).psg = u.psg := fun u o => rfl
  unfold handler
  split
  · exact .of_eq (remap_psg _ _)
  · exact .refl
  · exact .of_eq (setDynamicMode_psg _)
  · exact .refl
  · exact .refl
  · unfold loadPsgEnvelope
    rw [if_neg (by omega)]
    refine psgCall_by (o := .loadEnvelope _) ⟨e, j, rfl, ?_⟩ ?_
    · rcases e with _ | ⟨a, _ | ⟨b, _ | ⟨c, _ | ⟨x, r⟩⟩⟩⟩
      all_goals simp_all
    · refine ⟨(envelopeBytes j d).length, ?_, by simp⟩
      rw [envelopeBytes_length]; omega
  · exact .refl
  · exact .refl
  · exact .refl
  · unfold storeProgram; split <;> exact .refl
  · unfold clearProgram; split <;> exact .refl
  · unfold clearAll; split
    · refine say_psgBy ?_
      exact List.foldlRecOn (motive := fun u : St => PsgBy env (Op.sysex e j).plays s.psg u.psg) _ _ .refl
        fun u hu n hn => hu
    · exact .refl
  · unfold dumpPreset; split
    · split <;> exact .refl
    · exact .refl
  · unfold dumpChannel; simp only; split
    · exact .refl
    · split
      · split
        · split <;> exact .refl
        · exact .refl
      · exact .refl
  · exact .refl

theorem sysex_psgBy (he : env.Ok) (hs : Ok env tame s) {d : List Nat} {j : Nat} (hl : d.length ≤ 256) :
    PsgBy env (Op.sysex d j).plays s.psg (sysex env s d j).psg := by
  have h4 : (d.drop 4).length ≤ 256 := by simp; omega
  unfold sysex
  split
  · exact .refl
  split
  · exact generalMidiReset_psgBy he hs
  split
  · exact .refl
  rename_i h
  simp only [ne_eq, Decidable.not_not] at h
  simp only
  split
  · exact .refl
  · split
    · exact .refl
    · exact handler_psgBy h4 h rfl (by omega)
  · exact handler_psgBy h4 h rfl (by omega)

/-- The PSG calls of one message. -/
theorem step_psgBy (he : env.Ok) (hs : Ok env tame s) {op : Op} (hw : op.Wf)
    (hd : tame = false → ¬op.enablesDac) (hb : tame = true → ¬op.detunes) :
    PsgBy env op.plays s.psg (step env s op).psg := by
  cases op with
  | noteOn c p v =>
    simp only [step, if_pos hw.1]
    by_cases h0 : v = 0
    · simp only [noteOn, if_pos h0]
      exact (noteOff_path (G := fun _ => True) he hs hw.1).1.psgBy
    · exact (noteOn_path (G := fun _ => True) he hs hw.1 (lt_top hw.2.1) hw.2.2 h0).psgBy
  | noteOff c p =>
    simp only [step, if_pos hw.1]
    exact (noteOff_path (G := fun _ => True) he hs hw.1).1.psgBy
  | bend c b =>
    simp only [step, if_pos hw.1]
    exact (pitchBend_path (G := fun _ => True) he hs hw.1
      (fun ht => by simpa [Op.detunes] using hb ht)).psgBy
  | cc c k v =>
    simp only [step, if_pos hw.1]
    exact ccSwitch_psgBy he hs hw.1 hw.2.2 hd
  | program c p =>
    simp only [step, if_pos hw.1]
    obtain ⟨t, e, h⟩ := program_path (G := fun _ => True) (H := (Op.program c p).plays) he hs hw.1 hw.2
    rw [e]; exact h.psgBy
  | sysex d j => exact sysex_psgBy he hs hw.2.1
  | remap c i => exact .of_eq (remap_psg c i)
  | reset => exact reset_psgBy he hs.fm hs.psg hs.fault
  | tick => exact (tick_path (C := fun _ => True) (G := fun _ => True) he hs).psgBy
  | psgTick => exact psgCall_by (o := .tick) rfl trivial

/-! ### Histories -/

/-- What `Psg.init` and the reset of the engine leave behind. -/
def psgBoot (env : Env) : Psg.St := Psg.step env.psg (Psg.init env.psg) .reset

theorem boot_psgBy {op : Op} (he : env.Ok) (b : Bool) (m : Sram.Mem) :
    PsgBy env op.plays (psgBoot env) (boot env b m).psg := by
  obtain ⟨u, e, e1, e2, e3⟩ := reset_split env (powerOn env b m)
  have e0 : Fm.step env.fm (powerOn env b m).fm .reset = Fm.boot env.fm b m := by unfold Fm.boot powerOn; simp only [Fm.step]
  have e2 : u.psg = psgBoot env := e2
  rw [e0] at e1
  have f2 : Fm.FmSafe u.fm := e1 ▸ (Fm.boot_ok he.fm b m).1.step he.fm trivial
  unfold boot
  rw [e, ← e2]
  exact resetChannels_psgBy he f2 (e2 ▸ Psg.step_good he.psg (Psg.init_good he.psg) .reset trivial) e3

/-- What the driver's reset does: the channels get their defaults; nothing is written. -/
theorem psgReset_eq (he : env.psg.Legal) {f : Psg.St} (hf : f.fault = false) :
    (Psg.step env.psg f .reset).out = f.out ∧ (Psg.step env.psg f .reset).userLoaded = false ∧
    (Psg.step env.psg f .reset).userBuf = f.userBuf ∧
    ∀ n < 4, (Psg.step env.psg f .reset).ch n = ⟨0, 0, 15, 0, false, 127, 127, 0, ⟨.builtin 0, 0⟩, none, false⟩ := by
  have h0 : 0 < env.psg.envelopes.length := by rw [he.count]; omega
  refine ⟨?_, ?_, ?_, ?_⟩
  any_goals
    simp [Psg.step, Psg.reset, Psg.resetChan, Psg.initEnvelope, Psg.onChan, h0, List.range, List.range.loop, upd, hf]
  intro n hn
  have : n = 0 ∨ n = 1 ∨ n = 2 ∨ n = 3 := by omega
  rcases this with rfl | rfl | rfl | rfl <;> simp

theorem psgBoot_synced (he : env.Ok) : Psg.Synced (psgBoot env) := by
  intro n hn
  obtain ⟨h1, -, -, h4⟩ := psgReset_eq he.psg (Psg.init_eq he.psg).1
  unfold psgBoot
  rw [h4 n hn, h1, (Psg.init_eq he.psg).2.2.1]
  simp [Psg.chipTone, Psg.chipAtt]

theorem run_psgBy (he : env.Ok) (ops : List Op) : ∀ s, Ok env tame s → (∀ op ∈ ops, op.Wf) →
    (tame = false → ∀ op ∈ ops, ¬op.enablesDac) → (tame = true → ∀ op ∈ ops, ¬op.detunes) →
    PsgBy env (fun o => ∃ op ∈ ops, op.plays o) s.psg (run env s ops).psg := by
  induction ops with
  | nil => intro s _ _ _ _; exact .refl
  | cons op ops ih =>
    intro s hs hw hd hb
    have h1 := step_psgBy he hs (hw op (by simp)) (fun h => hd h op (by simp)) (fun h => hb h op (by simp))
    have h2 := ih _ (step_ok he hs (hw op (by simp)) (fun h => hd h op (by simp)) (fun h => hb h op (by simp)))
      (fun o ho => hw o (by simp [ho])) (fun h o ho => hd h o (by simp [ho])) (fun h o ho => hb h o (by simp [ho]))
    exact (h1.mono fun o ho => ⟨op, by simp, ho⟩).trans (h2.mono fun o ⟨p, hp, ho⟩ => ⟨p, by simp [hp], ho⟩)

/-- The PSG driver after a history is where a history of its own calls leads. -/
theorem history_psgBy (he : env.Ok) (b : Bool) (m : Sram.Mem) (ops : List Op) (hw : ∀ op ∈ ops, op.Wf)
    (hd : (∀ op ∈ ops, ¬op.enablesDac) ∨ (∀ op ∈ ops, ¬op.detunes)) :
    PsgBy env (fun o => (∃ op ∈ ops, op.plays o) ∨ (Op.remap 0 0).plays o) (psgBoot env)
      (run env (boot env b m) ops).psg := by
  have h1 := (boot_psgBy (op := .remap 0 0) he b m).mono
    (Q := fun o => (∃ op ∈ ops, op.plays o) ∨ (Op.remap 0 0).plays o) fun o ho => .inr ho
  refine h1.trans ?_
  rcases hd with hd | hd
  · exact (run_psgBy (tame := false) he ops _ (boot_ok he b m) hw (fun _ => hd) (by simp)).mono fun o h => .inl h
  · exact (run_psgBy (tame := true) he ops _ (boot_ok he b m) hw (by simp) (fun _ => hd)).mono fun o h => .inl h

/-- The driver's picture of the PSG is true as long as the engine is not reset. -/
theorem history_synced (he : env.Ok) (b : Bool) (m : Sram.Mem) (ops : List Op) (hw : ∀ op ∈ ops, op.Wf)
    (hd : (∀ op ∈ ops, ¬op.enablesDac) ∨ (∀ op ∈ ops, ¬op.detunes)) (hr : .reset ∉ ops) :
    Psg.Synced (run env (boot env b m) ops).psg := by
  obtain ⟨l, hl, e⟩ := history_psgBy he b m ops hw hd
  rw [e]
  refine Psg.run_synced l (psgBoot_synced he) fun o ho => ?_
  rintro rfl
  rcases (hl _ ho).1 with ⟨op, h1, h2⟩ | h2
  · exact hr (by rw [Op.plays] at h2; exact h2 ▸ h1)
  · exact absurd h2 (by simp [Op.plays])

end Mdmi.Midi
