import Verif.Proofs.MidiLevel
import Verif.Proofs.MidiStill
import Verif.Proofs.MidiCache
import Verif.Proofs.MidiHeld
import Verif.Proofs.MidiReset
import Verif.Spec.Settings
/-!
# FM channel 3 while special-mode voices rest

The operators of FM channel 3 are those of the three special-mode voices (device channels 10 to 12).  While these are given
no notes, the channel's total levels are its own.
-/
namespace Mdmi.Midi

variable {env : Env} {tame : Bool} {s t u : St}

/-- No special-mode voice is given to MIDI channel `c`. -/
def Aloof (s : St) (c : Nat) : Prop := ∀ i, 10 ≤ i → i < 13 → (s.dev i).midiChannel ≠ c

/-- The message is not for a special-mode voice. -/
def Op.apart (s : St) : Op → Prop
  | .noteOn c _ v => Aloof s c ∧ (v ≠ 0 → ∀ i, findFree s c = some i → i < 10)
  | .noteOff c _ | .bend c _ | .program c _ => Aloof s c
  | .cc c k _ => Aloof s c ∧ k ≠ 121 ∧ k ≠ 84
  | .tick => ∀ i, 10 ≤ i → i < 13 → (s.dev i).noteOn = false
  | .sysex d _ => voicingSysex d = false
  | .reset | .remap _ _ => False
  | .psgTick => True

/-- The special-mode voices are left alone. -/
structure Spared (env : Env) (P : Fm.Op → Prop) (s t : St) : Prop where
  fm : FmBy env (fun o => P o ∧ o.plain) s.fm t.fm
  dev : ∀ i, 10 ≤ i → i < 13 → (t.dev i).midiChannel = (s.dev i).midiChannel ∧ (t.dev i).noteOn = (s.dev i).noteOn
  dynamic : t.dynamic = s.dynamic

theorem voiceFm_plain {i : Nat} {o : Fm.Op} (h : voiceFm i o) (hi : i < 10) : o.plain := by
  cases o <;> first | trivial | (simp only [voiceFm] at h; omega)

theorem Path.spared {A C : Nat → Prop} {H : Psg.Op → Prop} {op : Op}
    (h : Path env tame A C (fun o => op.makes o ∧ o.plain) H s t) (hA : ∀ i, A i → i < 13 → i < 10) : Spared env op.makes s t := by
  have f := h.frame
  refine ⟨?_, fun i h1 h2 => ?_, f.dynamic⟩
  · obtain ⟨l, hl, e⟩ := f.fm
    refine ⟨l, fun o ho => ⟨(hl o ho).1.elim (fun ⟨i, a, b, c⟩ => ⟨voiceFm_makes c, voiceFm_plain c (hA i a b)⟩) id, (hl o ho).2⟩, e⟩
  · rw [f.dev i fun a => by have := hA i a h2; omega]; exact ⟨rfl, rfl⟩

theorem Spared.trans {P : Fm.Op → Prop} (h : Spared env P s t) (k : Spared env P t u) : Spared env P s u :=
  ⟨h.fm.trans k.fm, fun i a b => ⟨(k.dev i a b).1.trans (h.dev i a b).1, (k.dev i a b).2.trans (h.dev i a b).2⟩, k.dynamic.trans h.dynamic⟩

theorem Spared.of_eq {P : Fm.Op → Prop} (h1 : t.fm = s.fm) (h2 : t.dev = s.dev) (h3 : t.dynamic = s.dynamic := by rfl) :
    Spared env P s t :=
  ⟨.of_eq h1, fun i _ _ => by rw [h2]; exact ⟨rfl, rfl⟩, h3⟩

theorem Aloof.lt {c : Nat} (h : Aloof s c) : ∀ i, (s.dev i).midiChannel = c → i < 13 → i < 10 := by
  intro i e hi
  exact Classical.byContradiction fun x => h i (by omega) hi e

theorem ccSwitch_spared (he : env.Ok) (hs : Ok env tame s) {c k v : Nat} (hc : c < 16) (hv : v < 128)
    (hd : tame = false → ¬(k = 78 ∧ 64 ≤ v)) (ha : Aloof s c) (h121 : k ≠ 121) (h84 : k ≠ 84) :
    Spared env (Op.cc c k v).makes s (ccSwitch env s c k v) := by
  have rf : ∀ {x}, Spared env (Op.cc c k v).makes s (setChan s c x) := Spared.of_eq rfl rfl
  by_cases h80 : k = 80
  · subst h80
    refine ⟨FmBy.one (o := .synth (.specialMode (v / 64 ≠ 0))) ⟨.inr ⟨c, 80, v, rfl, .inr (.inl ⟨rfl, rfl⟩)⟩, trivial⟩
      (.inl (by simp [Synth.Op.Legal, Synth.Op.chan, Synth.Op.oper])), fun _ _ _ => ⟨rfl, rfl⟩, rfl⟩
  by_cases h87 : k = 87
  · subst h87
    exact (storeFromChannel_path (env := env) (A := fun _ => False) (C := fun _ => True) (G := fun o => (Op.cc c 87 v).makes o ∧ o.plain)
      (H := fun _ => True) hs hv (fun _ => ⟨⟨rfl, rfl⟩, trivial⟩)).spared nofun
  unfold ccSwitch
  split
  · split <;> exact .of_eq rfl rfl
  · have h1 : Ok env tame (setChan s c fun m => { m with volume := v }) :=
      setChan_ok hs fun h => { hs.chan c h with volume := hv }
    exact .trans (t := setChan s c fun m => { m with volume := v }) (.of_eq rfl rfl)
      ((updateVolume_all (C := fun _ => True) (H := fun _ => True) he h1 hc).spared (Aloof.lt ha))
  · have h1 : Ok env tame (setChan s c fun m => { m with pan := v }) :=
      setChan_ok hs fun h => { hs.chan c h with }
    exact .trans (t := setChan s c fun m => { m with pan := v }) (.of_eq rfl rfl)
      ((updatePan_all (C := fun _ => True) (H := fun _ => True) he h1).spared (Aloof.lt ha))
  · exact (allNotesOff_path (C := fun _ => True) (H := fun _ => True) he hs).1.spared ha.lt
  · exact (allNotesOff_path (C := fun _ => True) (H := fun _ => True) he hs).1.spared ha.lt
  · exact absurd rfl h84
  · exact absurd rfl h80
  · exact absurd rfl h121
  · split <;> exact .of_eq rfl rfl
  · split <;> exact .of_eq rfl rfl
  · exact .of_eq rfl rfl
  · split <;> exact .of_eq rfl rfl
  · exact (rpnDataEntry_path (H := fun _ => True) he hs hc).spared ha.lt
  · exact (rpnDataEntry_path (H := fun _ => True) he hs hc).spared ha.lt
  iterate 6 exact .of_eq rfl rfl
  · exact absurd rfl h87
  · refine (foreach_path (A := fun i => i = 5) (C := fun _ => True) (G := fun o => (Op.cc c k v).makes o ∧ o.plain) (H := fun _ => True)
      he hs _ ?_).1.spared (fun i h _ => by omega)
    intro t i ht _ hi _
    refine setFmParam_path ht hi (fun _ => rfl)
      (fun q hq => ⟨.inr ⟨c, k, v, rfl, .inr (.inr ⟨_, _, hq⟩)⟩, trivial⟩)
      (fun h e => ⟨.inr ⟨c, k, v, rfl, .inl ⟨h, e, rfl⟩⟩, trivial⟩) hd

theorem sysex_spared {d : List Nat} {j : Nat} (hd : ∀ b ∈ d, b < 128) (hv : voicingSysex d = false) :
    Spared env (Op.sysex d j).makes s (sysex env s d j) := by
  have h4 : ∀ b ∈ d.drop 4, b < 128 := fun b hb => hd b (List.mem_of_mem_drop hb)
  refine ⟨?_, fun i _ _ => ?_, (sysex_still (env := env) (s := s) d j hv).dynamic⟩
  · simp only [voicingSysex, List.mem_cons, List.not_mem_nil, or_false, decide_eq_false_iff_not, not_or] at hv
    unfold sysex
    split
    · exact .refl
    split
    · rename_i h; exact absurd h hv.1
    split
    · exact .refl
    rename_i h
    simp only [ne_eq, Decidable.not_not] at h
    simp only
    split
    · exact .refl
    · split
      · exact .refl
      · exact handler_plain h4 h rfl rfl
    · exact handler_plain h4 h rfl rfl
  · have := Dev.core_eq ((sysex_still (env := env) (s := s) d j hv).dev i)
    exact ⟨this.2.2.2.1, this.2.2.1⟩

theorem step_spared (he : env.Ok) (hs : Ok env tame s) {op : Op} (hw : op.Wf) (hd : tame = false → ¬op.enablesDac)
    (hb : tame = true → ¬op.detunes) (ha : op.apart s) : Spared env op.makes s (step env s op) := by
  cases op with
  | noteOn c p v =>
    simp only [step, if_pos hw.1]
    by_cases h0 : v = 0
    · simp only [noteOn, if_pos h0]
      exact (noteOff_path (H := fun _ => True) he hs hw.1).1.spared ha.1.lt
    · exact (noteOn_path (H := fun _ => True) he hs hw.1 (lt_top hw.2.1) hw.2.2 h0).spared fun i h _ => ha.2 h0 i h
  | noteOff c p =>
    simp only [step, if_pos hw.1]
    exact (noteOff_path (H := fun _ => True) he hs hw.1).1.spared (Aloof.lt ha)
  | bend c b =>
    simp only [step, if_pos hw.1]
    exact (pitchBend_path (H := fun _ => True) he hs hw.1
      (fun ht => by simpa [Op.detunes] using hb ht)).spared (Aloof.lt ha)
  | cc c k v =>
    simp only [step, if_pos hw.1]
    have := ccSwitch_spared he hs hw.1 hw.2.2 hd ha.1 ha.2.1 ha.2.2
    exact ⟨this.fm, this.dev, this.dynamic⟩
  | program c p =>
    simp only [step, if_pos hw.1]
    obtain ⟨t, e, h⟩ := program_path (G := fun o => (Op.program c p).makes o ∧ o.plain) (H := fun _ => True) he hs hw.1 hw.2
    rw [e]
    have := h.spared (Aloof.lt ha)
    exact ⟨this.fm, this.dev, this.dynamic⟩
  | sysex d j => exact sysex_spared hw.1 ha
  | remap c i => exact ha.elim
  | reset => exact ha.elim
  | tick =>
    refine (tick_path (C := fun _ => True) (H := fun _ => True) he hs).spared fun i h hi => ?_
    refine Classical.byContradiction fun x => ?_
    have := ha i (by omega) hi
    rw [h.2.1] at this; cases this
  | psgTick => exact .of_eq rfl rfl

theorem makes_tl2 {op : Op} {o : Fm.Op} (h : op.makes o) (hp : o.plain) (ha : ¬op.algorithmCc) : ¬o.staleTl 2 := by
  intro hv
  unfold Fm.Op.staleTl at hv
  split at hv
  · unfold Synth.Op.staleTl at hv
    split at hv
    · rcases h with ⟨_, _, _, h, _⟩ | ⟨_, k, v, rfl, ⟨_, _, h⟩ | ⟨_, h⟩ | ⟨inv, n, h⟩⟩
      · cases h
      · cases h
      · cases h
      · refine ha ?_
        unfold fmParam at h; split at h <;> first | rfl | simp at h
    · rcases h with ⟨_, _, _, h, _⟩ | ⟨_, k, v, rfl, ⟨_, _, h⟩ | ⟨_, h⟩ | ⟨inv, n, h⟩⟩
      · cases h
      · cases h
      · cases h
      · unfold fmParam at h; split at h <;> simp at h
    · exact hv
  · exact hp
  · exact hv

theorem initDevs_plain {op : Op} (he : env.Ok) : ∀ n, n ≤ 10 → ∀ s, OkOn env tame (fun _ => False) s →
    FmBy env (fun o => op.makes o ∧ o.plain) s.fm ((List.range n).foldl (initDev env) s).fm := by
  intro n
  induction n with
  | zero => intro _ s _; exact .refl
  | succ n ih =>
    intro hn s h
    have h0 := ih (by omega) s h
    have h1 := initDevs_ok he n (by omega) s h
    rw [List.range_succ, List.foldl_append]
    revert h1 h0
    generalize (List.range n).foldl (initDev env) s = t
    intro h0 h1
    simp only [List.foldl_cons, List.foldl_nil]
    refine h0.trans ?_
    have h2 : OkOn env tame (· < n + 1) (setDev t n (freshDev n)) := by
      refine { h1 with lt := fun i hi => by omega, dev := fun i hi => ?_ }
      by_cases e : i = n
      · subst e; simpa using freshDev_ok (by omega) _
      · simpa [Psg.upd_other _ _ _ _ e] using h1.dev i (by omega)
    have := (updateDev_path (A := fun i => i = n) (C := fun _ => True) (G := fun o => op.makes o ∧ o.plain) (H := fun _ => True)
      (i := n) h2 (by omega) rfl he (by simp [freshDev]; omega)).spared (fun i h _ => by omega)
    exact this.fm

private theorem sm_volume {u : St} {c i : Nat} (h : (u.dev i).ops = .sm) : (updateVolume env u c i).fm = u.fm ∧
    ((updateVolume env u c i).dev i).ops = .sm ∧ ((updateVolume env u c i).dev i).pitchBend = (u.dev i).pitchBend := by
  simp only [updateVolume, devVolume, h]; split <;> simp [h] <;> rfl

private theorem sm_pan {u : St} {c i : Nat} (h : (u.dev i).ops = .sm) : (updatePan env u c i).fm = u.fm ∧
    ((updatePan env u c i).dev i).ops = .sm ∧ ((updatePan env u c i).dev i).pitchBend = (u.dev i).pitchBend := by
  simp only [updatePan, devPan, h]; split <;> simp [h] <;> rfl

private theorem sm_program {u : St} {c i : Nat} (h : (u.dev i).ops = .sm) : (updateProgram env u c i).fm = u.fm ∧
    ((updateProgram env u c i).dev i).ops = .sm ∧ ((updateProgram env u c i).dev i).pitchBend = (u.dev i).pitchBend := by
  simp only [updateProgram, devProgram, h]; split <;> simp [h] <;> rfl

/-- A special-mode voice is initialised by a percussion flag alone. -/
theorem initDev_special {i : Nat} (h1 : 10 ≤ i) (h2 : i < 13) (hb : (s.chan i).pitchBend = 0x2000) :
    (initDev env s i).fm = Fm.step env.fm s.fm (.percussive (i - 10) (i == 9)) := by
  unfold initDev
  extract_lets a
  have ec : (a.dev i).midiChannel = i := by simp [a]
  have eo : (a.dev i).ops = .sm := by simp [a, show ¬i ≤ 5 by omega, show ¬i ≤ 9 by omega]
  have en : (a.dev i).num = i - 10 := by simp [a, show ¬i ≤ 5 by omega, show ¬i ≤ 9 by omega]
  have eb : (a.dev i).pitchBend = 0x2000 := by simp [a]
  have eh : (a.chan i).pitchBend = 0x2000 := hb
  have ef : a.fm = s.fm := rfl
  clear_value a
  unfold updateDev
  rw [ec]
  simp only [show i < 16 by omega, if_true, en]
  generalize hu : fmCall env a (.percussive (i - 10) (i == 9)) = u
  have uf : u.fm = Fm.step env.fm s.fm (.percussive (i - 10) (i == 9)) := by rw [← hu, ← ef]; rfl
  have uo : (u.dev i).ops = .sm := by rw [← hu]; exact eo
  have ub : (u.dev i).pitchBend = 0x2000 := by rw [← hu]; exact eb
  have uc : (u.chan i).pitchBend = 0x2000 := by rw [← hu]; exact eh
  obtain ⟨v1, v2, v3⟩ := sm_volume (env := env) (c := i) uo
  obtain ⟨w1, w2, w3⟩ := sm_pan (env := env) (c := i) v2
  obtain ⟨x1, x2, x3⟩ := sm_program (env := env) (c := i) w2
  unfold updatePitchBend
  rw [if_neg, x1, w1, v1, uf]
  rw [x3, w3, v3, ub]
  simp [uc]

theorem resetChannels_tl2 (he : env.Ok) (hf : Fm.FmSafe s.fm) (hp : Psg.Good env.psg s.psg) (hu : s.fault = false)
    (hi : Synth.Inv s.fm.synth) (ht : Synth.TlSync s.fm.synth 2) : Synth.TlSync (resetChannels env s).fm.synth 2 := by
  have h : OkOn env false (fun _ => False) { s with chan := fun c => if c < 16 then freshChan else s.chan c } := by
    refine ⟨by simp, by simp, fun c hc => ?_, hf, hp, hu⟩
    simp only [if_pos hc]; exact freshChan_ok
  unfold resetChannels
  simp only [applyDynamicMode_fm]
  have e : ({ s with chan := fun c => if c < 16 then freshChan else s.chan c } : St).fm = s.fm := rfl
  have e' : ∀ c, c < 16 → (({ s with chan := fun c => if c < 16 then freshChan else s.chan c } : St).chan c).pitchBend = 0x2000 :=
    fun c hc => by simp only [if_pos hc]; rfl
  revert h e e'
  generalize ({ s with chan := fun c => if c < 16 then freshChan else s.chan c } : St) = w
  intro h e e'
  have k : Synth.TlSync ((List.range 10).foldl (initDev env) w).fm.synth 2 := by
    refine (initDevs_plain (op := .psgTick) he 10 (by omega) w h).tl he (fun o x => ⟨makes_proper x.1 id, makes_tl2 x.1 x.2 id⟩)
      (e ▸ hf) (e ▸ hi) (by omega) (e ▸ ht)
  have kc : ∀ c, c < 16 → (((List.range 10).foldl (initDev env) w).chan c).pitchBend = 0x2000 := by
    rw [show ((List.range 10).foldl (initDev env) w).chan = w.chan from
      List.foldlRecOn (motive := fun t : St => t.chan = w.chan) _ _ rfl fun t h i _ => (initDev_chan ..).trans h]
    exact e'
  rw [show List.range 13 = List.range 10 ++ [10, 11, 12] from rfl, List.foldl_append]
  revert k kc
  generalize (List.range 10).foldl (initDev env) w = t
  intro k kc
  have sy : ∀ f b n, n < 6 → (Fm.step env.fm f (.percussive n b)).synth = f.synth := by
    intro f b n hn; simp only [Fm.step, Fm.percussive, Fm.guardCh, hn, if_true]
  simp only [List.foldl_cons, List.foldl_nil]
  rw [initDev_special (by omega) (by omega) (by rw [initDev_chan, initDev_chan]; exact kc 12 (by omega)), sy _ _ _ (by omega),
    initDev_special (by omega) (by omega) (by rw [initDev_chan]; exact kc 11 (by omega)), sy _ _ _ (by omega),
    initDev_special (by omega) (by omega) (kc 10 (by omega)), sy _ _ _ (by omega)]
  exact k

theorem boot_tl2 (he : env.Ok) (b : Bool) (m : Sram.Mem) : Synth.TlSync (boot env b m).fm.synth 2 := by
  obtain ⟨u, e, e1, e2, e3⟩ := reset_split env (powerOn env b m)
  have e0 : Fm.step env.fm (powerOn env b m).fm .reset = Fm.boot env.fm b m := by unfold Fm.boot powerOn; simp only [Fm.step]
  have e2 : u.psg = Psg.step env.psg (Psg.init env.psg) .reset := e2
  rw [e0] at e1
  have f2 : Fm.FmSafe u.fm := e1 ▸ (Fm.boot_ok he.fm b m).1.step he.fm trivial
  have es : u.fm.synth = (Fm.boot env.fm b m).synth := by rw [e1]; rfl
  unfold boot
  rw [e]
  exact resetChannels_tl2 he f2 (e2 ▸ Psg.step_good he.psg (Psg.init_good he.psg) .reset trivial) e3
    (es ▸ (Fm.boot_ok he.fm b m).2) (es ▸ Fm.boot_tl he.fm b m 2 (by omega))

/-- The message is for no MIDI channel a special-mode voice has in static mode (0-based 10, 11 and 12), changes no mapping and
resets nothing. -/
def Op.forTones : Op → Prop
  | .noteOn c _ _ | .noteOff c _ | .bend c _ | .program c _ => c < 10 ∨ 12 < c
  | .cc c k _ => (c < 10 ∨ 12 < c) ∧ k ≠ 121 ∧ k ≠ 84
  | .sysex d _ => voicingSysex d = false
  | .reset | .remap _ _ => False
  | .tick | .psgTick => True

/-- The special-mode voices rest: they have their own MIDI channels. -/
structure Dormant (s : St) : Prop where
  static : s.dynamic = false
  own : ∀ i, 10 ≤ i → i < 13 → (s.dev i).midiChannel = i ∧ (s.dev i).noteOn = false

theorem Dormant.apart (h : Dormant s) {op : Op} (ho : op.forTones) : op.apart s := by
  have k : ∀ c, c < 10 ∨ 12 < c → Aloof s c := fun c hc i h1 h2 e => by rw [(h.own i h1 h2).1] at e; omega
  cases op with
  | noteOn c p v =>
    refine ⟨k c ho, fun _ i hi => ?_⟩
    exact (k c ho).lt i (findFree_static h.static hi) (findFree_lt hi)
  | noteOff c p => exact k c ho
  | bend c b => exact k c ho
  | program c p => exact k c ho
  | cc c n v => exact ⟨k c ho.1, ho.2⟩
  | tick => exact fun i h1 h2 => (h.own i h1 h2).2
  | sysex d j => exact ho
  | remap => exact ho
  | reset => exact ho
  | psgTick => trivial

theorem boot_resting (hm : env.mode ≠ .dynamic) (b : Bool) (m : Sram.Mem) : Dormant (boot env b m) := by
  have hd : (env.mode == .dynamic) = false := by cases e : env.mode <;> simp_all <;> rfl
  unfold boot
  simp only [reset, hd]
  refine ⟨?_, fun i h1 h2 => ?_⟩
  · unfold resetChannels
    extract_lets a
    have ea : a.dynamic = false := rfl
    clear_value a
    simp only [applyDynamicMode]
    exact List.foldlRecOn (motive := fun t : St => t.dynamic = false) _ _ ea fun t h i _ => by rw [initDev_dynamic]; exact h
  · rw [resetChannels_devs i (by omega)]
    simp [resetDev]

theorem run_apart (he : env.Ok) (hm : env.mode ≠ .dynamic) (b : Bool) (m : Sram.Mem) (ops : List Op) (h : ∀ op ∈ ops, op.Wf)
    (hd : (∀ op ∈ ops, ¬op.enablesDac) ∨ (∀ op ∈ ops, ¬op.detunes)) (ht : ∀ op ∈ ops, op.forTones) :
    ∀ pre op post, ops = pre ++ op :: post → op.apart (run env (boot env b m) pre) := by
  have key : ∀ tame : Bool, (tame = false → ∀ op ∈ ops, ¬op.enablesDac) → (tame = true → ∀ op ∈ ops, ¬op.detunes) →
      ∀ pre op post, ops = pre ++ op :: post → op.apart (run env (boot env b m) pre) := by
    intro tame t1 t2
    have ind : ∀ (pre : List Op) (s : St), (∀ op ∈ pre, op ∈ ops) → Ok env tame s → Dormant s → Dormant (run env s pre) := by
      intro pre
      induction pre with
      | nil => intro s _ _ r; exact r
      | cons op pre ih =>
        intro s hp ok r
        have ho : op ∈ ops := hp op (by simp)
        have sp := step_spared he ok (h op ho) (fun x => t1 x op ho) (fun x => t2 x op ho) (r.apart (ht op ho))
        exact ih _ (fun o ho => hp o (by simp [ho])) (step_ok he ok (h op ho) (fun x => t1 x op ho) (fun x => t2 x op ho))
          ⟨sp.dynamic.trans r.static,
            fun i h1 h2 => ⟨(sp.dev i h1 h2).1.trans (r.own i h1 h2).1, (sp.dev i h1 h2).2.trans (r.own i h1 h2).2⟩⟩
    intro pre op post e
    exact (ind pre _ (fun o ho => by rw [e]; simp [ho]) (boot_ok he b m) (boot_resting hm b m)).apart (ht op (by rw [e]; simp))
  rcases hd with hd | hd
  · exact key false (fun _ => hd) nofun
  · exact key true nofun fun _ => hd

/-- The total levels of FM channel 3 are those the parameters and the volume ask for, at every moment of a history whose
messages are not for special-mode voices. -/
theorem channel3_tl (he : env.Ok) (b : Bool) (m : Sram.Mem) (ops : List Op) (h : ∀ op ∈ ops, op.Wf ∧ ¬op.raw ∧ ¬op.algorithmCc)
    (hd : (∀ op ∈ ops, ¬op.enablesDac) ∨ (∀ op ∈ ops, ¬op.detunes))
    (ha : ∀ pre op post, ops = pre ++ op :: post → op.apart (run env (boot env b m) pre)) :
    Synth.TlSync (run env (boot env b m) ops).fm.synth 2 := by
  have base := boot_tl2 he b m
  have key : ∀ tame : Bool, (tame = false → ∀ op ∈ ops, ¬op.enablesDac) → (tame = true → ∀ op ∈ ops, ¬op.detunes) →
      Synth.TlSync (run env (boot env b m) ops).fm.synth 2 := by
    intro tame t1 t2
    have ind : ∀ post pre, ops = pre ++ post → Ok env tame (run env (boot env b m) pre) →
        Synth.TlSync (run env (boot env b m) pre).fm.synth 2 → Synth.TlSync (run env (boot env b m) ops).fm.synth 2 := by
      intro post
      induction post with
      | nil => intro pre e _ k; rw [e, List.append_nil]; exact k
      | cons op post ih =>
        intro pre e ok k
        have ho : op ∈ ops := by rw [e]; simp
        have cl : Clean env (run env (boot env b m) pre) :=
          ⟨b, m, pre, fun o x => ⟨(h o (by rw [e]; simp [x])).1, (h o (by rw [e]; simp [x])).2.1⟩,
            hd.imp (fun y o x => y o (by rw [e]; simp [x])) (fun y o x => y o (by rw [e]; simp [x])), rfl⟩
        refine ih (pre ++ [op]) (by rw [e]; simp) ?_ ?_
        · rw [run_snoc]
          exact step_ok he ok (h op ho).1 (fun x => t1 x op ho) (fun x => t2 x op ho)
        · rw [run_snoc]
          refine (step_spared he ok (h op ho).1 (fun x => t1 x op ho) (fun x => t2 x op ho) (ha pre op post e)).fm.tl he
            (fun o x => ⟨makes_proper x.1 (h op ho).2.1, makes_tl2 x.1 x.2 (h op ho).2.2⟩) ok.fm (cl.inv he) (by omega) k
    exact ind ops [] rfl (boot_ok he b m) base
  rcases hd with hd | hd
  · exact key false (fun _ => hd) nofun
  · exact key true nofun fun _ => hd

end Mdmi.Midi
