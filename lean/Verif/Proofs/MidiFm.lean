import Verif.Proofs.SynthSteps
import Verif.Proofs.SynthSafe
import Verif.Spec.MidiFm
/-! Lemmas about the FM device. -/
namespace Mdmi.Fm
open Mdmi.Synth (FmPreset Steps Noise Inv)

theorem effectiveVolume_lt {c : Chan} (h1 : c.volume < 128) (h2 : c.velocity < 128) :
    effectiveVolume c = c.volume * c.velocity / 127 ∧ effectiveVolume c < 128 := by
  have h : c.volume * c.velocity ≤ 127 * 127 := Nat.mul_le_mul (by omega) (by omega)
  unfold effectiveVolume
  omega

/-- Value arguments of a driver call. -/
def argOk : Synth.Op → Prop
  | .volume _ x | .specialModeVolume _ x => x < 128
  | .preset _ p | .init p => p.Ok
  | .directWrite _ _ _ => False
  | _ => True

theorem legal_ch {op : Synth.Op} {c : Nat} (h : op.chan = some c) (hc : c < 6) (ho : op.oper = none)
    (hx : argOk op) : op.Legal :=
  ⟨fun k hk => by rw [h] at hk; cases hk; exact hc, fun o h' => by rw [ho] at h'; simp at h',
    by cases op <;> exact hx⟩

/-- The calls a note-on makes, for the pitch and preset it plays. -/
def noteCalls (env : Env) (chan pitch : Nat) (cents : Int) (vol : Nat) : List Synth.Op :=
  [.volume chan vol, .pitch chan (pitchToOctave pitch) (freqNum env.pal pitch cents), .noteOn chan]

/-- A note-on outside the range does nothing; otherwise it is these calls. -/
theorem noteOn_steps (env : Env) (s : St) {chan pitch velocity : Nat} {cents : Int} (hc : chan < 6)
    (hp : 11 ≤ pitch ∧ pitch ≤ 106) (hn : (s.ch chan).percussive = false) :
    Steps s.synth (noteCalls env chan pitch cents (effectiveVolume { s.ch chan with velocity := velocity }))
      (noteOn env s chan pitch cents velocity).synth ∧
    (noteOn env s chan pitch cents velocity).ch =
      upd s.ch chan { s.ch chan with velocity := velocity, pitch := pitch, cents := cents } ∧
    (noteOn env s chan pitch cents velocity).user = s.user := by
  have e : ¬ (pitch < 11 ∨ pitch > 106) := by omega
  simp only [noteOn, e, if_false, guardCh, hc, if_true, hn, Bool.false_eq_true, call, setSynthPitch,
    Psg.upd_same, noteCalls]
  refine ⟨((Steps.one _ _).trans (Steps.one _ _)).trans (Steps.one _ _), ?_⟩
  refine ⟨?_, trivial⟩
  funext j; simp only [upd]; split <;> rfl

theorem noteOn_perc_steps (env : Env) (s : St) {chan pitch velocity : Nat} {cents : Int} (hc : chan < 6)
    (hp : 11 ≤ pitch ∧ pitch ≤ 106) (hn : (s.ch chan).percussive = true) {pp : Perc}
    (he : env.perc[pitch]? = some pp) :
    Steps s.synth (.preset chan pp.preset ::
        noteCalls env chan pp.key cents (effectiveVolume { s.ch chan with velocity := velocity }))
      (noteOn env s chan pitch cents velocity).synth ∧
    (noteOn env s chan pitch cents velocity).ch =
      upd s.ch chan { s.ch chan with velocity := velocity, pitch := pp.key, cents := cents } ∧
    (noteOn env s chan pitch cents velocity).user = s.user := by
  have e : ¬ (pitch < 11 ∨ pitch > 106) := by omega
  simp only [noteOn, e, if_false, guardCh, hc, if_true, hn, he, call, setSynthPitch,
    Psg.upd_same, noteCalls]
  refine ⟨(((Steps.one _ _).trans (Steps.one _ _)).trans (Steps.one _ _)).trans (Steps.one _ _), ?_⟩
  refine ⟨?_, trivial⟩
  funext j; simp only [upd]; split <;> rfl

theorem noteOn_out (env : Env) (s : St) {chan pitch velocity : Nat} {cents : Int}
    (hp : pitch < 11 ∨ 106 < pitch) : noteOn env s chan pitch cents velocity = s := by
  simp only [noteOn, gt_iff_lt, hp, if_true]

theorem noteCalls_legal (env : Env) {chan pitch vol : Nat} {cents : Int} (hc : chan < 6) (hv : vol < 128) :
    ∀ op ∈ noteCalls env chan pitch cents vol, op.Legal := by
  intro op h
  simp only [noteCalls, List.mem_cons, List.not_mem_nil, or_false] at h
  rcases h with rfl | rfl | rfl
  · exact legal_ch rfl hc rfl hv
  · exact legal_ch rfl hc rfl trivial
  · exact legal_ch rfl hc rfl trivial

theorem sramEnable_noise (s : St) : Noise s.synth (sramEnable s).synth :=
  Synth.noise_emit _ _ _ (by simp)

theorem sramDisable_noise (s : St) : Noise s.synth (sramDisable s).synth := by
  unfold sramDisable; split
  · exact Synth.noise_emit _ _ _ (by simp)
  · exact Noise.refl _

theorem sramSave_noise (env : Env) (s : St) (program : Nat) (p : FmPreset) :
    Noise s.synth (sramSave env s program p).synth ∧ (sramSave env s program p).ch = s.ch ∧
    (sramSave env s program p).user = s.user := by
  unfold sramSave; split
  · exact ⟨Noise.refl _, rfl, rfl⟩
  · refine ⟨?_, ?_, ?_⟩
    · simp only
      refine (sramEnable_noise s).trans ?_
      refine Noise.trans ?_ (sramDisable_noise _)
      exact Noise.refl _
    · simp only [sramDisable]; split <;> rfl
    · simp only [sramDisable]; split <;> rfl

theorem sramClear_noise (env : Env) (s : St) (program : Nat) :
    Noise s.synth (sramClear env s program).synth ∧ (sramClear env s program).ch = s.ch ∧
    (sramClear env s program).user = s.user := by
  unfold sramClear; split
  · exact ⟨Noise.refl _, rfl, rfl⟩
  · refine ⟨?_, ?_, ?_⟩
    · simp only
      refine (sramEnable_noise s).trans ?_
      refine Noise.trans ?_ (sramDisable_noise _)
      exact Noise.refl _
    · simp only [sramDisable]; split <;> rfl
    · simp only [sramDisable]; split <;> rfl

theorem presetOfSlot_ok (l : List (BitVec 8)) : (Sram.presetOfSlot l).Ok := by
  have o : ∀ v, (Sram.unpackOperator v).Ok := by
    intro v; constructor <;> exact Nat.mod_lt _ (by omega)
  exact ⟨Nat.mod_lt _ (by omega), Nat.mod_lt _ (by omega), Nat.mod_lt _ (by omega),
    Nat.mod_lt _ (by omega), ⟨o _, o _, o _, o _⟩⟩

/-- What the load loop does to one program. -/
def userOf : Sram.Loaded → Option FmPreset → Option FmPreset
  | .ok p, _ => some p
  | _, old => old

theorem loadLoop (l : List Nat) (x : St × Nat) :
    (l.foldl loadOne x).1.synth = x.1.synth ∧ (l.foldl loadOne x).1.ch = x.1.ch ∧
    (l.foldl loadOne x).1.mem = x.1.mem ∧ (l.foldl loadOne x).1.sramBusTaken = x.1.sramBusTaken ∧
    (l.foldl loadOne x).1.smPitch = x.1.smPitch ∧ (l.foldl loadOne x).1.smCents = x.1.smCents ∧
    ∀ q, (l.foldl loadOne x).1.user q =
      if q ∈ l then userOf (Sram.loadProgram x.1.mem q) (x.1.user q) else x.1.user q := by
  induction l generalizing x with
  | nil => simp
  | cons a l ih =>
    obtain ⟨h1, h2, h3, h4, h5, h6, h7⟩ := ih (loadOne x a)
    have k : (loadOne x a).1.synth = x.1.synth ∧ (loadOne x a).1.ch = x.1.ch ∧ (loadOne x a).1.mem = x.1.mem ∧
        (loadOne x a).1.sramBusTaken = x.1.sramBusTaken ∧ (loadOne x a).1.smPitch = x.1.smPitch ∧
        (loadOne x a).1.smCents = x.1.smCents ∧
        ∀ q, (loadOne x a).1.user q = if q = a then userOf (Sram.loadProgram x.1.mem q) (x.1.user q) else x.1.user q := by
      rw [show loadOne x a = _ from rfl]
      unfold loadOne
      rcases hl : Sram.loadProgram x.1.mem a with _ | _ | p <;> simp only [true_and]
      · intro q
        split
        · rename_i e; subst e; rw [hl]; rfl
        · rfl
      · intro q
        split
        · rename_i e; subst e; rw [hl]; rfl
        · rfl
      · intro q
        simp only [upd]
        split
        · rename_i e; subst e; rw [hl]; rfl
        · rfl
    obtain ⟨k1, k2, k3, k4, k5, k6, k7⟩ := k
    rw [List.foldl_cons]
    refine ⟨h1.trans k1, h2.trans k2, h3.trans k3, h4.trans k4, h5.trans k5, h6.trans k6, fun q => ?_⟩
    rw [h7 q, k7 q, k3]
    by_cases e1 : q = a
    · subst e1
      simp only [List.mem_cons, true_or, if_true]
      split
      · cases Sram.loadProgram x.1.mem q <;> rfl
      · rfl
    · simp [e1]

/-- The load as a whole. -/
theorem sramLoad_spec (env : Env) (s : St) :
    Noise s.synth (sramLoad env s).synth ∧ (sramLoad env s).ch = s.ch ∧ (sramLoad env s).mem = s.mem ∧
    (sramLoad env s).smPitch = s.smPitch ∧ (sramLoad env s).smCents = s.smCents ∧
    ∀ q, (sramLoad env s).user q =
      if q < 128 ∧ env.sram = true then userOf (Sram.loadProgram s.mem q) (s.user q) else s.user q := by
  unfold sramLoad
  split
  · rename_i e; exact ⟨Noise.refl _, rfl, rfl, rfl, rfl, fun q => by simp [e]⟩
  · rename_i e
    simp only
    obtain ⟨h1, h2, h3, h4, h5, h6, h7⟩ := loadLoop (List.range 128) (sramEnable s, 0)
    generalize (List.range 128).foldl loadOne (sramEnable s, 0) = x at *
    have hx : ∀ t : St, t.synth = x.1.synth → Noise s.synth (sramDisable t).synth := by
      intro t ht
      refine (sramEnable_noise s).trans ?_
      have := sramDisable_noise t
      rw [ht, h1] at this; exact this
    have hd : ∀ t : St, (sramDisable t).ch = t.ch ∧ (sramDisable t).mem = t.mem ∧
        (sramDisable t).smPitch = t.smPitch ∧ (sramDisable t).smCents = t.smCents ∧ (sramDisable t).user = t.user := by
      intro t; unfold sramDisable; split <;> exact ⟨rfl, rfl, rfl, rfl, rfl⟩
    have fin : ∀ t : St, t.synth = x.1.synth → t.ch = x.1.ch → t.mem = x.1.mem → t.smPitch = x.1.smPitch →
        t.smCents = x.1.smCents → t.user = x.1.user →
        Noise s.synth (sramDisable t).synth ∧ (sramDisable t).ch = s.ch ∧ (sramDisable t).mem = s.mem ∧
        (sramDisable t).smPitch = s.smPitch ∧ (sramDisable t).smCents = s.smCents ∧
        ∀ q, (sramDisable t).user q =
          if q < 128 ∧ env.sram = true then userOf (Sram.loadProgram s.mem q) (s.user q) else s.user q := by
      intro t e1 e2 e3 e4 e5 e6
      obtain ⟨d1, d2, d3, d4, d5⟩ := hd t
      refine ⟨hx t e1, d1.trans (e2.trans h2), d2.trans (e3.trans h3), d3.trans (e4.trans h5),
        d4.trans (e5.trans h6), fun q => ?_⟩
      rw [d5, e6, h7 q]
      simp only [List.mem_range, sramEnable]
      have : env.sram = true := by simpa using e
      simp [this]
    split
    · exact fin _ rfl rfl rfl rfl rfl rfl
    · exact fin _ rfl rfl rfl rfl rfl rfl

/-! ### Every call is driver calls and bus activity -/

/-- Invariant of the FM device's own state. -/
structure FmSafe (s : St) : Prop where
  synth : Synth.Safe s.synth
  chan : ∀ c < 6, (s.ch c).volume < 128 ∧ (s.ch c).velocity < 128
  user : ∀ p x, s.user p = some x → x.Ok

theorem _root_.Mdmi.Synth.Noise.safe {s s' : Synth.St} (n : Noise s s') (h : Synth.Safe s) : Synth.Safe s' := by
  have g := n.glob
  simp only [Synth.glob, Prod.mk.injEq] at g
  exact ⟨n.fault.trans h.fault, by rw [n.ch]; exact h.ok, by rw [n.vol]; exact h.vol, by rw [g.1, g.2.1]; exact h.lfo⟩

theorem _root_.Mdmi.Synth.Steps.safe {s t : Synth.St} {ops : List Synth.Op} (h : Steps s ops t)
    (hl : ∀ op ∈ ops, op.Valid) (hi : Synth.Safe s) : Synth.Safe t := by
  induction h with
  | refl => exact hi
  | call o _ ih => exact (ih fun x hx => hl x (by simp [hx])).step (hl o (by simp))
  | noise _ n ih => exact n.safe (ih hl)

theorem extract_ok {c : Synth.FmChannel} (h : c.Ok) :
    (⟨c.algorithm, c.feedback, c.ams, c.fms, c.ops⟩ : FmPreset).Ok :=
  ⟨h.algorithm, h.feedback, h.ams, h.fms, h.ops⟩

theorem percOf {env : Env} (he : env.Ok) {pitch : Nat} (h : pitch < 128) :
    ∃ pp, env.perc[pitch]? = some pp ∧ pp.preset.Ok ∧ pp.key < 256 := by
  have hl : pitch < env.perc.length := by rw [he.perc]; exact h
  exact ⟨_, List.getElem?_eq_getElem hl, he.percOk _ (List.getElem_mem hl)⟩

theorem presetOf {env : Env} (he : env.Ok) {n : Nat} (h : n < 128) :
    ∃ p, env.presets[n]? = some p ∧ p.Ok := by
  have hl : n < env.presets.length := by rw [he.presets]; exact h
  exact ⟨_, List.getElem?_eq_getElem hl, he.presetsOk _ (List.getElem_mem hl)⟩

/-- A legal call: what it does to the driver, and that the device's own state stays within bounds. -/
structure Does (s s' : St) (l : List Synth.Op) : Prop where
  steps : Steps s.synth l s'.synth
  chan : ∀ c < 6, (s'.ch c).volume < 128 ∧ (s'.ch c).velocity < 128
  user : ∀ p x, s'.user p = some x → x.Ok

theorem chan_upd {ch : Nat → Chan} {c : Nat} {x : Chan} (h : ∀ c < 6, (ch c).volume < 128 ∧ (ch c).velocity < 128)
    (hx : x.volume < 128 ∧ x.velocity < 128) :
    ∀ c' < 6, (upd ch c x c').volume < 128 ∧ (upd ch c x c').velocity < 128 := by
  intro c' h'; simp only [upd]; split
  · exact hx
  · exact h c' h'

theorem step_does {env : Env} (he : env.Ok) {s : St} (h : FmSafe s) {op : Op} (hl : op.Legal) :
    ∃ l, (∀ o ∈ l, o.Valid ∧ (op.Proper → o.Legal) ∧ ∀ c, o.staleTl c → op.staleTl c) ∧ Does s (step env s op) l := by
  have leg' : ∀ {o : Synth.Op}, o.Legal → (∀ c, o.staleTl c → op.staleTl c) →
      o.Valid ∧ (op.Proper → o.Legal) ∧ ∀ c, o.staleTl c → op.staleTl c := fun k h => ⟨.inl k, fun _ => k, h⟩
  have leg : ∀ {o : Synth.Op}, o.Legal → (∀ c, ¬ o.staleTl c) →
      o.Valid ∧ (op.Proper → o.Legal) ∧ ∀ c, o.staleTl c → op.staleTl c := fun k h => leg' k fun c x => absurd x (h c)
  have nc : ∀ {chan pitch vol : Nat} {cents : Int}, ∀ o ∈ noteCalls env chan pitch cents vol, ∀ c, ¬ o.staleTl c := by
    intro chan pitch vol cents o ho c
    simp only [noteCalls, List.mem_cons, List.not_mem_nil, or_false] at ho
    rcases ho with rfl | rfl | rfl <;> exact id
  cases op with
  | reset =>
    obtain ⟨p, hp, hpo⟩ := presetOf he (n := 0) (by omega)
    obtain ⟨h1, h2, -, -, -, h3⟩ := sramLoad_spec env { s with user := fun _ => none, ch := resetChans s.ch }
    refine ⟨[.init p], ?_, ?_, ?_, ?_⟩
    · intro o ho; rw [List.mem_singleton] at ho; subst ho
      exact leg ⟨by simp [Synth.Op.chan], by simp [Synth.Op.oper], hpo⟩ fun _ => id
    · simp only [step, reset, hp, call]
      exact h1.steps.trans (Steps.one _ _)
    · simp only [step, reset, hp, call, h2]
      intro c hc
      simp [resetChans, hc]
    · simp only [step, reset, hp, call]
      intro q x hx
      rw [h3] at hx
      simp only at hx
      split at hx
      · unfold userOf at hx
        split at hx
        · injection hx with hx; subst hx
          rename_i k hk
          revert hk
          unfold Sram.loadProgram Sram.loadSlot
          split
          · simp
          · split
            · simp
            · intro hk; injection hk with hk; rw [← hk]; exact presetOfSlot_ok _
        · simp at hx
      · simp at hx
  | noteOn c p x v =>
    obtain ⟨hc, hv⟩ := hl
    by_cases hp : 11 ≤ p ∧ p ≤ 106
    · have e := effectiveVolume_lt (c := { s.ch c with velocity := v }) (h.chan c hc).1 hv
      have ch : ∀ q, ∀ c' < 6, (upd s.ch c { s.ch c with velocity := v, pitch := q, cents := x } c').volume < 128 ∧
          (upd s.ch c { s.ch c with velocity := v, pitch := q, cents := x } c').velocity < 128 := fun q =>
        chan_upd h.chan ⟨(h.chan c hc).1, hv⟩
      cases hn : (s.ch c).percussive
      · obtain ⟨k1, k2, k3⟩ := noteOn_steps env s (velocity := v) (cents := x) hc hp hn
        exact ⟨_, fun o ho => leg (noteCalls_legal env hc e.2 o ho) (nc o ho), k1, by simp only [step, k2]; exact ch p,
          by simp only [step, k3]; exact h.user⟩
      · obtain ⟨pp, h1, h2, -⟩ := percOf he (pitch := p) (by omega)
        obtain ⟨k1, k2, k3⟩ := noteOn_perc_steps env s (velocity := v) (cents := x) hc hp hn h1
        refine ⟨_, fun o ho => ?_, k1, by simp only [step, k2]; exact ch pp.key, by simp only [step, k3]; exact h.user⟩
        rcases List.mem_cons.1 ho with rfl | ho
        · exact leg (legal_ch rfl hc rfl h2) fun _ => id
        · exact leg (noteCalls_legal env hc e.2 o ho) (nc o ho)
    · refine ⟨[], by simp, ?_⟩
      simp only [step, noteOn_out env s (by omega : p < 11 ∨ 106 < p)]
      exact ⟨.refl, h.chan, h.user⟩
  | noteOff c =>
    exact ⟨[.noteOff c], by simp only [List.mem_singleton, forall_eq]; exact leg (legal_ch rfl hl rfl trivial) fun _ => id,
      Steps.one _ _, h.chan, h.user⟩
  | allNotesOff c =>
    exact ⟨[.noteOff c], by simp only [List.mem_singleton, forall_eq]; exact leg (legal_ch rfl hl rfl trivial) fun _ => id,
      Steps.one _ _, h.chan, h.user⟩
  | volume c v =>
    obtain ⟨hc, hv⟩ := hl
    have e := effectiveVolume_lt (c := { s.ch c with volume := v }) hv (h.chan c hc).2
    refine ⟨[.volume c (effectiveVolume { s.ch c with volume := v })], ?_, ?_, ?_, ?_⟩
    · simp only [List.mem_singleton, forall_eq]; exact leg (legal_ch rfl hc rfl e.2) fun _ => id
    · simp only [step, channelVolume, guardCh, hc, if_true, call, Psg.upd_same]; exact Steps.one _ _
    · simp only [step, channelVolume, guardCh, hc, if_true, call]
      exact chan_upd h.chan ⟨hv, (h.chan c hc).2⟩
    · simp only [step, channelVolume, guardCh, hc, if_true, call]; exact h.user
  | program c n =>
    obtain ⟨hc, hn⟩ := hl
    obtain ⟨p, hp, hpo⟩ := presetOf he hn
    cases hu : s.user n with
    | none =>
      refine ⟨[.preset c p], ?_, ?_⟩
      · simp only [List.mem_singleton, forall_eq]; exact leg (legal_ch rfl hc rfl hpo) fun _ => id
      · simp only [step, program, hn, if_true, hu, hp, call]
        exact ⟨Steps.one _ _, h.chan, h.user⟩
    | some q =>
      refine ⟨[.preset c q], ?_, ?_⟩
      · simp only [List.mem_singleton, forall_eq]; exact leg (legal_ch rfl hc rfl (h.user n q hu)) fun _ => id
      · simp only [step, program, hn, if_true, hu, call]
        exact ⟨Steps.one _ _, h.chan, h.user⟩
  | percussive c b =>
    refine ⟨[], by simp, ?_⟩
    have hc : c < 6 := hl
    simp only [step, percussive, guardCh, hc, if_true]
    exact ⟨.refl, chan_upd h.chan (h.chan c hc), h.user⟩
  | pan c x =>
    have hc : c < 6 := hl
    have k : ∀ y, Does s (call { s with ch := upd s.ch c { s.ch c with pan := x } } (.stereo c y)) [.stereo c y] :=
      fun y => ⟨Steps.one _ _, chan_upd h.chan (h.chan c hc), h.user⟩
    have g : ∀ y, ∀ o ∈ [Synth.Op.stereo c y], o.Valid ∧ ((Op.pan c x).Proper → o.Legal) ∧
        ∀ c', o.staleTl c' → (Op.pan c x).staleTl c' := by
      intro y; simp only [List.mem_singleton, forall_eq]; exact leg (legal_ch rfl hc rfl trivial) fun _ => id
    simp only [step, pan, guardCh, hc, if_true]
    split
    · exact ⟨_, g 1, k 1⟩
    · split
      · exact ⟨_, g 3, k 3⟩
      · exact ⟨_, g 2, k 2⟩
  | pitch c p x =>
    have hc : c < 6 := hl
    refine ⟨[.pitch c (pitchToOctave p) (freqNum env.pal p x)], ?_, ?_⟩
    · simp only [List.mem_singleton, forall_eq]; exact leg (legal_ch rfl hc rfl trivial) fun _ => id
    · simp only [step, pitch, guardCh, hc, if_true, setSynthPitch, call, Psg.upd_same]
      exact ⟨Steps.one _ _, chan_upd h.chan (h.chan c hc), h.user⟩
  | store n p =>
    obtain ⟨hn, hp⟩ := hl
    obtain ⟨k1, k2, k3⟩ := sramSave_noise env { s with user := upd s.user n (some p) } n p
    refine ⟨[], by simp, ?_⟩
    simp only [step, storePreset, hn, if_true]
    refine ⟨k1.steps, by rw [k2]; exact h.chan, ?_⟩
    rw [k3]
    intro q x hx
    simp only [upd] at hx
    split at hx
    · injection hx with hx; rw [← hx]; exact hp
    · exact h.user q x hx
  | clear n =>
    have hn : n < 128 := hl
    obtain ⟨k1, k2, k3⟩ := sramClear_noise env { s with user := upd s.user n none } n
    refine ⟨[], by simp, ?_⟩
    simp only [step, clearPreset, hn, if_true]
    refine ⟨k1.steps, by rw [k2]; exact h.chan, ?_⟩
    rw [k3]
    intro q x hx
    simp only [upd] at hx
    split at hx
    · simp at hx
    · exact h.user q x hx
  | storeFrom c n =>
    obtain ⟨hc, hn⟩ := hl
    obtain ⟨k1, k2, k3⟩ := sramSave_noise env { s with user := upd s.user n (some (Synth.extractPreset s.synth c)) } n
      (Synth.extractPreset s.synth c)
    refine ⟨[], by simp, ?_⟩
    simp only [step, storePresetFromChannel, guardCh, hc, storePreset, hn, if_true]
    refine ⟨k1.steps, by rw [k2]; exact h.chan, ?_⟩
    rw [k3]
    intro q x hx
    simp only [upd] at hx
    split at hx
    · injection hx with hx; rw [← hx]; exact extract_ok (h.synth.ok c hc)
    · exact h.user q x hx
  | smNoteOn o p x v =>
    obtain ⟨ho, hv⟩ := hl
    refine ⟨[.specialModePitch o (pitchToOctave p) (freqNum env.pal p x), .specialModeVolume o v], ?_, ?_⟩
    · intro y hy
      simp only [List.mem_cons, List.not_mem_nil, or_false] at hy
      rcases hy with rfl | rfl
      · exact leg ⟨by simp [Synth.Op.chan], by simp [Synth.Op.oper], trivial⟩ fun _ => id
      · exact leg' ⟨by simp [Synth.Op.chan], by simp [Synth.Op.oper]; omega, hv⟩ fun _ => id
    · simp only [step, smNoteOn, smPitch, ho, if_true, call]
      exact ⟨(Steps.one _ _).trans (Steps.one _ _), h.chan, h.user⟩
  | smPitch o p x =>
    have ho : o < 3 := hl
    refine ⟨[.specialModePitch o (pitchToOctave p) (freqNum env.pal p x)], ?_, ?_⟩
    · simp only [List.mem_singleton, forall_eq]
      exact leg ⟨by simp [Synth.Op.chan], by simp [Synth.Op.oper], trivial⟩ fun _ => id
    · simp only [step, smPitch, ho, if_true, call]
      exact ⟨Steps.one _ _, h.chan, h.user⟩
  | smReset => exact ⟨[], by simp, .refl, h.chan, h.user⟩
  | dacNoteOn p =>
    have hp : p < 128 := hl
    refine ⟨[], by simp, ?_⟩
    simp only [step, dacNoteOn, hp, if_true]
    split
    · exact ⟨(Synth.noise_emit s.synth false (.pcmStart p) (by simp)).steps, h.chan, h.user⟩
    · exact ⟨.refl, h.chan, h.user⟩
  | dacNoteOff =>
    exact ⟨[], by simp, (Synth.noise_emit s.synth false .pcmStop (by simp)).steps, h.chan, h.user⟩
  | synth o =>
    refine ⟨[o], ?_, Steps.one _ _, h.chan, h.user⟩
    simp only [List.mem_singleton, forall_eq]
    refine ⟨hl, fun hp => ?_, fun _ => id⟩
    rcases hl with hl | ⟨p, r, d, rfl⟩
    · exact hl
    · exact absurd rfl (hp.2 p r d)

theorem FmSafe.step {env : Env} (he : env.Ok) {s : St} (h : FmSafe s) {op : Op} (hl : op.Legal) :
    FmSafe (step env s op) := by
  obtain ⟨l, h1, h2⟩ := step_does he h hl
  exact ⟨h2.steps.safe (fun o ho => (h1 o ho).1) h.synth, h2.chan, h2.user⟩

theorem FmSafe.run {env : Env} (he : env.Ok) {s : St} (h : FmSafe s) (ops : List Op) (hl : ∀ op ∈ ops, op.Legal) :
    FmSafe (run env s ops) := by
  induction ops generalizing s with
  | nil => exact h
  | cons o l ih => exact ih (h.step he (hl o (by simp))) fun x hx => hl x (by simp [hx])

/-- The chip invariant holds after calls that are not raw register writes. -/
theorem inv_step {env : Env} (he : env.Ok) {s : St} (h : FmSafe s) (hi : Inv s.synth) {op : Op} (hl : op.Proper) :
    Inv (step env s op).synth := by
  obtain ⟨l, h1, h2⟩ := step_does he h hl.1
  exact h2.steps.inv (fun o ho => (h1 o ho).2.1 hl) hi

theorem inv_run {env : Env} (he : env.Ok) {s : St} (h : FmSafe s) (hi : Inv s.synth) (ops : List Op)
    (hl : ∀ op ∈ ops, op.Proper) : Inv (run env s ops).synth := by
  induction ops generalizing s with
  | nil => exact hi
  | cons o l ih =>
    exact ih (h.step he (hl o (by simp)).1) (inv_step he h hi (hl o (by simp))) fun x hx => hl x (by simp [hx])

theorem boot_ok {env : Env} (he : env.Ok) (b : Bool) (m : Sram.Mem) :
    FmSafe (boot env b m) ∧ Inv (boot env b m).synth := by
  obtain ⟨p, hp, hpo⟩ := presetOf he (n := 0) (by omega)
  have z : Synth.zeroOps.Ok := by
    have : Synth.zeroOperator.Ok := by constructor <;> decide
    exact ⟨this, this, this, this⟩
  have h0 : FmSafe { powerOn b m with ch := fun _ => ⟨0, 0, 0, 0, 0, false⟩ } := by
    refine ⟨⟨?_, ?_, ?_, ?_⟩, ?_, ?_⟩
    · simp only [powerOn, Synth.boot]
    · intro c _; simp only [powerOn, Synth.boot]
      exact ⟨by simp, by simp, by simp, by simp, by simp, by simp, by simp, z⟩
    · intro c _; simp only [powerOn, Synth.boot]; omega
    · simp only [powerOn, Synth.boot]; omega
    · intro c _; simp
    · intro q x hx; simp [powerOn] at hx
  have h1 : FmSafe (powerOn b m) := h0
  refine ⟨h1.step he (op := .reset) trivial, ?_⟩
  unfold boot reset
  simp only [hp, call]
  exact Synth.init_inv hpo (by
    rw [(sramLoad_spec env _).1.fault]
    simp only [powerOn, Synth.boot])

end Mdmi.Fm
