import Verif.Proofs.MidiFm
/-! Volume and velocity of the FM device, and total levels. -/
namespace Mdmi.Fm
open Mdmi.Synth (Inv TlSync Steps)

/-- The driver's volume is the effective volume. -/
def VolSync (s : St) : Prop := ∀ c < 6, s.synth.vol c = effectiveVolume (s.ch c)

theorem steps_vol {s t : Synth.St} {l : List Synth.Op} (h : Steps s l t) (hl : ∀ o ∈ l, o.Legal) (hi : Inv s)
    {c : Nat} (hc : c < 6) : t.vol c = l.foldl (Synth.Op.requestVol c) (s.vol c) := (h.request hl hi hc).2

theorem eff_congr {a b : Chan} (h1 : a.volume = b.volume) (h2 : a.velocity = b.velocity) :
    effectiveVolume a = effectiveVolume b := by unfold effectiveVolume; rw [h1, h2]

theorem step_vol {env : Env} (he : env.Ok) {s : St} (h : FmSafe s) (hi : Inv s.synth) (hv : VolSync s) {op : Op}
    (hl : op.Proper) (hd : ¬ op.driverVolume) : VolSync (step env s op) ∧
    ∀ c < 6, ((step env s op).ch c).volume = op.reqVolume c (s.ch c).volume ∧
      ((step env s op).ch c).velocity = op.reqVelocity c (s.ch c).velocity := by
  have one : ∀ (o : Synth.Op), o.Legal → (∀ c x, o.requestVol c x = x) → ∀ c < 6,
      (Synth.step s.synth o).vol c = s.synth.vol c := by
    intro o ho hx c hc
    rw [steps_vol (Steps.one s.synth o) (by simpa using ho) hi hc]; simp [hx]
  obtain ⟨hL, hraw⟩ := hl
  cases op with
  | reset =>
    obtain ⟨p, hp, hpo⟩ := presetOf he (n := 0) (by omega)
    obtain ⟨h1, h2, -⟩ := sramLoad_spec env { s with user := fun _ => none, ch := resetChans s.ch }
    have e : ∀ c < 6, ((step env s .reset).ch c).volume = 127 ∧ ((step env s .reset).ch c).velocity = 127 := by
      intro c hc
      simp only [step, reset, hp, call, h2]; simp [resetChans, hc]
    refine ⟨fun c hc => ?_, fun c hc => e c hc⟩
    have : effectiveVolume ((step env s .reset).ch c) = 127 := by
      unfold effectiveVolume; rw [(e c hc).1, (e c hc).2]
    rw [this]
    simp only [step, reset, hp, call, Synth.step]
    exact (Synth.init_ch p _ hc).2
  | noteOn c p x v =>
    obtain ⟨hc, hv'⟩ := hL
    by_cases hp : 11 ≤ p ∧ p ≤ 106
    · have key : ∀ q l, (step env s (.noteOn c p x v)).ch =
            upd s.ch c { s.ch c with velocity := v, pitch := q, cents := x } →
          Steps s.synth l (step env s (.noteOn c p x v)).synth → (∀ o ∈ l, o.Legal) →
          (∀ k y, l.foldl (Synth.Op.requestVol k) y = if c = k then effectiveVolume { s.ch c with velocity := v } else y) →
          VolSync (step env s (.noteOn c p x v)) ∧
          ∀ k < 6, ((step env s (.noteOn c p x v)).ch k).volume = (s.ch k).volume ∧
            ((step env s (.noteOn c p x v)).ch k).velocity = if c = k then v else (s.ch k).velocity := by
        intro q l h1 h2 h3 h4
        refine ⟨fun k hk => ?_, fun k hk => ?_⟩
        · rw [steps_vol h2 h3 hi hk, h4, h1]
          split
          · rename_i e; subst e; rw [Psg.upd_same]; exact eff_congr rfl rfl
          · rename_i e; rw [Psg.upd_other _ _ _ _ (fun h => e h.symm)]; exact hv k hk
        · rw [h1]
          by_cases e : c = k
          · subst e; rw [Psg.upd_same]; simp
          · rw [Psg.upd_other _ _ _ _ (fun h => e h.symm)]; simp [e]
      have e := effectiveVolume_lt (c := { s.ch c with velocity := v }) (h.chan c hc).1 hv'
      have fin : ∀ q l, (step env s (.noteOn c p x v)).ch =
            upd s.ch c { s.ch c with velocity := v, pitch := q, cents := x } →
          Steps s.synth l (step env s (.noteOn c p x v)).synth → (∀ o ∈ l, o.Legal) →
          (∀ k y, l.foldl (Synth.Op.requestVol k) y = if c = k then effectiveVolume { s.ch c with velocity := v } else y) →
          VolSync (step env s (.noteOn c p x v)) ∧
          ∀ k < 6, ((step env s (.noteOn c p x v)).ch k).volume = Op.reqVolume k (s.ch k).volume (.noteOn c p x v) ∧
            ((step env s (.noteOn c p x v)).ch k).velocity = Op.reqVelocity k (s.ch k).velocity (.noteOn c p x v) := by
        intro q l h1 h2 h3 h4
        obtain ⟨g1, g2⟩ := key q l h1 h2 h3 h4
        refine ⟨g1, fun k hk => ⟨(g2 k hk).1, (g2 k hk).2.trans ?_⟩⟩
        simp only [Op.reqVelocity, hp, and_self, and_true]
      cases hn : (s.ch c).percussive
      · obtain ⟨k1, k2, -⟩ := noteOn_steps env s (velocity := v) (cents := x) hc hp hn
        exact fin p _ k2 k1 (noteCalls_legal env hc e.2) fun k y => by
          simp [noteCalls, Synth.Op.requestVol]
      · obtain ⟨pp, h1, h2, -⟩ := percOf he (pitch := p) (by omega)
        obtain ⟨k1, k2, -⟩ := noteOn_perc_steps env s (velocity := v) (cents := x) hc hp hn h1
        refine fin pp.key _ k2 k1 (fun o ho => ?_) fun k y => by simp [noteCalls, Synth.Op.requestVol]
        rcases List.mem_cons.1 ho with rfl | ho
        · exact legal_ch rfl hc rfl h2
        · exact noteCalls_legal env hc e.2 o ho
    · simp only [step, noteOn_out env s (by omega : p < 11 ∨ 106 < p)]
      refine ⟨hv, fun k hk => ⟨rfl, ?_⟩⟩
      simp only [Op.reqVelocity]; rw [if_neg (fun h => hp h.2)]
  | noteOff c =>
    exact ⟨fun k hk => (one (.noteOff c) (legal_ch rfl hL rfl trivial) (fun _ _ => rfl) k hk).trans (hv k hk), fun _ _ => ⟨rfl, rfl⟩⟩
  | allNotesOff c =>
    exact ⟨fun k hk => (one (.noteOff c) (legal_ch rfl hL rfl trivial) (fun _ _ => rfl) k hk).trans (hv k hk), fun _ _ => ⟨rfl, rfl⟩⟩
  | volume c v =>
    obtain ⟨hc, hv'⟩ := hL
    have e := effectiveVolume_lt (c := { s.ch c with volume := v }) hv' (h.chan c hc).2
    simp only [step, channelVolume, guardCh, hc, if_true, call, Psg.upd_same]
    refine ⟨fun k hk => ?_, fun k hk => ?_⟩
    · dsimp only
      rw [steps_vol (Steps.one s.synth _) (by simpa using (legal_ch rfl hc rfl e.2 : (Synth.Op.volume c _).Legal)) hi hk]
      simp only [List.foldl_cons, List.foldl_nil, Synth.Op.requestVol]
      split
      · rename_i e; subst e; rw [Psg.upd_same]
      · rename_i e; rw [Psg.upd_other _ _ _ _ (fun h => e h.symm)]; exact hv k hk
    · by_cases e : c = k
      · subst e; rw [Psg.upd_same]; simp [Op.reqVolume, Op.reqVelocity]
      · rw [Psg.upd_other _ _ _ _ (fun h => e h.symm)]; simp [Op.reqVolume, Op.reqVelocity, e]
  | program c n =>
    obtain ⟨hc, hn⟩ := hL
    obtain ⟨p, hp, hpo⟩ := presetOf he hn
    cases hu : s.user n with
    | none =>
      simp only [step, program, hn, if_true, hu, hp, call]
      exact ⟨fun k hk => (one (.preset c p) (legal_ch rfl hc rfl hpo) (fun _ _ => rfl) k hk).trans (hv k hk), fun _ _ => ⟨rfl, rfl⟩⟩
    | some q =>
      simp only [step, program, hn, if_true, hu, call]
      exact ⟨fun k hk => (one (.preset c q) (legal_ch rfl hc rfl (h.user n q hu)) (fun _ _ => rfl) k hk).trans (hv k hk),
        fun _ _ => ⟨rfl, rfl⟩⟩
  | percussive c b =>
    have hc : c < 6 := hL
    simp only [step, percussive, guardCh, hc, if_true]
    refine ⟨fun k hk => ?_, fun k hk => ?_⟩
    · refine (hv k hk).trans (eff_congr ?_ ?_) <;> dsimp only [upd] <;> split <;> rename_i e <;> first | (subst e; rfl) | rfl
    · dsimp only [upd]; split
      · rename_i e; subst e; exact ⟨rfl, rfl⟩
      · exact ⟨rfl, rfl⟩
  | pan c x =>
    have hc : c < 6 := hL
    have k : ∀ y, VolSync (call { s with ch := upd s.ch c { s.ch c with pan := x } } (.stereo c y)) ∧
        ∀ k < 6, ((call { s with ch := upd s.ch c { s.ch c with pan := x } } (.stereo c y)).ch k).volume = (s.ch k).volume ∧
        ((call { s with ch := upd s.ch c { s.ch c with pan := x } } (.stereo c y)).ch k).velocity = (s.ch k).velocity := by
      intro y
      have g : ∀ k, (upd s.ch c { s.ch c with pan := x } k).volume = (s.ch k).volume ∧
          (upd s.ch c { s.ch c with pan := x } k).velocity = (s.ch k).velocity := by
        intro k; dsimp only [upd]; split
        · rename_i e; subst e; exact ⟨rfl, rfl⟩
        · exact ⟨rfl, rfl⟩
      refine ⟨fun k hk => ?_, fun k hk => g k⟩
      exact (one (.stereo c y) (legal_ch rfl hc rfl trivial) (fun _ _ => rfl) k hk).trans
        ((hv k hk).trans (eff_congr (g k).1.symm (g k).2.symm))
    simp only [step, pan, guardCh, hc, if_true]
    split
    · exact k 1
    · split
      · exact k 3
      · exact k 2
  | pitch c p x =>
    have hc : c < 6 := hL
    simp only [step, pitch, guardCh, hc, if_true, setSynthPitch, call, Psg.upd_same]
    have g : ∀ k, (upd s.ch c { s.ch c with pitch := p, cents := x } k).volume = (s.ch k).volume ∧
        (upd s.ch c { s.ch c with pitch := p, cents := x } k).velocity = (s.ch k).velocity := by
      intro k; dsimp only [upd]; split
      · rename_i e; subst e; exact ⟨rfl, rfl⟩
      · exact ⟨rfl, rfl⟩
    refine ⟨fun k hk => ?_, fun k hk => g k⟩
    exact (one (.pitch c (pitchToOctave p) (freqNum env.pal p x)) (legal_ch rfl hc rfl trivial) (fun _ _ => rfl) k hk).trans
      ((hv k hk).trans (eff_congr (g k).1.symm (g k).2.symm))
  | store n p =>
    obtain ⟨k1, k2, -⟩ := sramSave_noise env { s with user := upd s.user n (some p) } n p
    simp only [step, storePreset, hL.1, if_true]
    exact ⟨fun k hk => by rw [k1.vol, k2]; exact hv k hk, fun k hk => by rw [k2]; exact ⟨rfl, rfl⟩⟩
  | clear n =>
    have hn : n < 128 := hL
    obtain ⟨k1, k2, -⟩ := sramClear_noise env { s with user := upd s.user n none } n
    simp only [step, clearPreset, hn, if_true]
    exact ⟨fun k hk => by rw [k1.vol, k2]; exact hv k hk, fun k hk => by rw [k2]; exact ⟨rfl, rfl⟩⟩
  | storeFrom c n =>
    obtain ⟨k1, k2, -⟩ := sramSave_noise env { s with user := upd s.user n (some (Synth.extractPreset s.synth c)) } n
      (Synth.extractPreset s.synth c)
    simp only [step, storePresetFromChannel, guardCh, hL.1, storePreset, hL.2, if_true]
    exact ⟨fun k hk => by rw [k1.vol, k2]; exact hv k hk, fun k hk => by rw [k2]; exact ⟨rfl, rfl⟩⟩
  | smNoteOn o p x v =>
    obtain ⟨ho, hv'⟩ := hL
    simp only [step, smNoteOn, smPitch, ho, if_true, call]
    refine ⟨fun k hk => ?_, fun _ _ => ⟨rfl, rfl⟩⟩
    dsimp only
    rw [steps_vol ((Steps.one s.synth _).trans (Steps.one _ _)) ?_ hi hk]
    · simp only [List.cons_append, List.nil_append, List.foldl_cons, List.foldl_nil, Synth.Op.requestVol]; exact hv k hk
    · intro y hy
      simp only [List.cons_append, List.nil_append, List.mem_cons, List.not_mem_nil, or_false] at hy
      rcases hy with rfl | rfl
      · exact ⟨by simp [Synth.Op.chan], by simp [Synth.Op.oper], trivial⟩
      · exact ⟨by simp [Synth.Op.chan], by simp [Synth.Op.oper]; omega, hv'⟩
  | smPitch o p x =>
    have ho : o < 3 := hL
    simp only [step, smPitch, ho, if_true, call]
    refine ⟨fun k hk => (one _ ?_ (fun _ _ => rfl) k hk).trans (hv k hk), fun _ _ => ⟨rfl, rfl⟩⟩
    exact ⟨by simp [Synth.Op.chan], by simp [Synth.Op.oper], trivial⟩
  | smReset => exact ⟨hv, fun _ _ => ⟨rfl, rfl⟩⟩
  | dacNoteOn p =>
    have hp : p < 128 := hL
    simp only [step, dacNoteOn, hp, if_true]
    split
    · exact ⟨hv, fun _ _ => ⟨rfl, rfl⟩⟩
    · exact ⟨hv, fun _ _ => ⟨rfl, rfl⟩⟩
  | dacNoteOff => exact ⟨hv, fun _ _ => ⟨rfl, rfl⟩⟩
  | synth o =>
    have ol : o.Legal := by
      rcases hL with hl | ⟨p, r, d, rfl⟩
      · exact hl
      · exact absurd rfl (hraw p r d)
    refine ⟨fun k hk => (one o ol ?_ k hk).trans (hv k hk), fun _ _ => ⟨rfl, rfl⟩⟩
    intro c x
    cases o <;> first | rfl | exact absurd trivial hd

theorem boot_vol {env : Env} (he : env.Ok) (b : Bool) (m : Sram.Mem) : VolSync (boot env b m) ∧
    ∀ c < 6, ((boot env b m).ch c).volume = 127 ∧ ((boot env b m).ch c).velocity = 127 := by
  obtain ⟨p, hp, hpo⟩ := presetOf he (n := 0) (by omega)
  obtain ⟨h1, h2, -⟩ := sramLoad_spec env { powerOn b m with user := fun _ => none, ch := resetChans (powerOn b m).ch }
  have e : ∀ c < 6, ((boot env b m).ch c).volume = 127 ∧ ((boot env b m).ch c).velocity = 127 := by
    intro c hc
    simp only [boot, reset, hp, call, h2]; simp [resetChans, hc]
  refine ⟨fun c hc => ?_, e⟩
  have : effectiveVolume ((boot env b m).ch c) = 127 := by unfold effectiveVolume; rw [(e c hc).1, (e c hc).2]
  rw [this]
  simp only [boot, reset, hp, call, Synth.step]
  exact (Synth.init_ch p _ hc).2

theorem boot_tl {env : Env} (he : env.Ok) (b : Bool) (m : Sram.Mem) : ∀ c < 6, TlSync (boot env b m).synth c := by
  obtain ⟨p, hp, hpo⟩ := presetOf he (n := 0) (by omega)
  intro c hc
  simp only [boot, reset, hp, call, Synth.step]
  exact Synth.init_tl hpo _ c hc

theorem tl_step {env : Env} (he : env.Ok) {s : St} (h : FmSafe s) (hi : Inv s.synth) {c : Nat} (hc : c < 6)
    (ht : TlSync s.synth c) {op : Op} (hl : op.Proper) (hs : ¬ op.staleTl c) : TlSync (step env s op).synth c := by
  obtain ⟨l, h1, h2⟩ := step_does he h hl.1
  exact h2.steps.tl (fun o ho => (h1 o ho).2.1 hl) hi hc (fun o ho k => hs ((h1 o ho).2.2 c k)) ht

/-- Everything about levels after a history. -/
structure Levels (s : St) (c vol vel : Nat) : Prop where
  safe : FmSafe s
  inv : Inv s.synth
  vsync : VolSync s
  tl : TlSync s.synth c
  vol : (s.ch c).volume = vol
  vel : (s.ch c).velocity = vel

theorem levels_run {env : Env} (he : env.Ok) {c : Nat} (hc : c < 6) (ops : List Op) (hl : ∀ op ∈ ops, op.Proper)
    (hd : ∀ op ∈ ops, ¬ op.driverVolume) (hs : ∀ op ∈ ops, ¬ op.staleTl c) {s : St} {v w : Nat} (h : Levels s c v w) :
    Levels (run env s ops) c (ops.foldl (fun x o => o.reqVolume c x) v) (ops.foldl (fun x o => o.reqVelocity c x) w) := by
  induction ops generalizing s v w with
  | nil => exact h
  | cons o l ih =>
    have k := step_vol he h.safe h.inv h.vsync (hl o (by simp)) (hd o (by simp))
    refine ih (fun x hx => hl x (by simp [hx])) (fun x hx => hd x (by simp [hx])) (fun x hx => hs x (by simp [hx]))
      ⟨h.safe.step he (hl o (by simp)).1, inv_step he h.safe h.inv (hl o (by simp)), k.1,
        tl_step he h.safe h.inv hc h.tl (hl o (by simp)) (hs o (by simp)), ?_, ?_⟩
    · rw [(k.2 c hc).1, h.vol]
    · rw [(k.2 c hc).2, h.vel]

theorem boot_levels {env : Env} (he : env.Ok) (b : Bool) (m : Sram.Mem) {c : Nat} (hc : c < 6) :
    Levels (boot env b m) c 127 127 :=
  ⟨(boot_ok he b m).1, (boot_ok he b m).2, (boot_vol he b m).1, boot_tl he b m c hc,
    ((boot_vol he b m).2 c hc).1, ((boot_vol he b m).2 c hc).2⟩

/-! ### The curve -/

def curveTable : Bool := (List.range 127).all fun v =>
  Synth.volumeToTotalLevels.getD (v + 1) 0 ≤ Synth.volumeToTotalLevels.getD v 0

theorem curve_succ {v : Nat} (h : v < 127) :
    Synth.volumeToTotalLevels.getD (v + 1) 0 ≤ Synth.volumeToTotalLevels.getD v 0 := by
  have : curveTable = true := by decide +kernel
  simp only [curveTable, List.all_eq_true, List.mem_range, decide_eq_true_eq] at this
  exact this v h

theorem curve_anti {v w : Nat} (h : v ≤ w) (hw : w < 128) :
    Synth.volumeToTotalLevels.getD w 0 ≤ Synth.volumeToTotalLevels.getD v 0 := by
  induction w with
  | zero => rw [Nat.le_zero.1 h]; exact Nat.le_refl _
  | succ w ih =>
    by_cases e : v = w + 1
    · rw [e]; exact Nat.le_refl _
    · exact Nat.le_trans (curve_succ (by omega)) (ih (by omega) (by omega))

theorem wantTl_anti {alg op tl v w : Nat} (h : v ≤ w) (hw : w < 128) :
    Synth.wantTl alg w op tl ≤ Synth.wantTl alg v op tl := by
  unfold Synth.wantTl
  split
  · have := curve_anti h hw
    have : (127 - tl) * (127 - Synth.volumeToTotalLevels.getD v 0) / 127 ≤
        (127 - tl) * (127 - Synth.volumeToTotalLevels.getD w 0) / 127 :=
      Nat.div_le_div_right (Nat.mul_le_mul_left _ (by omega))
    omega
  · exact Nat.le_refl _

end Mdmi.Fm
