import Verif.Proofs.MidiCache
import Verif.Proofs.MidiKeyInv
import Verif.Proofs.MidiFmSram
import Verif.Proofs.MidiLevel
import Verif.Proofs.MidiTune
/-!
# What the system reset leaves
-/
namespace Mdmi.Midi

variable {env : Env} {tame : Bool} {s t : St} {i j : Nat}

/-! ### Devices -/

/-- A device channel after `init_device_channel` and `apply_dynamic_mode`. -/
def resetDev (dynamic : Bool) (i : Nat) : Dev :=
  { num := if i ≤ 5 then i else if i ≤ 9 then i - 6 else i - 10
    ops := if i ≤ 5 then .fm else if i ≤ 9 then .psg else .sm
    noteOn := false, midiChannel := if dynamic then 0x7F else i, program := 0, pitch := 0, volume := 127, pan := 64
    pitchBend := 0x2000, cents := 0, glide := 0 }

theorem initDev_fresh (hj : j < 13) (hc : s.chan j = freshChan) : (initDev env s j).dev = upd s.dev j (resetDev false j) := by
  unfold initDev
  extract_lets b
  have e : b.dev j = { (if j ≤ 5 then { s.dev j with num := j, ops := .fm }
      else if j ≤ 9 then { s.dev j with num := j - 6, ops := .psg }
      else { s.dev j with num := j - 10, ops := .sm }) with noteOn := false, midiChannel := j, pitch := 0, cents := 0, pitchBend := 0x2000, glide := 0 } := by
    simp only [b, setDev_dev, upd_self]
  have mc : (b.dev j).midiChannel = j := by rw [e]
  have bc : b.chan = s.chan := rfl
  have bd : ∀ x, upd b.dev j x = upd s.dev j x := fun x => by simp only [b, setDev_dev, upd_upd]
  rw [updateDev_dev (by rw [mc]; omega), bd, mc, bc, hc, e]
  congr 1
  unfold resetDev Dev.sync freshChan
  by_cases h5 : j ≤ 5
  · simp [h5]
  · by_cases h9 : j ≤ 9
    · simp [h5, h9]
    · simp [h5, h9]

theorem resetChannels_devs (i : Nat) (hi : i < 13) : (resetChannels env s).dev i = resetDev s.dynamic i := by
  unfold resetChannels
  extract_lets a
  have ca : ∀ c, c < 16 → a.chan c = freshChan := fun c hc => by simp [a, hc]
  have da : a.dynamic = s.dynamic := rfl
  clear_value a
  have key : ∀ n, n ≤ 13 → let t := (List.range n).foldl (initDev env) a
      t.chan = a.chan ∧ t.dynamic = a.dynamic ∧ ∀ l, l < n → t.dev l = resetDev false l := by
    intro n
    induction n with
    | zero => intro _; exact ⟨rfl, rfl, fun l hl => absurd hl (by omega)⟩
    | succ m ih =>
      intro hm
      obtain ⟨h1, h0, h2⟩ := ih (by omega)
      simp only [List.range_succ, List.foldl_append, List.foldl_cons, List.foldl_nil]
      generalize (List.range m).foldl (initDev env) a = t at *
      refine ⟨by simp [h1], by rw [initDev_dynamic]; exact h0, fun l hl => ?_⟩
      rw [initDev_fresh (by omega) (by rw [h1]; exact ca m (by omega))]
      by_cases e : l = m
      · subst e; simp
      · rw [Psg.upd_other _ _ _ _ e]; exact h2 l (by omega)
  obtain ⟨-, h0, k⟩ := key 13 (by omega)
  have k := k i hi
  generalize (List.range 13).foldl (initDev env) a = t at *
  simp only [applyDynamicMode, hi, if_true, k, h0, da]
  cases s.dynamic <;> rfl

/-! ### The PSG -/

/-- No PSG channel counts as sounding. -/
def PsgQuiet (p : Psg.St) : Prop := ∀ n, n < 4 → (p.ch n).noteOn = false

/-- A call on a quiet PSG that writes nothing and keeps it quiet. -/
def Hush (a b : Psg.St) : Prop := PsgQuiet a → PsgQuiet b ∧ b.out = a.out

theorem Hush.refl {a : Psg.St} : Hush a a := fun h => ⟨h, rfl⟩

theorem Hush.trans {a b c : Psg.St} (h : Hush a b) (k : Hush b c) : Hush a c := fun q =>
  let h := h q; let k := k h.1; ⟨k.1, k.2.trans h.2⟩

theorem onChan_hush {a : Psg.St} {n : Nat} {f : Psg.Chan → Option Psg.Out}
    (h : ∀ c : Psg.Chan, c.noteOn = false → ∀ o, f c = some o → o.1.noteOn = false ∧ o.2 = []) : Hush a (Psg.onChan a n f) := by
  intro q
  unfold Psg.onChan
  split
  · rename_i hn
    cases e : f (a.ch n) with
    | none => exact ⟨q, rfl⟩
    | some o =>
      obtain ⟨k1, k2⟩ := h _ (q n hn) o e
      refine ⟨fun m hm => ?_, by simp [k2]⟩
      by_cases x : m = n
      · subst x; simpa using k1
      · simp only [Psg.upd_other _ _ _ _ x]; exact q m hm
  · exact ⟨q, rfl⟩

theorem devVolume_hush (v : Nat) : Hush s.psg (devVolume env s j v).psg := by
  unfold devVolume
  split <;> try exact .refl
  refine onChan_hush fun c hc o ho => ?_
  simp only [Psg.volumeChan, hc, Bool.false_eq_true, if_false, Option.some.injEq] at ho
  subst ho; exact ⟨rfl, rfl⟩

theorem devProgram_hush (v : Nat) : Hush s.psg (devProgram env s j v).psg := by
  unfold devProgram
  split <;> try exact .refl
  refine onChan_hush fun c hc o ho => ?_
  simp only [Option.some.injEq] at ho
  subst ho; exact ⟨hc, rfl⟩

theorem devPan_hush (v : Nat) : Hush s.psg (devPan env s j v).psg := by
  unfold devPan
  split <;> exact .refl

theorem initDev_hush (hc : s.chan j = freshChan) (hj : j < 13) : Hush s.psg (initDev env s j).psg := by
  unfold initDev
  extract_lets b
  have mc : (b.dev j).midiChannel = j := by simp [b]
  have pb : (b.dev j).pitchBend = 0x2000 := by simp [b]
  have bc : b.chan = s.chan := rfl
  have bp : b.psg = s.psg := rfl
  clear_value b
  rw [← bp]
  unfold updateDev
  simp only [mc, show j < 16 by omega, if_true]
  have e0 : (fmCall env b (.percussive (b.dev j).num (j == 9))).psg = b.psg := rfl
  have c0 : (fmCall env b (.percussive (b.dev j).num (j == 9))).chan = s.chan := bc
  have d0 : (fmCall env b (.percussive (b.dev j).num (j == 9))).dev = b.dev := rfl
  generalize fmCall env b (.percussive (b.dev j).num (j == 9)) = a0 at *
  rw [← e0]
  have h1 : Hush a0.psg (updateVolume env a0 j j).psg := by
    unfold updateVolume; split
    · exact devVolume_hush _
    · exact .refl
  have h2 : Hush (updateVolume env a0 j j).psg (updatePan env (updateVolume env a0 j j) j j).psg := by
    unfold updatePan; split
    · exact devPan_hush _
    · exact .refl
  have h3 : Hush (updatePan env (updateVolume env a0 j j) j j).psg
      (updateProgram env (updatePan env (updateVolume env a0 j j) j j) j j).psg := by
    generalize updatePan env (updateVolume env a0 j j) j j = w
    unfold updateProgram; split
    · exact devProgram_hush _
    · exact .refl
  have d3 : ((updateProgram env (updatePan env (updateVolume env a0 j j) j j) j j).dev j).pitchBend = 0x2000 := by
    simp [d0, pb]
  have c3 : ((updateProgram env (updatePan env (updateVolume env a0 j j) j j) j j).chan j).pitchBend = 0x2000 := by
    simp [c0, hc, freshChan]
  have h := h1.trans (h2.trans h3)
  generalize updateProgram env (updatePan env (updateVolume env a0 j j) j j) j j = w at *
  unfold updatePitchBend
  rw [if_neg (by rw [d3, c3]; simp)]
  exact h

theorem applyDynamicMode_psg : (applyDynamicMode s).psg = s.psg := rfl

theorem resetChannels_hush : Hush s.psg (resetChannels env s).psg := by
  unfold resetChannels
  extract_lets a
  have ca : ∀ c, c < 16 → a.chan c = freshChan := fun c hc => by simp [a, hc]
  have pa : a.psg = s.psg := rfl
  clear_value a
  rw [← pa]
  rw [applyDynamicMode_psg]
  have key : ∀ l : List Nat, (∀ j ∈ l, j < 13) → ∀ t : St, t.chan = a.chan → Hush t.psg (l.foldl (initDev env) t).psg := by
    intro l
    induction l with
    | nil => exact fun _ _ _ => .refl
    | cons j l ih =>
      intro hl t ht
      have hj := hl j (by simp)
      have h0 := initDev_hush (env := env) (s := t) (by rw [ht]; exact ca j (by omega)) hj
      exact h0.trans (ih (fun k hk => hl k (by simp [hk])) _ (by rw [initDev_chan]; exact ht))
  exact key _ (fun j hj => by simpa using hj) a rfl

theorem psgReset_hush (he : env.psg.Legal) (p : Psg.St) :
    PsgQuiet (Psg.step env.psg p .reset) ∧ (Psg.step env.psg p .reset).out = p.out := by
  have one : ∀ (q : Psg.St) n, n < 4 → (Psg.onChan q n (Psg.resetChan env.psg)).out = q.out ∧
      ((Psg.onChan q n (Psg.resetChan env.psg)).ch n).noteOn = false ∧
      ∀ m, m ≠ n → (Psg.onChan q n (Psg.resetChan env.psg)).ch m = q.ch m := by
    intro q n hn
    have hl : (0 : Nat) < env.psg.envelopes.length := by rw [he.count]; omega
    simp only [Psg.onChan, hn, if_true, Psg.resetChan, Psg.initEnvelope, Bool.false_eq_true, if_false, hl, Option.map_some,
      List.nil_append, upd_self, true_and]
    exact fun m hm => Psg.upd_other _ _ _ _ hm
  simp only [Psg.step, Psg.reset, show List.range 4 = [0, 1, 2, 3] from rfl, List.foldl_cons, List.foldl_nil]
  have e : ({ p with userLoaded := false } : Psg.St).out = p.out := rfl
  revert e
  generalize ({ p with userLoaded := false } : Psg.St) = q0
  intro e
  have o0 := one q0 0 (by omega)
  generalize Psg.onChan q0 0 (Psg.resetChan env.psg) = q1 at *
  have o1 := one q1 1 (by omega)
  generalize Psg.onChan q1 1 (Psg.resetChan env.psg) = q2 at *
  have o2 := one q2 2 (by omega)
  generalize Psg.onChan q2 2 (Psg.resetChan env.psg) = q3 at *
  have o3 := one q3 3 (by omega)
  generalize Psg.onChan q3 3 (Psg.resetChan env.psg) = q4 at *
  refine ⟨fun n hn => ?_, by rw [o3.1, o2.1, o1.1, o0.1, e]⟩
  match n, hn with
  | 0, _ => rw [o3.2.2 0 (by omega), o2.2.2 0 (by omega), o1.2.2 0 (by omega)]; exact o0.2.1
  | 1, _ => rw [o3.2.2 1 (by omega), o2.2.2 1 (by omega)]; exact o1.2.1
  | 2, _ => rw [o3.2.2 2 (by omega)]; exact o2.2.1
  | 3, _ => exact o3.2.1

/-- The system reset writes nothing to the PSG. -/
theorem reset_psg (he : env.psg.Legal) (s : St) : (reset env s).psg.out = s.psg.out := by
  obtain ⟨u, e, -, e2, -⟩ := reset_split env s
  have h := psgReset_hush he s.psg
  rw [e, (resetChannels_hush (e2 ▸ h.1)).2, e2, h.2]

/-! ### FM -/

/-- Calls that keep the velocities of FM channels. -/
def SameVel (a b : Fm.St) : Prop := ∀ n, (b.ch n).velocity = (a.ch n).velocity

theorem SameVel.refl {a : Fm.St} : SameVel a a := fun _ => rfl

theorem SameVel.trans {a b c : Fm.St} (h : SameVel a b) (k : SameVel b c) : SameVel a c := fun n => (k n).trans (h n)

theorem fm_sameVel {f : Fm.St} {o : Fm.Op} (h : match o with | .percussive _ _ | .volume _ _ | .pan _ _ | .program _ _ | .pitch _ _ _ | .smPitch _ _ _ => True | _ => False) :
    SameVel f (Fm.step env.fm f o) := by
  have upd_vel : ∀ (ch : Nat → Fm.Chan) (k : Nat) (x : Fm.Chan), x.velocity = (ch k).velocity → ∀ n, (upd ch k x n).velocity = (ch n).velocity := by
    intro ch k x hx n
    by_cases e : n = k
    · subst e; simpa using hx
    · rw [Psg.upd_other _ _ _ _ e]
  intro n
  cases o <;> simp only at h
  · simp only [Fm.step, Fm.channelVolume, Fm.guardCh]; split
    · simp only [Fm.call]; rw [upd_vel]; rfl
    · rfl
  · simp only [Fm.step, Fm.program]; split
    · split
      · rfl
      · split <;> rfl
    · rfl
  · simp only [Fm.step, Fm.percussive, Fm.guardCh]; split
    · simp only; rw [upd_vel]; rfl
    · rfl
  · simp only [Fm.step, Fm.pan, Fm.guardCh, Fm.call]; split
    · split
      · simp only; rw [upd_vel]; rfl
      · split <;> (simp only; rw [upd_vel]; rfl)
    · rfl
  · simp only [Fm.step, Fm.pitch, Fm.guardCh, Fm.setSynthPitch, Fm.call]; split
    · simp only; rw [upd_vel]; rfl
    · rfl
  · simp only [Fm.step, Fm.smPitch]; split <;> rfl

theorem updateDev_sameVel : SameVel s.fm (updateDev env s j).fm := by
  have hv : ∀ s v, SameVel s.fm (devVolume env s j v).fm := fun s v => by
    unfold devVolume; split <;> first | exact .refl | exact fm_sameVel trivial
  have hp : ∀ s v, SameVel s.fm (devPan env s j v).fm := fun s v => by
    unfold devPan; split <;> first | exact .refl | exact fm_sameVel trivial
  have hq : ∀ s v, SameVel s.fm (devProgram env s j v).fm := fun s v => by
    unfold devProgram; split <;> first | exact .refl | exact fm_sameVel trivial
  have hb : ∀ s v x, SameVel s.fm (devPitch env s j v x).fm := fun s v x => by
    unfold devPitch; split <;> first | exact .refl | exact fm_sameVel trivial
  unfold updateDev
  simp only
  split
  · have h0 : SameVel s.fm (fmCall env s (.percussive (s.dev j).num ((s.dev j).midiChannel == 9))).fm := fm_sameVel trivial
    refine h0.trans ?_
    generalize fmCall env s (.percussive (s.dev j).num ((s.dev j).midiChannel == 9)) = a
    generalize (s.dev j).midiChannel = c
    have h1 : SameVel a.fm (updateVolume env a c j).fm := by
      unfold updateVolume; split
      · exact hv _ _
      · exact .refl
    refine h1.trans ?_
    generalize updateVolume env a c j = a
    have h1 : SameVel a.fm (updatePan env a c j).fm := by
      unfold updatePan; split
      · exact hp _ _
      · exact .refl
    refine h1.trans ?_
    generalize updatePan env a c j = a
    have h1 : SameVel a.fm (updateProgram env a c j).fm := by
      unfold updateProgram; split
      · exact hq _ _
      · exact .refl
    refine h1.trans ?_
    generalize updateProgram env a c j = a
    unfold updatePitchBend setDownstreamPitch withPitch
    split
    · simp only
      split
      · exact hb _ _ _
      · exact .refl
    · exact .refl
  · exact .refl

theorem resetChannels_sameVel : SameVel s.fm (resetChannels env s).fm := by
  unfold resetChannels
  extract_lets a
  have fa : a.fm = s.fm := rfl
  clear_value a
  rw [← fa, applyDynamicMode_fm]
  have key : ∀ l : List Nat, ∀ t : St, SameVel t.fm (l.foldl (initDev env) t).fm := by
    intro l
    induction l with
    | nil => exact fun _ => .refl
    | cons j l ih =>
      intro t
      have h0 : SameVel t.fm (initDev env t j).fm := by
        unfold initDev
        extract_lets b
        have : b.fm = t.fm := rfl
        clear_value b
        rw [← this]; exact updateDev_sameVel
      exact h0.trans (ih _)
  exact key _ a

/-- The FM device after the reset, before the channels are initialised. -/
structure FmFresh (f : Fm.St) : Prop where
  safe : Fm.FmSafe f
  inv : Synth.Inv f.synth
  vol : Fm.VolSync f
  tl : ∀ i, i < 6 → Synth.TlSync f.synth i
  vel : ∀ i, i < 6 → (f.ch i).velocity = 127
  lfo : Synth.ymReg f.synth.out 0 0x22 = 8
  mode : Synth.ymReg f.synth.out 0 0x27 = 0
  dac : Synth.ymReg f.synth.out 0 0x2B = 0

theorem fmReset_fresh (he : env.fm.Ok) {f : Fm.St} (hs : Fm.FmSafe f) :
    FmFresh (Fm.step env.fm (Fm.step env.fm f .reset) .smReset) := by
  obtain ⟨p, hp, hpo⟩ := Fm.presetOf he (n := 0) (by omega)
  have sf := (hs.step he (op := .reset) trivial).step he (op := .smReset) trivial
  obtain ⟨h1, h2, -⟩ := Fm.sramLoad_spec env.fm { f with user := fun _ => none, ch := Fm.resetChans f.ch }
  have e : Fm.step env.fm f .reset = Fm.call (Fm.sramLoad env.fm { f with user := fun _ => none, ch := Fm.resetChans f.ch }) (.init p) := by
    simp only [Fm.step, Fm.reset, hp]
  have h2 : (Fm.sramLoad env.fm { f with user := fun _ => none, ch := Fm.resetChans f.ch }).ch = Fm.resetChans f.ch := h2
  have ft : (Fm.sramLoad env.fm { f with user := fun _ => none, ch := Fm.resetChans f.ch }).synth.fault = false := by
    rw [h1.fault]; exact hs.synth.fault
  generalize Fm.sramLoad env.fm { f with user := fun _ => none, ch := Fm.resetChans f.ch } = w at *
  have es : (Fm.step env.fm (Fm.step env.fm f .reset) .smReset).synth = Synth.init w.synth p := by
    rw [e]; simp only [Fm.step, Fm.smReset, Fm.call, Synth.step]
  have ec : (Fm.step env.fm (Fm.step env.fm f .reset) .smReset).ch = Fm.resetChans f.ch := by
    rw [e, ← h2]; simp only [Fm.step, Fm.smReset, Fm.call]
  obtain ⟨k, r⟩ := Synth.init_initK hpo ft
  refine ⟨sf, es ▸ Synth.init_inv hpo ft, fun c hc => ?_, fun c hc => es ▸ Synth.init_tl hpo _ c hc, fun c hc => ?_, es ▸ r,
    es ▸ k.r27, es ▸ k.r2B⟩
  · rw [es, ec, (k.ch c hc).2.2]
    simp [Fm.effectiveVolume, Fm.resetChans, hc]
  · rw [ec]; simp [Fm.resetChans, hc]

theorem tick_makes_calm {o : Fm.Op} (h : Op.tick.makes o) {p r d : Nat} (ht : Fm.touches o p r d) :
    (p, r) ≠ (0, 0x22) ∧ (p, r) ≠ (0, 0x27) ∧ (p, r) ≠ (0, 0x2B) := by
  have ow : ∀ c, Synth.owner p r d = some c → (p, r) ≠ (0, 0x22) ∧ (p, r) ≠ (0, 0x27) ∧ (p, r) ≠ (0, 0x2B) := by
    intro c hc
    refine ⟨?_, ?_, ?_⟩ <;> (rintro ⟨⟩; simp [Synth.owner] at hc)
  have sm : ∀ o, (p, r) ∈ Fm.smOwns o → (p, r) ≠ (0, 0x22) ∧ (p, r) ≠ (0, 0x27) ∧ (p, r) ≠ (0, 0x2B) := by
    intro o ho
    have lo : 0x40 ≤ r := by
      simp only [Fm.smOwns, List.mem_cons, Prod.mk.injEq, List.not_mem_nil, or_false] at ho
      have : 0xA8 ≤ (Fm.smRegs o).1 ∧ 0xA8 ≤ (Fm.smRegs o).2 := by unfold Fm.smRegs; split <;> decide
      omega
    refine ⟨?_, ?_, ?_⟩ <;> (intro e; cases e; omega)
  cases o <;> simp only [Op.makes, Fm.touches] at h ht
  all_goals first
    | exact ow _ ht
    | exact sm _ ht
    | exact False.elim ht
    | (cases h; done)
    | (rcases h with ⟨_, _, _, _, h⟩ | ⟨_, _, _, h, _⟩
       · exact h.elim
       · cases h)

/-- What the reset leaves on the FM chip. -/
structure FmReset (f : Fm.St) : Prop where
  inv : Synth.Inv f.synth
  tl : ∀ i, i < 6 → Synth.TlSync f.synth i
  vol : ∀ i, i < 6 → (f.ch i).volume = 127 → f.synth.vol i = 127
  lfo : Synth.ymReg f.synth.out 0 0x22 = 8
  mode : Synth.ymReg f.synth.out 0 0x27 = 0
  dac : Synth.ymReg f.synth.out 0 0x2B = 0

/-- The calls that initialise device channels. -/
def Op.settles (o : Fm.Op) : Prop := Op.tick.makes o ∧ ∀ c, ¬o.staleTl c

/-- Special-mode voices only clear the percussion flag of the FM channel with their number. -/
theorem initDev_sm (hc : s.chan j = freshChan) (hj : j < 13) (h10 : 10 ≤ j) :
    (initDev env s j).fm = Fm.step env.fm s.fm (.percussive (j - 10) false) := by
  unfold initDev
  extract_lets b
  have e : b.dev j = { s.dev j with num := j - 10, ops := .sm, noteOn := false, midiChannel := j, pitch := 0, cents := 0, pitchBend := 0x2000, glide := 0 } := by
    simp [b, show ¬ j ≤ 5 by omega, show ¬ j ≤ 9 by omega]
  have bc : b.chan = s.chan := rfl
  have bf : b.fm = s.fm := rfl
  clear_value b
  rw [← bf]
  unfold updateDev
  simp only [e, show j < 16 by omega, if_true]
  rw [show (j == 9) = false by simp; omega]
  have a1 : (fmCall env b (.percussive (j - 10) false)).fm = Fm.step env.fm b.fm (.percussive (j - 10) false) := rfl
  have a2 : ((fmCall env b (.percussive (j - 10) false)).dev j).ops = .sm := by show (b.dev j).ops = _; rw [e]
  have a3 : ((fmCall env b (.percussive (j - 10) false)).dev j).pitchBend = 0x2000 := by show (b.dev j).pitchBend = _; rw [e]
  have a4 : ((fmCall env b (.percussive (j - 10) false)).chan j).pitchBend = 0x2000 := by show (b.chan j).pitchBend = _; rw [bc, hc]; rfl
  generalize fmCall env b (.percussive (j - 10) false) = a at *
  rw [← a1]
  have v : (updateVolume env a j j).fm = a.fm := by
    unfold updateVolume; split
    · rw [setDev_fm]; simp only [devVolume, a2]
    · rfl
  have v2 : ((updateVolume env a j j).dev j).ops = .sm := by simp [a2]
  have p : (updatePan env (updateVolume env a j j) j j).fm = a.fm := by
    unfold updatePan; split
    · rw [setDev_fm]; simp only [devPan, v2]; exact v
    · exact v
  have p2 : ((updatePan env (updateVolume env a j j) j j).dev j).ops = .sm := by simp [a2]
  have q : (updateProgram env (updatePan env (updateVolume env a j j) j j) j j).fm = a.fm := by
    rw [← p]
    generalize updatePan env (updateVolume env a j j) j j = w at p2
    unfold updateProgram; split
    · rw [setDev_fm]; simp only [devProgram, p2]
    · rfl
  have d3 : ((updateProgram env (updatePan env (updateVolume env a j j) j j) j j).dev j).pitchBend = 0x2000 := by simp [a3]
  have c3 : ((updateProgram env (updatePan env (updateVolume env a j j) j j) j j).chan j).pitchBend = 0x2000 := by simp [a4]
  generalize updateProgram env (updatePan env (updateVolume env a j j) j j) j j = w at *
  unfold updatePitchBend
  rw [if_neg (by rw [d3, c3]; simp)]
  exact q

theorem initDevs_settles (he : env.Ok) : ∀ n, n ≤ 13 → ∀ s, (∀ c, c < 16 → s.chan c = freshChan) →
    OkOn env tame (fun _ => False) s → FmBy env Op.settles s.fm ((List.range n).foldl (initDev env) s).fm ∧
      ((List.range n).foldl (initDev env) s).chan = s.chan := by
  intro n
  induction n with
  | zero => intro _ s _ _; exact ⟨.refl, rfl⟩
  | succ n ih =>
    intro hn s hf h
    have h0 := ih (by omega) s hf h
    have h1 := initDevs_ok he n (by omega) s h
    rw [List.range_succ, List.foldl_append]
    revert h1 h0
    generalize (List.range n).foldl (initDev env) s = t
    rintro ⟨h0, hc⟩ h1
    simp only [List.foldl_cons, List.foldl_nil]
    refine ⟨h0.trans ?_, by rw [initDev_chan]; exact hc⟩
    by_cases h10 : 10 ≤ n
    · rw [initDev_sm (by rw [hc]; exact hf n (by omega)) (by omega) h10]
      exact .one ⟨trivial, fun _ => id⟩ (show n - 10 < 6 by omega)
    have h2 : OkOn env tame (· < n + 1) (setDev t n (freshDev n)) := by
      refine { h1 with lt := fun i hi => by omega, dev := fun i hi => ?_ }
      by_cases e : i = n
      · subst e; simpa using freshDev_ok (by omega) _
      · simpa [Psg.upd_other _ _ _ _ e] using h1.dev i (by omega)
    have p := updateDev_path (A := (· < 10)) (C := fun _ => True) (G := Op.settles) (H := fun _ => True) (i := n) h2
      (by omega) (by omega) he (by simp [freshDev]; omega)
    obtain ⟨l, hl, e⟩ := p.frame.fm
    refine ⟨l, fun o ho => ⟨(hl o ho).1.elim (fun ⟨i, hi, _, hv⟩ => ⟨voiceFm_makes hv, fun c hs => ?_⟩) id, (hl o ho).2⟩, e⟩
    cases o <;> first | exact hs | exact hv | (have := hv.1; omega)

theorem resetChannels_settles (he : env.Ok) (hf : Fm.FmSafe s.fm) (hp : Psg.Good env.psg s.psg)
    (hu : s.fault = false) : FmBy env Op.settles s.fm (resetChannels env s).fm := by
  have h : OkOn env false (fun _ => False) { s with chan := fun c => if c < 16 then freshChan else s.chan c } := by
    refine ⟨by simp, by simp, fun c hc => ?_, hf, hp, hu⟩
    simp only [if_pos hc]; exact freshChan_ok
  unfold resetChannels
  simp only [applyDynamicMode_fm]
  have e : ({ s with chan := fun c => if c < 16 then freshChan else s.chan c } : St).fm = s.fm := rfl
  have k : ∀ c, c < 16 → ({ s with chan := fun c => if c < 16 then freshChan else s.chan c } : St).chan c = freshChan :=
    fun c hc => by simp [hc]
  revert h e k
  generalize ({ s with chan := fun c => if c < 16 then freshChan else s.chan c } : St) = w
  intro h e k
  rw [← e]
  exact (initDevs_settles he 13 (by omega) _ k h).1

theorem FmBy.wrote {P : Fm.Op → Prop} {f g : Fm.St} {Q : Nat → Nat → Nat → Prop} (a : FmBy env P f g)
    (h : ∀ o, P o → o ≠ .reset ∧ (∀ p, o ≠ .synth (.init p)) ∧ ∀ p r d, Fm.touches o p r d → Q p r d) :
    Synth.Wrote Q f.synth.out g.synth.out := by
  obtain ⟨l, hl, rfl⟩ := a
  induction l generalizing f with
  | nil => exact .refl
  | cons o l ih =>
    have k := hl o (by simp)
    have w := h o k.1
    exact Synth.Wrote.trans ((Fm.step_wrote env.fm f k.2 w.1 w.2.1).mono w.2.2) (ih fun x hx => hl x (by simp [hx]))

theorem FmBy.users {f g : Fm.St} (a : FmBy env Op.settles f g) : g.user = f.user ∧ g.mem = f.mem := by
  obtain ⟨l, hl, rfl⟩ := a
  induction l generalizing f with
  | nil => exact ⟨rfl, rfl⟩
  | cons o l ih =>
    have k := (hl o (by simp)).1.1
    have h := Fm.step_keeps (env := env.fm) f o (fun n hn => by
      cases o <;> first | exact hn | exact k) (by rintro rfl; cases k)
    have i := ih (f := Fm.step env.fm f o) fun x hx => hl x (by simp [hx])
    exact ⟨i.1.trans h.2, i.2.trans h.1⟩

/-- The presets after a reset are those in the preset memory. -/
theorem reset_users (he : env.Ok) (hs : Ok env tame s) : (reset env s).fm.mem = s.fm.mem ∧
    ∀ n, n < 128 → (reset env s).fm.user n = if env.fm.sram = true then Fm.held s.fm.mem n else none := by
  obtain ⟨u, e, e1, e2, e3⟩ := reset_split env s
  have fr := fmReset_fresh he.fm hs.fm
  rw [← e1] at fr
  have by0 := resetChannels_settles (s := u) he fr.safe (e2 ▸ Psg.step_good he.psg hs.psg .reset trivial) (e3.trans hs.fault)
  have us := by0.users
  rw [← e] at us
  generalize reset env s = t at *
  rw [us.1, us.2, e1]
  have sm := Fm.step_keeps (env := env.fm) (Fm.step env.fm s.fm .reset) .smReset (fun _ h => h) (by simp)
  rw [sm.1, sm.2]
  refine ⟨Fm.reset_mem he.fm s.fm, fun n hn => ?_⟩
  split
  · rename_i h; exact Fm.reset_user he.fm h s.fm hn
  · rename_i h
    obtain ⟨p, hp, -⟩ := Fm.presetOf he.fm (n := 0) (by omega)
    simp only [Fm.step, Fm.reset, hp, Fm.call]
    rw [(Fm.sramLoad_spec env.fm _).2.2.2.2.2 n]
    simp [h]

theorem reset_fm (he : env.Ok) (hs : Ok env tame s) : FmReset (reset env s).fm := by
  obtain ⟨u, e, e1, e2, e3⟩ := reset_split env s
  have fr := fmReset_fresh he.fm hs.fm
  rw [← e1] at fr
  have by0 := resetChannels_settles (s := u) he fr.safe (e2 ▸ Psg.step_good he.psg hs.psg .reset trivial) (e3.trans hs.fault)
  have sv := resetChannels_sameVel (env := env) (s := u)
  rw [← e] at by0 sv
  generalize (reset env s).fm = g at *
  have np : ∀ o, Op.settles o → (∀ p r d, o ≠ .synth (.directWrite p r d)) ∧ ¬o.driverVolume :=
    fun o ho => ⟨makes_proper ho.1 id, makes_vol ho.1 id⟩
  have w := by0.wrote (Q := fun p r _ => (p, r) ≠ (0, 0x22) ∧ (p, r) ≠ (0, 0x27) ∧ (p, r) ≠ (0, 0x2B)) fun o ho => by
    refine ⟨?_, ?_, fun p r d ht => tick_makes_calm ho.1 ht⟩
    · rintro rfl; cases ho.1
    · rintro p rfl
      rcases ho.1 with ⟨_, _, _, h, _⟩ | ⟨_, _, _, h, _⟩ <;> cases h
  refine ⟨by0.inv he (fun o ho => (np o ho).1) fr.safe fr.inv,
    fun i hi => by0.tl he (fun o ho => ⟨(np o ho).1, ho.2 i⟩) fr.safe fr.inv hi (fr.tl i hi), fun i hi hv => ?_,
    by rw [w.reg (fun _ h => h.1 rfl)]; exact fr.lfo, by rw [w.reg (fun _ h => h.2.1 rfl)]; exact fr.mode,
    by rw [w.reg (fun _ h => h.2.2 rfl)]; exact fr.dac⟩
  rw [by0.vol he np fr.safe fr.inv fr.vol i hi]
  simp [Fm.effectiveVolume, hv, sv i, fr.vel i hi]

theorem applyDynamicMode_dynamic : (applyDynamicMode s).dynamic = s.dynamic := rfl

theorem resetChannels_mode : (resetChannels env s).dynamic = s.dynamic := by
  unfold resetChannels
  extract_lets a
  have da : a.dynamic = s.dynamic := rfl
  clear_value a
  have key : ∀ l : List Nat, ∀ t : St, (l.foldl (initDev env) t).dynamic = t.dynamic := by
    intro l
    induction l with
    | nil => exact fun _ => rfl
    | cons j l ih => exact fun t => (ih _).trans (initDev_dynamic j)
  rw [applyDynamicMode_dynamic, key, da]

/-- The engine's own state after a reset. -/
theorem reset_state (env : Env) (s : St) : (∀ c, c < 16 → (reset env s).chan c = freshChan) ∧
    (∀ i, i < 13 → (reset env s).dev i = resetDev (env.mode == .dynamic) i) ∧
    (reset env s).dynamic = (env.mode == .dynamic) ∧ (reset env s).cfg = ⟨env.mode, false, false, false⟩ := by
  obtain ⟨u, e, e1, e2⟩ : ∃ u, reset env s = resetChannels env u ∧ u.dynamic = (env.mode == .dynamic) ∧
    u.cfg = ⟨env.mode, false, false, false⟩ := ⟨_, rfl, rfl, rfl⟩
  rw [e]
  exact ⟨fun c hc => resetChannels_chan hc, fun i hi => by rw [resetChannels_devs i hi, e1],
    by rw [resetChannels_mode, e1], by rw [resetChannels_cfg, e2]⟩

end Mdmi.Midi
