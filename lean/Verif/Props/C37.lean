import Verif.Proofs.MidiView
import Verif.Proofs.MidiLevel
import Verif.Spec.Example
/-! C37: FM parameter controllers. -/
namespace Mdmi.Props
open Mdmi Mdmi.Midi
open Mdmi.Synth (FmChannel Operator chipChannel chipOperator keyed)

/-- Controllers of operator parameters: the number for operator 1 (the others follow) and what a value sets, scaled to
the number of settings of the parameter.  Total level takes the value as it is, or inverted. -/
def operatorControllers (invert : Bool) : List (Nat × (Nat → Operator → Operator)) :=
  [(16, fun v o => { o with totalLevel := if invert then 127 - v else v }),
   (20, fun v o => { o with multiple := v * 16 / 128 }),
   (24, fun v o => { o with detune := v * 8 / 128 }),
   (39, fun v o => { o with rateScaling := v * 4 / 128 }),
   (43, fun v o => { o with attackRate := v * 32 / 128 }),
   (47, fun v o => { o with decayRate := v * 32 / 128 }),
   (51, fun v o => { o with sustainRate := v * 16 / 128 }),
   (55, fun v o => { o with sustainLevel := v * 16 / 128 }),
   (59, fun v o => { o with releaseRate := v * 16 / 128 }),
   (70, fun v o => { o with am := v * 2 / 128 }),
   (90, fun v o => { o with ssgEg := v * 16 / 128 })]

/-- Controllers of parameters of the whole channel. -/
def channelControllers : List (Nat × (Nat → FmChannel → FmChannel)) :=
  [(14, fun v x => { x with algorithm := v * 8 / 128 }),
   (15, fun v x => { x with feedback := v * 8 / 128 }),
   (75, fun v x => { x with fms := v * 8 / 128 }),
   (76, fun v x => { x with ams := v * 4 / 128 }),
   (77, fun v x => { x with stereo := v * 4 / 128 })]

/-- Change of operator `n`. -/
def onOperator (n : Nat) (f : Operator → Operator) (x : FmChannel) : FmChannel :=
  { x with ops := match n with
      | 0 => { x.ops with o0 := f x.ops.o0 }
      | 1 => { x.ops with o1 := f x.ops.o1 }
      | 2 => { x.ops with o2 := f x.ops.o2 }
      | _ => { x.ops with o3 := f x.ops.o3 } }

/-- What controller `k` with value `v` asks of a channel: nothing for the ones in neither table. -/
def asks (invert : Bool) (k v : Nat) (x : FmChannel) (y : FmChannel) : Prop :=
  (∃ f, (k, f) ∈ channelControllers ∧ y = f v x) ∨
  (∃ b f, (b, f) ∈ operatorControllers invert ∧ b ≤ k ∧ k < b + 4 ∧ y = onOperator (k - b) (f v) x)

variable {env : Env} {tame : Bool} {s t : St}

/-- The driver call of a controller in the tables asks for the same. -/
private theorem asks_call {inv : Bool} {n k v : Nat} {x y : FmChannel} (hv : v < 128) (h : asks inv k v x y) :
    ∃ op, fmParam inv n k v = some op ∧ op.chan = some n ∧ op.request n x = y ∧
      (∀ z, op.request n (op.request n z) = op.request n z) ∧
      (∀ i, (∀ w, op.requestVol i w = w) ∧ (∀ w, op.requestFreq i w = w) ∧ (∀ w, op.requestKey i w = w)) := by
  rcases h with ⟨f, hf, rfl⟩ | ⟨b, f, hf, h1, h2, rfl⟩
  · simp only [channelControllers, List.mem_cons, Prod.mk.injEq, List.not_mem_nil, or_false] at hf
    rcases hf with ⟨rfl, rfl⟩ | ⟨rfl, rfl⟩ | ⟨rfl, rfl⟩ | ⟨rfl, rfl⟩ | ⟨rfl, rfl⟩
    all_goals
      refine ⟨_, rfl, rfl, ?_, fun z => ?_, fun i => ⟨fun _ => rfl, fun _ => rfl, fun _ => rfl⟩⟩ <;> simp only [Synth.Op.request, if_true, FmChannel.mk.injEq] <;> grind
  · simp only [operatorControllers, List.mem_cons, Prod.mk.injEq, List.not_mem_nil, or_false] at hf
    have inv : toU8 (127 - (v : Int)) = 127 - v := by unfold toU8; omega
    obtain ⟨j, hj, rfl⟩ : ∃ j, j < 4 ∧ k = b + j := ⟨k - b, by omega, by omega⟩
    rw [Nat.add_sub_cancel_left]
    have hj : j = 0 ∨ j = 1 ∨ j = 2 ∨ j = 3 := by omega
    rcases hf with ⟨rfl, rfl⟩ | ⟨rfl, rfl⟩ | ⟨rfl, rfl⟩ | ⟨rfl, rfl⟩ | ⟨rfl, rfl⟩ | ⟨rfl, rfl⟩ | ⟨rfl, rfl⟩ | ⟨rfl, rfl⟩ |
      ⟨rfl, rfl⟩ | ⟨rfl, rfl⟩ | ⟨rfl, rfl⟩
    all_goals
      rcases hj with rfl | rfl | rfl | rfl <;>
        refine ⟨_, rfl, rfl, ?_, fun z => ?_, fun i => ⟨fun _ => rfl, fun _ => rfl, fun _ => rfl⟩⟩ <;>
        simp only [Synth.Op.request, Synth.Op.request.oper, onOperator, if_true, inv] <;>
        simp <;> grind

/-- Other voices' part in the loop: the parameters of FM channel `i` stay or change as asked. -/
private structure Rel (g : FmChannel → FmChannel) (i : Nat) (t u : St) : Prop where
  dev : u.dev = t.dev
  cfg : u.cfg = t.cfg
  vol : u.fm.synth.vol i = t.fm.synth.vol i
  freq : (chipChannel u.fm.synth.out i).freq = (chipChannel t.fm.synth.out i).freq
  key : keyed u.fm.synth.out i = keyed t.fm.synth.out i
  par : u.fm.synth.ch i = t.fm.synth.ch i ∨ u.fm.synth.ch i = g (t.fm.synth.ch i)

private theorem cc_loop {c k v : Nat} {op : Synth.Op} {inv : Bool} {n : Nat} (hc : c < 16) (h : fmParam inv n k v = some op) :
    step env s (.cc c k v) = emit (foreach s c fun s i => setFmParam env s i k v) (.changedCc c k v) := by
  have e : ccSwitch env s c k v = foreach s c fun s i => setFmParam env s i k v := by
    unfold fmParam at h
    split at h <;> first | (cases h; done) | rfl
  simp only [step, if_pos hc, cc, e]

private theorem param_view (he : env.Ok) (hs : Ok env tame s) {c k v i : Nat} (hc : c < 16) (hv : v < 128) (hi : i < 6)
    (hm : (s.dev i).midiChannel = c) (hg : s.cfg.disableNonGm = false) {x y : FmChannel}
    (h : asks s.cfg.invert k v x y) (hx : x = s.fm.synth.ch i) :
    let t := step env s (.cc c k v)
    t.fm.synth.ch i = y ∧ t.fm.synth.vol i = s.fm.synth.vol i ∧
      (chipChannel t.fm.synth.out i).freq = (chipChannel s.fm.synth.out i).freq ∧
      keyed t.fm.synth.out i = keyed s.fm.synth.out i := by
  subst hx
  have ex : ∀ z, ∃ y', asks s.cfg.invert k v z y' := by
    intro z
    rcases h with ⟨f, hf, -⟩ | ⟨b, f, hf, h1, h2, -⟩
    · exact ⟨_, .inl ⟨f, hf, rfl⟩⟩
    · exact ⟨_, .inr ⟨b, f, hf, h1, h2, rfl⟩⟩
  obtain ⟨op, e1, e2, e3, e4, e5⟩ := asks_call (n := i) hv h
  have hb : ∀ t j, Ok env tame t → t.cfg = s.cfg → j < 13 →
      ∃ o, (setFmParam env t j k v) = fmCall env t (.synth o) ∧ fmParam s.cfg.invert (t.dev j).num k v = some o ∧
        o.Legal ∧ o.chan = some (t.dev j).num := by
    intro t j ht hcfg hj
    obtain ⟨y', hy'⟩ := ex (s.fm.synth.ch i)
    obtain ⟨o, o1, o2, -⟩ := asks_call (n := (t.dev j).num) hv hy'
    refine ⟨o, ?_, o1, fmParam_legal ((ht.dev j hj).numLt hj) o1, o2⟩
    unfold setFmParam
    rw [hcfg, o1]
    simp [hg]
  have hbody : ∀ t j, Ok env tame t ∧ t.cfg = s.cfg → j < 13 →
      (Ok env tame (setFmParam env t j k v) ∧ (setFmParam env t j k v).cfg = s.cfg) ∧
      Rel (op.request i) i t (setFmParam env t j k v) ∧
      ((t.dev j).num = i → (setFmParam env t j k v).fm.synth.ch i = op.request i (t.fm.synth.ch i)) := by
    rintro t j ⟨ht, hcfg⟩ hj
    obtain ⟨o, q1, q2, q3, q4⟩ := hb t j ht hcfg hj
    have r := Synth.step_request_ok ht.fm.synth.ok q3 hi
    have hv' : (∀ w, o.requestVol i w = w) ∧ (∀ w, o.requestFreq i w = w) ∧ (∀ w, o.requestKey i w = w) := by
      obtain ⟨y', hy'⟩ := ex (s.fm.synth.ch i)
      obtain ⟨o', o1, -, -, -, o5⟩ := asks_call (n := (t.dev j).num) hv hy'
      rw [q2] at o1; cases o1; exact o5 i
    have hsame : (t.dev j).num = i → o = op := by
      intro e; rw [e, e1] at q2; exact (Option.some.inj q2).symm
    rw [q1]
    have fk := Synth.step_chip (s := t.fm.synth) q3 hi
    refine ⟨⟨?_, hcfg⟩, ⟨rfl, rfl, r.2.trans (hv'.1 _), fk.1.trans (hv'.2.1 _), fk.2.trans (hv'.2.2 _), ?_⟩, fun e => ?_⟩
    · have p := (Path.refl (env := env) (tame := tame) (A := fun _ => True) (C := fun _ => True) (G := fun _ => True)
        (H := fun _ => True) (s := t)).fm (op := .synth o) (.inr trivial) (.inl q3)
      exact p.ok he ht
    · by_cases e : (t.dev j).num = i
      · rw [← hsame e]; exact .inr r.1
      · exact .inl (r.1.trans (Synth.request_other q4 (Ne.symm e) _ 0).1)
    · rw [← hsame e]; exact r.1
  have sp := foreach_split (s := s) (I := fun t => Ok env tame t ∧ t.cfg = s.cfg) (R := Rel (op.request i) i) (c := c) (i := i)
    (body := fun s i => setFmParam env s i k v) (fun t => ⟨rfl, rfl, rfl, rfl, rfl, .inl rfl⟩)
    (fun t u v h k => ⟨k.dev.trans h.dev, k.cfg.trans h.cfg, k.vol.trans h.vol, k.freq.trans h.freq, k.key.trans h.key, by
      rcases h.par with a | a <;> rcases k.par with b | b <;> simp [a, b, e4]⟩)
    (fun t j ht hj _ => (hbody t j ht hj).1) (fun t j ht hj _ _ => (hbody t j ht hj).2.1)
    (fun t u h => by rw [h.dev]) (by omega) ⟨hs, rfl⟩
  rw [if_pos hm] at sp
  obtain ⟨t, ht, r1, r2⟩ := sp
  simp only
  rw [cc_loop hc e1, emit_fm]
  have q := (hbody t i ht (by omega)).2
  have hn : (t.dev i).num = i := (ht.1.dev i (by omega)).fmNum hi
  have q2 := q.2 hn
  refine ⟨?_, r2.vol.trans (q.1.vol.trans r1.vol), r2.freq.trans (q.1.freq.trans r1.freq),
    r2.key.trans (q.1.key.trans r1.key)⟩
  rw [← e3]
  rcases r1.par with a | a <;> rcases r2.par with b | b <;> simp only [b, q2, a, e4]

/-- Controllers of the tables look at no total level or frequency other than the one they set. -/
private theorem asks_timbre {inv : Bool} {k v : Nat} {x x' y : FmChannel} (h : asks inv k v x y) (e : x.timbre = x'.timbre) :
    ∃ y', asks inv k v x' y' ∧ y'.timbre = y.timbre := by
  rcases h with ⟨f, hf, rfl⟩ | ⟨b, f, hf, h1, h2, rfl⟩
  · refine ⟨_, .inl ⟨f, hf, rfl⟩, ?_⟩
    simp only [channelControllers, List.mem_cons, Prod.mk.injEq, List.not_mem_nil, or_false] at hf
    simp only [FmChannel.timbre, FmChannel.mk.injEq] at e
    rcases hf with ⟨rfl, rfl⟩ | ⟨rfl, rfl⟩ | ⟨rfl, rfl⟩ | ⟨rfl, rfl⟩ | ⟨rfl, rfl⟩ <;>
      simp only [FmChannel.timbre, FmChannel.mk.injEq] <;> simp [e]
  · refine ⟨_, .inr ⟨b, f, hf, h1, h2, rfl⟩, ?_⟩
    simp only [operatorControllers, List.mem_cons, Prod.mk.injEq, List.not_mem_nil, or_false] at hf
    have sh : ∀ o o' : Operator, o.shape = o'.shape → (f v o').shape = (f v o).shape := by
      intro o o' e
      simp only [Operator.shape, Operator.mk.injEq] at e
      rcases hf with ⟨-, rfl⟩ | ⟨-, rfl⟩ | ⟨-, rfl⟩ | ⟨-, rfl⟩ | ⟨-, rfl⟩ | ⟨-, rfl⟩ | ⟨-, rfl⟩ | ⟨-, rfl⟩ |
        ⟨-, rfl⟩ | ⟨-, rfl⟩ | ⟨-, rfl⟩ <;> simp only [Operator.shape, Operator.mk.injEq] <;> simp [e]
    simp only [FmChannel.timbre, FmChannel.mk.injEq, Synth.Ops4.mk.injEq] at e
    obtain ⟨a1, a2, a3, a4, a5, -, -, a6, a7, a8, a9⟩ := e
    unfold onOperator
    split <;> simp only [FmChannel.timbre, FmChannel.mk.injEq, Synth.Ops4.mk.injEq] <;>
      simp [a1, a2, a3, a4, a5, a6, a7, a8, a9, sh _ _ a6, sh _ _ a7, sh _ _ a8, sh _ _ a9]

private theorem asks_plain {inv : Bool} {k v : Nat} {x y : FmChannel} (h : asks inv k v x y) : k ≠ 78 ∧ k ≠ 85 := by
  rcases h with ⟨f, hf, -⟩ | ⟨b, f, hf, h1, h2, -⟩
  · simp only [channelControllers, List.mem_cons, Prod.mk.injEq, List.not_mem_nil, or_false] at hf; omega
  · simp only [operatorControllers, List.mem_cons, Prod.mk.injEq, List.not_mem_nil, or_false] at hf; omega

/-- **C37** (scaling).  With the controllers enabled and without raw register writes before: every controller in the
tables sets, on every FM voice of its MIDI channel, exactly the parameter it stands for, to the value times the number
of settings over 128; every other parameter on the chip is as it was, frequency and key too.  Partial because of the
sustain rate, which has 32 settings on the chip and only 16 in the table (`C37_sustain_rate_violated`).  Total levels
are in `C37_total_level_partial`. -/
theorem C37_parameter_partial (env : Env) (he : env.Ok) (s : St) (hs : Clean env s) (c k v i : Nat) (hc : c < 16)
    (hk : k < 128) (hv : v < 128) (hi : i < 6) (hm : (s.dev i).midiChannel = c) (hg : s.cfg.disableNonGm = false)
    (y : FmChannel) (h : asks s.cfg.invert k v (chipChannel s.fm.synth.out i) y) :
    let t := step env s (.cc c k v)
    (chipChannel t.fm.synth.out i).timbre = y.timbre ∧
      (chipChannel t.fm.synth.out i).freq = (chipChannel s.fm.synth.out i).freq ∧
      keyed t.fm.synth.out i = keyed s.fm.synth.out i := by
  obtain ⟨tame, ok⟩ := hs.reached.ok he
  have i1 := (hs.inv he).ch i hi
  have p := asks_plain h
  have hs' : Clean env (step env s (.cc c k v)) :=
    hs.step ⟨hc, hk, hv⟩ id (fun h => p.1 h.1) (fun h => p.2 h.1)
  have i2 := (hs'.inv he).ch i hi
  obtain ⟨y', h1, h2⟩ := asks_timbre h i1.chip
  obtain ⟨q1, -, q2, q3⟩ := param_view he ok hc hv hi hm hg h1 rfl
  exact ⟨by rw [i2.chip, q1, h2], q2, q3⟩

/-- **C37** (levels; partial).  Without algorithm controllers before (`Level`), and apart from FM channel 3: the total
level of every operator on the chip is the one the parameters then ask for at the volume of the voice, so a total-level
controller sets the level, inverted if so configured, and no other controller disturbs it.  Missing: the algorithm
controller (14), after which levels may be stale (C23), and channel 3, whose operators special mode may own. -/
theorem C37_total_level_partial (env : Env) (he : env.Ok) (s : St) (hs : Level env s) (c k v i : Nat) (hc : c < 16)
    (hk : k < 128) (hv : v < 128) (hi : i < 6) (h2 : i ≠ 2) (h14 : k ≠ 14) (hm : (s.dev i).midiChannel = c)
    (hg : s.cfg.disableNonGm = false) (y : FmChannel) (h : asks s.cfg.invert k v (s.fm.synth.ch i) y) (o : Nat) (ho : o < 4) :
    (chipOperator (step env s (.cc c k v)).fm.synth.out i o).totalLevel =
      Synth.wantTl y.algorithm ((s.fm.ch i).volume * (s.fm.ch i).velocity / 127) o (y.ops.get o).totalLevel := by
  obtain ⟨tame, ok⟩ := hs.clean.reached.ok he
  have p := asks_plain h
  have hs' : Level env (step env s (.cc c k v)) :=
    hs.step ⟨hc, hk, hv⟩ id h14 (fun h => p.1 h.1) (fun h => p.2 h.1)
  have i2 := (hs'.clean.inv he).ch i hi
  obtain ⟨q1, q2, -⟩ := param_view he ok hc hv hi hm hg h rfl
  have e := (hs'.tl he hi h2).chip i2.ok ho
  have w := hs.clean.volSync he i hi
  rw [(Fm.effectiveVolume_lt (ok.fm.chan i hi).1 (ok.fm.chan i hi).2).1] at w
  rw [q1, q2, w] at e
  exact e

/-- Controllers that are not General MIDI and can be disabled: those of the tables, the LFO (1 and 74), DAC (78),
parameter display (83), fine tune (85) and device select (86). -/
def gated (k : Nat) : Prop :=
  (∃ f, (k, f) ∈ channelControllers) ∨ (∃ b f, (b, f) ∈ operatorControllers false ∧ b ≤ k ∧ k < b + 4) ∨
  k ∈ [1, 74, 78, 83, 85, 86]

private theorem loop_id {c k v : Nat} (hg : s.cfg.disableNonGm = true) (hk : k = 78 ∨ ∀ n, ∃ o, fmParam s.cfg.invert n k v = some o) :
    foreach s c (fun s i => setFmParam env s i k v) = s := by
  unfold foreach
  refine List.foldlRecOn (motive := fun t => t = s) _ _ rfl ?_
  rintro t rfl j -
  split
  · unfold setFmParam
    rcases hk with rfl | hk
    · simp [fmParam, hg]
    · obtain ⟨o, ho⟩ := hk (t.dev j).num
      simp [ho, hg]
  · rfl

/-- **C37** (gating; partial).  With the controllers disabled, none of the gated ones has any effect beyond the message
being reported: chips, voices, channels and settings are as they were.  Missing: special mode (80), polyphonic mode (84)
and storing a program (87), which are not General MIDI either and are not gated (`C37_special_mode_not_gated`). -/
theorem C37_gated_partial (env : Env) (s : St) (c k v : Nat) (hc : c < 16) (hv : v < 128) (hg : s.cfg.disableNonGm = true)
    (hk : gated k) : step env s (.cc c k v) = emit s (.changedCc c k v) := by
  have loop : (k = 78 ∨ ∀ n, ∃ o, fmParam s.cfg.invert n k v = some o) →
      ccSwitch env s c k v = (foreach s c fun s i => setFmParam env s i k v) →
      step env s (.cc c k v) = emit s (.changedCc c k v) := by
    intro h e
    simp only [step, if_pos hc, cc, e]
    rw [loop_id hg h]
  have par : (∀ n, ∃ o, fmParam s.cfg.invert n k v = some o) → step env s (.cc c k v) = emit s (.changedCc c k v) := by
    intro h
    obtain ⟨o, ho⟩ := h 0
    refine loop (.inr h) ?_
    unfold fmParam at ho
    split at ho <;> first | (cases ho; done) | rfl
  rcases hk with ⟨f, hf⟩ | ⟨b, f, hf, h1, h2⟩ | hk
  · refine par fun n => ?_
    obtain ⟨o, ho, -⟩ := asks_call (n := n) (inv := s.cfg.invert) (x := s.fm.synth.ch 0) hv (.inl ⟨f, hf, rfl⟩)
    exact ⟨o, ho⟩
  · refine par fun n => ?_
    have : ∃ f, (b, f) ∈ operatorControllers s.cfg.invert := by
      simp only [operatorControllers, List.mem_cons, Prod.mk.injEq, List.not_mem_nil, or_false] at hf ⊢
      rcases hf with hf | hf | hf | hf | hf | hf | hf | hf | hf | hf | hf <;> simp [hf.1]
    obtain ⟨f, hf⟩ := this
    obtain ⟨o, ho, -⟩ := asks_call (n := n) (inv := s.cfg.invert) (x := s.fm.synth.ch 0) hv (.inr ⟨b, f, hf, h1, h2, rfl⟩)
    exact ⟨o, ho⟩
  · simp only [List.mem_cons, List.not_mem_nil, or_false] at hk
    rcases hk with rfl | rfl | rfl | rfl | rfl | rfl
    · exact par fun n => ⟨_, rfl⟩
    · exact par fun n => ⟨_, rfl⟩
    · exact loop (.inl rfl) rfl
    · have e : ccSwitch env s c 83 v = s := by
        show (if s.cfg.disableNonGm then s else _) = s
        rw [if_pos hg]
      simp only [step, if_pos hc, cc, e]
    · have e : ccSwitch env s c 85 v = s := by
        show (if s.cfg.disableNonGm then s else _) = s
        rw [if_pos hg]
      simp only [step, if_pos hc, cc, e]
    · have e : ccSwitch env s c 86 v = s := by
        show (if s.cfg.disableNonGm then s else _) = s
        rw [if_pos hg]
      simp only [step, if_pos hc, cc, e]

/-- The LFO controllers: each makes the same driver call for every voice of the channel. -/
private theorem lfo_view (he : env.Ok) (hs : Ok env tame s) {c k v j : Nat} (hc : c < 16) (hj : j < 13)
    (hm : (s.dev j).midiChannel = c) (hg : s.cfg.disableNonGm = false) {o : Synth.Op}
    (ho : ∀ n, fmParam s.cfg.invert n k v = some o)
    (idem : ∀ z, o.requestGlobal (o.requestGlobal z) = o.requestGlobal z) (hr : ∀ n z, o.request n z = z) :
    Synth.glob (step env s (.cc c k v)).fm.synth = o.requestGlobal (Synth.glob s.fm.synth) ∧
      ∀ n < 6, (step env s (.cc c k v)).fm.synth.ch n = s.fm.synth.ch n := by
  have hl : o.Legal := fmParam_legal (num := 0) (by omega) (ho 0)
  have hbody : ∀ t j, Ok env tame t ∧ t.cfg = s.cfg → setFmParam env t j k v = fmCall env t (.synth o) := by
    rintro t j ⟨ht, hcfg⟩
    unfold setFmParam
    rw [hcfg, ho]
    simp [hg]
  have hstep : ∀ t : St, Ok env tame t →
      Ok env tame (fmCall env t (.synth o)) ∧
      Synth.glob (fmCall env t (.synth o)).fm.synth = o.requestGlobal (Synth.glob t.fm.synth) ∧
      ∀ n < 6, (fmCall env t (.synth o)).fm.synth.ch n = t.fm.synth.ch n := by
    intro t ht
    refine ⟨?_, Synth.step_glob hl, fun n hn => ?_⟩
    · have p := (Path.refl (env := env) (tame := tame) (A := fun _ => True) (C := fun _ => True) (G := fun _ => True)
        (H := fun _ => True) (s := t)).fm (op := .synth o) (.inr trivial) (.inl hl)
      exact p.ok he ht
    · exact (Synth.step_request_ok ht.fm.synth.ok hl hn).1.trans (hr _ _)
  have sp := foreach_split (s := s) (I := fun t => Ok env tame t ∧ t.cfg = s.cfg)
    (R := fun t u => u.dev = t.dev ∧ (Synth.glob u.fm.synth = Synth.glob t.fm.synth ∨
      Synth.glob u.fm.synth = o.requestGlobal (Synth.glob t.fm.synth)) ∧ ∀ n < 6, u.fm.synth.ch n = t.fm.synth.ch n)
    (c := c) (i := j) (body := fun s i => setFmParam env s i k v) (fun t => ⟨rfl, .inl rfl, fun _ _ => rfl⟩)
    (fun t u w h k => ⟨k.1.trans h.1, by rcases h.2.1 with a | a <;> rcases k.2.1 with b | b <;> simp [a, b, idem],
      fun n hn => (k.2.2 n hn).trans (h.2.2 n hn)⟩)
    (fun t j ht _ _ => by rw [hbody t j ht]; exact ⟨(hstep t ht.1).1, ht.2⟩)
    (fun t j ht _ _ _ => by rw [hbody t j ht]; exact ⟨rfl, .inr (hstep t ht.1).2.1, (hstep t ht.1).2.2⟩)
    (fun t u h => by rw [h.1]) hj ⟨hs, rfl⟩
  rw [if_pos hm] at sp
  obtain ⟨t, ht, r1, r2⟩ := sp
  rw [cc_loop hc (ho 0), emit_fm]
  rw [hbody t j ht] at r2
  have q := (hstep t ht.1).2
  refine ⟨?_, fun n hn => (r2.2.2 n hn).trans ((q.2 n hn).trans (r1.2.2 n hn))⟩
  rcases r1.2.1 with a | a <;> rcases r2.2.1 with b | b <;> rw [b, q.1, a] <;> simp only [idem]

/-- **C37** (LFO).  Controllers 74 and 1 of a MIDI channel that has a voice switch the LFO and set its rate; the other
half of the LFO register and the parameters of all FM channels are as they were. -/
theorem C37_lfo (env : Env) (he : env.Ok) (s : St) (hs : Clean env s) (c v j : Nat) (hc : c < 16) (hv : v < 128)
    (hj : j < 13) (hm : (s.dev j).midiChannel = c) (hg : s.cfg.disableNonGm = false) :
    (let t := step env s (.cc c 74 v);
      Synth.ymReg t.fm.synth.out 0 0x22 = v * 2 / 128 * 8 + Synth.ymReg s.fm.synth.out 0 0x22 % 8 ∧
        ∀ n < 6, (chipChannel t.fm.synth.out n).timbre = (chipChannel s.fm.synth.out n).timbre) ∧
    (let t := step env s (.cc c 1 v);
      Synth.ymReg t.fm.synth.out 0 0x22 = Synth.ymReg s.fm.synth.out 0 0x22 / 8 * 8 + v * 8 / 128 ∧
        ∀ n < 6, (chipChannel t.fm.synth.out n).timbre = (chipChannel s.fm.synth.out n).timbre) := by
  obtain ⟨tame, ok⟩ := hs.reached.ok he
  have i0 := hs.inv he
  have nx : ∀ k, k < 128 → k ≠ 78 → k ≠ 85 → Clean env (step env s (.cc c k v)) := fun k hk h1 h2 =>
    hs.step ⟨hc, hk, hv⟩ id (fun h => h1 h.1) (fun h => h2 h.1)
  have i1 := (nx 74 (by omega) (by omega) (by omega)).inv he
  have i2 := (nx 1 (by omega) (by omega) (by omega)).inv he
  have v1 := lfo_view (k := 74) (v := v) he ok hc hj hm hg (o := .enableLfo (v / 64)) (fun n => rfl)
    (fun z => rfl) (fun n z => rfl)
  have v2 := lfo_view (k := 1) (v := v) he ok hc hj hm hg (o := .lfoFrequency (v / 16)) (fun n => rfl)
    (fun z => rfl) (fun n z => rfl)
  simp only [Synth.glob, Synth.Op.requestGlobal, Prod.mk.injEq] at v1 v2
  have l := i0.lfo
  refine ⟨⟨?_, fun n hn => ?_⟩, ⟨?_, fun n hn => ?_⟩⟩
  · rw [i1.r22, i0.r22, v1.1.1, v1.1.2.1]; omega
  · rw [(i1.ch n hn).chip, (i0.ch n hn).chip, v1.2 n hn]
  · rw [i2.r22, i0.r22, v2.1.1, v2.1.2.1]; omega
  · rw [(i2.ch n hn).chip, (i0.ch n hn).chip, v2.2 n hn]

/-- The statement of C37 for the sustain rate, which has 32 settings on the chip. -/
def C37_sustain_rate_statement (env : Env) : Prop :=
  ∀ s, Clean env s → ∀ c v i o, c < 16 → v < 128 → i < 6 → o < 4 → (s.dev i).midiChannel = c →
    s.cfg.disableNonGm = false →
      (chipOperator (step env s (.cc c (51 + o) v)).fm.synth.out i o).sustainRate = v * 32 / 128

/-- **C37** fails for the sustain rate: its controller is scaled to 16 settings instead of 32, so that the upper half
of the settings cannot be reached; the highest value sets 15. -/
theorem C37_sustain_rate_violated : ∃ env, Env.Ok env ∧ ¬C37_sustain_rate_statement env := by
  refine ⟨Ex.env .static, Ex.env_ok _, fun h => ?_⟩
  have := h (Ex.after .static []) ⟨true, Ex.mem, [], by simp, by simp, rfl⟩ 0 127 0 0 (by omega) (by omega) (by omega)
    (by omega) (by decide +kernel) (by decide +kernel)
  revert this
  decide +kernel

/-- **C37** fails for controller 80, which is not General MIDI and not gated: with the controllers disabled it still puts
FM channel 3 into special mode. -/
theorem C37_special_mode_not_gated :
    let s := Ex.after .static [.sysex [0x00, 0x22, 0x77, 0x04, 0x00] 0]
    let t := step (Ex.env .static) s (.cc 0 80 127)
    s.cfg.disableNonGm = true ∧ Synth.ymReg s.fm.synth.out 0 0x27 = 0 ∧ Synth.ymReg t.fm.synth.out 0 0x27 = 0x40 := by
  decide +kernel

/-- What two controllers ask for. -/
example (x : FmChannel) : asks true 17 100 x (onOperator 1 (fun o => { o with totalLevel := 27 }) x) ∧
    asks true 46 100 x (onOperator 3 (fun o => { o with attackRate := 25 }) x) :=
  ⟨.inr ⟨16, _, .head _, by omega, by omega, rfl⟩,
    .inr ⟨43, _, .tail _ (.tail _ (.tail _ (.tail _ (.head _)))), by omega, by omega, rfl⟩⟩

/-- The same on a state reached by messages, with total levels inverted: operator 1, a modulator, gets level 27 of a
value of 100, operator 2, a carrier, the same lowered by its velocity; the note sounds on. -/
example : let s := Ex.after .static [.program 0 5, .noteOn 0 60 100, .sysex [0x00, 0x22, 0x77, 0x07, 0x01] 0]
    Level (Ex.env .static) s ∧ (s.dev 0).midiChannel = 0 ∧ s.cfg.disableNonGm = false ∧ s.cfg.invert = true ∧
      (chipOperator (step (Ex.env .static) s (.cc 0 16 100)).fm.synth.out 0 0).totalLevel = 27 ∧
      (chipOperator (step (Ex.env .static) s (.cc 0 17 100)).fm.synth.out 0 1).totalLevel = 29 ∧
      (chipOperator (step (Ex.env .static) s (.cc 0 46 100)).fm.synth.out 0 3).attackRate = 25 ∧
      keyed (step (Ex.env .static) s (.cc 0 46 100)).fm.synth.out 0 = true := by
  refine ⟨⟨true, Ex.mem, _, ?_, ?_, rfl⟩, ?_⟩
  · simp [Op.Wf, Op.raw, Op.algorithmCc]
  · simp [Op.enablesDac]
  · decide +kernel

/-- With the controllers disabled the fine-tune controller is gated. -/
example : let s := Ex.after .static [.sysex [0x00, 0x22, 0x77, 0x04, 0x00] 0]
    s.cfg.disableNonGm = true ∧ gated 85 ∧ ((step (Ex.env .static) s (.cc 0 85 0)).chan 0).fineTune = 0 :=
  ⟨by decide +kernel, .inr (.inr (by simp)), by decide +kernel⟩

end Mdmi.Props
