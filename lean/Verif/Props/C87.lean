import Verif.Props.C15
import Verif.Props.C78
import Verif.Props.C86
import Verif.Proofs.MidiLine
/-! C87: a melody on a MIDI channel with one FM or PSG voice sounds as it is played. -/
namespace Mdmi.Props
open Mdmi Mdmi.Midi
open Mdmi.Synth (chipChannel chipOperator wantTl keyed)
open Mdmi.Psg (chipAtt)

variable {env : Env}

/-! ### Specification -/

/-- Keys with a finger on them, whether or not All Notes Off has let them go. -/
def fingers (l : List Key) : List Nat := keysDown (l.filter (· ≠ .off))

/-- Legato playing on MIDI channel `c`: keys are pressed when they are up, at most ten are down at once, and the key pressed
last is released when no other is down.  After All Notes Off or All Sound Off fingers are lifted before a key is pressed. -/
structure Legato (c : Nat) (l : List Op) : Prop where
  press : ∀ pre p v post, l = pre ++ .noteOn c p v :: post →
    v = 0 ∨ p ∉ keysDown (keys c pre) ∧ (keysDown (keys c pre)).length < 10 ∧ fingers (keys c pre) = keysDown (keys c pre)
  release : ∀ pre op post p, l = pre ++ op :: post → keys c [op] = [.up p] → lastNote (keys c pre) = some p →
    keysDown (keys c pre) = [p]

/-- What the code does with (remembered keys, sounding key; velocity): C15, and the velocity is that of the last key that
was pressed, not of the one that sounds. -/
def playStep (c : Nat) (m : (List Nat × Option Nat) × Nat) (op : Op) : (List Nat × Option Nat) × Nat :=
  ((keys c [op]).foldl codeStep m.1, match op with
    | .noteOn k _ v => if k = c ∧ v ≠ 0 ∧ m.1.1.length ≠ 10 then v else m.2
    | _ => m.2)

/-- Remembered keys, sounding key and velocity of MIDI channel `c` after a history. -/
def played (c : Nat) (l : List Op) : (List Nat × Option Nat) × Nat := l.foldl (playStep c) (([], none), 0)

/-! ### Proofs -/

private theorem keys_snoc {c : Nat} {l : List Op} {op : Op} : keys c (l ++ [op]) = keys c l ++ keys c [op] := by
  unfold keys; rw [List.filterMap_append]

private theorem played_snoc {c : Nat} {l : List Op} {op : Op} : played c (l ++ [op]) = playStep c (played c l) op := by
  simp [played]

private structure Inv (c : Nat) (m : (List Nat × Option Nat) × Nat) (s : St) : Prop where
  line : Line c c m.1.1 m.1.2 m.2 s
  stacks : Stacks s
  le : m.1.1.length ≤ 10

private theorem Inv.still {c : Nat} {m : (List Nat × Option Nat) × Nat} {s t : St} (h : Inv c m s) (k : Still s t) : Inv c m t :=
  ⟨h.line.keep k.keeps k.untouched (k.keyInv h.line.keyInv), k.stacks h.stacks, h.le⟩

private theorem Inv.up (he : env.Ok) {c p : Nat} {m : (List Nat × Option Nat) × Nat} {s : St} (hc : c < 9) (h : Inv c m s)
    (hr : ∀ q, (codeStep m.1 (.up p)).2 = some q → KeyRange s c c q) (hf : (noteOff env s c p).psg.fault = false) (hb : (s.dev c).noteOn = true → (s.dev c).pitchBend = (s.chan c).pitchBend) :
    Inv c (codeStep m.1 (.up p), m.2) (noteOff env s c p) := by
  refine ⟨h.line.release he (by omega) (by omega) (fun e hn => ?_) hf, noteOff_stacks (by omega) h.stacks, ?_⟩
  · have := hr ((m.1.1.filter (· ≠ p)).getLastD 0) (by simp only [codeStep]; rw [if_pos e, if_neg hn])
    simp only [InRange]
    rw [hb (by rw [h.line.mono.cur.1, e]; rfl)]
    exact this
  · simp only [codeStep, List.length_dropLast]
    have := List.length_filter_le (fun x => decide (x ≠ p)) m.1.1
    have := h.le
    omega

private theorem line_step (he : env.Ok) {c : Nat} {m : (List Nat × Option Nat) × Nat} {s : St} {op : Op} (hc : c < 9)
    (h : Inv c m s) (hb : beside c op = true) (hr : keys c [op] ≠ [] → ∀ q, (playStep c m op).1.2 = some q → KeyRange s c c q)
    (hf : (step env s op).psg.fault = false)
    (hd : (s.dev c).noteOn = true → (s.dev c).pitchBend = (s.chan c).pitchBend) : Inv c (playStep c m op) (step env s op) := by
  have hc16 : c < 16 := by omega
  have hc10 : c < 10 := by omega
  cases op with
  | noteOn k p v =>
    simp only [beside, decide_eq_true_eq] at hb
    simp only [step, hb, if_true] at hf ⊢
    by_cases e : k = c
    · subst e
      simp only [playStep, keys, List.filterMap_cons, if_true, List.filterMap_nil, List.foldl_cons, List.foldl_nil, true_and] at hr ⊢
      by_cases hv : v = 0
      · subst hv
        simp only [if_true, ne_eq, not_true_eq_false, false_and, if_false] at hr ⊢
        exact h.up he hc (hr (by simp)) hf hd
      · simp only [hv, if_false, ne_eq, not_false_eq_true, true_and] at hr ⊢
        by_cases hl : m.1.1.length = 10
        · simp only [codeStep, hl, if_true, not_true_eq_false, if_false]
          refine ⟨h.line.full hv hl, noteOn_stacks hb h.stacks, h.le⟩
        · simp only [codeStep, hl, if_false, not_false_eq_true, if_true] at hr ⊢
          refine ⟨h.line.press he hc10 hc16 hv (by have := h.le; omega) (hr (by simp) p rfl) hf, noteOn_stacks hb h.stacks, ?_⟩
          have := h.le
          simp only [List.length_append, List.length_singleton]; omega
    · simp only [playStep, keys, List.filterMap_cons, e, if_false, List.filterMap_nil, List.foldl_nil, false_and]
      refine ⟨h.line.keep ?_ (noteOn_untouched hc10 h.line.mono.solo e h.line.keyInv) (noteOn_keyInv k p v h.line.keyInv),
        noteOn_stacks hb h.stacks, h.le⟩
      by_cases hv : v = 0
      · subst hv
        obtain ⟨l, hl⟩ := h.stacks k hb
        exact noteOff_keeps h.line.mono.solo e hl
      · exact noteOn_keeps h.line.mono.solo e hb hv
  | noteOff k p =>
    simp only [beside, decide_eq_true_eq] at hb
    simp only [step, hb, if_true] at hf ⊢
    by_cases e : k = c
    · subst e
      simp only [playStep, keys, List.filterMap_cons, if_true, List.filterMap_nil, List.foldl_cons, List.foldl_nil] at hr ⊢
      exact h.up he hc (hr (by simp)) hf hd
    · simp only [playStep, keys, List.filterMap_cons, e, if_false, List.filterMap_nil, List.foldl_nil]
      obtain ⟨l, hl⟩ := h.stacks k hb
      exact ⟨h.line.keep (noteOff_keeps h.line.mono.solo e hl) (noteOff_untouched hc10 h.line.mono.solo e h.line.keyInv)
        (noteOff_keyInv k p h.line.keyInv), noteOff_stacks hb h.stacks, h.le⟩
  | bend k b =>
    refine h.still ?_
    simp only [step]; split
    · exact pitchBend_still k b
    · exact .ub
  | program k b =>
    refine h.still ?_
    simp only [step]; split
    · exact program_still k b
    · exact .ub
  | sysex d j =>
    refine h.still (sysex_still d j ?_)
    simpa only [voicingSysex, decide_eq_false_iff_not, beside, decide_eq_true_eq] using hb
  | remap => cases hb
  | reset => cases hb
  | tick =>
    refine ⟨h.line.keep (tick_keeps h.line.mono.solo h.line.mono.porta) tick_untouched (tick_keyInv h.line.keyInv), fun k hk => ?_, h.le⟩
    simp only [step, tick_chan]; exact h.stacks k hk
  | psgTick => exact h.still (.psg fun _ => rfl)
  | cc k n v =>
    simp only [beside, Bool.and_eq_true, decide_eq_true_eq, bne_iff_ne, Bool.or_eq_true] at hb
    obtain ⟨⟨⟨⟨hk, h78⟩, h84⟩, h121⟩, hx⟩ := hb
    simp only [step, hk, if_true]
    by_cases hv : voicing n = false
    · have e : keys c [Op.cc k n v] = [] := by
        simp only [voicing, Bool.or_eq_false_iff, beq_eq_false_iff_ne] at hv
        simp [keys, hv.1.1.2, hv.2]
      simp only [playStep, e, List.foldl_nil]
      exact h.still (cc_still k n v hv)
    · have hv : voicing n = true := by simpa using hv
      simp only [voicing, Bool.or_eq_true, beq_iff_eq] at hv
      refine Inv.still ?_ (.emit _)
      have off : n = 120 ∨ n = 123 → Inv c (playStep c m (.cc k n v)) (allNotesOff env s k) := fun hn => by
        have st : Stacks (allNotesOff env s k) := fun d hd => by rw [allNotesOff_chan]; exact h.stacks d hd
        by_cases e : k = c
        · subst e
          simp only [playStep, keys, List.filterMap_cons, hn, and_self, if_true, List.filterMap_nil, List.foldl_cons, List.foldl_nil, codeStep]
          exact ⟨h.line.off, st, h.le⟩
        · simp only [playStep, keys, List.filterMap_cons, e, false_and, if_false, List.filterMap_nil, List.foldl_nil]
          exact ⟨h.line.keep (allNotesOff_keeps h.line.mono.solo e) (allNotesOff_untouched h.line.mono.solo e h.line.keyInv)
            (allNotesOff_keyInv k h.line.keyInv), st, h.le⟩
      rcases hv with ((((rfl | rfl) | rfl) | rfl) | rfl) | rfl
      · have e : k ≠ c := by omega
        have kp : Kept c c s (setChan s k fun m => { m with portamento := v / 64 ≠ 0 }) :=
          ⟨rfl, fun _ _ => rfl, rfl, by rw [setChan_chan, Psg.upd_other _ _ _ _ (Ne.symm e)]⟩
        simp only [playStep, keys, List.filterMap_cons, e, false_and, if_false, List.filterMap_nil, List.foldl_nil]
        refine ⟨h.line.keep kp (.same rfl rfl) (h.line.keyInv.same rfl rfl), fun d hd => ?_, h.le⟩
        obtain ⟨l, hl⟩ := h.stacks d hd
        refine ⟨l, ?_⟩
        show NotePriority.Rep ((setChan s k fun m => { m with portamento := v / 64 ≠ 0 }).chan d).stack l
        rw [setChan_chan]
        by_cases ed : d = k
        · subst ed; rw [upd_self]; exact hl
        · rw [Psg.upd_other _ _ _ _ ed]; exact hl
      · exact absurd rfl h78
      · exact absurd rfl h84
      · exact off (by omega)
      · exact absurd rfl h121
      · exact off (by omega)

private theorem dynamic_kept {s : St} : (resetChannels env s).dynamic = s.dynamic := by
  unfold resetChannels
  extract_lets a
  have ea : a.dynamic = s.dynamic := rfl
  clear_value a
  simp only [applyDynamicMode]
  exact List.foldlRecOn (motive := fun t : St => t.dynamic = s.dynamic) _ _ ea fun t h i _ => by rw [initDev_dynamic]; exact h

private theorem boot_inv (he : env.Ok) (hm : env.mode ≠ .dynamic) {c : Nat} (hc : c < 9) (b : Bool) (m : Sram.Mem) :
    Inv c (([], none), 0) (boot env b m) := by
  have ki := boot_keyInv he b m
  unfold boot reset at ki ⊢
  extract_lets x1 x2 x3 x4 at ki ⊢
  have dy : x4.dynamic = false := by simp [x4, hm]
  have dv : ∀ j, j < 13 → (resetChannels env x4).dev j = resetDev false j := fun j hj => by rw [resetChannels_devs j hj, dy]
  have ch : ∀ k, k < 16 → (resetChannels env x4).chan k = freshChan := fun k hk => resetChannels_chan hk
  have dk : (resetChannels env x4).dynamic = false := by rw [dynamic_kept, dy]
  refine ⟨⟨⟨⟨dk, by omega, fun j hj => ?_⟩, ?_, ?_, ?_, ?_, nofun⟩, ki, ?_, ?_, nofun⟩, fun k hk => ⟨[], ?_⟩, by simp⟩
  · rw [dv j hj]; simp [resetDev]
  · rw [ch c (by omega)]; exact NotePriority.Rep.init
  · rw [ch c (by omega)]; rfl
  · rw [dv c (by omega)]; rfl
  · rw [dv c (by omega)]; rfl
  · rw [dv c (by omega)]; rfl
  · rw [ch c (by omega)]; rfl
  · rw [ch k hk]; exact NotePriority.Rep.init

private theorem beside_attuned {c i : Nat} {op : Op} (h : beside c op = true) (hw : op.Wf) : Op.attuned i op ∧ ¬op.enablesDac := by
  cases op with
  | cc k n v =>
    simp only [beside, Bool.and_eq_true, decide_eq_true_eq, bne_iff_ne] at h
    have : ¬(Op.cc k n v).enablesDac := fun x => h.1.1.1.2 x.1
    exact ⟨⟨hw, fun x => h.1.1.2 x, nofun, nofun, fun _ => this⟩, this⟩
  | sysex d j =>
    simp only [beside, decide_eq_true_eq, List.mem_cons, List.not_mem_nil, or_false, not_or] at h
    obtain ⟨-, a, b, e, f⟩ := h
    refine ⟨⟨hw, fun x => x.elim a b, fun x => ?_, nofun, fun _ => id⟩, id⟩
    obtain ⟨x1, x2⟩ := x
    match d with
    | [] | [_] | [_, _] => simp at x1
    | [_, _, _] => simp at x2
    | _ :: _ :: _ :: y :: l =>
      simp only [List.take_succ_cons, List.take_zero, List.cons.injEq] at x1
      simp only [List.getD_cons_succ, List.getD_cons_zero] at x2
      obtain ⟨rfl, rfl, rfl, -⟩ := x1
      rcases x2 with rfl | rfl
      · exact e rfl
      · exact f rfl
  | remap => cases h
  | reset => cases h
  | _ => exact ⟨⟨hw, nofun, nofun, nofun, fun _ => nofun⟩, nofun⟩

private theorem range_of (hops : ∀ op ∈ pre, Op.Wf op) {c q : Nat} (hc : c < 16) (b : Bool) (m : Sram.Mem)
    (hp : Playable (tuningOf c pre) (pitchUnder (tuningOf c pre) q 0)) (h45 : 6 ≤ c → 4500 ≤ pitchUnder (tuningOf c pre) q 0) :
    KeyRange (run env (boot env b m) pre) c c q := by
  have t := run_tuning (env := env) hc pre hops b m
  have bd := tuning_bounds c pre hops
  obtain ⟨x0, x1, x2, x3⟩ := hp
  generalize run env (boot env b m) pre = s at *
  have ps := pc_exact (key := q) (bend := (s.chan c).pitchBend) (range := (s.chan c).range) (fine := (s.chan c).fineTune)
    (n := pitchUnder (tuningOf c pre) q 0) (by rw [t.bend]; exact bd.1) (by rw [t.semitones]; exact bd.2.1) (by rw [t.cents]; omega)
    (by rw [t.cents]; omega) (by rw [t.bend, t.semitones, t.cents, t.fine]; rfl) (by rw [t.fine]; exact x0)
    (by rw [t.fine]; exact x1) x2 x3
  refine ⟨fun _ => ps.1, fun h => ?_⟩
  have := h45 h
  simp only at ps
  omega

private theorem inv_run (he : env.Ok) (hm : env.mode ≠ .dynamic) {c : Nat} (hc : c < 9) (ops : List Op)
    (h : ∀ op ∈ ops, op.Wf ∧ beside c op = true) (b : Bool) (m : Sram.Mem)
    (hp : ∀ pre op post, ops = pre ++ op :: post → keys c [op] ≠ [] → ∀ q, (played c (pre ++ [op])).1.2 = some q →
      Playable (tuningOf c pre) (pitchUnder (tuningOf c pre) q 0) ∧ (6 ≤ c → 4500 ≤ pitchUnder (tuningOf c pre) q 0)) : Inv c (played c ops) (run env (boot env b m) ops) := by
  have key : ∀ post pre, ops = pre ++ post → Inv c (played c pre) (run env (boot env b m) pre) →
      Inv c (played c ops) (run env (boot env b m) ops) := by
    intro post
    induction post with
    | nil => intro pre e k; rw [List.append_nil] at e; rw [e]; exact k
    | cons op post ih =>
      intro pre e k
      have hpre : ∀ o ∈ pre, o.Wf ∧ beside c o = true := fun o ho => h o (by rw [e]; simp [ho])
      refine ih (pre ++ [op]) (by rw [e]; simp) ?_
      rw [played_snoc, run_snoc]
      refine line_step he hc k (h op (by rw [e]; simp)).2 (fun hk q hq => ?_) ?_ fun hn => ?_
      · have := hp pre op post e hk q (by rw [played_snoc]; exact hq)
        exact range_of (fun o ho => (hpre o ho).1) (by omega) b m this.1 this.2
      · have hin : ∀ o ∈ pre ++ [op], o ∈ ops := fun o ho => by
          rw [e]; simp only [List.mem_append, List.mem_cons, List.not_mem_nil, or_false] at ho ⊢
          rcases ho with ho | ho <;> simp [ho]
        rw [← run_snoc]
        obtain ⟨tame, ok⟩ := Reached.ok he ⟨b, m, pre ++ [op], fun o ho => (h o (hin o ho)).1,
          .inl (fun o ho => (beside_attuned (i := c) (h o (hin o ho)).2 (h o (hin o ho)).1).2), rfl⟩
        exact ok.psg.nofault
      · have hm := (k.line.mono.solo.only c (by omega)).2 rfl
        have := run_bent (env := env) pre (fun o ho => (beside_attuned (i := c) (hpre o ho).2 (hpre o ho).1).1.2.1) b m c (by omega)
          (by rw [hm]; omega) hn
        rwa [hm] at this
  exact key ops [] rfl (boot_inv he hm hc b m)

/-- **C87**, what the code does, in full.  In static mode, on MIDI channels 1 to 6, whatever keys of the channel are pressed and
released among messages for any channels: FM voice `c` is silent when the code's note stack has nothing to play (C15), and
otherwise its chip channel is keyed on and plays the key `q` chosen there in tune, with the preset of the channel's program, the
carriers lowered by volume × velocity / 127 and the sides of the pan - the velocity being that of the last key pressed. -/
theorem C87_behaviour (he : env.Ok) (hm : env.mode ≠ .dynamic) {c : Nat} (hc : c < 6) (drums : Bool) (ops : List Op)
    (h : ∀ op ∈ ops, op.Wf ∧ beside c op = true ∧ ordinary drums c op) (h3 : drums = true → c ≠ 3) (b : Bool) (m : Sram.Mem)
    (hs : env.fm.sram = true → ∀ q, Sram.loadProgram m 0 ≠ .ok q) (h2 : c ≠ 2 ∨ Channel3Alone env b m ops)
    (hf : ∀ pre k v post, ops = pre ++ .cc k 85 v :: post → ∀ p w, .noteOn k p w ∉ pre)
    (hp : ∀ pre op post, ops = pre ++ op :: post → keys c [op] ≠ [] → ∀ q, (played c (pre ++ [op])).1.2 = some q →
      Playable (tuningOf c pre) (pitchUnder (tuningOf c pre) q 0)) :
    let s := run env (boot env b m) ops
    ((played c ops).1.2 = none → keyed s.fm.synth.out c = false) ∧
    ∀ q, (played c ops).1.2 = some q → keyed s.fm.synth.out c = true ∧
      (Playable (tuningOf c ops) (pitchUnder (tuningOf c ops) q 0) →
        FmSounds env s c (tuningOf c ops) (settingsOf c ops) q (played c ops).2) := by
  intro s
  have inv : Inv c (played c ops) s := inv_run he hm (by omega) ops (fun op ho => ⟨(h op ho).1, (h op ho).2.1⟩) b m
    fun pre op post e hk q hq => ⟨hp pre op post e hk q hq, by omega⟩
  have att := fun op ho => beside_attuned (i := c) (h op ho).2.1 (h op ho).1
  refine ⟨fun e => ?_, fun q e => ⟨((inv.line.struck q e).1 hc).1, fun hq => ?_⟩⟩
  · refine Bool.eq_false_iff.2 fun x => ?_
    have := inv.line.keyInv.on c hc x
    rw [inv.line.mono.cur.1, e] at this
    cases this
  · obtain ⟨k1, k2⟩ := (inv.line.struck q e).1 hc
    have hmc := (inv.line.mono.solo.only c (by omega)).2 rfl
    have hon : (s.dev c).noteOn = true := by rw [inv.line.mono.cur.1, e]; rfl
    have hpi := inv.line.mono.cur.2 q e
    have hce := inv.line.cents
    have hh : ordinaryHistory drums c ops := ⟨fun op ho => ⟨(h op ho).1, (h op ho).2.2⟩, .inl fun op ho => (att op ho).2⟩
    have tun := C82_fine_tune_first_partial he hc ops (fun op ho => (att op ho).1) (.inl fun op ho => (att op ho).2)
      (fun e3 => ⟨fun v hv => by have := (h _ hv).2.1; simp [beside] at this, .inr fun p v hv => by
        rcases (h _ hv).2.2 with x | x
        · exact h3 x e3
        · exact x rfl⟩) b m hf c (by omega) (by omega)
    simp only at tun
    change (s.dev c).midiChannel = c → (s.dev c).noteOn = true → Playable _ (pitchUnder _ (s.dev c).pitch (s.dev c).cents) →
      Fm.InTune _ (chipChannel s.fm.synth.out c).freq (pitchUnder _ (s.dev c).pitch (s.dev c).cents).toNat 5 at tun
    rw [hpi, hce] at tun
    have snd := C85_sound_partial he drums c hc ops hh (fun op ho => (att op ho).1.2.1) b m hs (fun x => .inl (h3 x)) c (by omega) (by omega)
    simp only at snd
    change (s.dev c).midiChannel = c → _ at snd
    have snd := snd hmc
    change ∀ q, PresetFor env s _ q → _ at snd
    refine ⟨k1, tun hmc hon hq, fun q hq => (snd q hq).1, fun q hq => ?_, ?_⟩
    · rw [← k2]; exact (snd q hq).2.1 h2
    · have lt : Level env s := hh.level b m
      have kt : Cached env True (drums = true) 13 c s := run_cached he hc ops (fun o ho => (hh.1 o ho).2.keeps)
        (boot_cached he hc b m (fun _ => hs) fun _ x => .inl (h3 x))
      have vs : (s.dev c).settings = settingsOf c ops := voice_settings ops (fun op ho => (att op ho).1.2.1) b m (by omega) (by omega) hmc
      rw [← vs]
      exact sides_eq hc (lt.clean.inv he) kt

/-- **C87**, what the code does on the PSG.  In static mode, on MIDI channels 7 to 9, with keys from 45 up: the voice is on
exactly when the code's note stack has a key to play (C15), and its chip channel then has the attenuation that the channel's
volume, the velocity of the last key pressed and the envelope ask for, and, unless that is silence, plays the key in tune. -/
theorem C87_psg_behaviour (he : env.Ok) (hm : env.mode ≠ .dynamic) {c : Nat} (h6 : 6 ≤ c) (hc : c < 9) (ops : List Op)
    (h : ∀ op ∈ ops, op.Wf ∧ beside c op = true ∧ ¬op.loadsEnvelope) (b : Bool) (m : Sram.Mem)
    (hf : ∀ pre k v post, ops = pre ++ .cc k 85 v :: post → ∀ p w, .noteOn k p w ∉ pre)
    (hp : ∀ pre op post, ops = pre ++ op :: post → keys c [op] ≠ [] → ∀ q, (played c (pre ++ [op])).1.2 = some q →
      Playable (tuningOf c pre) (pitchUnder (tuningOf c pre) q 0) ∧ 4500 ≤ pitchUnder (tuningOf c pre) q 0) :
    let s := run env (boot env b m) ops
    (s.dev c).noteOn = (played c ops).1.2.isSome ∧
    ∀ q, (played c ops).1.2 = some q → Playable (tuningOf c ops) (pitchUnder (tuningOf c ops) q 0) →
      PsgSounds env s (c - 6) (tuningOf c ops) (settingsOf c ops) q (played c ops).2 := by
  intro s
  have inv : Inv c (played c ops) s := inv_run he hm hc ops (fun op ho => ⟨(h op ho).1, (h op ho).2.1⟩) b m
    fun pre op post e hk q hq => ⟨(hp pre op post e hk q hq).1, fun _ => (hp pre op post e hk q hq).2⟩
  have att := fun op ho => beside_attuned (i := c) (h op ho).2.1 (h op ho).1
  have hw : ∀ op ∈ ops, op.Wf := fun op ho => (h op ho).1
  refine ⟨inv.line.mono.cur.1, fun q e hq => ?_⟩
  have kv := (inv.line.struck q e).2 h6
  have hmc := (inv.line.mono.solo.only c (by omega)).2 rfl
  have hon : (s.dev c).noteOn = true := by rw [inv.line.mono.cur.1, e]; rfl
  have hpi := inv.line.mono.cur.2 q e
  have hce := inv.line.cents
  have st : ∀ op ∈ ops, Op.steady op := fun op ho => ⟨hw op ho, (att op ho).1.2.1, (att op ho).1.2.2.2.1⟩
  have tun := C83_fine_tune_first_partial he h6 (by omega) ops (fun op ho => ⟨st op ho, (h op ho).2.2⟩)
    (.inl fun op ho => (att op ho).2) b m hf c (by omega)
  simp only at tun
  change (s.dev c).midiChannel = c → (s.dev c).noteOn = true → chipAtt s.psg.out (c - 6) ≠ 15 →
    psgPlayable (pitchUnder _ (s.dev c).pitch (s.dev c).cents) _ → 4500 ≤ pitchUnder _ (s.dev c).pitch (s.dev c).cents →
    PsgPlays _ s.psg _ (pitchUnder _ (s.dev c).pitch (s.dev c).cents) at tun
  rw [hpi, hce] at tun
  have vol := C84_channel_volume_partial he h6 (by omega) ops st (.inl fun op ho => (att op ho).2) b m
    (fun pre op post e x => absurd x (h op (by rw [e]; simp)).2.2) c (by omega) hmc
  refine vol.imp id fun ⟨x, e1, e2⟩ => ⟨x, e1, ?_, fun n r => ?_⟩
  · rw [← kv]; exact e2
  · obtain ⟨n1, n2, n3, n4⟩ := hq
    exact tun hmc hon n ⟨by omega, by omega, n1, n2⟩ r

/-! ### Legato playing -/

private theorem keysDown_snoc {l : List Key} {k : Key} : keysDown (l ++ [k]) = match k with
    | .down p => (keysDown l).filter (· ≠ p) ++ [p]
    | .up p => (keysDown l).filter (· ≠ p)
    | .off => [] := by
  simp only [keysDown, List.foldl_append, List.foldl_cons, List.foldl_nil]
  cases k <;> rfl

private theorem fingers_snoc {l : List Key} {k : Key} : fingers (l ++ [k]) = match k with
    | .down p => (fingers l).filter (· ≠ p) ++ [p]
    | .up p => (fingers l).filter (· ≠ p)
    | .off => fingers l := by
  unfold fingers
  rw [List.filter_append]
  cases k with
  | down p => rw [show [Key.down p].filter (· ≠ .off) = [.down p] from rfl, keysDown_snoc]
  | up p => rw [show [Key.up p].filter (· ≠ .off) = [.up p] from rfl, keysDown_snoc]
  | off => rw [show [Key.off].filter (· ≠ .off) = [] from rfl, List.append_nil]

private theorem filter_other {l : List Nat} {p : Nat} (h : p ∉ l) : l.filter (· ≠ p) = l := by
  rw [List.filter_eq_self]
  intro a ha
  simp only [ne_eq, decide_eq_true_eq]
  rintro rfl; exact h ha

private theorem last_other {l : List Nat} {p : Nat} (h : l.getLast? ≠ some p) : (l.filter (· ≠ p)).getLast? = l.getLast? := by
  rcases List.eq_nil_or_concat l with rfl | ⟨l', q, rfl⟩
  · rfl
  · simp only [List.concat_eq_append, List.getLast?_concat, ne_eq, Option.some.injEq] at h ⊢
    rw [List.filter_append]
    simp [h]

/-- The code's note stack plays legato as it should. -/
private structure Melody (c : Nat) (l : List Op) : Prop where
  now : (played c l).1.2 = lastNote (keys c l)
  sub : (played c l).1.1.Sublist (fingers (keys c l))
  held : keysDown (keys c l) ≠ [] → fingers (keys c l) = keysDown (keys c l)
  vel : ∀ p, lastNote (keys c l) = some p → (played c l).2 = velocityOf l c p

private theorem melody_up {c p : Nat} {l : List Op} {op : Op} (h : Melody c l) (ho : op = .noteOn c p 0 ∨ op = .noteOff c p)
    (hr : lastNote (keys c l) = some p → keysDown (keys c l) = [p]) : Melody c (l ++ [op]) := by
  have hk : keys c [op] = [.up p] := by rcases ho with rfl | rfl <;> simp [keys]
  have hv : (played c (l ++ [op])).2 = (played c l).2 := by
    rw [played_snoc]; rcases ho with rfl | rfl <;> simp [playStep]
  have hw : ∀ q, velocityOf (l ++ [op]) c q = velocityOf l c q := fun q => by
    rw [velocityOf_snoc]; rcases ho with rfl | rfl <;> simp
  have hd : keysDown (keys c (l ++ [op])) = (keysDown (keys c l)).filter (· ≠ p) := by
    rw [keys_snoc, hk, keysDown_snoc]
  have hm : (played c (l ++ [op])).1 = codeStep (played c l).1 (.up p) := by
    rw [played_snoc]; simp only [playStep, hk, List.foldl_cons, List.foldl_nil]
  have hg : fingers (keys c (l ++ [op])) = (fingers (keys c l)).filter (· ≠ p) := by
    rw [keys_snoc, hk, fingers_snoc]
  have sub : (played c (l ++ [op])).1.1.Sublist (fingers (keys c (l ++ [op]))) := by
    rw [hm, hg]
    exact (List.dropLast_sublist _).trans (h.sub.filter _)
  have held : keysDown (keys c (l ++ [op])) ≠ [] → fingers (keys c (l ++ [op])) = keysDown (keys c (l ++ [op])) := by
    rw [hg, hd]
    intro x
    rw [h.held (fun y => x (by rw [y]; rfl))]
  by_cases e : lastNote (keys c l) = some p
  · have hd1 := hr e
    have gone : keysDown (keys c (l ++ [op])) = [] := by rw [hd, hd1]; simp
    refine ⟨?_, sub, held, fun q hq => ?_⟩
    · have : (played c l).1.1.filter (· ≠ p) = [] := by
        have := h.sub.filter (fun x => decide (x ≠ p))
        rw [h.held (by rw [hd1]; simp), hd1] at this
        simpa using this
      simp only [hm, codeStep, h.now, e, if_true, this]
      rw [lastNote, gone]; rfl
    · simp only [lastNote, gone] at hq; cases hq
  · have hl : lastNote (keys c (l ++ [op])) = lastNote (keys c l) := by
      unfold lastNote at e ⊢
      rw [hd]; exact last_other e
    refine ⟨?_, sub, held, fun q hq => ?_⟩
    · rw [hl, hm]
      simp only [codeStep, h.now, e, if_false]
    · rw [hv, hw]
      exact h.vel q (hl ▸ hq)

private theorem melody_step {c : Nat} {l : List Op} {op : Op} (h : Melody c l)
    (hp : ∀ p v, op = .noteOn c p v → v = 0 ∨ p ∉ keysDown (keys c l) ∧ (keysDown (keys c l)).length < 10 ∧
      fingers (keys c l) = keysDown (keys c l))
    (hr : ∀ p, keys c [op] = [.up p] → lastNote (keys c l) = some p → keysDown (keys c l) = [p]) : Melody c (l ++ [op]) := by
  have same : keys c [op] = [] → (played c (l ++ [op])).2 = (played c l).2 → (∀ q, velocityOf (l ++ [op]) c q = velocityOf l c q) →
      Melody c (l ++ [op]) := by
    intro k1 k2 k3
    have e1 : keys c (l ++ [op]) = keys c l := by rw [keys_snoc, k1, List.append_nil]
    have e2 : (played c (l ++ [op])).1 = (played c l).1 := by rw [played_snoc]; simp only [playStep, k1, List.foldl_nil]
    exact ⟨by rw [e1, e2]; exact h.now, by rw [e1, e2]; exact h.sub, by rw [e1]; exact h.held, fun p hp => by rw [k2, k3]; exact h.vel p (e1 ▸ hp)⟩
  cases op with
  | noteOn k p v =>
    by_cases e : k = c
    · subst e
      by_cases hv : v = 0
      · subst hv
        exact melody_up h (.inl rfl) (hr p (by simp [keys]))
      · obtain ⟨h1, h2, h3⟩ := (hp p v rfl).resolve_left hv
        have hk : keys k [Op.noteOn k p v] = [.down p] := by simp [keys, hv]
        have hl : (played k l).1.1.length ≠ 10 := by have := h.sub.length_le; rw [h3] at this; omega
        have hd : keysDown (keys k (l ++ [.noteOn k p v])) = keysDown (keys k l) ++ [p] := by
          rw [keys_snoc, hk, keysDown_snoc]
          simp only
          rw [filter_other h1]
        have hm : (played k (l ++ [.noteOn k p v])).1 = ((played k l).1.1 ++ [p], some p) := by
          rw [played_snoc]; simp only [playStep, hk, List.foldl_cons, List.foldl_nil, codeStep, hl, if_false]
        have hg : fingers (keys k (l ++ [.noteOn k p v])) = keysDown (keys k l) ++ [p] := by
          rw [keys_snoc, hk, fingers_snoc]
          simp only
          rw [h3, filter_other h1]
        refine ⟨?_, ?_, fun _ => by rw [hg, hd], fun q hq => ?_⟩
        · rw [hm, lastNote, hd, List.getLast?_concat]
        · rw [hm, hg, ← h3]; exact h.sub.append (List.Sublist.refl _)
        · rw [lastNote, hd, List.getLast?_concat, Option.some.injEq] at hq
          subst hq
          rw [played_snoc, velocityOf_snoc]
          simp [playStep, hv, hl]
    · refine same (by simp [keys, e]) (by rw [played_snoc]; simp [playStep, e]) fun q => by rw [velocityOf_snoc]; simp [e]
  | noteOff k p =>
    by_cases e : k = c
    · subst e; exact melody_up h (.inr rfl) (hr p (by simp [keys]))
    · exact same (by simp [keys, e]) (by rw [played_snoc]; rfl) fun q => by rw [velocityOf_snoc]
  | cc k n v =>
    by_cases e : k = c ∧ (n = 120 ∨ n = 123)
    · have hk : keys c [Op.cc k n v] = [.off] := by simp [keys, e]
      have hd' : keysDown (keys c (l ++ [.cc k n v])) = [] := by rw [keys_snoc, hk, keysDown_snoc]
      have hm : (played c (l ++ [.cc k n v])).1 = ((played c l).1.1, none) := by
        rw [played_snoc]; simp only [playStep, hk, List.foldl_cons, List.foldl_nil, codeStep]
      refine ⟨by rw [hm, lastNote, hd']; rfl, ?_, fun x => absurd hd' x, fun q hq => ?_⟩
      · rw [hm, keys_snoc, hk, fingers_snoc]; exact h.sub
      · rw [lastNote, hd'] at hq; cases hq
    · exact same (by simp only [keys, List.filterMap_cons, e, if_false, List.filterMap_nil]) (by rw [played_snoc]; rfl)
        fun q => by rw [velocityOf_snoc]
  | _ => exact same rfl (by rw [played_snoc]; rfl) fun q => by rw [velocityOf_snoc]

private theorem melody_run {c : Nat} {l : List Op} (h : Legato c l) : ∀ pre post, l = pre ++ post → Melody c pre := by
  have key : ∀ post pre z, l = pre ++ (post ++ z) → Melody c pre → Melody c (pre ++ post) := by
    intro post
    induction post with
    | nil => intro pre z e k; rw [List.append_nil]; exact k
    | cons op post ih =>
      intro pre z e k
      have := ih (pre ++ [op]) z (by rw [e]; simp) (melody_step k (fun p v x => h.press pre p v (post ++ z) (by rw [e, x]; simp))
        fun p x => h.release pre op (post ++ z) p (by rw [e]; simp) x)
      simpa using this
  intro pre post e
  have := key pre [] post (by simpa using e) ⟨rfl, .slnil, fun _ => rfl, nofun⟩
  simpa using this

private theorem played_keys {c : Nat} (l : List Op) : (played c l).1 = (keys c l).foldl codeStep ([], none) := by
  have : ∀ (l : List Op) (m : (List Nat × Option Nat) × Nat), (l.foldl (playStep c) m).1 = (keys c l).foldl codeStep m.1 := by
    intro l
    induction l with
    | nil => intro m; rfl
    | cons op l ih =>
      intro m
      rw [List.foldl_cons, ih, show keys c (op :: l) = keys c [op] ++ keys c l from by
        unfold keys; rw [← List.filterMap_append]; rfl, List.foldl_append]
      rfl
  exact this l _

/-- **C15**, for legato playing, any number of keys one after the other.  On a channel with one voice of any kind the voice
plays the key pressed last while keys are down, and none when they are up.  Full statement: for every press/release history;
false (`C15_trill_silences`, `C15_wrong_note`). -/
theorem C15_legato_partial (env : Env) (c i : Nat) (s : St) (hs : OneVoice c i s) (ops : List Op)
    (hb : ∀ op ∈ ops, beside c op = true) (hl : Legato c ops) :
    let d := (run env s ops).dev i
    d.noteOn = (lastNote (keys c ops)).isSome ∧ ∀ p, lastNote (keys c ops) = some p → d.pitch = p := by
  have h := C15_behaviour env c i s hs ops hb
  have d := melody_run hl ops [] (by simp)
  rw [← d.now, played_keys]
  exact ⟨h.1, h.2.1⟩

/-- **C87** (partial).  In static mode, a melody played legato on one of MIDI channels 1 to 6 sounds as it is played: while a
key is down, the chip's FM channel is keyed on and plays the key pressed last, in tune, with the velocity that key was struck
with, the preset of the channel's program, its volume and the sides of its pan; and when no key is down it is keyed off.
Whatever is sent to other channels meanwhile, and whatever programs, volumes, pans, bends and pedals to this one.  Missing: keys
that are resumed when a later one is released, which may come back with the wrong velocity (`C87_violated_resumed_velocity`) or
not at all (C15); portamento on the channel, and keys pressed after All Notes Off while fingers rest on others (C18); FM parameter controllers, mapping changes, sample playback,
system resets and fine tunes after notes (C82, C85). -/
theorem C87_melody_partial (he : env.Ok) (hm : env.mode ≠ .dynamic) {c : Nat} (hc : c < 6) (drums : Bool) (ops : List Op)
    (h : ∀ op ∈ ops, op.Wf ∧ beside c op = true ∧ ordinary drums c op) (h3 : drums = true → c ≠ 3) (b : Bool) (m : Sram.Mem)
    (hs : env.fm.sram = true → ∀ q, Sram.loadProgram m 0 ≠ .ok q) (h2 : c ≠ 2 ∨ Channel3Alone env b m ops)
    (hf : ∀ pre k v post, ops = pre ++ .cc k 85 v :: post → ∀ p w, .noteOn k p w ∉ pre) (hl : Legato c ops)
    (hp : ∀ pre op post, ops = pre ++ op :: post → keys c [op] ≠ [] →
      ∀ q, lastNote (keys c (pre ++ [op])) = some q →
      Playable (tuningOf c pre) (pitchUnder (tuningOf c pre) q 0)) :
    let s := run env (boot env b m) ops
    (lastNote (keys c ops) = none → keyed s.fm.synth.out c = false) ∧
    ∀ q, lastNote (keys c ops) = some q → keyed s.fm.synth.out c = true ∧
      (Playable (tuningOf c ops) (pitchUnder (tuningOf c ops) q 0) →
        FmSounds env s c (tuningOf c ops) (settingsOf c ops) q (velocityOf ops c q)) := by
  have k := C87_behaviour he hm hc drums ops h h3 b m hs h2 hf fun pre op post e hk q hq => hp pre op post e hk q (by
    rw [← (melody_run hl (pre ++ [op]) post (by rw [e]; simp)).now]; exact hq)
  have d := melody_run hl ops [] (by simp)
  refine ⟨fun e => k.1 (d.now.trans e), fun q e => ?_⟩
  rw [← d.vel q e]
  exact k.2 q (d.now.trans e)

/-- **C87** on the PSG (partial).  In static mode, a melody of keys from 45 up played legato on one of MIDI channels 7 to 9
sounds as it is played: while a key is down, the chip's channel has the attenuation of the key pressed last under the channel's
volume, its own velocity and the envelope's position, and is at that key's pitch; the voice is off when no key is down.
Missing: as in `C87_melody_partial`; and envelopes that are loaded, keys below 45 (C86). -/
theorem C87_psg_melody_partial (he : env.Ok) (hm : env.mode ≠ .dynamic) {c : Nat} (h6 : 6 ≤ c) (hc : c < 9) (ops : List Op)
    (h : ∀ op ∈ ops, op.Wf ∧ beside c op = true ∧ ¬op.loadsEnvelope) (b : Bool) (m : Sram.Mem)
    (hf : ∀ pre k v post, ops = pre ++ .cc k 85 v :: post → ∀ p w, .noteOn k p w ∉ pre) (hl : Legato c ops)
    (hp : ∀ pre op post, ops = pre ++ op :: post → keys c [op] ≠ [] →
      ∀ q, lastNote (keys c (pre ++ [op])) = some q →
      Playable (tuningOf c pre) (pitchUnder (tuningOf c pre) q 0) ∧ 4500 ≤ pitchUnder (tuningOf c pre) q 0) :
    let s := run env (boot env b m) ops
    (s.dev c).noteOn = (lastNote (keys c ops)).isSome ∧
    ∀ q, lastNote (keys c ops) = some q → Playable (tuningOf c ops) (pitchUnder (tuningOf c ops) q 0) →
      PsgSounds env s (c - 6) (tuningOf c ops) (settingsOf c ops) q (velocityOf ops c q) := by
  have k := C87_psg_behaviour he hm h6 hc ops h b m hf fun pre op post e hk q hq => hp pre op post e hk q (by
    rw [← (melody_run hl (pre ++ [op]) post (by rw [e]; simp)).now]; exact hq)
  have d := melody_run hl ops [] (by simp)
  refine ⟨by rw [← d.now]; exact k.1, fun q e => ?_⟩
  rw [← d.vel q e]
  exact k.2 q (d.now.trans e)

private theorem boot_voice (he : env.Ok) (hm : env.mode ≠ .dynamic) {c : Nat} (hc : c < 9) (b : Bool) (m : Sram.Mem) :
    OneVoice c c (boot env b m) := by
  have h := boot_inv he hm hc b m
  obtain ⟨mono, -⟩ := h.line
  refine ⟨by omega, mono.solo.static, by omega, mono.solo.only, ⟨by rw [mono.cur.1]; rfl, mono.glide⟩, mono.porta, fun k hk => ?_, ?_⟩
  · obtain ⟨l, hl⟩ := h.stacks k hk
    exact Midi.Rep.ok hl
  · have := mono.stack.top
    unfold held; rw [this]; simp

/-- **C87** on the PSG, when the melody has ended (partial).  Once no key of the channel has been down for as many PSG frames as the
longest envelope has bytes, the channel is silent on the chip, whatever other channels play. -/
theorem C87_psg_rest_partial (he : env.Ok) (hm : env.mode ≠ .dynamic) {c : Nat} (h6 : 6 ≤ c) (hc : c < 9) (ops post : List Op) (N : Nat)
    (h : ∀ op ∈ ops ++ post, op.Wf ∧ beside c op = true) (b : Bool) (m : Sram.Mem) (hl : Legato c (ops ++ post))
    (hup : ∀ k, k ≤ post.length → keysDown (keys c (ops ++ post.take k)) = [])
    (hN : 256 ≤ N ∧ ∀ e ∈ env.psg.envelopes, e.length ≤ N) (ht : N ≤ post.count .psgTick) :
    chipAtt (run env (boot env b m) (ops ++ post)).psg.out (c - 6) = 15 := by
  refine C78_released_voice_falls_silent_partial he b m ops post c N ⟨h6, by omega⟩
    ⟨fun op ho => (h op ho).1, .inl fun op ho => (beside_attuned (i := c) (h op ho).2 (h op ho).1).2⟩ (fun op ho => ?_) (fun k hk => ?_) hN ht
  · have hb := (h op ho).2
    cases op <;> simp_all [beside, forgetting]
  · have e : ops ++ post = (ops ++ post.take k) ++ post.drop k := by rw [List.append_assoc, List.take_append_drop]
    have hl' : Legato c (ops ++ post.take k) :=
      ⟨fun pre p v z x => hl.press pre p v (z ++ post.drop k) (by rw [e, x]; simp),
        fun pre op z p x => hl.release pre op (z ++ post.drop k) p (by rw [e, x]; simp)⟩
    have := (C15_legato_partial env c c _ (boot_voice he hm hc b m) (ops ++ post.take k) (fun op ho => (h op (by
      rw [e]; exact List.mem_append_left _ ho)).2) hl').1
    rw [this, lastNote, hup k hk]
    rfl

/-! ### Where it fails -/

/-- **C87** fails for a key that sounds again: 60 is held at full velocity, 64 is touched softly, and when it is released 60 comes back
with the velocity of 64, although it has been held all the time. -/
theorem C87_violated_resumed_velocity : ∃ env, Env.Ok env ∧ env.mode = .static ∧ ∃ ops b m,
    (∀ op ∈ ops, op.Wf ∧ beside 0 op = true ∧ ordinary true 0 op) ∧
    let s := run env (boot env b m) ops
    lastNote (keys 0 ops) = some 60 ∧ velocityOf ops 0 60 = 127 ∧ (s.dev 0).pitch = 60 ∧ keyed s.fm.synth.out 0 = true ∧
    PresetFor env s (settingsOf 0 ops).program (Ex.preset 0) ∧
    ¬SoundsLike s.fm.synth.out 0 (Ex.preset 0) ((settingsOf 0 ops).volume * velocityOf ops 0 60 / 127) ∧
    SoundsLike s.fm.synth.out 0 (Ex.preset 0) ((settingsOf 0 ops).volume * 10 / 127) :=
  ⟨Ex.env .static, Ex.env_ok _, rfl, [.noteOn 0 60 127, .noteOn 0 64 10, .noteOff 0 64], true, Ex.mem,
    by simp [Op.Wf, beside, ordinary], by unfold PresetFor SoundsLike; decide +kernel⟩

/-- The same on the PSG: the key that comes back is attenuated as for the soft one. -/
theorem C87_violated_psg_resumed_velocity : ∃ env, Env.Ok env ∧ env.mode = .static ∧ ∃ ops b m,
    (∀ op ∈ ops, op.Wf ∧ beside 6 op = true ∧ ¬op.loadsEnvelope) ∧
    let s := run env (boot env b m) ops
    lastNote (keys 6 ops) = some 60 ∧ velocityOf ops 6 60 = 127 ∧ (s.dev 6).pitch = 60 ∧ (s.psg.ch 0).noteOn = true ∧
    ∃ e, Psg.deref env.psg s.psg.userBuf (s.psg.ch 0).step = some e ∧
      chipAtt s.psg.out 0 ≠ heardAttenuation env.psg (settingsOf 6 ops).volume (velocityOf ops 6 60) (e % 16) ∧
      chipAtt s.psg.out 0 = heardAttenuation env.psg (settingsOf 6 ops).volume 10 (e % 16) :=
  ⟨Ex.env .static, Ex.env_ok _, rfl, [.noteOn 6 60 127, .noteOn 6 64 10, .noteOff 6 64], true, Ex.mem,
    by simp [Op.Wf, beside, Op.loadsEnvelope], by decide +kernel, by decide +kernel, by decide +kernel, by decide +kernel, 2,
    by decide +kernel⟩

/-! ### Examples -/

/-- A melody on MIDI channel 2 with overlapping keys, beside a bass on channel 1. -/
private def tune : List Op :=
  [.program 1 5, .cc 1 7 100, .noteOn 0 36 90, .noteOn 1 60 127, .noteOn 1 62 40, .noteOff 1 60, .tick, .noteOn 1 64 88, .cc 1 10 127,
   .noteOff 1 62, .noteOff 0 36, .bend 1 8292]

/-- The last key sounds with its own velocity; the bass is silent. -/
example : let s := Ex.after .static tune
    lastNote (keys 1 tune) = some 64 ∧ velocityOf tune 1 64 = 88 ∧ played 1 tune = (([], some 64), 88) ∧
    keyed s.fm.synth.out 1 = true ∧ (s.dev 1).pitch = 64 ∧ keyed s.fm.synth.out 0 = false ∧ PannedTo 127 s.fm.synth.out 1 ∧
    (chipOperator s.fm.synth.out 1 3).totalLevel = wantTl (Ex.preset 5).algorithm (100 * 88 / 127) 3 ((Ex.preset 5).ops.get 3).totalLevel := by
  decide +kernel

/-- Legato, checked message by message: keys down `D`, fingers `H`. -/
def legato (c : Nat) : List Nat → List Nat → List Op → Bool
  | _, _, [] => true
  | D, H, op :: l => match keys c [op] with
    | [.down p] => !D.contains p && decide (D.length < 10) && H == D && legato c (D ++ [p]) (D ++ [p]) l
    | [.up p] => (D.getLast? != some p || D == [p]) && legato c (D.filter (· ≠ p)) (H.filter (· ≠ p)) l
    | [.off] => legato c [] H l
    | _ => legato c D H l

private theorem keys_one (c : Nat) (op : Op) : keys c [op] = [] ∨ (∃ p, keys c [op] = [.down p]) ∨ (∃ p, keys c [op] = [.up p]) ∨
    keys c [op] = [.off] := by
  cases op with
  | noteOn k p v =>
    by_cases e : k = c
    · by_cases hv : v = 0
      · exact .inr (.inr (.inl ⟨p, by simp [keys, e, hv]⟩))
      · exact .inr (.inl ⟨p, by simp [keys, e, hv]⟩)
    · exact .inl (by simp [keys, e])
  | noteOff k p =>
    by_cases e : k = c
    · exact .inr (.inr (.inl ⟨p, by simp [keys, e]⟩))
    · exact .inl (by simp [keys, e])
  | cc k n v =>
    by_cases e : k = c ∧ (n = 120 ∨ n = 123)
    · exact .inr (.inr (.inr (by simp [keys, e])))
    · exact .inl (by simp only [keys, List.filterMap_cons, e, if_false, List.filterMap_nil])
  | _ => exact .inl rfl

theorem legato_of {c : Nat} {l : List Op} (h : legato c [] [] l = true) : Legato c l := by
  have key : ∀ (pre : List Op) (x : List Op) (op : Op) (post : List Op),
      legato c (keysDown (keys c x)) (fingers (keys c x)) (pre ++ op :: post) = true →
      legato c (keysDown (keys c (x ++ pre))) (fingers (keys c (x ++ pre))) (op :: post) = true := by
    intro pre
    induction pre with
    | nil => intro x op post k; rw [List.append_nil]; exact k
    | cons o pre ih =>
      intro x op post k
      have := ih (x ++ [o]) op post ?_
      · simpa using this
      · rw [List.cons_append] at k
        unfold legato at k
        rw [keys_snoc]
        rcases keys_one c o with e | ⟨p, e⟩ | ⟨p, e⟩ | e <;> rw [e] at k ⊢
        · rw [List.append_nil]; exact k
        · simp only [Bool.and_eq_true, Bool.not_eq_true', beq_iff_eq] at k
          rw [keysDown_snoc, fingers_snoc]
          simp only
          rw [k.1.2, filter_other (fun y => by rw [List.contains_iff_mem.2 y] at k; cases k.1.1.1)]
          exact k.2
        · simp only [Bool.and_eq_true] at k
          rw [keysDown_snoc, fingers_snoc]
          exact k.2
        · rw [keysDown_snoc, fingers_snoc]
          exact k
  refine ⟨fun pre p v post e => ?_, fun pre op post p e hk hn => ?_⟩
  · by_cases hv : v = 0
    · exact .inl hv
    have := key pre [] (.noteOn c p v) post (by rw [← e]; exact h)
    rw [List.nil_append] at this
    unfold legato at this
    rw [show keys c [Op.noteOn c p v] = [.down p] by simp [keys, hv]] at this
    simp only [Bool.and_eq_true, Bool.not_eq_true', decide_eq_true_eq, beq_iff_eq] at this
    refine .inr ⟨fun y => ?_, this.1.1.2, this.1.2⟩
    have z := this.1.1.1
    rw [List.contains_iff_mem.2 y] at z; cases z
  · have := key pre [] op post (by rw [← e]; exact h)
    rw [List.nil_append] at this
    unfold legato at this
    rw [hk] at this
    unfold lastNote at hn
    simp only [hn] at this
    simp only [bne_self_eq_false, Bool.false_or, Bool.and_eq_true, beq_iff_eq] at this
    exact this.1

/-- A melody on the PSG, with a soft second key; the last note is the one to hear. -/
private def flute : List Op :=
  [.cc 7 7 100, .noteOn 7 60 127, .psgTick, .noteOn 7 62 40, .noteOff 7 60, .tick, .psgTick, .noteOn 7 64 88, .noteOff 7 62, .bend 7 8292]

example : let s := Ex.after .static flute
    lastNote (keys 7 flute) = some 64 ∧ velocityOf flute 7 64 = 88 ∧ played 7 flute = (([], some 64), 88) ∧
    (s.dev 7).noteOn = true ∧ Psg.deref (Ex.env .static).psg s.psg.userBuf (s.psg.ch 1).step = some 2 ∧
    chipAtt s.psg.out 1 = heardAttenuation (Ex.env .static).psg 100 88 2 ∧ chipAtt s.psg.out 1 ≠ 15 := by
  decide +kernel

example : Legato 7 flute ∧ (∀ op ∈ flute, op.Wf ∧ beside 7 op = true ∧ ¬op.loadsEnvelope) ∧
    ∀ n, n < 10 → ∀ q, lastNote (keys 7 (flute.take (n + 1))) = some q →
      Playable (tuningOf 7 (flute.take n)) (pitchUnder (tuningOf 7 (flute.take n)) q 0) ∧
      4500 ≤ pitchUnder (tuningOf 7 (flute.take n)) q 0 := by
  refine ⟨legato_of (by decide +kernel), by simp [flute, Op.Wf, beside, Op.loadsEnvelope], fun n hn q hq => ?_⟩
  have : ∀ n, n < 10 → (match lastNote (keys 7 (flute.take (n + 1))) with
    | some q => decide (Playable (tuningOf 7 (flute.take n)) (pitchUnder (tuningOf 7 (flute.take n)) q 0) ∧
      4500 ≤ pitchUnder (tuningOf 7 (flute.take n)) q 0)
    | none => true) = true := by decide +kernel
  have := this n hn
  rw [hq] at this
  simpa using this

/-- The flute falls silent: the last key is released, and the release part of its envelope ends. -/
example : chipAtt (run (Ex.env .static) (boot (Ex.env .static) true Ex.mem)
    (flute ++ [.noteOff 7 64] ++ List.replicate 300 .psgTick)).psg.out (7 - 6) = 15 := by
  refine C87_psg_rest_partial (env := Ex.env .static) (c := 7) (Ex.env_ok _) (by decide) (by decide) (by decide) _ _ 300 ?_ _ _
    (legato_of (by decide +kernel)) ?_ ⟨by decide, by decide +kernel⟩ (by rw [List.count_replicate_self]; exact Nat.le_refl _)
  · intro op ho
    simp only [List.mem_append, List.mem_replicate, List.mem_singleton, flute, List.mem_cons, List.not_mem_nil, or_false] at ho
    rcases ho with (ho | ho) | ho
    · rcases ho with rfl | rfl | rfl | rfl | rfl | rfl | rfl | rfl | rfl | rfl <;> simp [Op.Wf, beside]
    · subst ho; simp [Op.Wf, beside]
    · rw [ho.2]; simp [Op.Wf, beside]
  · intro k hk
    have : keys 7 ((List.replicate 300 Op.psgTick).take k) = [] := by
      rw [List.take_replicate]
      unfold keys
      rw [List.filterMap_eq_nil_iff]
      intro op ho
      rw [(List.mem_replicate.1 ho).2]
    rw [show keys 7 (flute ++ [.noteOff 7 64] ++ (List.replicate 300 Op.psgTick).take k) =
      keys 7 (flute ++ [.noteOff 7 64]) ++ keys 7 ((List.replicate 300 Op.psgTick).take k) from by
        unfold keys; rw [List.filterMap_append], this]
    decide +kernel

/-- The theorem speaks of the melody. -/
example : Legato 1 tune ∧ (∀ op ∈ tune, op.Wf ∧ beside 1 op = true ∧ ordinary true 1 op) ∧
    ∀ n, n < 12 → ∀ q, lastNote (keys 1 (tune.take (n + 1))) = some q →
      Playable (tuningOf 1 (tune.take n)) (pitchUnder (tuningOf 1 (tune.take n)) q 0) := by
  refine ⟨legato_of (by decide +kernel), by simp [tune, Op.Wf, beside, ordinary], fun n hn q hq => ?_⟩
  have : ∀ n, n < 12 → (match lastNote (keys 1 (tune.take (n + 1))) with
    | some q => decide (Playable (tuningOf 1 (tune.take n)) (pitchUnder (tuningOf 1 (tune.take n)) q 0))
    | none => true) = true := by decide +kernel
  have := this n hn
  rw [hq] at this
  simpa using this

/-- All Notes Off while a key is down; the finger is lifted, and another key is pressed. -/
example : Legato 1 (tune ++ [.cc 1 123 0, .noteOff 1 64, .noteOn 1 65 50]) := legato_of (by decide +kernel)
example : let s := Ex.after .static (tune ++ [.cc 1 123 0])
    let t := Ex.after .static (tune ++ [.cc 1 123 0, .noteOff 1 64, .noteOn 1 65 50])
    lastNote (keys 1 (tune ++ [.cc 1 123 0])) = none ∧ keyed s.fm.synth.out 1 = false ∧
    keyed t.fm.synth.out 1 = true ∧ (t.dev 1).pitch = 65 ∧ (t.fm.ch 1).velocity = 50 := by decide +kernel

end Mdmi.Props
