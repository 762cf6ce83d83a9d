import Verif.Proofs.MidiHeld
import Verif.Spec.Example
/-! C30: a message on one MIDI channel changes the chips only for the voices of that channel. -/
namespace Mdmi.Props
open Mdmi Mdmi.Midi

/-- Controllers that set a parameter of an FM channel. -/
def fmParameter (k : Nat) : Prop :=
  (14 ≤ k ∧ k ≤ 27) ∨ (39 ≤ k ∧ k ≤ 62) ∨ (70 ≤ k ∧ k ≤ 73) ∨ (75 ≤ k ∧ k ≤ 77) ∨ (90 ≤ k ∧ k ≤ 93)

/-- Messages on MIDI channel `c`, without the controllers of the whole chip (1 and 74 LFO, 78 samples, 80 special
mode) and without Reset All Controllers (C40). -/
def ChannelMessage (c : Nat) : Op → Prop
  | .noteOn d _ _ | .noteOff d _ | .bend d _ | .program d _ => d = c
  | .cc d k _ => d = c ∧ k ≠ 1 ∧ k ≠ 74 ∧ k ≠ 78 ∧ k ≠ 80 ∧ k ≠ 121
  | _ => False

/-- Voices of MIDI channel `c` before or after the message (a note may be given an idle voice). -/
def Voices (s t : St) (c i : Nat) : Prop := (s.dev i).midiChannel = c ∨ (t.dev i).midiChannel = c

/-- The chips are as they were. -/
private theorem chip_same {A : Nat → Prop} {s t : St} (h : t.fm = s.fm) (h' : t.psg = s.psg) : ChipFrame A s t := by
  constructor <;> simp [h, h']

private theorem chip_from {A : Nat → Prop} {s s' t : St} (h : s'.fm = s.fm) (h' : s'.psg = s.psg)
    (k : ChipFrame A s' t) : ChipFrame A s t :=
  ⟨h ▸ k.reg, h ▸ k.key, h' ▸ k.tone, h' ▸ k.att⟩

private theorem remap_chips (s : St) (c i : Nat) : (remap s c i).fm = s.fm ∧ (remap s c i).psg = s.psg := by
  unfold remap
  split
  · exact ⟨rfl, rfl⟩
  split
  · split <;> exact ⟨rfl, rfl⟩
  split <;> exact ⟨rfl, rfl⟩

private theorem setDynamicMode_chips (s : St) (m : Mode) :
    (setDynamicMode s m).fm = s.fm ∧ (setDynamicMode s m).psg = s.psg := by
  cases m <;> exact ⟨rfl, rfl⟩

private theorem setPolyphonic_chips (s : St) (b : Bool) :
    (setPolyphonic s b).fm = s.fm ∧ (setPolyphonic s b).psg = s.psg := by
  unfold setPolyphonic
  have h := setDynamicMode_chips s (modeOf b)
  generalize setDynamicMode s (modeOf b) = t at h
  simp only
  split
  · exact List.foldlRecOn (motive := fun u : St => u.fm = s.fm ∧ u.psg = s.psg) _ _ h fun u hu i _ =>
      ⟨(remap_chips u 0 i).1.trans hu.1, (remap_chips u 0 i).2.trans hu.2⟩
  · exact h

private theorem chip_emit {A : Nat → Prop} {s t : St} {e : Ev} (h : ChipFrame A s t) : ChipFrame A s (emit t e) :=
  ⟨h.reg, h.key, h.tone, h.att⟩

private theorem chip_mono {A B : Nat → Prop} {s t : St} (h : ChipFrame A s t) (hA : ∀ i, A i → B i) :
    ChipFrame B s t :=
  ⟨fun p r k => h.reg p r fun i hi => k i (hA i hi), fun n hn k => h.key n hn fun x => k (hA _ x),
    fun n hn k => h.tone n hn fun x => k (hA _ x), fun n hn k => h.att n hn fun x => k (hA _ x)⟩

variable {env : Env} {tame : Bool} {s : St}

private theorem startNote_chip (he : env.Ok) (hs : Ok env tame s) {i c p v : Nat} (hi : i < 13) (hc : c < 16)
    (hp : p < 128) (hv : v < 128) :
    ChipFrame (fun j => ((startNote env s i c p v).dev j).midiChannel = c) s (startNote env s i c p v) := by
  have h : Path env tame (· = i) (fun _ => False) (fun _ => False) (fun _ => False) s (startNote env s i c p v) :=
    startNote_path hs hi (A := (· = i)) rfl he hc (lt_top hp) hv
  refine chip_mono h.frame.chip ?_
  rintro j rfl
  rw [startNote_dev hc]
  simp [Dev.sync]

private theorem noteOn_chip (he : env.Ok) (hs : Ok env tame s) {c p v : Nat} (hc : c < 16) (hp : p < 128)
    (hv : v < 128) (hv0 : v ≠ 0) :
    ChipFrame (fun j => ((noteOn env s c p v).dev j).midiChannel = c) s (noteOn env s c p v) := by
  unfold noteOn
  rw [if_neg hv0]
  split
  · exact chip_same rfl rfl
  split
  · exact chip_same rfl rfl
  rename_i i hi
  have hi13 := findFree_lt hi
  split
  · split
    · exact chip_same rfl rfl
    obtain ⟨l, hl, hl'⟩ := (hs.chan c hc).stack
    obtain ⟨st, e, hr⟩ := hl.push p
    simp only [e]
    split
    · exact chip_same rfl rfl
    · have h1 : Path env tame (· = i) (· = c) (fun _ => False) (fun _ => False) s
          (setChan s c fun m => { m with stack := st, lastVelocity := v }) := by
        refine Path.refl.chan rfl hc { (hs.chan c hc) with velocity := hv, stack := ⟨_, hr, ?_⟩ }
        intro q hq
        split at hq
        · exact hl' q hq
        · rcases List.mem_append.1 hq with hq | hq
          · exact hl' q hq
          · simp at hq; rw [hq]; exact lt_top hp
      have h2 := h1.dev (f := fun d => { d with glide := 0 }) rfl hi13
        { (h1.ok he hs).dev i hi13 with glide := lt_top (by decide : 0 < 128) }
      have k := startNote_chip he (h2.ok he hs) hi13 hc hp hv
      exact chip_from (by rfl) (by rfl) k
  · exact startNote_chip he hs hi13 hc hp hv

/-- The driver call of an FM parameter is for the channel it is asked for. -/
private theorem param_chan {inv : Bool} {n k v : Nat} {op : Synth.Op} (h1 : k ≠ 1) (h2 : k ≠ 74)
    (h : fmParam inv n k v = some op) : fmParameter k ∧ op.chan = some n ∧ ∀ p, op ≠ .init p := by
  unfold fmParam at h
  unfold fmParameter
  split at h <;> simp only [Option.some.injEq, reduceCtorEq] at h <;> first | omega | (subst h; simp [Synth.Op.chan])

/-- Every controller but those of the whole chip and Reset All Controllers. -/
private theorem cc_chip (he : env.Ok) (hs : Ok env tame s) {c k v : Nat} (hc : c < 16) (hv : v < 128)
    (h1 : k ≠ 1) (h2 : k ≠ 74) (h3 : k ≠ 78) (h4 : k ≠ 80) (h5 : k ≠ 121)
    (hk : fmParameter k → ∀ i, i < 13 → (s.dev i).midiChannel = c → i < 6) :
    ChipFrame (fun i => (s.dev i).midiChannel = c) s (ccSwitch env s c k v) := by
  unfold ccSwitch
  split
  · split <;> exact chip_same rfl rfl
  · have h1 : Path env tame (fun i => (s.dev i).midiChannel = c) (· = c) (fun _ => False) (fun _ => False) s
        (setChan s c fun m => { m with volume := v }) :=
      Path.refl.chan rfl hc { (hs.chan c hc) with volume := hv }
    exact (h1.trans (updateVolume_all he (h1.ok he hs) hc)).frame.chip
  · have h1 : Path env tame (fun i => (s.dev i).midiChannel = c) (· = c) (fun _ => False) (fun _ => False) s
        (setChan s c fun m => { m with pan := v }) :=
      Path.refl.chan rfl hc { (hs.chan c hc) with }
    exact (h1.trans (updatePan_all he (h1.ok he hs))).frame.chip
  · exact (allNotesOff_path (C := fun _ => False) he hs).1.frame.chip
  · exact (allNotesOff_path (C := fun _ => False) he hs).1.frame.chip
  · exact chip_same (setPolyphonic_chips s _).1 (setPolyphonic_chips s _).2
  · exact absurd rfl h4
  · exact absurd rfl h5
  · split <;> exact chip_same rfl rfl
  · split <;> exact chip_same rfl rfl
  · exact chip_same rfl rfl
  · split <;> exact chip_same rfl rfl
  · exact (rpnDataEntry_path he hs hc).frame.chip
  · exact (rpnDataEntry_path he hs hc).frame.chip
  · exact chip_same rfl rfl
  · exact chip_same rfl rfl
  · exact chip_same rfl rfl
  · exact chip_same rfl rfl
  · exact chip_same rfl rfl
  · exact chip_same rfl rfl
  · have h : Path env tame (fun i => (s.dev i).midiChannel = c) (fun _ => False)
        (Within fun i => (s.dev i).midiChannel = c) (fun _ => False) s (storeFromChannel env s c v) :=
      storeFromChannel_path hs hv fun n => ⟨by simp, by simp, fun _ _ _ h => False.elim h⟩
    exact h.frame.chip_within
  · have h : Path env tame (fun i => (s.dev i).midiChannel = c) (fun _ => False)
        (Within fun i => (s.dev i).midiChannel = c) (fun _ => False) s
        (foreach s c fun s i => setFmParam env s i k v) := by
      refine (foreach_path he hs _ fun t i ht hm hi hic => ?_).1
      have hA := (hm i).symm.trans hic
      refine setFmParam_path ht hi (fun h => absurd h h3) (fun op ho => ?_) (fun h => absurd h h3)
        fun _ h => h3 h.1
      obtain ⟨hf, hch, hini⟩ := param_chan h1 h2 ho
      have hi6 := hk hf i hi hA
      refine ⟨by simp, fun p h => hini p (by injection h), fun p r d h => ⟨i, hA, hi, ?_⟩⟩
      rw [(ht.dev i hi).fmNum hi6] at hch
      unfold voiceReg
      rw [if_pos hi6]
      cases op <;> first | (simp [Synth.Op.chan] at hch; done) | skip
      all_goals (simp only [Fm.touches, hch] at h; exact h)
    exact h.frame.chip_within

private theorem chip_trans {A : Nat → Prop} {s t u : St} (h : ChipFrame A s t) (h' : ChipFrame A t u) : ChipFrame A s u :=
  ⟨fun p r k => (h'.reg p r k).trans (h.reg p r k), fun n hn k => (h'.key n hn k).trans (h.key n hn k),
    fun n hn k => (h'.tone n hn k).trans (h.tone n hn k), fun n hn k => (h'.att n hn k).trans (h.att n hn k)⟩

/-- Bends, whether or not channel 6 plays samples (which have no pitch). -/
private theorem bend_chip (he : env.Ok) (hs : Ok env tame s) {c b : Nat} (hc : c < 16) :
    ChipFrame (fun i => (s.dev i).midiChannel = c) s (pitchBend env s c b) := by
  unfold pitchBend foreach
  have loose : OkOn env false (fun j => j < 13 ∧ (s.dev j).ops ≠ .dac) (setChan s c fun m => { m with pitchBend := b }) := by
    have ch : ∀ j, j < 16 → ChanOk false (s.chan j) := fun j hj => by
      obtain ⟨l, hl, hl'⟩ := (hs.chan j hj).stack
      exact { (hs.chan j hj) with bend := by simp, stack := ⟨l, hl, fun p hp => Nat.lt_of_lt_of_le (hl' p hp) (top_le tame)⟩ }
    refine ⟨fun i h => h.1, fun i h => ?_, fun j hj => ?_, hs.fm, hs.psg, hs.fault⟩
    · exact { (hs.dev i h.1) with
        dac := fun _ => h.2, bend := by simp, glide := Nat.lt_of_lt_of_le (hs.dev i h.1).glide (top_le tame) }
    · simp only [setChan_chan]
      by_cases e : j = c
      · subst e; rw [Psg.upd_same]; exact { (ch j hj) with bend := by simp }
      · rw [Psg.upd_other _ _ _ _ e]; exact ch j hj
  have step : ∀ (l : List Nat) (u : St), (∀ i ∈ l, i < 13) →
      OkOn env false (fun j => j < 13 ∧ (s.dev j).ops ≠ .dac) u →
      (∀ j, (u.dev j).ops = (s.dev j).ops ∧ (u.dev j).midiChannel = (s.dev j).midiChannel) →
      ChipFrame (fun i => (s.dev i).midiChannel = c) s u →
      ChipFrame (fun i => (s.dev i).midiChannel = c) s (l.foldl (fun s i => if (s.dev i).midiChannel = c then
        (fun s i => if (s.dev i).noteOn then updatePitchBend env s c i else s) s i else s) u) := by
    intro l
    induction l with
    | nil => exact fun u _ _ _ h => h
    | cons i l ih =>
      intro u hl hu hm hch
      have hi := hl i (by simp)
      rw [List.foldl_cons]
      refine ih _ (fun j hj => hl j (by simp [hj])) ?_ ?_ ?_
      all_goals
        by_cases e1 : (u.dev i).midiChannel = c
        case neg => simp only [if_neg e1]; assumption
        by_cases e2 : (u.dev i).noteOn = true
        case neg => simp only [if_pos e1, if_neg e2]; assumption
        simp only [if_pos e1, if_pos e2]
      all_goals
        have own : (s.dev i).midiChannel = c := (hm i).2.symm.trans e1
        by_cases e3 : (s.dev i).ops = .dac
      · have k : (updatePitchBend env u c i).fm = u.fm ∧ (updatePitchBend env u c i).psg = u.psg ∧
            (updatePitchBend env u c i).fault = u.fault := by
          unfold updatePitchBend; split
          · simp [setDownstreamPitch, withPitch, devPitch, (hm i).1, e3, e1, hc, setDev]
          · exact ⟨rfl, rfl, rfl⟩
        refine ⟨fun j h => h.1, fun j h => ?_, fun j hj => ?_, k.1 ▸ hu.fm, k.2.1 ▸ hu.psg, k.2.2 ▸ hu.fault⟩
        · rw [updatePitchBend_dev, Psg.upd_other _ _ _ _ (by rintro rfl; exact h.2 e3)]; exact hu.dev j h
        · rw [updatePitchBend_chan]; exact hu.chan j hj
      · exact (updatePitchBend_path (A := fun _ => True) (C := fun _ => True) (G := fun _ => True) (H := fun _ => True)
          hu ⟨hi, e3⟩ trivial hc he (e1 ▸ hc)).ok he hu
      · intro j; rw [updatePitchBend_dev]
        by_cases e : j = i
        · subst e; rw [Psg.upd_same]; exact hm j
        · rw [Psg.upd_other _ _ _ _ e]; exact hm j
      · intro j; rw [updatePitchBend_dev]
        by_cases e : j = i
        · subst e; rw [Psg.upd_same]; exact hm j
        · rw [Psg.upd_other _ _ _ _ e]; exact hm j
      · have k : (updatePitchBend env u c i).fm = u.fm ∧ (updatePitchBend env u c i).psg = u.psg := by
          unfold updatePitchBend; split
          · simp [setDownstreamPitch, withPitch, devPitch, (hm i).1, e3, e1, hc, setDev]
          · exact ⟨rfl, rfl⟩
        exact chip_trans hch (chip_same k.1 k.2)
      · exact chip_trans hch (updatePitchBend_path (A := fun i => (s.dev i).midiChannel = c) (C := fun _ => True)
          (G := fun _ => False) (H := fun _ => False) hu ⟨hi, e3⟩ own hc he (e1 ▸ hc)).frame.chip
  exact step _ _ (by simp) loose (fun j => ⟨rfl, rfl⟩) (chip_same rfl rfl)

/-- **C30**, for the messages of one channel, in every reachable state.  Full statement: every channel message, in
every reachable state, without `hk`.  It is false for the controllers left out by `ChannelMessage` (`C30_lfo`)
and for FM parameters on a channel with a voice that is not FM (`C30_parameter_leaks`). -/
theorem C30_own_voices_partial (env : Env) (he : env.Ok) (s : St) (hs : Reached env s) (c : Nat) (op : Op) (hw : op.Wf)
    (hop : ChannelMessage c op)
    (hk : ∀ k v, op = .cc c k v → fmParameter k → ∀ i, i < 13 → (s.dev i).midiChannel = c → i < 6) :
    ChipFrame (Voices s (step env s op) c) s (step env s op) := by
  obtain ⟨tame, hs⟩ := hs.ok he
  cases op with
  | noteOn d p v =>
    obtain rfl : d = c := hop
    obtain ⟨hc, hp, hv⟩ := hw
    simp only [step, hc, if_true]
    by_cases hv0 : v = 0
    · simp only [noteOn, hv0, if_true]
      exact chip_mono (noteOff_path he hs hc).1.frame.chip fun i h => .inl h
    · exact chip_mono (noteOn_chip he hs hc hp hv hv0) fun i h => .inr h
  | noteOff d p =>
    obtain rfl : d = c := hop
    have hc := hw.1
    simp only [step, hc, if_true]
    exact chip_mono (noteOff_path he hs hc).1.frame.chip fun i h => .inl h
  | bend d b =>
    obtain rfl : d = c := hop
    have hc := hw.1
    simp only [step, hc, if_true]
    exact chip_mono (bend_chip he hs hc) fun i h => .inl h
  | program d p =>
    obtain rfl : d = c := hop
    have hc := hw.1
    simp only [step, hc, if_true]
    obtain ⟨t, e, h⟩ := program_path (G := fun _ => False) (H := fun _ => False) (p := p) he hs hc hw.2
    have k : ChipFrame (fun i => (s.dev i).midiChannel = d) s (program env s d p) := by
      rw [e]; exact chip_emit h.frame.chip
    exact chip_mono k fun i h => .inl h
  | cc d k v =>
    obtain ⟨rfl, h1, h2, h3, h4, h5⟩ := hop
    have hc := hw.1
    simp only [step, hc, if_true, cc]
    exact chip_mono (chip_emit (cc_chip he hs hc hw.2.2 h1 h2 h3 h4 h5 (hk k v rfl))) fun i h => .inl h
  | _ => exact False.elim hop

/-- **C30** fails for FM parameter controllers on a channel whose voice is a PSG channel: controller 14 (algorithm) on
MIDI channel 7, which plays the first PSG channel, changes the FM channel of MIDI channel 1. -/
theorem C30_parameter_leaks : ∃ env s op, Env.Ok env ∧ Reached env s ∧ op.Wf ∧ ChannelMessage 6 op ∧
    ¬ChipFrame (Voices s (step env s op) 6) s (step env s op) := by
  refine ⟨Ex.env .static, Ex.after .static [], .cc 6 14 127, Ex.env_ok _, ⟨true, Ex.mem, [], by simp, by simp, rfl⟩,
    by simp [Op.Wf], by simp [ChannelMessage], fun h => ?_⟩
  have hv : ∀ i, i < 13 → Voices (Ex.after .static []) (step (Ex.env .static) (Ex.after .static []) (.cc 6 14 127)) 6 i →
      i = 6 := by unfold Voices; decide +kernel
  have := h.reg 0 0xB0 fun i hi hi' d hd => by
    rw [hv i hi' hi] at hd
    exact absurd hd.1 (by decide)
  revert this
  decide +kernel

/-- **C30** fails for the LFO controllers: they set the one LFO of the chip.  Controllers 78 (samples) and 80 (special
mode) are global in the same way. -/
theorem C30_lfo : ∃ env s, Env.Ok env ∧ Reached env s ∧
    ∀ op ∈ [Op.cc 0 74 0, .cc 0 1 127, .cc 0 78 127, .cc 0 80 127], op.Wf ∧ ¬ChipFrame (Voices s (step env s op) 0) s (step env s op) := by
  refine ⟨Ex.env .static, Ex.after .static [], Ex.env_ok _, ⟨true, Ex.mem, [], by simp, by simp, rfl⟩, ?_⟩
  have own : ∀ op p r,
      (∀ i, i < 13 → Voices (Ex.after .static []) (step (Ex.env .static) (Ex.after .static []) op) 0 i → i = 0) →
      (∀ d, Synth.owner p r d ≠ some 0) →
      ChipFrame (Voices (Ex.after .static []) (step (Ex.env .static) (Ex.after .static []) op) 0) (Ex.after .static [])
        (step (Ex.env .static) (Ex.after .static []) op) →
      Synth.ymReg (step (Ex.env .static) (Ex.after .static []) op).fm.synth.out p r =
        Synth.ymReg (Ex.after .static []).fm.synth.out p r := by
    intro op p r hv ho h
    refine h.reg p r fun i hi hi' d hd => ?_
    rw [hv i hi' hi] at hd
    exact ho d hd
  intro op hop
  simp only [List.mem_cons, List.not_mem_nil, or_false] at hop
  rcases hop with rfl | rfl | rfl | rfl
  · refine ⟨by simp [Op.Wf], fun h => ?_⟩
    have := own _ 0 0x22 (by unfold Voices; decide +kernel) (by simp [Synth.owner]) h
    revert this; decide +kernel
  · refine ⟨by simp [Op.Wf], fun h => ?_⟩
    have := own _ 0 0x22 (by unfold Voices; decide +kernel) (by simp [Synth.owner]) h
    revert this; decide +kernel
  · refine ⟨by simp [Op.Wf], fun h => ?_⟩
    have := own _ 0 0x2B (by unfold Voices; decide +kernel) (by simp [Synth.owner]) h
    revert this; decide +kernel
  · refine ⟨by simp [Op.Wf], fun h => ?_⟩
    have := own _ 0 0x27 (by unfold Voices; decide +kernel) (by simp [Synth.owner]) h
    revert this; decide +kernel

/-- **C30** fails for what channels play later: a note on channel 10, which plays the PSG noise channel, makes the FM
channel with the same number play percussion.  Channel 4 presses a second key and releases it; with a drum note in
between, the return to its first key sounds a drum: FM channel 4's algorithm (B3/B0 of part 1) differs. -/
theorem C30_percussion_leaks : ∃ env, Env.Ok env ∧
    let l := fun drum => [Op.noteOn 3 60 100, .noteOn 3 64 100] ++ drum ++ [.noteOff 3 64]
    let chip := fun drum => Synth.ymReg (run env (boot env true Ex.mem) (l drum)).fm.synth.out 1 0xB0
    chip [.noteOn 9 60 100, .noteOff 9 60] ≠ chip [] :=
  ⟨Ex.env .static, Ex.env_ok _, by decide +kernel⟩

/-- Two channels at once: a volume change on channel 2 while channel 1 sounds, on reachable states. -/
example : Reached (Ex.env .static) (Ex.after .static [.noteOn 0 60 100, .noteOn 1 64 100]) ∧
    ChannelMessage 1 (.cc 1 7 40) ∧
    (∀ r ∈ [0x40, 0x44, 0x48, 0x4C], Synth.ymReg (Ex.after .static
      [.noteOn 0 60 100, .noteOn 1 64 100, .cc 1 7 40]).fm.synth.out 0 r =
      Synth.ymReg (Ex.after .static [.noteOn 0 60 100, .noteOn 1 64 100]).fm.synth.out 0 r) ∧
    (∃ r ∈ [0x41, 0x45, 0x49, 0x4D], Synth.ymReg (Ex.after .static
      [.noteOn 0 60 100, .noteOn 1 64 100, .cc 1 7 40]).fm.synth.out 0 r ≠
      Synth.ymReg (Ex.after .static [.noteOn 0 60 100, .noteOn 1 64 100]).fm.synth.out 0 r) :=
  ⟨⟨true, Ex.mem, [.noteOn 0 60 100, .noteOn 1 64 100], by simp [Op.Wf], by simp [Op.enablesDac], rfl⟩,
    by simp [ChannelMessage], by decide +kernel, by decide +kernel⟩
