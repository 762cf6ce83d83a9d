import Verif.Proofs.MidiInTune
import Verif.Props.C71
import Verif.Spec.Example
/-! C82: sounding FM voices stay in tune. -/
namespace Mdmi.Props
open Mdmi Mdmi.Midi
open Mdmi.Synth (chipChannel)

variable {env : Env}

/-! ### Specification -/

/-- The pitch, in cents above MIDI key 0, of a voice `glide` cents off key `key` on a MIDI channel with tuning `x`. -/
def pitchUnder (x : Tuning) (key : Nat) (glide : Int) : Int :=
  soundingCents key glide x.bend (100 * (x.semitones : Int) + x.cents) x.fine

/-- A pitch the FM chip can play: keys 11 to 106.  Before fine tuning, it is one of the 256 the code can count to. -/
def Playable (x : Tuning) (n : Int) : Prop := 0 ≤ n - x.fine ∧ n - x.fine < 25600 ∧ 1100 ≤ n ∧ n < 10700

instance (x n) : Decidable (Playable x n) := by unfold Playable; infer_instance

/-- Messages that leave FM voice `i` on its chip channel and its MIDI channel: no system reset, no remapping, no change of
mapping mode, no raw register writes; sample playback may only replace voice 5. -/
def Op.attuned (i : Nat) (op : Op) : Prop :=
  op.Wf ∧ ¬op.rewires ∧ ¬op.raw ∧ op ≠ .reset ∧ (i = 5 → ¬op.enablesDac)

/-- Voice 3 shares its drum flag with the noise channel of the PSG: outside dynamic mode it needs MIDI channel 10 unused. -/
def DrumsApart (env : Env) (i : Nat) (ops : List Op) : Prop :=
  i = 3 → (∀ v, .cc 9 121 v ∉ ops) ∧ (env.mode = .dynamic ∨ ∀ p v, .noteOn 9 p v ∉ ops)

private theorem follows (he : env.Ok) {i : Nat} (hi : i < 6) (ops : List Op) (h : ∀ op ∈ ops, Op.attuned i op)
    (hd : (∀ op ∈ ops, ¬op.enablesDac) ∨ ∀ op ∈ ops, ¬op.detunes) (h3 : DrumsApart env i ops) (b : Bool) (m : Sram.Mem)
    (hf : ∀ pre c v post, ops = pre ++ .cc c 85 v :: post →
      ¬(((run env (boot env b m) pre).dev i).midiChannel = c ∧ ((run env (boot env b m) pre).dev i).noteOn = true)) :
    ∃ tame, Follows env tame (i ≠ 3 ∨ env.mode = .dynamic) i (run env (boot env b m) ops) := by
  have key : ∀ tame : Bool, (tame = false → ∀ op ∈ ops, ¬op.enablesDac) → (tame = true → ∀ op ∈ ops, ¬op.detunes) →
      Follows env tame (i ≠ 3 ∨ env.mode = .dynamic) i (run env (boot env b m) ops) := fun tame t1 t2 => by
    refine run_follows he hi ops _ (fun op ho => ?_) (fun pre c v post e e1 e2 => hf pre c v post e ⟨e1, e2⟩)
      (boot_follows he hi (fun d e => d.resolve_left (· e)) b m)
    obtain ⟨a1, a2, a3, a4, a5⟩ := h op ho
    refine ⟨a1, fun x => t1 x op ho, fun x => t2 x op ho, a2, a3, a4, ?_⟩
    cases op with
    | noteOn c p v =>
      intro hn e
      subst e
      have i3 : i = 3 := Classical.byContradiction fun x => hn (.inl x)
      rcases (h3 i3).2 with k | k
      · exact hn (.inr k)
      · exact k p v ho
    | cc c k v =>
      refine ⟨fun e e5 => ?_, fun e e3 e9 => ?_⟩
      · have := a5 e5
        simp only [Op.enablesDac, e, true_and] at this
        omega
      · subst e e9; exact (h3 e3).1 v ho
    | reset => exact absurd rfl a4
    | _ => trivial
  rcases hd with hd | hd
  · exact ⟨false, key false (fun _ => hd) nofun⟩
  · exact ⟨true, key true nofun fun _ => hd⟩

/-- **C82** (partial).  After any history of messages, an FM voice that sounds has on the chip the pitch of its note under
the bend, the bend range and the fine tune its MIDI channel has been sent, within 5 cents: whatever the order in which they
came, and through every glide, retrigger, program, volume and envelope change.  Missing: a fine tune that comes while the
voice sounds (`C82_violated_fine_tune`), voice 3 beside drums in static mode (`C82_violated_drum_flag`), remapping
(`C82_violated_remapped`) and system resets. -/
theorem C82_sounding_voices_in_tune_partial (he : env.Ok) {i : Nat} (hi : i < 6) (ops : List Op)
    (h : ∀ op ∈ ops, Op.attuned i op) (hd : (∀ op ∈ ops, ¬op.enablesDac) ∨ ∀ op ∈ ops, ¬op.detunes)
    (h3 : DrumsApart env i ops) (b : Bool) (m : Sram.Mem)
    (hf : ∀ pre c v post, ops = pre ++ .cc c 85 v :: post →
      ¬(((run env (boot env b m) pre).dev i).midiChannel = c ∧ ((run env (boot env b m) pre).dev i).noteOn = true))
    (c : Nat) (hc : c < 16) (h9 : c ≠ 9) :
    let s := run env (boot env b m) ops
    let n := pitchUnder (tuningOf c ops) (s.dev i).pitch (s.dev i).cents
    (s.dev i).midiChannel = c → (s.dev i).noteOn = true → Playable (tuningOf c ops) n →
      Fm.InTune env.fm.pal (chipChannel s.fm.synth.out i).freq n.toNat 5 := by
  intro s n hm hn hp
  obtain ⟨tame, k⟩ := follows he hi ops h hd h3 b m hf
  have hb := run_bent (env := env) ops (fun op ho => (h op ho).2.1) b m i (by omega) (by rw [hm]; exact hc) hn
  rw [hm] at hb
  exact k.inTune hc h9 hm hn hb (run_tuning hc ops (fun op ho => (h op ho).1) b m)
    (tuning_bounds c ops fun op ho => (h op ho).1) rfl hp.1 hp.2.1 hp.2.2.1 hp.2.2.2

/-- **C82** (fine tune set beforehand; partial).  The same when every channel's fine tune comes before its first note, a
condition on the messages alone. -/
theorem C82_fine_tune_first_partial (he : env.Ok) {i : Nat} (hi : i < 6) (ops : List Op)
    (h : ∀ op ∈ ops, Op.attuned i op) (hd : (∀ op ∈ ops, ¬op.enablesDac) ∨ ∀ op ∈ ops, ¬op.detunes)
    (h3 : DrumsApart env i ops) (b : Bool) (m : Sram.Mem)
    (hf : ∀ pre c v post, ops = pre ++ .cc c 85 v :: post → ∀ p w, .noteOn c p w ∉ pre) (c : Nat) (hc : c < 16) (h9 : c ≠ 9) :
    let s := run env (boot env b m) ops
    let n := pitchUnder (tuningOf c ops) (s.dev i).pitch (s.dev i).cents
    (s.dev i).midiChannel = c → (s.dev i).noteOn = true → Playable (tuningOf c ops) n →
      Fm.InTune env.fm.pal (chipChannel s.fm.synth.out i).freq n.toNat 5 := by
  refine C82_sounding_voices_in_tune_partial he hi ops h hd h3 b m (fun pre c v post e x => ?_) c hc h9
  have hc : c < 16 := (h (.cc c 85 v) (by rw [e]; simp)).1.1
  have := run_mute (env := env) hc pre (fun op ho => (h op (by rw [e]; simp [ho])).2.1) (hf pre c v post e) b m i (by omega) x.1
  rw [x.2] at this
  cases this

theorem chordal_attuned {op : Op} (h : chordal op = true) (hw : op.Wf) (i : Nat) : Op.attuned i op ∧ ¬op.enablesDac := by
  cases op with
  | cc c k v =>
    simp only [chordal, glideless, playing, Bool.and_eq_true, decide_eq_true_eq, bne_iff_ne] at h
    have : ¬(Op.cc c k v).enablesDac := fun x => h.1.1.1.1.1.1.2 x.1
    exact ⟨⟨hw, fun x => h.1.1.1.1.1.2 x, nofun, nofun, fun _ => this⟩, this⟩
  | sysex d j =>
    simp only [chordal, glideless, playing, Bool.and_eq_true, decide_eq_true_eq, bne_iff_ne, List.mem_cons, List.not_mem_nil,
      or_false, not_or] at h
    obtain ⟨⟨-, a, b, c, e⟩, -⟩ := h
    refine ⟨⟨hw, fun x => x.elim a b, fun x => ?_, nofun, fun _ => id⟩, id⟩
    obtain ⟨x1, x2⟩ := x
    match d with
    | [] | [_] | [_, _] => simp at x1
    | [_, _, _] => simp at x2
    | _ :: _ :: _ :: y :: l =>
      simp only [List.take_succ_cons, List.take_zero, List.cons.injEq] at x1
      simp only [List.getD_cons_succ, List.getD_cons_zero] at x2
      obtain ⟨rfl, rfl, rfl, -⟩ := x1
      rcases x2 with rfl | rfl
      · exact c rfl
      · exact e rfl
  | remap => cases h
  | reset => cases h
  | _ => exact ⟨⟨hw, nofun, nofun, nofun, fun _ => nofun⟩, nofun⟩

theorem downKeys_struck {c p : Nat} {ops : List Op} (h : (c, p) ∈ downKeys ops) :
    ∃ pre v post, ops = pre ++ .noteOn c p v :: post ∧ v ≠ 0 := by
  have key : ∀ (l : List Op) (D : List (Nat × Nat)) (pre : List Op),
      ((c, p) ∈ D → ∃ a v b, pre = a ++ .noteOn c p v :: b ∧ v ≠ 0) →
      (c, p) ∈ l.foldl (fun D op => match op with
        | .noteOn c p v => if v = 0 then D.filter (· ≠ (c, p)) else (c, p) :: D
        | .noteOff c p => D.filter (· ≠ (c, p))
        | _ => D) D → ∃ a v b, pre ++ l = a ++ .noteOn c p v :: b ∧ v ≠ 0 := by
    intro l
    induction l with
    | nil => intro D pre h k; rw [List.append_nil]; exact h k
    | cons op l ih =>
      intro D pre h k
      rw [show pre ++ op :: l = (pre ++ [op]) ++ l by simp]
      refine ih _ (pre ++ [op]) (fun x => ?_) k
      have old : (c, p) ∈ D → ∃ a v b, pre ++ [op] = a ++ .noteOn c p v :: b ∧ v ≠ 0 := fun y =>
        let ⟨a, v, b, e, hv⟩ := h y; ⟨a, v, b ++ [op], by rw [e]; simp, hv⟩
      cases op with
      | noteOn c' p' v =>
        simp only at x
        split at x
        · exact old (List.mem_filter.1 x).1
        · rename_i hv
          rcases List.mem_cons.1 x with y | y
          · cases y; exact ⟨pre, v, [], rfl, hv⟩
          · exact old y
      | noteOff c' p' => exact old (List.mem_filter.1 x).1
      | _ => exact old x
  exact key ops [] [] (by simp) h

private theorem dynamic_kept {s : St} : (resetChannels env s).dynamic = s.dynamic := by
  unfold resetChannels
  extract_lets a
  have ea : a.dynamic = s.dynamic := rfl
  clear_value a
  simp only [applyDynamicMode]
  exact List.foldlRecOn (motive := fun t : St => t.dynamic = s.dynamic) _ _ ea fun t h i _ => by rw [initDev_dynamic]; exact h

/-- **C82** (chords).  In dynamic mode, with up to nine keys held on any MIDI channels but 10: every held key sounds on one
voice, and where that is an FM voice, the chip's channel is keyed on and tuned within 5 cents of the key under its
channel's bend, bend range and fine tune - provided keys are in the range of the chip when struck and now, and fine tunes
come before the notes. -/
theorem C82_held_keys_in_tune (he : env.Ok) (hm : env.mode = .dynamic) (ops : List Op) (hw : ∀ op ∈ ops, op.Wf)
    (hk : Keyboard ops) (b : Bool) (m : Sram.Mem)
    (hf : ∀ pre c v post, ops = pre ++ .cc c 85 v :: post → ∀ p w, .noteOn c p w ∉ pre)
    (hp : ∀ pre post c p v, ops = pre ++ .noteOn c p v :: post →
      v = 0 ∨ Playable (tuningOf c pre) (pitchUnder (tuningOf c pre) p 0)) :
    let s := run env (boot env b m) ops
    ∀ c p, (c, p) ∈ downKeys ops → Playable (tuningOf c ops) (pitchUnder (tuningOf c ops) p 0) →
      ∃ i, (s.dev i).noteOn = true ∧ (s.dev i).midiChannel = c ∧ (s.dev i).pitch = p ∧ (s.dev i).cents = 0 ∧
        (i < 6 ∧ Synth.keyed s.fm.synth.out i = true ∧
          Fm.InTune env.fm.pal (chipChannel s.fm.synth.out i).freq (pitchUnder (tuningOf c ops) p 0).toNat 5 ∨ 6 ≤ i ∧ i < 9) := by
  intro s c p hd hn
  have hr : Ready (run env (reset env (powerOn env b m)) []) := by
    simp only [run, List.foldl_nil, reset]
    refine ⟨?_, fun c hc => ?_, ?_⟩
    · rw [dynamic_kept]; simp [hm]
    · rw [resetChannels_chan hc]; rfl
    · rw [resetChannels_cfg]
  have hc : c < 16 ∧ c ≠ 9 := by
    obtain ⟨pre, v, post, e, hv⟩ := downKeys_struck hd
    exact ⟨(hw (.noteOn c p v) (by rw [e]; simp)).1, ((hk.press pre post c p v e).resolve_left hv).1⟩
  obtain ⟨i, ⟨-, a1, a2, a3⟩, a4, -⟩ := (C71_every_held_note_sounds env (powerOn env b m) [] ops nofun hr hk).1 c p hd
  change (s.dev i).noteOn = true at a1
  change (s.dev i).midiChannel = c at a2
  change (s.dev i).pitch = p at a3
  have z := keyboard_whole (env := env) (powerOn env b m) ops hr hk i (by omega)
  change (s.dev i).cents = 0 at z
  refine ⟨i, a1, a2, a3, z, ?_⟩
  by_cases h6 : i < 6
  · refine .inl ⟨h6, ?_, ?_⟩
    · refine (C71_keyed_iff_sounding env he (powerOn env b m) [] ops nofun hr hk (fun pre post c p v e => ?_) i h6).2 a1
      refine (hp pre post c p v e).imp id fun ⟨x0, x1, x2, x3⟩ => ?_
      have hc : c < 16 := (hw (.noteOn c p v) (by rw [e]; simp)).1
      have hw' : ∀ op ∈ pre, op.Wf := fun op ho => hw op (by rw [e]; simp [ho])
      have t := run_tuning (env := env) hc pre hw' b m
      have bd := tuning_bounds c pre hw'
      change
        let m := (run env (boot env b m) pre).chan c
        let pc := effectivePitchCents p 0 m.pitchBend m.range m.fineTune
        11 ≤ pc.pitch ∧ pc.pitch ≤ 106
      simp only
      rw [t.bend, t.fine]
      refine pc_range bd.1 ?_ ?_ ?_ ?_ x0 x1 x2 x3
      · rw [t.semitones]; exact bd.2.1
      · rw [t.cents]; omega
      · rw [t.cents]; omega
      · rw [t.semitones, t.cents]; rfl
    · have := C82_fine_tune_first_partial he h6 ops (fun op ho => (chordal_attuned (hk.chordal op ho) (hw op ho) i).1)
        (.inl fun op ho => (chordal_attuned (hk.chordal op ho) (hw op ho) i).2)
        (fun _ => ⟨fun v ho => by simpa [chordal, glideless, playing] using hk.chordal _ ho, .inl hm⟩) b m hf c hc.1 hc.2
      simp only at this
      change (s.dev i).midiChannel = c → (s.dev i).noteOn = true → _ at this
      rw [show ((run env (boot env b m) ops).dev i).pitch = p from a3, show ((run env (boot env b m) ops).dev i).cents = 0 from z] at this
      exact this a2 a1 hn
  · exact .inr ⟨by omega, a4⟩

/-! ### Where it fails -/

instance (pal x n d) : Decidable (Fm.InTune pal x n d) := by unfold Fm.InTune; infer_instance

/-- **C82** fails for a fine tune during a note: the channel is asked to be 63 cents sharp, its sounding voice is not
retuned (`midi_cc` only stores the value, midi.c) although a bend or a bend range would be followed at once. -/
theorem C82_violated_fine_tune : ∃ env, Env.Ok env ∧ ∃ ops b m, (∀ op ∈ ops, Op.attuned 0 op) ∧
    let s := run env (boot env b m) ops
    let n := pitchUnder (tuningOf 0 ops) (s.dev 0).pitch (s.dev 0).cents
    (s.dev 0).midiChannel = 0 ∧ (s.dev 0).noteOn = true ∧ Playable (tuningOf 0 ops) n ∧ n = 6063 ∧
      ¬Fm.InTune env.fm.pal (chipChannel s.fm.synth.out 0).freq n.toNat 5 ∧
      Fm.InTune env.fm.pal (chipChannel s.fm.synth.out 0).freq 6000 5 := by
  refine ⟨Ex.env .static, Ex.env_ok _, [.noteOn 0 60 100, .cc 0 85 127], true, Ex.mem, ?_, by decide +kernel⟩
  intro op ho
  simp only [List.mem_cons, List.not_mem_nil, or_false] at ho
  rcases ho with rfl | rfl
  · exact ⟨by simp [Op.Wf], nofun, nofun, nofun, fun _ => nofun⟩
  · exact ⟨by simp [Op.Wf], nofun, nofun, nofun, nofun⟩

/-- **C82** fails for a voice that is remapped while it sounds: MIDI channel 8 is bent up by two semitones, a voice that holds
key 60 for channel 1 is given to it, and goes on unbent. -/
theorem C82_violated_remapped : ∃ env, Env.Ok env ∧ ∃ ops b m, (∀ op ∈ ops, op.Wf) ∧
    let s := run env (boot env b m) ops
    let n := pitchUnder (tuningOf 7 ops) (s.dev 0).pitch (s.dev 0).cents
    (s.dev 0).midiChannel = 7 ∧ (s.dev 0).noteOn = true ∧ Playable (tuningOf 7 ops) n ∧ n = 6199 ∧
      ¬Fm.InTune env.fm.pal (chipChannel s.fm.synth.out 0).freq n.toNat 5 ∧
      Fm.InTune env.fm.pal (chipChannel s.fm.synth.out 0).freq 6000 5 :=
  ⟨Ex.env .static, Ex.env_ok _, [.bend 7 16383, .noteOn 0 60 100, .remap 7 0], true, Ex.mem, by simp [Op.Wf], by decide +kernel⟩

/-- **C82** fails for voice 3 beside drums in static mode: keys 64 and 72 of MIDI channel 4 are held, a note is played on
channel 10 (the noise channel of the PSG, number 3, which sets the drum flag of FM channel 3), and when 72 is released the
voice goes back to 64 - as a drum, at the drum's key 60. -/
theorem C82_violated_drum_flag : ∃ env, Env.Ok env ∧ ∃ ops b m, (∀ op ∈ ops, Op.attuned 3 op) ∧
    let s := run env (boot env b m) ops
    let n := pitchUnder (tuningOf 3 ops) (s.dev 3).pitch (s.dev 3).cents
    (s.dev 3).midiChannel = 3 ∧ (s.dev 3).noteOn = true ∧ Playable (tuningOf 3 ops) n ∧ n = 6400 ∧
      ¬Fm.InTune env.fm.pal (chipChannel s.fm.synth.out 3).freq n.toNat 5 ∧
      Fm.InTune env.fm.pal (chipChannel s.fm.synth.out 3).freq 6000 5 := by
  refine ⟨Ex.env .static, Ex.env_ok _, [.noteOn 3 64 100, .noteOn 3 72 100, .noteOn 9 38 100, .noteOff 3 72], true, Ex.mem, ?_,
    by decide +kernel⟩
  intro op ho
  simp only [List.mem_cons, List.not_mem_nil, or_false] at ho
  rcases ho with rfl | rfl | rfl | rfl <;> exact ⟨by simp [Op.Wf], nofun, nofun, nofun, fun _ => nofun⟩

/-! ### Examples -/

/-- A chord under a bend range of 12 semitones and 50 cents, a bend and a fine tune. -/
private def piece : List Op :=
  [.cc 0 85 74, .noteOn 0 60 100, .cc 0 101 0, .cc 0 100 0, .bend 0 10000, .cc 0 6 12, .cc 0 38 50, .noteOn 0 64 90, .program 0 7]

/-- The two voices sound within 5 cents of what the messages ask for: 2.85 semitones above the keys, with the fine tune. -/
example : let s := Ex.after .dynamic piece
    let n := fun i => pitchUnder (tuningOf 0 piece) (s.dev i).pitch (s.dev i).cents
    (∀ i, i < 2 → (s.dev i).noteOn = true ∧ (s.dev i).midiChannel = 0) ∧ n 0 = 6285 ∧ n 1 = 6685 ∧
    Playable (tuningOf 0 piece) 6285 ∧ Playable (tuningOf 0 piece) 6685 ∧ downKeys piece = [(0, 64), (0, 60)] ∧
    Fm.InTune false (chipChannel s.fm.synth.out 0).freq 6285 5 ∧ Fm.InTune false (chipChannel s.fm.synth.out 1).freq 6685 5 ∧
    ¬Fm.InTune false (chipChannel s.fm.synth.out 1).freq 6695 5 := by
  decide +kernel

/-- A glide from key 50 to key 55 that is under way, with a bend. -/
private def slide : List Op := [.cc 1 65 127, .cc 1 5 80, .noteOn 1 50 100, .noteOn 1 55 100, .tick, .tick, .tick, .bend 1 9000, .tick]

example : let s := Ex.after .static slide
    (s.dev 1).noteOn = true ∧ 5000 < 100 * (s.dev 1).pitch + (s.dev 1).cents ∧ 100 * (s.dev 1).pitch + (s.dev 1).cents < 5500 ∧
    (s.dev 1).cents ≠ 0 ∧
    Fm.InTune false (chipChannel s.fm.synth.out 1).freq (pitchUnder (tuningOf 1 slide) (s.dev 1).pitch (s.dev 1).cents).toNat 5 := by
  decide +kernel

/-- The theorems speak of these histories. -/
example : (∀ op ∈ piece, Op.attuned 0 op ∧ ¬op.enablesDac) ∧ (∀ op ∈ slide, Op.attuned 1 op ∧ ¬op.enablesDac) ∧
    DrumsApart (Ex.env .static) 3 slide := by
  refine ⟨fun op ho => ?_, fun op ho => ?_, fun _ => ⟨by simp [slide], .inr (by simp [slide])⟩⟩
  all_goals
    simp only [piece, slide, List.mem_cons, List.not_mem_nil, or_false] at ho
    rcases ho with rfl | rfl | rfl | rfl | rfl | rfl | rfl | rfl | rfl <;>
      exact ⟨⟨by simp [Op.Wf], by simp [Op.rewires], nofun, nofun, by simp [Op.enablesDac]⟩, by simp [Op.enablesDac]⟩

end Mdmi.Props
