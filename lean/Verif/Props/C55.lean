import Verif.Proofs.MidiRetune
import Verif.Spec.Example
/-! C55: the bend range, and bends and bend ranges as sounding FM voices hear them. -/
namespace Mdmi.Props
open Mdmi Mdmi.Midi
open Mdmi.Synth (chipChannel keyed)

variable {env : Env}

/-- A well-formed history, with bends or with sample playback but not both (C05). -/
def plain (ops : List Op) : Prop :=
  (∀ op ∈ ops, op.Wf) ∧ ((∀ op ∈ ops, ¬op.enablesDac) ∨ (∀ op ∈ ops, ¬op.detunes))

private theorem plain.reached {ops : List Op} (h : plain ops) (b : Bool) (m : Sram.Mem) :
    Reached env (run env (boot env b m) ops) := ⟨b, m, ops, h.1, h.2, rfl⟩

/-- **C55** (which messages set the range).  After every history the bend range of a MIDI channel is the one `tuningOf`
reads off the messages: two semitones from the start, and after controller 121 or a reset; the semitones are those of
controller 6 and the cents those of controller 38, whenever the last 101 and 100 of this channel both said 0; nothing else
has a part in it.  The same for bend and fine tune. -/
theorem C55_range_follows_history (ops : List Op) (hw : ∀ op ∈ ops, op.Wf) (b : Bool) (m : Sram.Mem) (c : Nat) (hc : c < 16) :
    let x := (run env (boot env b m) ops).chan c
    let T := tuningOf c ops
    x.range = ⟨T.semitones, T.cents⟩ ∧ x.pitchBend = T.bend ∧ x.fineTune = T.fine := by
  have h := run_tuning (env := env) hc ops hw b m
  refine ⟨?_, h.bend, h.fine⟩
  rw [← h.semitones, ← h.cents]

/-- **C55** (other parameters).  Data entry while another registered parameter, or none, is selected changes no channel, no
voice, no setting and nothing on the chips. -/
theorem C55_other_parameters_do_nothing (ops : List Op) (hw : ∀ op ∈ ops, op.Wf) (b : Bool) (m : Sram.Mem) (c k v : Nat)
    (hc : c < 16) (hk : k = 6 ∨ k = 38)
    (hr : ¬((tuningOf c ops).rpnMsb = 0 ∧ (tuningOf c ops).rpnLsb = 0)) :
    let s := run env (boot env b m) ops
    let t := step env s (.cc c k v)
    t.chan = s.chan ∧ t.dev = s.dev ∧ t.cfg = s.cfg ∧ t.dynamic = s.dynamic ∧ t.fm = s.fm ∧ t.psg = s.psg ∧
      t.fault = s.fault := by
  have h := run_tuning (env := env) hc ops hw b m
  intro s t
  have hn : ¬(s.chan c).rpn = 0 := fun e => hr (h.rpn.1 e)
  have e : t = emit (say s (.unknownRpn c (s.chan c).rpn v)) (.changedCc c k v) := by
    simp only [t, step, if_pos hc, cc]
    rcases hk with rfl | rfl
    · rw [ccSwitch_6, rpnDataEntry, if_neg hn]
    · rw [ccSwitch_38, rpnDataEntry, if_neg hn]
  clear_value s t
  subst e
  exact ⟨rfl, rfl, rfl, rfl, rfl, rfl, rfl⟩

/-- What a voice plays: its key with the bend, bend range and fine tune of `T`, in cents above key 0. -/
def tunedCents (d : Dev) (T : Tuning) : Int :=
  soundingCents d.pitch d.cents T.bend (100 * (T.semitones : Int) + T.cents) T.fine

/-- The tuning does not leave the pitches FM can play: keys 11 to 106, and the bend by itself stays between 0 and 255. -/
def fmPlayable (d : Dev) (T : Tuning) : Prop :=
  1100 ≤ tunedCents d T ∧ tunedCents d T < 10700 ∧ 0 ≤ tunedCents d T - T.fine ∧ tunedCents d T - T.fine < 25600

instance (d T) : Decidable (fmPlayable d T) := by unfold fmPlayable; infer_instance

private theorem fm_in_tune {s : St} {c : Nat} {T : Tuning} {d : Dev} (h : HasTuning T c s)
    (hT : T.bend < 16384 ∧ T.semitones < 128 ∧ T.cents < 128) (hp : fmPlayable d T) (pal : Bool) :
    let pc := effectivePitchCents d.pitch d.cents T.bend (s.chan c).range (s.chan c).fineTune
    Fm.InTune pal (Fm.pitchToOctave pc.pitch % 8, Fm.freqNum pal pc.pitch pc.cents % 2048) (tunedCents d T).toNat 5 := by
  obtain ⟨p1, p2, p3, p4⟩ := hp
  have e1 := h.semitones
  have e2 := h.cents
  rw [h.fine]
  exact pitch_in_tune pal hT.1 (by omega) (by omega) (by omega)
    (by rw [e1, e2]; rfl) p3 p4 p1 p2

private theorem range_core (he : env.Ok) {tame : Bool} {s t : St} {T0 T : Tuning} (ok : Ok env tame s) {c k v i : Nat}
    (hc : c < 16) (hk : k = 6 ∨ k = 38) (hv : v < 128) (hi : i < 6) (hm : (s.dev i).midiChannel = c)
    (hf : (s.dev i).ops = .fm) (h0 : T0.rpnMsb = 0 ∧ T0.rpnLsb = 0) (hs : HasTuning T0 c s) (ht : HasTuning T c t)
    (hTb : T.bend < 16384 ∧ T.semitones < 128 ∧ T.cents < 128) (hb : (s.dev i).pitchBend = T0.bend)
    (eT : T = T0.after c (.cc c k v)) (et : t = step env s (.cc c k v)) :
      (T.semitones = if k = 6 then v else T0.semitones) ∧
      (T.cents = if k = 38 then v else T0.cents) ∧ T.bend = T0.bend ∧
      keyed t.fm.synth.out i = keyed s.fm.synth.out i ∧
      (T.bend = 0x2000 → (chipChannel t.fm.synth.out i).freq = (chipChannel s.fm.synth.out i).freq) ∧
      (T.bend ≠ 0x2000 → fmPlayable (s.dev i) T →
        Fm.InTune env.fm.pal (chipChannel t.fm.synth.out i).freq (tunedCents (s.dev i) T).toNat 5) := by
  have e : (s.chan c).rpn = 0 := hs.rpn.2 h0
  have et : t = emit (updatePbRange env s c v (k == 6)) (.changedCc c k v) := by
    rw [et]
    simp only [step, if_pos hc, cc]
    rcases hk with rfl | rfl
    · rw [ccSwitch_6, rpnDataEntry, if_pos e]; rfl
    · rw [ccSwitch_38, rpnDataEntry, if_pos e]; rfl
  have q : (T.semitones = if k = 6 then v else T0.semitones) ∧
      (T.cents = if k = 38 then v else T0.cents) ∧ T.bend = T0.bend ∧ T.fine = T0.fine := by
    rw [eT]
    rcases hk with rfl | rfl <;> simp [Tuning.after, h0]
  have view := updatePbRange_view he ok (msb := k == 6) (v := v) hc hi hm hf
  simp only at view
  have efm : t.fm = (updatePbRange env s c v (k == 6)).fm := by rw [et, emit_fm]
  rw [efm]
  refine ⟨q.1, q.2.1, q.2.2.1, view.1, fun e => ?_, fun e hp => ?_⟩
  · rw [view.2, if_pos (by rw [hb, ← q.2.2.1]; exact e)]
  · rw [view.2, if_neg (by rw [hb, ← q.2.2.1]; exact e)]
    have tune := fm_in_tune ht hTb hp env.fm.pal
    simp only at tune
    rw [hb, ← q.2.2.1]
    have er : (t.chan c).range = if (k == 6) = true then { (s.chan c).range with pitch := v } else { (s.chan c).range with cents := toS8 v } := by
      rw [show (t.chan c).range = ⟨T.semitones, T.cents⟩ by rw [← ht.semitones, ← ht.cents], q.1, q.2.1]
      rcases hk with rfl | rfl
      · simp; exact hs.cents.symm
      · simp; exact ⟨hs.semitones.symm, (toS8_of (by omega) (by omega)).symm⟩
    rw [← er]
    have efn : (s.chan c).fineTune = (t.chan c).fineTune := by rw [hs.fine, ht.fine, q.2.2.2]
    rw [efn]
    exact tune

/-- **C55** (sounding voices; partial).  When data entry with parameter 0 selected changes the range, every sounding FM voice
of the channel whose bend is off the centre is within 5 cents of its key with the bend of the new range, and stays keyed;
with the bend in the centre, where the range has no effect, its frequency stays.  Missing: PSG and special-mode voices,
histories with remapping, and bends that leave the range of the chip (C20, C21). -/
theorem C55_range_retunes_partial (he : env.Ok) (ops : List Op) (hw : plain ops) (hr : ∀ op ∈ ops, ¬op.rewires)
    (b : Bool) (m : Sram.Mem) (c k v i : Nat) (hc : c < 16) (hk : k = 6 ∨ k = 38) (hv : v < 128) (hi : i < 6)
    (h0 : (tuningOf c ops).rpnMsb = 0 ∧ (tuningOf c ops).rpnLsb = 0) :
    let s := run env (boot env b m) ops
    let t := run env (boot env b m) (ops ++ [.cc c k v])
    let T := tuningOf c (ops ++ [.cc c k v])
    (s.dev i).midiChannel = c → (s.dev i).ops = .fm → (s.dev i).noteOn = true →
      (T.semitones = if k = 6 then v else (tuningOf c ops).semitones) ∧
      (T.cents = if k = 38 then v else (tuningOf c ops).cents) ∧ T.bend = (tuningOf c ops).bend ∧
      keyed t.fm.synth.out i = keyed s.fm.synth.out i ∧
      (T.bend = 0x2000 → (chipChannel t.fm.synth.out i).freq = (chipChannel s.fm.synth.out i).freq) ∧
      (T.bend ≠ 0x2000 → fmPlayable (s.dev i) T →
        Fm.InTune env.fm.pal (chipChannel t.fm.synth.out i).freq (tunedCents (s.dev i) T).toNat 5) := by
  intro s t T hm hf hn
  have hwv : (Op.cc c k v).Wf := ⟨hc, by omega, hv⟩
  have hs : HasTuning (tuningOf c ops) c s := run_tuning (env := env) hc ops hw.1 b m
  have hb := run_bent (env := env) ops hr b m i (by omega) (by rw [show (run env (boot env b m) ops) = s from rfl, hm]; exact hc) hn
  rw [show (run env (boot env b m) ops) = s from rfl, hm, hs.bend] at hb
  obtain ⟨tame, ok⟩ := (hw.reached b m : Reached env s).ok he
  have hw2 : ∀ op ∈ ops ++ [.cc c k v], op.Wf := fun o ho => by
    rcases List.mem_append.1 ho with ho | ho
    · exact hw.1 o ho
    · rw [List.mem_singleton.1 ho]; exact hwv
  have ht : HasTuning T c t := run_tuning (env := env) hc _ hw2 b m
  exact range_core he ok hc hk hv hi hm hf h0 hs ht (tuning_bounds c _ hw2) hb
    (by simp [T, tuningOf, List.foldl_append]) (by simp only [t, run, List.foldl_append, List.foldl_cons, List.foldl_nil])

/-- **C20** (the message; partial).  A pitch bend retunes every sounding FM voice of its channel to within 5 cents of its key
with that bend in the range and with the fine tune the history gave the channel, and keeps it keyed; a bend the channel
already has leaves the frequency alone.  Missing: PSG and special-mode voices, remapping, and pitches beyond the chip. -/
theorem C20_bend_message_retunes_partial (he : env.Ok) (ops : List Op) (b : Bool) (m : Sram.Mem) (c x i : Nat)
    (hw : plain (ops ++ [.bend c x])) (hr : ∀ op ∈ ops, ¬op.rewires) (hc : c < 16) (hi : i < 6) :
    let s := run env (boot env b m) ops
    let t := run env (boot env b m) (ops ++ [.bend c x])
    let T := tuningOf c (ops ++ [.bend c x])
    (s.dev i).midiChannel = c → (s.dev i).ops = .fm → (s.dev i).noteOn = true →
      T = { tuningOf c ops with bend := x } ∧
      keyed t.fm.synth.out i = keyed s.fm.synth.out i ∧
      (x = (tuningOf c ops).bend → (chipChannel t.fm.synth.out i).freq = (chipChannel s.fm.synth.out i).freq) ∧
      (x ≠ (tuningOf c ops).bend → fmPlayable (s.dev i) T →
        Fm.InTune env.fm.pal (chipChannel t.fm.synth.out i).freq (tunedCents (s.dev i) T).toNat 5) := by
  intro s t T hm hf hn
  have hw1 : plain ops := by
    refine ⟨fun o ho => hw.1 o (List.mem_append_left _ ho), ?_⟩
    rcases hw.2 with h | h
    · exact .inl fun o ho => h o (List.mem_append_left _ ho)
    · exact .inr fun o ho => h o (List.mem_append_left _ ho)
  have hwv : (Op.bend c x).Wf := hw.1 _ (by simp)
  have hs : HasTuning (tuningOf c ops) c s := run_tuning (env := env) hc ops hw1.1 b m
  have hb := run_bent (env := env) ops hr b m i (by omega) (by rw [show (run env (boot env b m) ops) = s from rfl, hm]; exact hc) hn
  rw [show (run env (boot env b m) ops) = s from rfl, hm, hs.bend] at hb
  have hok : ∃ tame, Ok env tame s ∧ (tame = true → x = 0x2000) := by
    rcases hw.2 with h | h
    · have ok := boot_ok (tame := false) he b m
      exact ⟨false, run_ok he ops _ ok hw1.1 (fun _ o ho => h o (List.mem_append_left _ ho)) (by simp), by simp⟩
    · have ok := boot_ok (tame := true) he b m
      refine ⟨true, run_ok he ops _ ok hw1.1 (by simp) (fun _ o ho => h o (List.mem_append_left _ ho)), fun _ => ?_⟩
      have := h (.bend c x) (by simp)
      simpa [Op.detunes] using this
  obtain ⟨tame, ok, htm⟩ := hok
  have ht : HasTuning T c t := run_tuning (env := env) hc _ hw.1 b m
  have hTb : T.bend < 16384 ∧ T.semitones < 128 ∧ T.cents < 128 := tuning_bounds c _ hw.1
  have eT : T = { tuningOf c ops with bend := x } := by simp [T, tuningOf, List.foldl_append, Tuning.after]
  have et : t = pitchBend env s c x := by
    simp only [t, s, run, List.foldl_append, List.foldl_cons, List.foldl_nil, step, if_pos hc]
  clear_value s t T
  have view := pitchBend_view he ok hc hi htm hm hf hn
  simp only at view
  rw [et]
  refine ⟨eT, view.1, fun e => ?_, fun e hp => ?_⟩
  · rw [view.2, if_pos (by rw [hb]; exact e.symm)]
  · rw [view.2, if_neg (by rw [hb]; exact Ne.symm e)]
    have tune := fm_in_tune ht hTb hp env.fm.pal
    simp only at tune
    have e1 : T.bend = x := by rw [eT]
    have er : (t.chan c).range = (s.chan c).range := by
      rw [show (t.chan c).range = ⟨T.semitones, T.cents⟩ by rw [← ht.semitones, ← ht.cents],
        show (s.chan c).range = ⟨(tuningOf c ops).semitones, (tuningOf c ops).cents⟩ by rw [← hs.semitones, ← hs.cents], eT]
    have efn : (t.chan c).fineTune = (s.chan c).fineTune := by rw [hs.fine, ht.fine, eT]
    rw [er, efn, e1] at tune
    exact tune

/-- A bend on the drum channel is taken for one of the key played, not of the drum's own pitch: the drum jumps there.  Here
key 40 plays a drum at key 60, and the smallest bend takes it twenty semitones down. -/
theorem C20_bend_moves_drums :
    let s := Ex.after .static [.remap 9 0, .noteOn 9 40 100]
    let t := Ex.after .static [.remap 9 0, .noteOn 9 40 100, .bend 9 8193]
    (s.dev 0).noteOn = true ∧ (chipChannel s.fm.synth.out 0).freq = (Fm.pitchToOctave 60, Fm.freqNum false 60 0) ∧
      (chipChannel t.fm.synth.out 0).freq = (Fm.pitchToOctave 40, Fm.freqNum false 40 0) := by decide +kernel

/-- Non-trivial instance: range of twelve semitones, bend to the top: key 60 goes up to key 71 and 99 cents; the other
parameter selected, nothing happens. -/
example :
    let ops : List Op := [.cc 0 101 0, .cc 0 100 0, .noteOn 0 60 100, .bend 0 16383]
    let s := Ex.after .static (ops ++ [.cc 0 6 12])
    let u := Ex.after .static (ops ++ [.cc 0 100 1, .cc 0 6 12])
    (s.dev 0).noteOn = true ∧ tunedCents (s.dev 0) (tuningOf 0 (ops ++ [.cc 0 6 12])) = 7199 ∧
      fmPlayable (s.dev 0) (tuningOf 0 (ops ++ [.cc 0 6 12])) ∧
      (chipChannel s.fm.synth.out 0).freq = (Fm.pitchToOctave 71, Fm.freqNum false 71 99) ∧
      (chipChannel u.fm.synth.out 0).freq = (Fm.pitchToOctave 61, Fm.freqNum false 61 99) ∧
      tuningOf 0 (ops ++ [.cc 0 100 1, .cc 0 6 12]) = ⟨16383, 2, 0, 0, 0, 1, false⟩ := by decide +kernel

end Mdmi.Props
