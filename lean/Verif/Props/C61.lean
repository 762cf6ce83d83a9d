import Verif.Proofs.MidiPsgView
import Verif.Proofs.MidiBendSmall
import Verif.Props.C22
import Verif.Props.C24
import Verif.Props.C60
import Verif.Spec.Example
/-! C61: PSG voices as the chip hears them. -/
namespace Mdmi.Props
open Mdmi Mdmi.Midi
open Mdmi.Psg (chipTone chipAtt shiftCents)

variable {env : Env}

/-- Specification: `t` is the divider for a pitch of `n` cents above key 0: between the dividers of the keys below and above,
in proportion to the cents.  Keys below 45 sound as 45 and above 127 as 127. -/
def SoundsAt (pal : Bool) (n t : Nat) : Prop :=
  ∃ a b, IsDivider pal (max 45 (min (n / 100) 127)) a ∧ IsDivider pal (max 45 (min (n / 100 + 1) 127)) b ∧
    t = a - (a - b) * (n % 100) / 100

/-- The tuning does not leave the pitches the PSG code can represent, with room for an envelope's shift of a fourth. -/
def psgPlayable (n fine : Int) : Prop := 500 ≤ n ∧ n < 25000 ∧ 0 ≤ n - fine ∧ n - fine < 25600

instance (n f) : Decidable (psgPlayable n f) := by unfold psgPlayable; infer_instance

theorem psg_shift_bounds (k : Nat) : -500 ≤ shiftCents k ∧ shiftCents k ≤ 500 := by
  rcases k with _ | _ | _ | _ | _ | _ | _ | _ | _ | _ | _ | _ | _ | _ | _ | k
  all_goals first
    | decide
    | simp [shiftCents]

theorem psg_sounds {pal : Bool} {pc : PitchCents} {k t : Nat} {n : Int} (hp : 5 ≤ pc.pitch ∧ pc.pitch < 256)
    (hc : 0 ≤ pc.cents ∧ pc.cents < 100) (hn : (pc.pitch : Int) * 100 + pc.cents + shiftCents k = n) (h0 : 0 ≤ n)
    (h1 : n < 25500) (h : Psg.toneFromPitchCents pal (Psg.envelopeShift pc k) = some t) : SoundsAt pal n.toNat t := by
  have tot := Psg.envelopeShift_total pc k hp hc
  have cts := Psg.envelopeShift_cents pc k hc
  generalize Psg.envelopeShift pc k = q at *
  obtain ⟨p, c⟩ := q
  simp only at *
  obtain ⟨c, rfl⟩ : ∃ m : Nat, c = m := ⟨c.toNat, by omega⟩
  have e : n.toNat = 100 * p + c := by omega
  rw [Psg.toneFromPitchCents_eq pal (by omega) (by omega)] at h
  obtain ⟨a, ha, da⟩ := C22_key_tone_is_exact pal p
  obtain ⟨b, hb, db⟩ := C22_key_tone_is_exact pal (p + 1)
  rw [Psg.toneForMidiKey_eq] at ha hb
  injection ha with ha
  injection hb with hb
  injection h with h
  refine ⟨a, b, ?_, ?_, ?_⟩
  · rw [e, show (100 * p + c) / 100 = p by omega]; exact da
  · rw [e, show (100 * p + c) / 100 = p by omega]; exact db
  · rw [e, show (100 * p + c) % 100 = c by omega, ← ha, ← hb]; exact h.symm

theorem psg_pc_total {key : Nat} {cents : Int} {bend : Nat} {range : PitchCents} {fine : Int} {n : Int}
    (hb : bend < 16384) (hr : range.pitch < 128) (hr0 : 0 ≤ range.cents) (hr1 : range.cents < 128)
    (hn : soundingCents key cents bend (100 * (range.pitch : Int) + range.cents) fine = n) (hp : psgPlayable n fine) :
    let pc := effectivePitchCents key cents bend range fine
    (pc.pitch : Int) * 100 + pc.cents = n ∧ (5 ≤ pc.pitch ∧ pc.pitch < 256) ∧ 0 ≤ pc.cents ∧ pc.cents < 100 := by
  intro pc
  obtain ⟨h1, h2, h3, h4⟩ := hp
  rw [show 100 * (range.pitch : Int) + range.cents = (range.pitch : Int) * 100 + range.cents by omega] at hn
  have e0 : soundingCents key cents bend ((range.pitch : Int) * 100 + range.cents) 0 = n - fine := by
    rw [← hn]; simp only [soundingCents]; omega
  obtain ⟨x1, x2, x3⟩ := Props.C20_bend_exact_partial key cents bend range fine hb hr hr0 hr1
    (by rw [e0]; exact h3) (by rw [e0]; exact h4) (by rw [hn]; omega) (by rw [hn]; omega)
  rw [hn] at x1
  change ((pc.pitch : Int) * 100 + pc.cents = n) at x1
  change 0 ≤ pc.cents at x2
  change pc.cents < 100 at x3
  clear_value pc
  omega

/-- A well-formed history without system reset, with bends or with sample playback but not both (C05). -/
def psgHistory (ops : List Op) : Prop := plain ops ∧ .reset ∉ ops

private theorem psgHistory.left {ops : List Op} {o : Op} (h : psgHistory (ops ++ [o])) : psgHistory ops := by
  refine ⟨⟨fun o ho => h.1.1 o (List.mem_append_left _ ho), ?_⟩, fun k => h.2 (List.mem_append_left _ k)⟩
  rcases h.1.2 with h | h
  · exact .inl fun o ho => h o (List.mem_append_left _ ho)
  · exact .inr fun o ho => h o (List.mem_append_left _ ho)

/-- **C61** (the driver's picture).  After every such history the volume and the envelope number the PSG driver holds for a
PSG voice are those the engine believes it has given it (so that not repeating them is right), and tone and attenuation of
the driver are those of the chip (so that not repeating those is right). -/
theorem C61_pictures_agree (he : env.Ok) (ops : List Op) (h : psgHistory ops) (b : Bool) (m : Sram.Mem) (i : Nat)
    (hi : 6 ≤ i) (hi' : i < 10) :
    let s := run env (boot env b m) ops
    (s.psg.ch (i - 6)).volume = (s.dev i).volume ∧ (s.psg.ch (i - 6)).envelope = (s.dev i).program ∧
      (s.psg.ch (i - 6)).freq = chipTone s.psg.out (i - 6) ∧ (s.psg.ch (i - 6)).attenuation = chipAtt s.psg.out (i - 6) := by
  intro s
  have k := Reached.mem he hi (by omega) (⟨b, m, ops, h.1.1, h.1.2, rfl⟩ : Reached env s)
  have y := history_synced he b m ops h.1.1 h.1.2 h.2 (i - 6) (by omega)
  exact ⟨k.1, k.2, y.1, y.2⟩

/-- **C61** (what is written; all histories).  Every tone the PSG is ever sent is for one of its channels and fits ten bits,
every attenuation is 0 to 15, and the driver's tables are never left - for every history of messages, resets included. -/
theorem C61_writes_legal (he : env.Ok) (ops : List Op) (h : plain ops) (b : Bool) (m : Sram.Mem) :
    let s := run env (boot env b m) ops
    s.psg.fault = false ∧ ∀ e ∈ s.psg.out, match e with
      | .tone ch v => ch < 4 ∧ 8 ≤ v ∧ v < 1024
      | .att ch v => ch < 4 ∧ v ≤ 15 := by
  intro s
  obtain ⟨l, hl, e⟩ := history_psgBy he b m ops h.1 h.2
  have g0 : Psg.Good env.psg (psgBoot env) := Psg.step_good he.psg (Psg.init_good he.psg) _ trivial
  have l0 : ∀ e ∈ (psgBoot env).out, e.Legal := by
    have := Psg.run_legal he.psg [.reset] (Psg.init_good he.psg) (by simp [(Psg.init_eq he.psg).2.2.1]) (by simp [Psg.Op.Legal])
    exact this
  refine ⟨?_, fun x hx => ?_⟩
  · obtain ⟨tame, ok⟩ := Reached.ok he (⟨b, m, ops, h.1, h.2, rfl⟩ : Reached env s)
    exact ok.psg.nofault
  · rw [show s.psg = _ from e] at hx
    have := Psg.run_legal he.psg l g0 l0 (fun o ho => (hl o ho).2) x hx
    cases x with
    | tone ch v => exact ⟨this.1, this.2.1, by have := this.2.2; omega⟩
    | att ch v => exact this

private theorem repitched {tame : Bool} {s t : St} (ok : Ok env tame s) (yt : Psg.Synced t.psg) (ys : Psg.Synced s.psg) {i : Nat}
    (hi : 6 ≤ i) (hi' : i < 10) {pc : PitchCents} {n : Int}
    (hr : Repitched env.psg s.psg (i - 6) pc (t.psg.ch (i - 6)))
    (hp : (pc.pitch : Int) * 100 + pc.cents = n ∧ (5 ≤ pc.pitch ∧ pc.pitch < 256) ∧ 0 ≤ pc.cents ∧ pc.cents < 100)
    (hn : 500 ≤ n ∧ n < 25000) :
    chipAtt t.psg.out (i - 6) = chipAtt s.psg.out (i - 6) ∧
    ∃ e, Psg.deref env.psg s.psg.userBuf (s.psg.ch (i - 6)).step = some e ∧
      SoundsAt env.psg.isPAL (n + shiftCents (e / 16)).toNat (chipTone t.psg.out (i - 6)) := by
  obtain ⟨e, hd⟩ := (ok.psg.chans (i - 6) (by omega)).step.deref
  obtain ⟨x, hx, hy⟩ := hr e hd
  have sb := psg_shift_bounds (e / 16)
  have a := yt (i - 6) (by omega)
  have b := ys (i - 6) (by omega)
  rw [hy] at a
  simp only at a
  refine ⟨by rw [← a.2, ← b.2], e, hd, ?_⟩
  rw [← a.1]
  exact psg_sounds hp.2.1 hp.2.2 (by rw [hp.1]) (by omega) (by omega) hx

/-- **C61** (bends, every history; partial).  A pitch bend retunes every sounding PSG voice of its channel, remapped and
dynamically allocated ones included: the chip's divider becomes that of the key with the bend in the range and the fine tune
the history gave the channel, shifted by what the voice's envelope asks for at this moment; its attenuation stays.  A bend the
voice was told before changes nothing.  Missing: that what stays is right (after remapping it need not be,
`C61_violated_remapped`), and pitches beyond what the code can represent (C20). -/
theorem C61_bend_reaches_all_partial (he : env.Ok) (ops : List Op) (b : Bool) (m : Sram.Mem) (c x i : Nat)
    (hw : psgHistory (ops ++ [.bend c x])) (hc : c < 16) (hi : 6 ≤ i) (hi' : i < 10) :
    let s := run env (boot env b m) ops
    let t := run env (boot env b m) (ops ++ [.bend c x])
    let T := tuningOf c (ops ++ [.bend c x])
    (s.dev i).midiChannel = c → (s.dev i).noteOn = true →
      T = { tuningOf c ops with bend := x } ∧
      chipAtt t.psg.out (i - 6) = chipAtt s.psg.out (i - 6) ∧
      ((s.dev i).pitchBend = x → chipTone t.psg.out (i - 6) = chipTone s.psg.out (i - 6)) ∧
      ((s.dev i).pitchBend ≠ x → psgPlayable (tunedCents (s.dev i) T) T.fine →
        ∃ e, Psg.deref env.psg s.psg.userBuf (s.psg.ch (i - 6)).step = some e ∧
          SoundsAt env.psg.isPAL (tunedCents (s.dev i) T + shiftCents (e / 16)).toNat (chipTone t.psg.out (i - 6))) := by
  intro s t T hm hn
  have hw1 := hw.left
  have hs : HasTuning (tuningOf c ops) c s := run_tuning (env := env) hc ops hw1.1.1 b m
  have hok : ∃ tame, Ok env tame s ∧ (tame = true → x = 0x2000) := by
    rcases hw.1.2 with h | h
    · have ok := boot_ok (tame := false) he b m
      exact ⟨false, run_ok he ops _ ok hw1.1.1 (fun _ o ho => h o (List.mem_append_left _ ho)) (by simp), by simp⟩
    · have ok := boot_ok (tame := true) he b m
      refine ⟨true, run_ok he ops _ ok hw1.1.1 (by simp) (fun _ o ho => h o (List.mem_append_left _ ho)), fun _ => ?_⟩
      have := h (.bend c x) (by simp)
      simpa [Op.detunes] using this
  obtain ⟨tame, ok, htm⟩ := hok
  have ys : Psg.Synced s.psg := history_synced he b m ops hw1.1.1 hw1.1.2 hw1.2
  have yt : Psg.Synced t.psg := history_synced he b m _ hw.1.1 hw.1.2 hw.2
  have ht : HasTuning T c t := run_tuning (env := env) hc _ hw.1.1 b m
  have hTb : T.bend < 16384 ∧ T.semitones < 128 ∧ T.cents < 128 := tuning_bounds c _ hw.1.1
  have eT : T = { tuningOf c ops with bend := x } := by simp [T, tuningOf, List.foldl_append, Tuning.after]
  have et : t = pitchBend env s c x := by
    simp only [t, s, run, List.foldl_append, List.foldl_cons, List.foldl_nil, step, if_pos hc]
  clear_value s t T
  have view := pitchBend_psgView he ok hc hi hi' htm hm hn
  simp only at view
  rw [← et] at view
  by_cases e : (s.dev i).pitchBend = x
  · have v := view.1 e
    have a := yt (i - 6) (by omega)
    have b := ys (i - 6) (by omega)
    rw [v] at a
    exact ⟨eT, by rw [← a.2, ← b.2], fun _ => by rw [← a.1, ← b.1], fun k => absurd e k⟩
  · have v := view.2 e
    have att : chipAtt t.psg.out (i - 6) = chipAtt s.psg.out (i - 6) := by
      obtain ⟨e, hd⟩ := (ok.psg.chans (i - 6) (by omega)).step.deref
      obtain ⟨y, _, hy⟩ := v e hd
      have a := (yt (i - 6) (by omega)).2
      have b := (ys (i - 6) (by omega)).2
      rw [hy] at a
      rw [← a, ← b]
    refine ⟨eT, att, fun k => absurd k e, fun _ hp => ?_⟩
    have e1 : T.bend = x := by rw [eT]
    have q1 : T.semitones = (tuningOf c ops).semitones := by rw [eT]
    have q2 : T.cents = (tuningOf c ops).cents := by rw [eT]
    have q3 : T.fine = (tuningOf c ops).fine := by rw [eT]
    have k1 := hs.semitones
    have k2 := hs.cents
    have tot := psg_pc_total (key := (s.dev i).pitch) (cents := (s.dev i).cents) (bend := x) (range := (s.chan c).range)
      (fine := (s.chan c).fineTune) (n := tunedCents (s.dev i) T) (by omega) (by omega) (by omega) (by omega)
      (by rw [hs.fine, k1, k2, ← q1, ← q2, ← q3, ← e1]; rfl) (by rw [hs.fine, ← q3]; exact hp)
    exact (repitched ok yt ys hi hi' v tot ⟨hp.1, hp.2.1⟩).2

/-- **C61** (bends; partial).  A pitch bend retunes every sounding PSG voice of its channel: the chip's divider becomes that of
the key with the bend in the range and the fine tune the history gave the channel, shifted by what the voice's envelope asks
for at this moment; its attenuation stays.  A bend the channel already has changes nothing.  Missing: histories with
remapping, and pitches beyond what the code can represent (C20). -/
theorem C61_bend_retunes_partial (he : env.Ok) (ops : List Op) (b : Bool) (m : Sram.Mem) (c x i : Nat)
    (hw : psgHistory (ops ++ [.bend c x])) (hr : ∀ op ∈ ops, ¬op.rewires) (hc : c < 16) (hi : 6 ≤ i) (hi' : i < 10) :
    let s := run env (boot env b m) ops
    let t := run env (boot env b m) (ops ++ [.bend c x])
    let T := tuningOf c (ops ++ [.bend c x])
    (s.dev i).midiChannel = c → (s.dev i).noteOn = true →
      T = { tuningOf c ops with bend := x } ∧
      chipAtt t.psg.out (i - 6) = chipAtt s.psg.out (i - 6) ∧
      (x = (tuningOf c ops).bend → chipTone t.psg.out (i - 6) = chipTone s.psg.out (i - 6)) ∧
      (x ≠ (tuningOf c ops).bend → psgPlayable (tunedCents (s.dev i) T) T.fine →
        ∃ e, Psg.deref env.psg s.psg.userBuf (s.psg.ch (i - 6)).step = some e ∧
          SoundsAt env.psg.isPAL (tunedCents (s.dev i) T + shiftCents (e / 16)).toNat (chipTone t.psg.out (i - 6))) := by
  intro s t T hm hn
  have hs : HasTuning (tuningOf c ops) c s := run_tuning (env := env) hc ops hw.left.1.1 b m
  have hb := run_bent (env := env) ops hr b m i (by omega) (by rw [show (run env (boot env b m) ops) = s from rfl, hm]; exact hc) hn
  rw [show (run env (boot env b m) ops) = s from rfl, hm, hs.bend] at hb
  have h := C61_bend_reaches_all_partial he ops b m c x i hw hc hi hi' hm hn
  change _ ∧ _ ∧ ((s.dev i).pitchBend = x → _) ∧ ((s.dev i).pitchBend ≠ x → _) at h
  rw [hb] at h
  exact ⟨h.1, h.2.1, fun e => h.2.2.1 e.symm, fun e => h.2.2.2 (Ne.symm e)⟩

private theorem emit_psg' (s : St) (e : Ev) : (emit s e).psg = s.psg := rfl

/-- **C61** (bend ranges, every history; partial).  The same for a change of the bend range by data entry: PSG voices whose
bend is off the centre are at their key with their bend in the new range, the others stay.  Missing: as above. -/
theorem C61_range_reaches_all_partial (he : env.Ok) (ops : List Op) (b : Bool) (m : Sram.Mem) (c k v i : Nat)
    (hw : psgHistory (ops ++ [.cc c k v])) (hc : c < 16) (hk : k = 6 ∨ k = 38) (hv : v < 128)
    (hi : 6 ≤ i) (hi' : i < 10) (h0 : (tuningOf c ops).rpnMsb = 0 ∧ (tuningOf c ops).rpnLsb = 0) :
    let s := run env (boot env b m) ops
    let t := run env (boot env b m) (ops ++ [.cc c k v])
    let T := { tuningOf c (ops ++ [.cc c k v]) with bend := (s.dev i).pitchBend }
    (s.dev i).midiChannel = c →
      chipAtt t.psg.out (i - 6) = chipAtt s.psg.out (i - 6) ∧
      ((s.dev i).pitchBend = 0x2000 → chipTone t.psg.out (i - 6) = chipTone s.psg.out (i - 6)) ∧
      ((s.dev i).pitchBend ≠ 0x2000 → psgPlayable (tunedCents (s.dev i) T) T.fine →
        ∃ e, Psg.deref env.psg s.psg.userBuf (s.psg.ch (i - 6)).step = some e ∧
          SoundsAt env.psg.isPAL (tunedCents (s.dev i) T + shiftCents (e / 16)).toNat (chipTone t.psg.out (i - 6))) := by
  intro s t T hm
  have hw1 := hw.left
  have hs : HasTuning (tuningOf c ops) c s := run_tuning (env := env) hc ops hw1.1.1 b m
  obtain ⟨tame, ok⟩ := Reached.ok he (⟨b, m, ops, hw1.1.1, hw1.1.2, rfl⟩ : Reached env s)
  have ys : Psg.Synced s.psg := history_synced he b m ops hw1.1.1 hw1.1.2 hw1.2
  have yt : Psg.Synced t.psg := history_synced he b m _ hw.1.1 hw.1.2 hw.2
  have hTb : T.bend < 16384 ∧ T.semitones < 128 ∧ T.cents < 128 :=
    ⟨(run_small (env := env) ops hw1.1.1 b m).1 i, (tuning_bounds c _ hw.1.1).2⟩
  have e0 : (s.chan c).rpn = 0 := hs.rpn.2 h0
  have et : t = emit (updatePbRange env s c v (k == 6)) (.changedCc c k v) := by
    have : t = step env s (.cc c k v) := by
      simp only [t, s, run, List.foldl_append, List.foldl_cons, List.foldl_nil]
    rw [this]
    clear this
    clear_value s t
    simp only [step, if_pos hc, cc]
    rcases hk with rfl | rfl
    · rw [ccSwitch_6, rpnDataEntry, if_pos e0]; rfl
    · rw [ccSwitch_38, rpnDataEntry, if_pos e0]; rfl
  have q : (T.semitones = if k = 6 then v else (tuningOf c ops).semitones) ∧
      (T.cents = if k = 38 then v else (tuningOf c ops).cents) ∧ T.bend = (s.dev i).pitchBend ∧
      T.fine = (tuningOf c ops).fine := by
    have : T = { (tuningOf c ops).after c (.cc c k v) with bend := (s.dev i).pitchBend } := by
      simp [T, tuningOf, List.foldl_append]
    rw [this]
    rcases hk with rfl | rfl <;> simp [Tuning.after, h0]
  clear_value s t T
  have view := updatePbRange_psgView he ok (msb := k == 6) (v := v) hc hi hi' hm
  simp only at view
  have ep : t.psg = (updatePbRange env s c v (k == 6)).psg := by rw [et, emit_psg']
  rw [← ep] at view
  clear ep
  by_cases e : (s.dev i).pitchBend = 0x2000
  · have w := view.1 e
    have a := yt (i - 6) (by omega)
    have b := ys (i - 6) (by omega)
    rw [w] at a
    exact ⟨by rw [← a.2, ← b.2], fun _ => by rw [← a.1, ← b.1], fun k => absurd e k⟩
  · have w := view.2 e
    have att : chipAtt t.psg.out (i - 6) = chipAtt s.psg.out (i - 6) := by
      obtain ⟨e, hd⟩ := (ok.psg.chans (i - 6) (by omega)).step.deref
      obtain ⟨y, _, hy⟩ := w e hd
      have a := (yt (i - 6) (by omega)).2
      have b := (ys (i - 6) (by omega)).2
      rw [hy] at a
      rw [← a, ← b]
    refine ⟨att, fun k => absurd k e, fun _ hp => ?_⟩
    have er : (if (k == 6) = true then { (s.chan c).range with pitch := v } else { (s.chan c).range with cents := toS8 v })
        = (⟨T.semitones, T.cents⟩ : PitchCents) := by
      rw [q.1, q.2.1]
      rcases hk with rfl | rfl
      · simp; exact hs.cents
      · simp; exact ⟨hs.semitones, toS8_of (by omega) (by omega)⟩
    rw [er, ← q.2.2.1, hs.fine, ← q.2.2.2] at w
    have tot := psg_pc_total (key := (s.dev i).pitch) (cents := (s.dev i).cents) (bend := T.bend)
      (range := ⟨T.semitones, T.cents⟩) (fine := T.fine) (n := tunedCents (s.dev i) T) hTb.1 hTb.2.1 (by simp only; omega)
      (by simp only; omega) rfl hp
    exact (repitched ok yt ys hi hi' w tot ⟨hp.1, hp.2.1⟩).2

/-- **C61** (bend ranges; partial).  The same for a change of the bend range by data entry: sounding PSG voices with the bend
off the centre are at their key with the bend in the new range, the others stay.  Missing: as above. -/
theorem C61_range_retunes_partial (he : env.Ok) (ops : List Op) (b : Bool) (m : Sram.Mem) (c k v i : Nat)
    (hw : psgHistory (ops ++ [.cc c k v])) (hr : ∀ op ∈ ops, ¬op.rewires) (hc : c < 16) (hk : k = 6 ∨ k = 38) (hv : v < 128)
    (hi : 6 ≤ i) (hi' : i < 10) (h0 : (tuningOf c ops).rpnMsb = 0 ∧ (tuningOf c ops).rpnLsb = 0) :
    let s := run env (boot env b m) ops
    let t := run env (boot env b m) (ops ++ [.cc c k v])
    let T := tuningOf c (ops ++ [.cc c k v])
    (s.dev i).midiChannel = c → (s.dev i).noteOn = true →
      chipAtt t.psg.out (i - 6) = chipAtt s.psg.out (i - 6) ∧
      (T.bend = 0x2000 → chipTone t.psg.out (i - 6) = chipTone s.psg.out (i - 6)) ∧
      (T.bend ≠ 0x2000 → psgPlayable (tunedCents (s.dev i) T) T.fine →
        ∃ e, Psg.deref env.psg s.psg.userBuf (s.psg.ch (i - 6)).step = some e ∧
          SoundsAt env.psg.isPAL (tunedCents (s.dev i) T + shiftCents (e / 16)).toNat (chipTone t.psg.out (i - 6))) := by
  intro s t T hm hn
  have hs : HasTuning (tuningOf c ops) c s := run_tuning (env := env) hc ops hw.left.1.1 b m
  have hb := run_bent (env := env) ops hr b m i (by omega) (by rw [show (run env (boot env b m) ops) = s from rfl, hm]; exact hc) hn
  rw [show (run env (boot env b m) ops) = s from rfl, hm, hs.bend] at hb
  have h := C61_range_reaches_all_partial he ops b m c k v i hw hc hk hv hi hi' h0 hm
  have eb : T.bend = (s.dev i).pitchBend := by
    rw [hb]
    have : T = (tuningOf c ops).after c (.cc c k v) := by simp [T, tuningOf, List.foldl_append]
    rw [this]
    rcases hk with rfl | rfl <;> simp [Tuning.after, h0]
  have eT : { T with bend := (s.dev i).pitchBend } = T := by rw [← eb]
  change _ ∧ ((s.dev i).pitchBend = 0x2000 → _) ∧ ((s.dev i).pitchBend ≠ 0x2000 →
    psgPlayable (tunedCents (s.dev i) { T with bend := (s.dev i).pitchBend }) T.fine → ∃ e, _ ∧
      SoundsAt env.psg.isPAL (tunedCents (s.dev i) { T with bend := (s.dev i).pitchBend } + shiftCents (e / 16)).toNat _) at h
  rw [eT, ← eb] at h
  exact h

/-- **C61** (violated).  As in C55: a PSG voice keeps the pitch that bend and range of its old channel gave it when it comes to
a channel with another range, and that channel's bend does not correct it: the divider stays that of key 69, not key 79. -/
theorem C61_violated_remapped :
    let ops : List Op := [.cc 6 101 0, .cc 6 100 0, .cc 6 6 12, .bend 6 0, .noteOn 6 81 100, .remap 1 6]
    let s := Ex.after .static ops
    let t := Ex.after .static (ops ++ [.bend 1 0])
    (s.dev 6).midiChannel = 1 ∧ (s.dev 6).noteOn = true ∧
      tunedCents (t.dev 6) (tuningOf 1 (ops ++ [.bend 1 0])) = 7900 ∧
      IsDivider false 69 254 ∧ chipTone s.psg.out 0 = 254 ∧ chipTone t.psg.out 0 = 254 := by decide +kernel

/-- The envelope a PSG voice with program `prog` would start with sounds with byte `e` first: the user's envelope if one is
loaded, else the one of the program; a loop mark at its start is passed over. -/
def StartsWith (env : Env) (s : St) (prog e : Nat) : Prop :=
  let byte (k : Nat) : Option Nat := if s.psg.userLoaded then some (s.psg.userBuf k) else (env.psg.envelopes[prog]?).bind (·[k]?)
  e < 0xFD ∧ (byte 0 = some e ∨ (byte 0 = some 0xFE ∧ byte 1 = some e))

instance (env s p e) : Decidable (StartsWith env s p e) := by unfold StartsWith; infer_instance

private theorem started_plays (he : env.Ok) (ops : List Op) (h : psgHistory ops) (b : Bool) (m : Sram.Mem)
    (c p v i : Nat) (hc : c < 16) (hp : p < 128) (hv : v < 128) (hi : 6 ≤ i) (hi' : i < 10) :
    let s := run env (boot env b m) ops
    let t := step env s (.noteOn c p v)
    let S := settingsOf c ops
    let n := noteCents p (tuningOf c ops)
    (∃ tame u, Ok env tame s ∧ Ok env tame u ∧ PsgSame c i s u ∧ noteOn env s c p v = startNote env u i c p v) →
      psgPlayable n (tuningOf c ops).fine → 4500 ≤ n → ∀ e, StartsWith env s S.program e →
        SoundsAt env.psg.isPAL (n + shiftCents (e / 16)).toNat (chipTone t.psg.out (i - 6)) ∧
        chipAtt t.psg.out (i - 6) = heardAttenuation env.psg S.volume v e := by
  intro s t S n hx hpl hlow e hst
  have rs : Reached env s := ⟨b, m, ops, h.1.1, h.1.2, rfl⟩
  obtain ⟨tame, u, ok, hx⟩ := hx
  have mem : Memo i s := Reached.memo he hi (by omega) rs
  have ht := run_tuning (env := env) hc ops h.1.1 b m
  have hTb := tuning_bounds c ops h.1.1
  have hS : (s.chan c).settings = S := run_settings hc ops b m
  have ys : Psg.Synced s.psg := history_synced he b m ops h.1.1 h.1.2 h.2
  change HasTuning _ c s at ht
  have yt : Psg.Synced t.psg := by
    have et : t = run env (boot env b m) (ops ++ [.noteOn c p v]) := (run_snoc ..).symm
    rw [et]
    refine history_synced he b m _ ?_ ?_ ?_
    · intro o ho
      rcases List.mem_append.1 ho with ho | ho
      · exact h.1.1 o ho
      · rw [List.mem_singleton.1 ho]; exact ⟨hc, hp, hv⟩
    · rcases h.1.2 with k | k
      · refine .inl fun o hm => ?_
        rcases List.mem_append.1 hm with hm | hm
        · exact k o hm
        · rw [List.mem_singleton.1 hm]; exact id
      · refine .inr fun o hm => ?_
        rcases List.mem_append.1 hm with hm | hm
        · exact k o hm
        · rw [List.mem_singleton.1 hm]; exact id
    · intro hm
      rcases List.mem_append.1 hm with hm | hm
      · exact h.2 hm
      · cases List.mem_singleton.1 hm
  have et' : t = noteOn env s c p v := by simp only [t, step, if_pos hc]
  clear_value s t
  obtain ⟨hu, sm, eu⟩ := hx
  obtain ⟨f, f1, f2, f3, f4, f5, f6⟩ := startNote_psgCall (p := p) (v := v) he hu hc hi hi' (sm.memo mem)
  rw [← eu, ← et', sm.bend, sm.range, sm.fine] at f6
  rw [sm.volume] at f2
  rw [sm.program] at f3
  rw [sm.psg] at f4 f5
  obtain ⟨S1, S3⟩ : (s.chan c).volume = S.volume ∧ (s.chan c).program = S.program := by
    rw [← hS]; exact ⟨rfl, rfl⟩
  have k1 := ht.semitones
  have k2 := ht.cents
  have tot := psg_pc_total (key := p) (cents := 0) (bend := (s.chan c).pitchBend) (range := (s.chan c).range)
    (fine := (s.chan c).fineTune) (n := n) (by rw [ht.bend]; exact hTb.1) (by omega) (by omega) (by omega)
    (by rw [ht.bend, k1, k2, ht.fine]; rfl) (by rw [ht.fine]; exact hpl)
  simp only at f6 tot
  generalize effectivePitchCents p 0 (s.chan c).pitchBend (s.chan c).range (s.chan c).fineTune = pc at *
  have fb : Psg.FirstByte env.psg f.userBuf (Psg.source f (i - 6)) e := by
    unfold Psg.FirstByte Psg.source
    unfold StartsWith at hst
    rw [f5, f4, f3, S3]
    cases hl : s.psg.userLoaded
    · simp only [hl, Bool.false_eq_true, if_false] at hst ⊢
      exact hst
    · simp only [hl, if_true] at hst ⊢
      simp only [Psg.deref, show (0 : Nat) < 256 by omega, show (1 : Nat) < 256 by omega, if_true]
      exact hst
  have pr := (ok.chan c hc).program
  have vo := (ok.chan c hc).volume
  obtain ⟨x, x1, x2, x3, -⟩ := Psg.noteOn_view (x := pc.cents) f1 (show i - 6 < 4 by omega) (p := pc.pitch) (v := v) (by omega) hv
    (fun _ => by rw [f3, he.psg.count]; exact pr) fb
  rw [← f6] at x2 x3
  have sb := psg_shift_bounds (e / 16)
  have a := yt (i - 6) (by omega)
  obtain ⟨p1, p2, -, -⟩ := hpl
  refine ⟨?_, ?_⟩
  · rw [← a.1, x2]
    exact psg_sounds tot.2.1 tot.2.2 (by rw [tot.1]) (by omega) (by omega) x1
  · rw [← a.2, x3, f2, S1, heard_eq env.psg he.psg S.volume v e (by rw [← S1]; exact vo) hv (by have := fb.1; omega)]

/-- **C61** (note-on; partial).  After any such history, a PSG voice that comes to hold the key of a note-on sounds with the
divider of the key, with bend, bend range and fine tune of the MIDI channel, shifted as the first byte of its envelope says,
and with the attenuation that volume, velocity and that byte make (`heardAttenuation`, C24) - whatever the voice played before
and for whichever MIDI channel; the envelope is that of the channel's program unless the user loaded one.  Missing: keys that
end up below 45 (the driver ignores the note, see below), notes of a key the voice already holds (`C61_some_voice_plays_partial`),
resets (C39), and which notes come to which voice (C08, C10, C15). -/
theorem C61_note_plays_partial (he : env.Ok) (ops : List Op) (h : psgHistory ops) (b : Bool) (m : Sram.Mem)
    (c p v i : Nat) (hc : c < 16) (hp : p < 128) (hv : v < 128) (hv0 : v ≠ 0) (hi : 6 ≤ i) (hi' : i < 10) :
    let s := run env (boot env b m) ops
    let t := step env s (.noteOn c p v)
    let S := settingsOf c ops
    let n := noteCents p (tuningOf c ops)
    ¬((s.dev i).noteOn = true ∧ (s.dev i).pitch = p) → (t.dev i).noteOn = true → (t.dev i).pitch = p →
      psgPlayable n (tuningOf c ops).fine → 4500 ≤ n → ∀ e, StartsWith env s S.program e →
        SoundsAt env.psg.isPAL (n + shiftCents (e / 16)).toNat (chipTone t.psg.out (i - 6)) ∧
        chipAtt t.psg.out (i - 6) = heardAttenuation env.psg S.volume v e := by
  intro s t S n h0 h1 h2
  have et : t = noteOn env s c p v := by simp only [t, step, if_pos hc]
  have rs : Reached env s := ⟨b, m, ops, h.1.1, h.1.2, rfl⟩
  obtain ⟨tame, ok⟩ := rs.ok he
  obtain ⟨u, k⟩ := noteOn_begun he ok hc hp hv hv0 h0 ⟨et ▸ h1, et ▸ h2⟩
  exact started_plays he ops h b m c p v i hc hp hv hi hi' ⟨tame, u, ok, k⟩

/-- **C61** (note-on of a channel with one voice; partial).  With a fixed mapping, the only voice of a MIDI channel plays every
note-on of the channel as above, whatever it plays at the time, the same key included - unless the channel uses portamento
(C19) or holds ten keys already (C15). -/
theorem C61_only_voice_plays_partial (he : env.Ok) (ops : List Op) (h : psgHistory ops) (b : Bool) (m : Sram.Mem)
    (c p v i : Nat) (hc : c < 16) (hp : p < 128) (hv : v < 128) (hv0 : v ≠ 0) (hi : 6 ≤ i) (hi' : i < 10) :
    let s := run env (boot env b m) ops
    let t := step env s (.noteOn c p v)
    let S := settingsOf c ops
    let n := noteCents p (tuningOf c ops)
    s.dynamic = false → (∀ j, j < 13 → ((s.dev j).midiChannel = c ↔ j = i)) → (s.chan c).portamento = false →
      (held (s.chan c).stack).length < 10 →
      psgPlayable n (tuningOf c ops).fine → 4500 ≤ n → ∀ e, StartsWith env s S.program e →
        (t.dev i).noteOn = true ∧ (t.dev i).pitch = p ∧
        SoundsAt env.psg.isPAL (n + shiftCents (e / 16)).toNat (chipTone t.psg.out (i - 6)) ∧
        chipAtt t.psg.out (i - 6) = heardAttenuation env.psg S.volume v e := by
  intro s t S n hd hm hg hf hpl hlow e hst
  have rs : Reached env s := ⟨b, m, ops, h.1.1, h.1.2, rfl⟩
  obtain ⟨tame, ok⟩ := rs.ok he
  obtain ⟨u, ok', same, eu⟩ := noteOn_only he ok hc hp hv hv0 (by omega) hd hm hg hf
  have et : t = noteOn env s c p v := by simp only [t, step, if_pos hc]
  have q : (t.dev i).noteOn = true ∧ (t.dev i).pitch = p := by
    rw [et, eu, startNote_dev hc, Psg.upd_same]; exact ⟨rfl, rfl⟩
  exact ⟨q.1, q.2, started_plays he ops h b m c p v i hc hp hv hi hi' ⟨tame, u, ok, ok', same, eu⟩ hpl hlow e hst⟩

/-- **C61** (any note-on; partial).  After any such history a note-on either reaches no chip and no voice (dropped: C08, C10, C15;
or the start of a glide: C19), or starts on exactly one voice, which was idle or belonged to the channel, and if that is a PSG
voice it sounds as above - also when it held the same key before, and whatever the mapping. -/
theorem C61_some_voice_plays_partial (he : env.Ok) (ops : List Op) (h : psgHistory ops) (b : Bool) (m : Sram.Mem)
    (c p v : Nat) (hc : c < 16) (hp : p < 128) (hv : v < 128) (hv0 : v ≠ 0) :
    let s := run env (boot env b m) ops
    let t := step env s (.noteOn c p v)
    let S := settingsOf c ops
    let n := noteCents p (tuningOf c ops)
    (t.psg = s.psg ∧ t.fm = s.fm ∧ ∀ j, (t.dev j).noteOn = (s.dev j).noteOn ∧ (t.dev j).pitch = (s.dev j).pitch) ∨
    ∃ i, i < 13 ∧ ((s.dev i).noteOn = false ∨ (s.dev i).midiChannel = c) ∧
      ((t.dev i).noteOn = true ∧ (t.dev i).pitch = p ∧ (t.dev i).midiChannel = c) ∧ (∀ j, j ≠ i → t.dev j = s.dev j) ∧
      (6 ≤ i → i < 10 → psgPlayable n (tuningOf c ops).fine → 4500 ≤ n → ∀ e, StartsWith env s S.program e →
        SoundsAt env.psg.isPAL (n + shiftCents (e / 16)).toNat (chipTone t.psg.out (i - 6)) ∧
        chipAtt t.psg.out (i - 6) = heardAttenuation env.psg S.volume v e) := by
  intro s t S n
  have rs : Reached env s := ⟨b, m, ops, h.1.1, h.1.2, rfl⟩
  have et : t = noteOn env s c p v := by simp only [t, step, if_pos hc]
  obtain ⟨tame, ok⟩ := rs.ok he
  rcases noteOn_one he ok hc hp hv hv0 with ⟨h1, h2, h3⟩ | ⟨i, u, hi, own, ok', same, other, e⟩
  · rw [← et] at h1 h2 h3
    exact .inl ⟨h2, h1, fun j => by rw [h3 j]; exact ⟨rfl, rfl⟩⟩
  · refine .inr ⟨i, hi, own, ?_, fun j hj => ?_, fun h6 h10 hpl hlow x hx => ?_⟩
    · rw [et, e, startNote_dev hc, Psg.upd_same]; exact ⟨rfl, rfl, rfl⟩
    · rw [et, e, startNote_dev hc, Psg.upd_other _ _ _ _ hj, other j hj]
    · exact started_plays he ops h b m c p v i hc hp hv h6 h10 ⟨tame, u, ok, ok', same, e⟩ hpl hlow x hx

/-- Notes below key 45 are lost, though the engine takes the voice for sounding: the driver turns them away. -/
theorem C61_low_notes_are_lost :
    let ops : List Op := [.noteOn 6 44 127]
    let t := Ex.after .static ops
    (t.dev 6).noteOn = true ∧ (t.dev 6).pitch = 44 ∧ (t.psg.ch 0).noteOn = false ∧ chipAtt t.psg.out 0 = 15 := by decide +kernel

/-- Nor does a low note silence the key the voice plays: the engine has moved on to key 40, the chip still sounds key 69 at the same
level. -/
theorem C61_low_note_leaves_the_old_one :
    let s := Ex.after .static [.noteOn 6 69 127]
    let t := Ex.after .static [.noteOn 6 69 127, .noteOn 6 40 127]
    (t.dev 6).noteOn = true ∧ (t.dev 6).pitch = 40 ∧ (t.dev 6).midiChannel = 6 ∧ chipAtt s.psg.out 0 = 2 ∧
      chipAtt t.psg.out 0 = 2 ∧ chipTone t.psg.out 0 = chipTone s.psg.out 0 := by decide +kernel

/-- Retuning does not bring them back: key 45 played bent down stays silent when the bend is released. -/
theorem C61_bent_low_note_stays_lost :
    let t := Ex.after .static [.bend 6 0, .noteOn 6 45 127, .bend 6 8192]
    (t.dev 6).noteOn = true ∧ tunedCents (t.dev 6) (tuningOf 6 [.bend 6 0, .noteOn 6 45 127, .bend 6 8192]) = 4500 ∧
      chipAtt t.psg.out 0 = 15 := by decide +kernel

/-- Data with envelopes that differ. -/
def psgExample : Env := { Ex.env .static with psg := ⟨(List.range 128).map fun n => [0xFE, 16 * (n % 8) + n % 16, 0xFD, 0xFF], false⟩ }

/-- Program 21 starts with byte 0x55 - a semitone up, level 5.  Key 69, bent up by half a semitone, with volume 100. -/
example :
    let ops : List Op := [.program 6 21, .cc 6 7 100, .bend 6 10240]
    let s := run psgExample (boot psgExample true Ex.mem) ops
    let t := step psgExample s (.noteOn 6 69 127)
    (s.dev 6).noteOn = false ∧ (t.dev 6).noteOn = true ∧ (t.dev 6).pitch = 69 ∧ settingsOf 6 ops = ⟨100, 64, 21⟩ ∧
      noteCents 69 (tuningOf 6 ops) = 6950 ∧ psgPlayable 6950 (tuningOf 6 ops).fine ∧ StartsWith psgExample s 21 0x55 ∧
      shiftCents 5 = 100 ∧ chipTone t.psg.out 0 = 233 ∧ IsDivider false 70 239 ∧ IsDivider false 71 226 ∧
      chipAtt t.psg.out 0 = 6 := by decide +kernel

/-- The same key again, harder, over the sounding note. -/
example :
    let ops : List Op := [.program 6 21, .noteOn 6 69 20]
    let s := run psgExample (boot psgExample true Ex.mem) ops
    let t := step psgExample s (.noteOn 6 69 127)
    s.dynamic = false ∧ (∀ j, j < 13 → ((s.dev j).midiChannel = 6 ↔ j = 6)) ∧ (s.chan 6).portamento = false ∧
      (held (s.chan 6).stack).length < 10 ∧ (s.dev 6).noteOn = true ∧ (s.dev 6).pitch = 69 ∧
      StartsWith psgExample s 21 0x55 ∧ chipAtt s.psg.out 0 = 11 ∧ chipAtt t.psg.out 0 = 5 := by decide +kernel

/-- The bend back to the centre: key 70, the envelope's semitone included. -/
example :
    let ops : List Op := [.program 6 21, .cc 6 7 100, .bend 6 10240, .noteOn 6 69 127]
    let s := run psgExample (boot psgExample true Ex.mem) ops
    let t := run psgExample (boot psgExample true Ex.mem) (ops ++ [.bend 6 8192])
    (s.dev 6).midiChannel = 6 ∧ (s.dev 6).noteOn = true ∧ chipTone s.psg.out 0 = 233 ∧ chipTone t.psg.out 0 = 239 ∧
      psgPlayable (tunedCents (s.dev 6) (tuningOf 6 (ops ++ [.bend 6 8192]))) 0 := by decide +kernel

/-- A range of twelve semitones: half of a quarter of it. -/
example :
    let ops : List Op := [.cc 6 101 0, .cc 6 100 0, .bend 6 10240, .noteOn 6 69 127]
    let s := Ex.after .static ops
    let t := Ex.after .static (ops ++ [.cc 6 6 12])
    (tuningOf 6 ops).rpnMsb = 0 ∧ (tuningOf 6 ops).rpnLsb = 0 ∧ (s.dev 6).noteOn = true ∧
      tunedCents (s.dev 6) (tuningOf 6 (ops ++ [.cc 6 6 12])) = 7200 ∧ IsDivider false 72 213 ∧
      chipTone t.psg.out 0 = 213 := by decide +kernel

/-- Two PSG voices of a channel, both sounding: pressing the first one's key again, softly, restarts that voice. -/
example :
    let s := Ex.after .static [.remap 6 7, .noteOn 6 60 127, .noteOn 6 64 127]
    let t := step (Ex.env .static) s (.noteOn 6 60 30)
    (s.dev 6).pitch = 60 ∧ (s.dev 6).noteOn = true ∧ (s.dev 7).pitch = 64 ∧ chipAtt s.psg.out 0 = 2 ∧
      (t.dev 6).pitch = 60 ∧ chipAtt t.psg.out 0 = 9 ∧ heardAttenuation (Ex.env .static).psg 127 30 2 = 9 ∧
      chipAtt t.psg.out 1 = 2 := by decide +kernel

example : psgHistory [.program 6 21, .cc 6 7 100, .bend 6 10240, .noteOn 6 69 127] :=
  ⟨⟨by simp [Op.Wf], .inl (by simp [Op.enablesDac])⟩, by simp⟩

end Mdmi.Props
