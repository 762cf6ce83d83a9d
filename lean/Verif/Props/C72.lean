import Verif.Model.Presets
import Verif.Props.C05
import Verif.Props.C25
import Verif.Props.C26
import Verif.Props.C60
/-! C72: the sounds the firmware is shipped with. -/
namespace Mdmi.Props
open Mdmi Mdmi.Midi
open Mdmi.Synth (FmPreset FmChannel chipChannel chipOperator wantTl keyed carriers)

/-! ### Specification -/

/-- FM channel `i` of the chip can be heard: one side is on, and a carrier of its algorithm rises when keyed and is not at
the lowest level. -/
def Heard (out : List Synth.Ev) (i : Nat) : Prop :=
  (leftOn out i = true ∨ rightOn out i = true) ∧
    ∃ o ∈ carriers (chipChannel out i).algorithm,
      (chipOperator out i o).attackRate ≠ 0 ∧ (chipOperator out i o).totalLevel < 127

/-- FM channel `i` cannot be heard: no carrier of its algorithm ever rises. -/
def Mute (out : List Synth.Ev) (i : Nat) : Prop :=
  ∀ o ∈ carriers (chipChannel out i).algorithm, (chipOperator out i o).attackRate = 0

instance (out i) : Decidable (Heard out i) := by unfold Heard; infer_instance
instance (out i) : Decidable (Mute out i) := by unfold Mute; infer_instance

/-- The General MIDI percussion map, keys 35 to 81, by the sample of the project that is the instrument. -/
def gmDrums : List String :=
  [/- 35 acoustic bass drum, bass drum 1, side stick, acoustic snare -/ "stdkick", "stdkick", "rimtap", "stdsnr1",
   /- 39 hand clap, electric snare, low floor tom, closed hi-hat -/ "clap", "stdsnr2", "lowflrstudio", "hi_hatclosed",
   /- 43 high floor tom, pedal hi-hat, low tom, open hi-hat -/ "flrstudio", "hi_hatfoot", "lowstudio", "hi_hathalf_open",
   /- 47 low-mid tom, hi-mid tom, crash cymbal 1, high tom -/ "mdstudio", "mdhistudio", "crsh1", "histudio",
   /- 51 ride cymbal 1, chinese cymbal, ride bell, tambourine -/ "ride1", "chinacrash", "bellride", "tambourine",
   /- 55 splash cymbal, cowbell, crash cymbal 2, vibraslap -/ "splash", "cowbell", "crsh2", "vibraslap",
   /- 59 ride cymbal 2, hi bongo, low bongo, mute hi conga -/ "ride2", "bongorim", "lowbongo", "closedslap",
   /- 63 open hi conga, low conga, high timbale, low timbale -/ "highconga", "lowtumba", "hightimbale", "lowtimbale",
   /- 67 high agogo, low agogo, cabasa, maracas -/ "highagogo", "lowagogo", "cabasa", "maracas",
   /- 71 short whistle, long whistle, short guiro, long guiro -/ "shortwhistle", "longwhistle", "guirodown", "guiroup",
   /- 75 claves, hi wood block, low wood block, mute cuica -/ "clave", "highwoodblock", "lowwoodblock", "quicahi",
   /- 79 open cuica, mute triangle, open triangle -/ "quicalow", "triangle", "triangle"]

/-! ### The tables -/

private def opFits (o : Synth.Operator) : Bool :=
  o.multiple < 16 && o.detune < 8 && o.attackRate < 32 && o.rateScaling < 4 && o.decayRate < 32 && o.am < 2 &&
    o.sustainLevel < 16 && o.sustainRate < 32 && o.releaseRate < 16 && o.totalLevel < 128 && o.ssgEg < 16

private def fits (p : FmPreset) : Bool :=
  p.algorithm < 8 && p.feedback < 8 && p.ams < 4 && p.fms < 8 && opFits p.ops.o0 && opFits p.ops.o1 &&
    opFits p.ops.o2 && opFits p.ops.o3

private theorem opFits_ok {o : Synth.Operator} (h : opFits o = true) : o.Ok := by
  simp only [opFits, Bool.and_eq_true, decide_eq_true_eq] at h
  obtain ⟨⟨⟨⟨⟨⟨⟨⟨⟨⟨a, b⟩, c⟩, d⟩, e⟩, f⟩, g⟩, i⟩, j⟩, k⟩, l⟩ := h
  exact ⟨a, b, c, d, e, f, g, i, j, k, l⟩

private theorem fits_ok {p : FmPreset} (h : fits p = true) : p.Ok := by
  simp only [fits, Bool.and_eq_true, decide_eq_true_eq] at h
  obtain ⟨⟨⟨⟨⟨⟨⟨a, b⟩, c⟩, d⟩, e⟩, f⟩, g⟩, i⟩ := h
  exact ⟨a, b, c, d, ⟨opFits_ok e, opFits_ok f, opFits_ok g, opFits_ok i⟩⟩

/-- A preset has a carrier that rises and that volume `v` leaves above the lowest level. -/
private def loud (q : FmPreset) (v : Nat) : Bool :=
  (carriers q.algorithm).any fun o =>
    (q.ops.get o).attackRate != 0 && decide (wantTl q.algorithm v o (q.ops.get o).totalLevel < 127)

private theorem programs_loud : (Shipped.mBank0.all fun q => (List.range 127).all fun v => loud q (v + 1)) = true := by
  decide +kernel

private theorem drums_loud : ((List.range 61).all fun k =>
    match Shipped.pBank0[k + 27]? with
    | some d => decide (11 ≤ d.key ∧ d.key ≤ 106) && (List.range 127).all fun v => loud d.preset (v + 1)
    | none => false) = true := by decide +kernel

private theorem others_mute : ((List.range 128).all fun k => (decide (27 ≤ k ∧ k ≤ 87)) ||
    match Shipped.pBank0[k]? with
    | some d => (carriers d.preset.algorithm).all fun o => (d.preset.ops.get o).attackRate == 0
    | none => false) = true := by decide +kernel

variable {mode : Mode} {pal sram : Bool}

/-- **C72** (the tables fit).  Every field of every preset fits the bit-field it is stored in and the chip register it goes
to, there are 128 programs, 128 drums and 128 envelopes, and every envelope has an end: the assumptions under which the
other theorems speak of the tables hold for those of the firmware. -/
theorem C72_tables_fit (mode : Mode) (pal sram : Bool) : (Shipped.env mode pal sram).Ok := by
  have h1 : Shipped.mBank0.length = 128 := by decide +kernel
  have h2 : Shipped.mBank0.all fits = true := by decide +kernel
  have h3 : Shipped.pBank0.length = 128 := by decide +kernel
  have h4 : (Shipped.pBank0.all fun d => fits d.preset && decide (d.key < 256)) = true := by decide +kernel
  refine ⟨⟨h1, fun p hp => fits_ok (List.all_eq_true.1 h2 p hp), h3, fun p hp => ?_⟩, C25_builtin_envelopes_legal pal⟩
  have := List.all_eq_true.1 h4 p hp
  simp only [Bool.and_eq_true, decide_eq_true_eq] at this
  exact ⟨fits_ok this.1, this.2⟩

private theorem shape_get (o : Synth.Ops4) (k : Nat) :
    ((⟨o.o0.shape, o.o1.shape, o.o2.shape, o.o3.shape⟩ : Synth.Ops4).get k).attackRate = (o.get k).attackRate := by
  match k with
  | 0 => rfl
  | 1 => rfl
  | 2 => rfl
  | n + 3 => rfl

private theorem timbre_alg {out : List Synth.Ev} {i : Nat} {q : FmPreset} {st : Nat}
    (h : (chipChannel out i).timbre = FmChannel.timbre ⟨q.algorithm, q.feedback, st, q.ams, q.fms, 0, 0, q.ops⟩) :
    (chipChannel out i).algorithm = q.algorithm := congrArg FmChannel.algorithm h

private theorem timbre_ar {out : List Synth.Ev} {i : Nat} {q : FmPreset} {st : Nat}
    (h : (chipChannel out i).timbre = FmChannel.timbre ⟨q.algorithm, q.feedback, st, q.ams, q.fms, 0, 0, q.ops⟩) {o : Nat}
    (ho : o < 4) : (chipOperator out i o).attackRate = (q.ops.get o).attackRate := by
  have e := congrArg (fun c : FmChannel => (c.ops.get o).attackRate) h
  simp only [FmChannel.timbre, shape_get] at e
  rw [← e]
  match o, ho with
  | 0, _ => rfl
  | 1, _ => rfl
  | 2, _ => rfl
  | 3, _ => rfl

private theorem carriers_lt {a o : Nat} (h : o ∈ carriers a) : o < 4 := by
  unfold carriers at h
  split at h <;> simp at h <;> omega

private theorem loud_heard {out : List Synth.Ev} {i v pan : Nat} {q : FmPreset} (hs : SoundsLike out i q v)
    (hp : PannedTo pan out i) (hl : loud q v = true) : Heard out i := by
  refine ⟨?_, ?_⟩
  · rw [hp.1, hp.2]; simp only [decide_eq_true_eq]; omega
  · obtain ⟨o, h1, h2⟩ := List.any_eq_true.1 hl
    simp only [Bool.and_eq_true, bne_iff_ne, decide_eq_true_eq] at h2
    refine ⟨o, by rw [timbre_alg hs.1]; exact h1, ?_, ?_⟩
    · rw [timbre_ar hs.1 (carriers_lt h1)]; exact h2.1
    · rw [hs.2 o (carriers_lt h1)]; exact h2.2

private theorem vol_split {v : Nat} (h0 : v ≠ 0) (h : v < 128) : ∃ k ∈ List.range 127, k + 1 = v :=
  ⟨v - 1, by simp; omega, by omega⟩

private theorem vol_lt {a v : Nat} (ha : a < 128) (hv : v < 128) : a * v / 127 < 128 := by
  have : a * v ≤ 127 * 127 := Nat.mul_le_mul (by omega) (by omega)
  omega

/-- **C72** (every program sounds; partial).  With the tables of the firmware, after any ordinary history, a note-on that
keys an FM channel can be heard whatever the program: a carrier rises and is above the lowest level, on at least one side -
at every volume and velocity whose product does not round to 0.  Missing: what C60 lacks, and programs replaced by stored
presets. -/
theorem C72_every_program_heard_partial (drums : Bool) (i : Nat) (hi : i < 6) (ops : List Op)
    (h : ordinaryHistory drums i ops) (b : Bool) (m : Sram.Mem)
    (hm : sram = true → ∀ q, Sram.loadProgram m 0 ≠ .ok q) (h3 : drums = true → i ≠ 3 ∨ mode = .dynamic)
    (c p v : Nat) (hc : c < 16) (h9 : c ≠ 9) (hp : p < 128) (hv : v < 128) (hv0 : v ≠ 0)
    (h2 : i ≠ 2 ∨ Channel3Alone (Shipped.env mode pal sram) b m (ops ++ [.noteOn c p v])) :
    let env := Shipped.env mode pal sram
    let s := run env (boot env b m) ops
    let t := step env s (.noteOn c p v)
    let S := settingsOf c ops
    KeyedOn s t i → notePlayable p (tuningOf c ops) → s.fm.user S.program = none → S.volume * v / 127 ≠ 0 →
      keyed t.fm.synth.out i = true ∧ Heard t.fm.synth.out i := by
  intro env s t S hk hpl hu hvol
  have he := C72_tables_fit mode pal sram
  have hS : (s.chan c).settings = S := run_settings hc ops b m
  obtain ⟨_, ok⟩ := Reached.ok he ⟨b, m, ops, fun o ho => (h.1 o ho).1, h.2, rfl⟩
  have hprog : S.program < Shipped.mBank0.length := by
    rw [← hS]; exact he.fm.presets ▸ (ok.chan c hc).program
  have hvl : S.volume < 128 := by rw [← hS]; exact (ok.chan c hc).volume
  obtain ⟨r1, _, r3, r4, _⟩ := C60_note_plays_partial he drums i hi ops h b m hm h3 c p v hc h9 hp hv hv0 hk hpl
    Shipped.mBank0[S.program] (.inr ⟨hu, List.getElem?_eq_getElem hprog⟩)
  obtain ⟨k, hk1, hk2⟩ := vol_split hvol (vol_lt hvl hv)
  refine ⟨r1, loud_heard (r3 h2) r4 ?_⟩
  rw [← hk2]
  exact List.all_eq_true.1 (List.all_eq_true.1 programs_loud _ (List.getElem_mem hprog)) k hk1

/-- **C72** (drums; partial).  With the tables of the firmware, a note-on on MIDI channel 10 that keys an FM channel, the key
(with bend and fine tune) being 27 to 87, can be heard, at the pitch the table gives the drum, which is one FM can play;
any other key is mute.  Missing: as in C60. -/
theorem C72_drums_heard_partial (i : Nat) (hi : i < 6) (ops : List Op) (h : PanHistory i ops)
    (ha : ∀ c v, Op.cc c 14 v ∉ ops) (b : Bool) (m : Sram.Mem) (p v : Nat) (hp : p < 128) (hv : v < 128) (hv0 : v ≠ 0) :
    let env := Shipped.env mode pal sram
    let s := run env (boot env b m) ops
    let t := step env s (.noteOn 9 p v)
    let S := settingsOf 9 ops
    let n := (noteCents p (tuningOf 9 ops)).toNat
    KeyedOn s t i → notePlayable p (tuningOf 9 ops) →
      (27 ≤ n / 100 ∧ n / 100 ≤ 87 → keyed t.fm.synth.out i = true ∧
        (i ≠ 2 ∨ Channel3Alone env b m (ops ++ [.noteOn 9 p v]) → S.volume * v / 127 ≠ 0 → Heard t.fm.synth.out i) ∧
        ∃ d, Shipped.pBank0[n / 100]? = some d ∧
          Fm.InTune pal (chipChannel t.fm.synth.out i).freq (100 * d.key + n % 100) 5) ∧
      (¬(27 ≤ n / 100 ∧ n / 100 ≤ 87) → Mute t.fm.synth.out i) := by
  intro env s t S n hk hpl
  have he := C72_tables_fit mode pal sram
  have hS : (s.chan 9).settings = S := run_settings (by decide) ops b m
  obtain ⟨_, ok⟩ := Reached.ok he ⟨b, m, ops, fun o ho => (h.1 o ho).1, h.2, rfl⟩
  have hvl : S.volume < 128 := by rw [← hS]; exact (ok.chan 9 (by decide)).volume
  have hn : n / 100 < 128 := by
    have h1 := hpl.2.1
    omega
  have hd : n / 100 < Shipped.pBank0.length := by rw [show Shipped.pBank0.length = 128 from he.fm.perc]; exact hn
  have hd' := List.getElem?_eq_getElem hd
  obtain ⟨r1, r2, r3, r4, r5⟩ := C60_drum_plays_partial he i hi ops h ha b m p v hp hv hv0 hk hpl _ hd'
  generalize Shipped.pBank0[n / 100] = d at *
  refine ⟨fun hr => ?_, fun hr o ho => ?_⟩
  · have e := List.all_eq_true.1 drums_loud (n / 100 - 27) (by simp; omega)
    rw [show n / 100 - 27 + 27 = n / 100 by omega, hd'] at e
    simp only [Bool.and_eq_true, decide_eq_true_eq] at e
    refine ⟨r1, fun h2 hvol => ?_, d, hd', r5 e.1⟩
    obtain ⟨k, hk1, hk2⟩ := vol_split hvol (vol_lt hvl hv)
    refine loud_heard (r3 h2) r4 ?_
    rw [← hk2]; exact List.all_eq_true.1 e.2 k hk1
  · have e := List.all_eq_true.1 others_mute (n / 100) (by simpa using hn)
    rw [hd'] at e
    simp only [Bool.or_eq_true, decide_eq_true_eq] at e
    have e := e.resolve_left hr
    rw [timbre_alg r2] at ho
    rw [timbre_ar r2 (carriers_lt ho)]
    simpa using List.all_eq_true.1 e o ho

/-- The two envelopes of the firmware: attack, loop and tail. -/
private theorem envelope_parts {n : Nat} (hn : n < 128) : ∃ A L : List Nat, ∃ T : List Nat,
    Psg.EefOk A L T ∧ (Shipped.env mode pal sram).psg.envelopes[n]? = some (Psg.eef A L T) ∧
    (∀ x ∈ A ++ L, x % 16 ≤ 1 ∧ -5 ≤ Psg.shiftCents (x / 16) ∧ Psg.shiftCents (x / 16) ≤ 5) ∧
    L.length + T.length ≤ if n = 80 ∨ n = 89 ∨ n = 99 then 16 else 23 := by
  have e : (Shipped.env mode pal sram).psg.envelopes[n]? =
      some (if n = 80 ∨ n = 89 ∨ n = 99 then Psg.envSquareLead else Psg.envelope0) := by
    simp [Shipped.env, Psg.realEnvelopes, List.getElem?_range hn]
  rw [e]
  split
  · exact ⟨[0], [0], [1, 2, 3, 4, 5, 6, 7, 8, 9, 10, 11, 12, 13, 14, 15], by constructor <;> decide, by decide, by decide,
      by decide⟩
  · exact ⟨0 :: 0 :: List.replicate 21 1, [1, 1, 0x11, 0x11, 1, 1, 0x81, 0x81],
      [1, 2, 3, 4, 5, 6, 7, 8, 9, 10, 11, 12, 13, 14, 15], by constructor <;> decide, by decide, by decide, by decide⟩

/-- **C72** (held PSG notes).  With the envelopes of the firmware a held PSG note of any program stays for ever within one
step of the level of its volume and velocity and within 5 cents of its pitch. -/
theorem C72_psg_holds (hist mid : List Psg.Op) (ch n p v w : Nat) (c : Int) (hn : n < 128) (hch : ch < 4)
    (hp : 45 ≤ p ∧ p < 256) (hc : 0 ≤ c ∧ c < 100) (hv : v < 128) (hw : w < 128)
    (hh : ∀ op ∈ hist, op.Legal ∧ op ≠ .reset ∧ ∀ e, op ≠ .loadEnvelope e) (hm : Elsewhere ch mid) :
    let env := (Shipped.env mode pal sram).psg
    let s := Psg.run env (Psg.init env) (hist ++ [.program ch n, .volume ch v, .noteOn ch p c w] ++ mid)
    ∃ e, e ≤ 1 ∧ Psg.chipAtt s.out ch = heardAttenuation env v w e ∧
      ∃ x : Int, -5 ≤ x ∧ x ≤ 5 ∧ ∃ q d : Nat, d < 100 ∧ 100 * (q : Int) + d = (100 * p + c + x) % 25600 ∧
        some (Psg.chipTone s.out ch) = Psg.toneFromPitchCents pal ⟨q, d⟩ := by
  intro env s
  obtain ⟨A, L, T, ok, hE, hb, _⟩ := envelope_parts (mode := mode) (pal := pal) (sram := sram) hn
  obtain ⟨x, h1, h2, q, d, h3, h4, h5⟩ := C26_held_note_course env (C25_builtin_envelopes_legal pal) hist mid A L T ok ch p v w c
    (.program ch n) (.inr ⟨n, rfl, hn, hE, fun op ho => (hh op ho).2.2⟩) hch hp hc hv hw
    (fun op ho => ⟨(hh op ho).1, (hh op ho).2.1⟩) hm
  have hx : x ∈ A ++ L := by
    unfold Psg.heldByte at h1
    split at h1
    · exact List.mem_append_left _ (List.mem_of_getElem? h1)
    · exact List.mem_append_right _ (List.mem_of_getElem? h1)
  obtain ⟨b1, b2, b3⟩ := hb x hx
  refine ⟨x % 16, b1, ?_, _, b2, b3, q, d, h3, h4, h5⟩
  have hx253 : x < 0xFD := by
    rcases List.mem_append.1 hx with h | h
    · exact ok.attack x h
    · exact ok.loop x h
  rw [h2, heard_eq env (C25_builtin_envelopes_legal pal) v w x hv hw (by omega),
    heard_eq env (C25_builtin_envelopes_legal pal) v w (x % 16) hv hw (by omega)]
  simp [Psg.combine]

/-- **C72** (released PSG notes).  With the envelopes of the firmware a released PSG note is silent after at most 23 ticks,
16 for the three square lead programs. -/
theorem C72_psg_release_short (hist mid post : List Psg.Op) (ch n p v w : Nat) (c : Int) (hn : n < 128) (hch : ch < 4)
    (hp : 45 ≤ p ∧ p < 256) (hc : 0 ≤ c ∧ c < 100) (hv : v < 128) (hw : w < 128)
    (hh : ∀ op ∈ hist, op.Legal ∧ op ≠ .reset ∧ ∀ e, op ≠ .loadEnvelope e) (hm : Elsewhere ch mid)
    (hpost : Elsewhere ch post) (ht : (if n = 80 ∨ n = 89 ∨ n = 99 then 16 else 23) ≤ Psg.ticks post) :
    let env := (Shipped.env mode pal sram).psg
    let s := Psg.run env (Psg.init env)
      (hist ++ [.program ch n, .volume ch v, .noteOn ch p c w] ++ mid ++ [.noteOff ch] ++ post)
    Psg.chipAtt s.out ch = 15 := by
  intro env s
  obtain ⟨A, L, T, ok, hE, _, hlen⟩ := envelope_parts (mode := mode) (pal := pal) (sram := sram) hn
  have h := C26_released_note_course env (C25_builtin_envelopes_legal pal) hist mid post A L T ok ch p v w c
    (.program ch n) (.inr ⟨n, rfl, hn, hE, fun op ho => (hh op ho).2.2⟩) hch hp hc hv hw
    (fun op ho => ⟨(hh op ho).1, (hh op ho).2.1⟩) hm hpost
  change Psg.chipAtt s.out ch = _ at h
  rw [h]
  split
  · rfl
  · rw [List.getElem?_eq_none]
    rw [Psg.releaseBytes, List.length_append, List.length_drop]
    omega

/-! ### Samples -/

/-- Keys with a sample. -/
theorem C72_sample_keys (p : Nat) : Shipped.hasSample p = true ↔ 26 ≤ p ∧ p ≤ 86 := by
  by_cases h : p < 128
  · have t : ((List.range 128).all fun p => Shipped.hasSample p == decide (26 ≤ p ∧ p ≤ 86)) = true := by decide +kernel
    have := List.all_eq_true.1 t p (by simpa using h)
    rw [beq_iff_eq] at this
    rw [this, decide_eq_true_eq]
  · have l : Shipped.pcmSamples.length = 128 := by decide +kernel
    have : Shipped.hasSample p = false := by
      simp [Shipped.hasSample, List.getD_eq_getElem?_getD, List.getElem?_eq_none (show Shipped.pcmSamples.length ≤ p by omega)]
    rw [this]
    simp; omega

/-- **C72** is violated: the sample table is one entry short at its start.  The sample of every General MIDI percussion key
is in the place of the key below, so that of the 47 keys only 35 and 80, whose neighbours are the same instrument, play the
right one. -/
theorem C72_samples_one_key_low (k : Nat) (hk : 35 ≤ k ∧ k ≤ 81) :
    Shipped.pcmSamples[k - 1]? = some gmDrums[k - 35]? ∧
    (Shipped.pcmSamples[k]? = some gmDrums[k - 35]? ↔ k = 35 ∨ k = 80) := by
  have t : ((List.range 47).all fun j => decide (Shipped.pcmSamples[j + 34]? = some gmDrums[j]? ∧
      (Shipped.pcmSamples[j + 35]? = some gmDrums[j]? ↔ j = 0 ∨ j = 45))) = true := by decide +kernel
  have := List.all_eq_true.1 t (k - 35) (by simp; omega)
  simp only [decide_eq_true_eq] at this
  rw [show k - 35 + 34 = k - 1 by omega, show k - 35 + 35 = k by omega] at this
  refine ⟨this.1, this.2.trans ?_⟩
  omega

/-- With samples on (controller 78) the key of the acoustic snare plays the hand clap; the FM drum of the same key is the
snare. -/
theorem C72_wrong_sample :
    let env := Shipped.env .auto false true
    let s := run env (boot env true Ex.mem) [.cc 5 78 127]
    let t := step env s (.noteOn 5 38 100)
    t.fm.synth.out.head? = some (.pcmStart 38) ∧ Shipped.pcmSamples[38]? = some (some "clap") ∧
      gmDrums[38 - 35]? = some "stdsnr1" := by decide +kernel

/-! ### Examples -/

/-- Program 46, one of four with a mute carrier, on FM channel 1 after other sounds; drums on the first FM voice. -/
example :
    let env := Shipped.env .dynamic false true
    let ops : List Op := [.noteOn 9 38 127, .noteOff 9 38, .program 3 46, .cc 3 7 20, .cc 3 10 0]
    let s := run env (boot env true Ex.mem) ops
    let t := step env s (.noteOn 3 60 40)
    let n := t.fm.synth.out.length - s.fm.synth.out.length
    t.fm.synth.out = t.fm.synth.out.take n ++ s.fm.synth.out ∧ keyed (t.fm.synth.out.take n) 0 = true ∧
      notePlayable 60 (tuningOf 3 ops) ∧ s.fm.user 46 = none ∧ settingsOf 3 ops = ⟨20, 0, 46⟩ ∧ 20 * 40 / 127 ≠ 0 ∧
      Heard t.fm.synth.out 0 ∧
      (chipChannel t.fm.synth.out 0).algorithm = 4 ∧ (chipOperator t.fm.synth.out 0 1).attackRate = 31 := by decide +kernel

/-- Drum 36 can be heard and is at the key of its table entry; key 100 keys the voice but is mute. -/
example :
    let env := Shipped.env .dynamic true false
    let s := run env (boot env false Ex.mem) [.cc 9 7 30]
    let t := step env s (.noteOn 9 36 90)
    let u := step env s (.noteOn 9 100 90)
    notePlayable 36 (tuningOf 9 [.cc 9 7 30]) ∧ keyed t.fm.synth.out 0 = true ∧ Heard t.fm.synth.out 0 ∧
      (Shipped.pBank0[36]?.map (·.key)) = some 35 ∧
      (chipChannel t.fm.synth.out 0).freq = (Fm.pitchToOctave 35, Fm.freqNum true 35 0) ∧
      keyed u.fm.synth.out 0 = true ∧ Mute u.fm.synth.out 0 := by decide +kernel

/-- Sixteen ticks are not enough for the release of program 0, but for that of program 80. -/
example :
    let env := (Shipped.env .auto false true).psg
    let f (n : Nat) := (Psg.run env (Psg.init env)
      ([.program 1 n, .volume 1 127, .noteOn 1 60 0 127] ++ List.replicate 40 .tick ++ [.noteOff 1] ++
        List.replicate 16 .tick)).out
    Psg.chipAtt (f 0) 1 = 10 ∧ Psg.chipAtt (f 80) 1 = 15 := by decide +kernel

end Mdmi.Props
