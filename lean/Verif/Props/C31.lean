import Verif.Proofs.MidiView
import Verif.Spec.Example
/-! C31: a program change loads the stored or built-in preset. -/
namespace Mdmi.Props
open Mdmi Mdmi.Midi
open Mdmi.Synth (FmPreset FmChannel chipChannel chipOperator wantTl keyed)

/-- The preset program `p` stands for: the user's if one is stored, else the built-in one. -/
def PresetFor (env : Env) (s : St) (p : Nat) (q : FmPreset) : Prop :=
  s.fm.user p = some q ∨ (s.fm.user p = none ∧ env.fm.presets[p]? = some q)

/-- FM channel `i` of the chip sounds like preset `q`: every parameter is that of the preset, with the total levels of
the carriers lowered by the volume `vol`; the stereo setting is not part of presets. -/
def SoundsLike (out : List Synth.Ev) (i : Nat) (q : FmPreset) (vol : Nat) : Prop :=
  (chipChannel out i).timbre =
      FmChannel.timbre ⟨q.algorithm, q.feedback, (chipChannel out i).stereo, q.ams, q.fms, 0, 0, q.ops⟩ ∧
    ∀ o < 4, (chipOperator out i o).totalLevel = wantTl q.algorithm vol o (q.ops.get o).totalLevel

variable {env : Env} {tame : Bool} {s : St}

private theorem presetFor_eq {p : Nat} {q : FmPreset} (h : PresetFor env s p q) :
    (match s.fm.user p with | some q => some q | none => env.fm.presets[p]?) = some q := by
  rcases h with h | ⟨h, h'⟩ <;> simp_all

/-- What the program change does to FM channel `i`. -/
private theorem program_view (he : env.Ok) (hs : Ok env tame s) {c p i : Nat} (hc : c < 16) (hp : p < 128) (hi : i < 6)
    (hm : (s.dev i).midiChannel = c) (hf : (s.dev i).ops = .fm) {q : FmPreset} (hq : PresetFor env s p q) :
    ∃ t u : Fm.St, Fm.FmSafe t ∧ Fm.FmSame i s.fm t ∧ Fm.FmSame i u (step env s (.program c p)).fm ∧ q.Ok ∧
      ((s.dev i).program = p → u = t) ∧ ((s.dev i).program ≠ p → u = Fm.call t (.preset i q)) ∧
      (step env s (.program c p)).dev i = { s.dev i with program := p } := by
  obtain ⟨hwf, hwd⟩ := program_loop env s hc p
  rw [hwf, hwd]
  clear hwf hwd
  have h0 : Path env tame (fun _ => True) (· = c) (fun _ => False) (fun _ => False) s
      (setChan s c fun m => { m with program := p }) :=
    Path.refl.chan rfl hc { (hs.chan c hc) with program := hp }
  have hs0 := h0.ok he hs
  have ec : ((setChan s c fun m => { m with program := p }).chan c).program = p := by simp
  have ef : (setChan s c fun m => { m with program := p }).fm = s.fm := rfl
  have ed : (setChan s c fun m => { m with program := p }).dev = s.dev := rfl
  generalize (setChan s c fun m => { m with program := p }) = s0 at *
  have k := foreach_split (I := Ok env tame) (R := Apart i) (c := c) (i := i)
    (body := fun s i => updateProgram env s c i) (fun _ => .refl) (fun _ _ _ h k => h.trans k)
    (fun t j ht hj _ => (updateProgram_path (A := fun _ => True) (C := fun _ => True) (G := fun _ => True) (H := fun _ => True) ht hj trivial hc).ok he ht)
    (fun t j ht hj hne _ => updateProgram_apart he ht hi hj hne hc) (fun t u h => by rw [h.dev]) (by omega) hs0
  rw [if_pos (by rw [ed]; exact hm)] at k
  obtain ⟨t, ht, h1, h2⟩ := k
  generalize (foreach s0 c fun s i => updateProgram env s c i) = v at h2 ⊢
  have e1 : t.dev i = s.dev i := h1.dev.trans (by rw [ed])
  have e2 : (t.chan c).program = p := by rw [h1.chan]; exact ec
  have e3 : t.fm.user = s.fm.user := h1.fm.user.trans (by rw [ef])
  have n1 : (s.dev i).num = i := by rw [← e1]; exact (ht.dev i (by omega)).fmNum hi
  have ld := Fm.program_loads he.fm ht.fm (c := i) (p := p) ⟨hi, hp⟩ (q := q) (by rw [e3]; exact presetFor_eq hq)
  refine ⟨t.fm, (updateProgram env t c i).fm, ht.fm, ef ▸ h1.fm, h2.fm, ld.2, ?_, ?_, ?_⟩
  · intro h
    unfold updateProgram
    rw [if_neg (by rw [e1, e2]; simp [h])]
  · intro h
    unfold updateProgram
    rw [if_pos (by rw [e1, e2]; exact h)]
    simp only [devProgram, e1, hf, n1, e2]
    exact ld.1
  · rw [h2.dev]; simp [e1, e2]

/-- The full statement of C31. -/
def C31_statement (env : Env) : Prop :=
  ∀ s, Reached env s → ∀ c p i, c < 16 → p < 128 → i < 6 → (s.dev i).midiChannel = c → (s.dev i).ops = .fm →
    ∀ q, PresetFor env s p q →
      SoundsLike (step env s (.program c p)).fm.synth.out i q (s.fm.synth.vol i)

/-- **C31**, when the voice did not have that program already (`hne`).  After a program change every FM voice of the
MIDI channel sounds like the preset, at the volume it had; frequency and key are as they were, so a sounding note sounds
on.  Missing: the same program again, where nothing is loaded (`C31_same_program`), which makes the full statement false
(`C31_violated`). -/
theorem C31_program_partial (env : Env) (he : env.Ok) (s : St) (hs : Reached env s) (c p i : Nat) (hc : c < 16)
    (hp : p < 128) (hi : i < 6) (hm : (s.dev i).midiChannel = c) (hf : (s.dev i).ops = .fm)
    (hne : (s.dev i).program ≠ p) (q : FmPreset) (hq : PresetFor env s p q) :
    let t := step env s (.program c p)
    SoundsLike t.fm.synth.out i q (s.fm.synth.vol i) ∧
      (chipChannel t.fm.synth.out i).freq = (chipChannel s.fm.synth.out i).freq ∧
      keyed t.fm.synth.out i = keyed s.fm.synth.out i ∧ (t.dev i).program = p := by
  obtain ⟨tame, hs⟩ := hs.ok he
  obtain ⟨t, u, h1, h2, h3, h4, -, h5, h6⟩ := program_view he hs hc hp hi hm hf hq
  have hl : (Synth.Op.preset i q).Legal := Fm.legal_ch rfl hi rfl h4
  have hu := h5 hne
  have r := Synth.step_request_ok h1.synth.ok hl hi
  have w := Synth.preset_loads h1.synth h4 hi
  have f := Synth.step_chip (s := t.synth) hl hi
  have ok : ((Synth.step t.synth (.preset i q)).ch i).Ok := w.1.ok
  simp only
  refine ⟨⟨?_, ?_⟩, ?_, ?_, by rw [h6]⟩
  · rw [h3.chip, hu]
    have e := w.1.chip
    rw [r.1] at e
    show (chipChannel (Synth.step t.synth (.preset i q)).out i).timbre = _
    have e' := congrArg FmChannel.stereo e
    simp only [Synth.Op.request, if_true, FmChannel.timbre] at e' 
    rw [e, Synth.Op.request, if_pos rfl]
    show _ = FmChannel.timbre ⟨_, _, (chipChannel (Synth.step t.synth (.preset i q)).out i).stereo, _, _, _, _, _⟩
    rw [e']
  · intro o ho
    have e := w.2.chip ok ho
    rw [r.1, r.2] at e
    simp only [Synth.Op.request, if_true, Synth.Op.requestVol] at e
    have hk : (chipOperator (step env s (.program c p)).fm.synth.out i o).totalLevel =
        (chipOperator u.synth.out i o).totalLevel := by
      have k := congrArg FmChannel.ops h3.chip
      simp only [chipChannel, Synth.Ops4.mk.injEq] at k
      match o, ho with
      | 0, _ => rw [k.1]
      | 1, _ => rw [k.2.1]
      | 2, _ => rw [k.2.2.1]
      | 3, _ => rw [k.2.2.2]
    rw [hk, hu, ← h2.vol]
    exact e
  · rw [h3.chip, hu]
    show (chipChannel (Synth.step t.synth (.preset i q)).out i).freq = _
    rw [f.1, ← h2.chip]; rfl
  · rw [h3.key, hu]
    show keyed (Synth.step t.synth (.preset i q)).out i = _
    rw [f.2, ← h2.key]; rfl

/-- **C31** (stereo).  Without raw register writes before, the stereo setting of the voice survives the program
change. -/
theorem C31_keeps_stereo (env : Env) (he : env.Ok) (s : St) (hs : Clean env s) (c p i : Nat) (hc : c < 16)
    (hp : p < 128) (hi : i < 6) (hm : (s.dev i).midiChannel = c) (hf : (s.dev i).ops = .fm) :
    (chipChannel (step env s (.program c p)).fm.synth.out i).stereo = (chipChannel s.fm.synth.out i).stereo := by
  have inv := hs.inv he
  obtain ⟨tame, hs⟩ := hs.reached.ok he
  have hq : ∃ q, PresetFor env s p q := by
    cases h : s.fm.user p with
    | some q => exact ⟨q, .inl h⟩
    | none =>
      obtain ⟨q, hq, _⟩ := Fm.presetOf he.fm hp
      exact ⟨q, .inr ⟨h, hq⟩⟩
  obtain ⟨q, hq⟩ := hq
  obtain ⟨t, u, h1, h2, h3, h4, h5, h6, -⟩ := program_view he hs hc hp hi hm hf hq
  rw [h3.chip]
  by_cases e : (s.dev i).program = p
  · rw [h5 e, h2.chip]
  · rw [h6 e]
    have w := (Synth.preset_loads h1.synth h4 hi).1.chip
    have r := Synth.step_request_ok h1.synth.ok (Fm.legal_ch rfl hi rfl h4 : (Synth.Op.preset i q).Legal) hi
    rw [r.1] at w
    have w := congrArg FmChannel.stereo w
    have v := congrArg FmChannel.stereo (inv.ch i hi).chip
    simp only [Synth.Op.request, if_true, FmChannel.timbre] at w v
    show (chipChannel (Synth.step t.synth (.preset i q)).out i).stereo = _
    rw [w, v, h2.par]

/-- **C31** (the same program again).  A voice that has the program already is left as it is. -/
theorem C31_same_program (env : Env) (he : env.Ok) (s : St) (hs : Reached env s) (c p i : Nat) (hc : c < 16)
    (hp : p < 128) (hi : i < 6) (hm : (s.dev i).midiChannel = c) (hf : (s.dev i).ops = .fm)
    (heq : (s.dev i).program = p) :
    chipChannel (step env s (.program c p)).fm.synth.out i = chipChannel s.fm.synth.out i ∧
      keyed (step env s (.program c p)).fm.synth.out i = keyed s.fm.synth.out i := by
  obtain ⟨tame, hs⟩ := hs.ok he
  have hq : ∃ q, PresetFor env s p q := by
    cases h : s.fm.user p with
    | some q => exact ⟨q, .inl h⟩
    | none =>
      obtain ⟨q, hq, _⟩ := Fm.presetOf he.fm hp
      exact ⟨q, .inr ⟨h, hq⟩⟩
  obtain ⟨q, hq⟩ := hq
  obtain ⟨t, u, h1, h2, h3, h4, h5, -, -⟩ := program_view he hs hc hp hi hm hf hq
  rw [h3.chip, h3.key, h5 heq, h2.chip, h2.key]
  exact ⟨rfl, rfl⟩

/-- SysEx that stores preset `q` as program `p`. -/
def storeMessage (p : Nat) (q : FmPreset) : List Nat :=
  [0x00, 0x22, 0x77, 0x0A, 0, p, q.algorithm, q.feedback, q.ams, q.fms] ++
    operBytes q.ops.o0 ++ operBytes q.ops.o1 ++ operBytes q.ops.o2 ++ operBytes q.ops.o3

/-- A preset memory that holds preset 5 as program 0. -/
private def mem0 : Sram.Mem := Sram.applyWrites Ex.mem (Sram.saveWrites 0 (Ex.preset 5))

/-- **C31** fails three ways because a program the voice already has is not loaded again: after a parameter was changed
by controller, program change to the same program does not restore it; after a new preset was stored for the current
program, it is not heard; a preset stored for program 0 before power-off is not heard after power-on, since the voices
start as program 0 but with the built-in preset. -/
theorem C31_violated : ∃ env, Env.Ok env ∧ ¬C31_statement env ∧
    (let s := run env (boot env true Ex.mem) [.cc 0 14 127, .program 0 0];
      s.fm.user 0 = none ∧ (Ex.preset 0).algorithm = 0 ∧ (chipChannel s.fm.synth.out 0).algorithm = 7) ∧
    (let s := run env (boot env true Ex.mem) [.program 0 3, .sysex (storeMessage 3 (Ex.preset 5)) 0, .program 0 3];
      s.fm.user 3 = some (Ex.preset 5) ∧ (Ex.preset 5).algorithm = 5 ∧ (chipChannel s.fm.synth.out 0).algorithm = 3) ∧
    (let s := run env (boot env true mem0) [.program 0 0, .noteOn 0 60 100];
      s.fm.user 0 = some (Ex.preset 5) ∧ keyed s.fm.synth.out 0 = true ∧
      (chipChannel s.fm.synth.out 0).algorithm = 0) := by
  refine ⟨Ex.env .static, Ex.env_ok _, fun h => ?_, by decide +kernel, by decide +kernel, by decide +kernel⟩
  have := h (Ex.after .static [.cc 0 14 127])
    ⟨true, Ex.mem, [.cc 0 14 127], by simp [Op.Wf], by simp [Op.enablesDac], rfl⟩ 0 0 0 (by omega) (by omega) (by omega)
    (by decide +kernel) (by decide +kernel) (Ex.preset 0) (.inr (by decide +kernel))
  have := congrArg FmChannel.algorithm this.1
  revert this
  decide +kernel

/-- A program change while the note sounds, on a reachable state: the hypotheses hold, the preset is loaded, the note
sounds on. -/
example : let s := Ex.after .static [.noteOn 0 60 100, .cc 0 10 0]
    Reached (Ex.env .static) s ∧ (s.dev 0).midiChannel = 0 ∧ (s.dev 0).ops = .fm ∧ (s.dev 0).program ≠ 7 ∧
      PresetFor (Ex.env .static) s 7 (Ex.preset 7) ∧
      (chipChannel (step (Ex.env .static) s (.program 0 7)).fm.synth.out 0).algorithm = 7 ∧
      (chipChannel (step (Ex.env .static) s (.program 0 7)).fm.synth.out 0).stereo = 2 ∧
      keyed (step (Ex.env .static) s (.program 0 7)).fm.synth.out 0 = true :=
  ⟨⟨true, Ex.mem, [.noteOn 0 60 100, .cc 0 10 0], by simp [Op.Wf], by simp [Op.enablesDac], rfl⟩, by decide +kernel,
    by decide +kernel, by decide +kernel, .inr (by decide +kernel), by decide +kernel, by decide +kernel,
    by decide +kernel⟩

end Mdmi.Props
