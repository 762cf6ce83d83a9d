import Verif.Proofs.MidiHeld
import Verif.Spec.Example
/-! C13: with a fixed mapping a voice only ever sounds a note that is held. -/
namespace Mdmi.Props
open Mdmi Mdmi.Midi

/-- Key `p` of MIDI channel `c` is down after the messages `l`: its last note message was a note-on with a velocity. -/
def keyDown (c p : Nat) (l : List Op) : Bool :=
  l.foldl (fun b op => match op with
    | .noteOn c' p' v => if c' = c ∧ p' = p then decide (v ≠ 0) else b
    | .noteOff c' p' => if c' = c ∧ p' = p then false else b
    | _ => b) false

/-- Portamento was switched on for `c` in `l`. -/
def PortamentoUsed (c : Nat) (l : List Op) : Prop := ∃ v, 64 ≤ v ∧ Op.cc c 65 v ∈ l

/-- Messages that neither change the mapping nor reset, use sample playback or write chip registers: notes, bends,
programs, frames, controllers but 78 (DAC), 84 (polyphonic) and 121 (reset), exclusive messages but GM reset, remap,
dynamic mode and raw writes. -/
def playing : Op → Bool
  | .noteOn c p _ => decide (c < 16 ∧ p < 128)
  | .noteOff c p => decide (c < 16 ∧ p < 128)
  | .bend _ _ | .program _ _ | .tick | .psgTick => true
  | .cc c k _ => decide (c < 16) && k != 78 && k != 84 && k != 121
  | .sysex d _ => decide (d.take 4 ∉ [[0x7E, 0x7F, 0x09, 0x01], [0, 0x22, 0x77, 0], [0, 0x22, 0x77, 3], [0, 0x22, 0x77, 8], [0, 0x22, 0x77, 9]])
  | .remap _ _ | .reset => false

/-- A performance.  The two conditions on portamento are needed (`C13_note_zero_sticks`, `C13_portamento_off_sticks`):
key 0 is not used on a channel that glides, and portamento goes off only while no key of the channel is down. -/
structure Performance (l : List Op) : Prop where
  playing : ∀ op ∈ l, playing op = true
  zero : ∀ pre post c v, l = pre ++ .noteOn c 0 v :: post → v = 0 ∨ ¬PortamentoUsed c pre
  off : ∀ pre post c v, l = pre ++ .cc c 65 v :: post → 64 ≤ v ∨ ¬PortamentoUsed c pre ∨ ∀ p, keyDown c p pre = false

private theorem keyDown_snoc {c p : Nat} {l : List Op} {op : Op} : keyDown c p (l ++ [op]) = match op with
    | .noteOn c' p' v => if c' = c ∧ p' = p then decide (v ≠ 0) else keyDown c p l
    | .noteOff c' p' => if c' = c ∧ p' = p then false else keyDown c p l
    | _ => keyDown c p l := by
  simp only [keyDown, List.foldl_append, List.foldl_cons, List.foldl_nil]

private theorem used_snoc {c : Nat} {l : List Op} {op : Op} (h : PortamentoUsed c l) : PortamentoUsed c (l ++ [op]) :=
  let ⟨v, h1, h2⟩ := h; ⟨v, h1, by simp [h2]⟩

private theorem unused_of {c : Nat} {l : List Op} {op : Op} (h : ∀ v, op ≠ .cc c 65 v) :
    PortamentoUsed c (l ++ [op]) → PortamentoUsed c l := by
  rintro ⟨v, h1, h2⟩
  refine ⟨v, h1, ?_⟩
  simp only [List.mem_append, List.mem_singleton] at h2
  rcases h2 with h2 | h2
  · exact h2
  · exact absurd h2.symm (h v)

/-- The invariant after the messages `l`. -/
private abbrev Inv (l : List Op) (s : St) : Prop := HeldInv (fun c p => keyDown c p l = true) (fun c => PortamentoUsed c l) s

private theorem inv_still {env : Env} {s : St} {l : List Op} {op : Op} (h : Inv l s) (k : Still s (step env s op))
    (hk : ∀ c p, keyDown c p (l ++ [op]) = keyDown c p l) : Inv (l ++ [op]) (step env s op) :=
  (k.heldInv h).mono (fun c p e => by rw [hk]; exact e) (fun _ => used_snoc)

private theorem inv_step {env : Env} {s : St} {l : List Op} {op : Op} (h : Inv l s) (hp : playing op = true)
    (h0 : ∀ c v, op = .noteOn c 0 v → v = 0 ∨ ¬PortamentoUsed c l)
    (hoff : ∀ c v, op = .cc c 65 v → 64 ≤ v ∨ ¬PortamentoUsed c l ∨ ∀ p, keyDown c p l = false) :
    Inv (l ++ [op]) (step env s op) := by
  cases op with
  | noteOn c p v =>
    simp only [playing, decide_eq_true_eq] at hp
    simp only [step, hp.1, if_true]
    refine HeldInv.mono (H := fun k q => keyDown k q (l ++ [.noteOn c p v]) = true) (P := fun c => PortamentoUsed c l) ?_
      (fun _ _ x => x) (fun _ => used_snoc)
    by_cases hv : v = 0
    · subst hv
      refine noteOff_heldInv hp.1 h fun k q hk hn => ?_
      rw [keyDown_snoc]; simp only
      rw [if_neg (fun x => hn ⟨x.1.symm, x.2.symm⟩)]; exact hk
    · refine noteOn_heldInv hp.1 (by omega) hv h (fun e => ?_) fun k q hk => ?_
      · rcases h0 c v (by rw [e]) with e | e
        · exact absurd e hv
        · exact e
      · rw [keyDown_snoc]; simp only
        split
        · simpa using hv
        · rename_i hn
          rcases hk with hk | hk
          · exact hk
          · exact absurd ⟨hk.1.symm, hk.2.symm⟩ hn
  | noteOff c p =>
    simp only [playing, decide_eq_true_eq] at hp
    simp only [step, hp.1, if_true]
    refine HeldInv.mono (H := fun k q => keyDown k q (l ++ [.noteOff c p]) = true) (P := fun c => PortamentoUsed c l) ?_
      (fun _ _ x => x) (fun _ => used_snoc)
    refine noteOff_heldInv hp.1 h fun k q hk hn => ?_
    rw [keyDown_snoc]; simp only
    rw [if_neg (fun x => hn ⟨x.1.symm, x.2.symm⟩)]; exact hk
  | bend c b =>
    refine inv_still h ?_ fun c p => keyDown_snoc
    simp only [step]; split
    · exact pitchBend_still c b
    · exact .ub
  | program c b =>
    refine inv_still h ?_ fun c p => keyDown_snoc
    simp only [step]; split
    · exact program_still c b
    · exact .ub
  | sysex d j =>
    refine inv_still h ?_ fun c p => keyDown_snoc
    refine sysex_still d j ?_
    simpa only [voicingSysex, decide_eq_false_iff_not, playing, decide_eq_true_eq] using hp
  | remap => cases hp
  | reset => cases hp
  | tick => exact HeldInv.mono (tick_heldInv h) (fun c p e => by rw [keyDown_snoc]; exact e) (fun _ => used_snoc)
  | psgTick => exact HeldInv.mono (h.same rfl rfl rfl) (fun c p e => by rw [keyDown_snoc]; exact e) (fun _ => used_snoc)
  | cc c k v =>
    simp only [playing, Bool.and_eq_true, decide_eq_true_eq, bne_iff_ne] at hp
    obtain ⟨⟨⟨hc, h78⟩, h84⟩, h121⟩ := hp
    by_cases hv : voicing k = false
    · refine inv_still h ?_ fun c p => keyDown_snoc
      simp only [step, hc, if_true]
      exact cc_still c k v hv
    · have hv : voicing k = true := by simpa using hv
      simp only [voicing, Bool.or_eq_true, beq_iff_eq] at hv
      simp only [step, hc, if_true]
      refine Still.heldInv (.emit _) ?_
      rcases hv with ((((rfl | rfl) | rfl) | rfl) | rfl) | rfl
      · refine HeldInv.mono (H := fun c p => keyDown c p l = true) (P := fun k => PortamentoUsed k (l ++ [.cc c 65 v])) ?_
          (fun c p e => by rw [keyDown_snoc]; exact e) (fun _ x => x)
        refine portamento_heldInv h (fun e => ⟨v, ?_, by simp⟩) (fun _ => used_snoc) (fun e => ?_) hc
        · simp at e; omega
        · rcases hoff c v rfl with e' | e' | e'
          · simp at e; omega
          · exact .inl e'
          · exact .inr fun p => by rw [e' p]; simp
      · exact absurd rfl h78
      · exact absurd rfl h84
      · exact HeldInv.mono (allNotesOff_heldInv c h) (fun c p e => by rw [keyDown_snoc]; exact e) (fun _ => used_snoc)
      · exact absurd rfl h121
      · exact HeldInv.mono (allNotesOff_heldInv c h) (fun c p e => by rw [keyDown_snoc]; exact e) (fun _ => used_snoc)

private theorem inv_run {env : Env} (ops : List Op) : ∀ (l : List Op) (s : St), Inv l s → (∀ op ∈ ops, playing op = true) →
    (∀ pre post c v, ops = pre ++ .noteOn c 0 v :: post → v = 0 ∨ ¬PortamentoUsed c (l ++ pre)) →
    (∀ pre post c v, ops = pre ++ .cc c 65 v :: post →
      64 ≤ v ∨ ¬PortamentoUsed c (l ++ pre) ∨ ∀ p, keyDown c p (l ++ pre) = false) →
    Inv (l ++ ops) (run env s ops) := by
  induction ops with
  | nil => intro l s h _ _ _; rw [List.append_nil]; exact h
  | cons op ops ih =>
    intro l s h hp h0 ho
    have hs := inv_step (env := env) h (hp op (by simp)) (fun c v e => by simpa using h0 [] ops c v (by rw [e]; rfl))
      (fun c v e => by simpa using ho [] ops c v (by rw [e]; rfl))
    have := ih (l ++ [op]) _ hs (fun o h => hp o (by simp [h]))
      (fun pre post c v e => by simpa using h0 (op :: pre) post c v (by rw [e]; rfl))
      (fun pre post c v e => by simpa using ho (op :: pre) post c v (by rw [e]; rfl))
    rw [List.append_assoc] at this; exact this

private theorem playing_unkeys {op : Op} (h : playing op = true) : op.unkeys = false := by
  cases op with
  | cc c k v =>
    simp only [playing, Bool.and_eq_true, decide_eq_true_eq, bne_iff_ne] at h
    simp [Op.unkeys, h.2, h.1.1.2]
  | sysex d j =>
    simp only [playing, decide_eq_true_eq, List.mem_cons, List.not_mem_nil, or_false, not_or] at h
    simp [Op.unkeys, h]
  | _ => rfl

/-- Set-up before a performance: anything but starting a note, switching portamento on, sample playback, raw register
writes, GM reset and reset all controllers.  Remapping and the mapping mode may change. -/
def setup : Op → Bool
  | .noteOn _ _ v => v == 0
  | .cc _ k v => k != 121 && k != 78 && !(k == 65 && decide (64 ≤ v))
  | .sysex d _ => decide (d.take 4 ∉ [[0x7E, 0x7F, 0x09, 0x01], [0, 0x22, 0x77, 8], [0, 0x22, 0x77, 9]])
  | _ => true

private theorem setup_prepares {op : Op} (h : setup op = true) : op.prepares = true := by
  cases op with
  | cc c k v =>
    simp only [setup, Bool.and_eq_true, bne_iff_ne, Bool.not_eq_true'] at h
    simp [Op.prepares, Op.unkeys, h.1.1, h.1.2]
    have := h.2; simp at this; omega
  | sysex d j =>
    simp only [setup, decide_eq_true_eq, List.mem_cons, List.not_mem_nil, or_false, not_or] at h
    simp [Op.prepares, Op.unkeys, h]
  | noteOn c p v => exact h
  | _ => rfl

private theorem setup_unkeys {op : Op} (h : setup op = true) : op.unkeys = false := by
  cases op with
  | cc c k v =>
    simp only [setup, Bool.and_eq_true, bne_iff_ne, Bool.not_eq_true'] at h
    simp [Op.unkeys, h.1.1, h.1.2]
  | sysex d j =>
    simp only [setup, decide_eq_true_eq, List.mem_cons, List.not_mem_nil, or_false, not_or] at h
    simp [Op.unkeys, h]
  | _ => rfl

/-- **C13.**  From any state: reset, any set-up that ends in a static mapping, then any performance.  A voice sounds
only a key of its MIDI channel that is down, and an FM channel is keyed on only for a sounding voice.
Full statement: without the conditions of `Performance` on portamento; it is false (`C13_note_zero_sticks`,
`C13_portamento_off_sticks`). -/
theorem C13_only_held_notes_sound_partial (env : Env) (he : env.Ok) (s₀ : St) (before ops : List Op)
    (hb : ∀ op ∈ before, setup op = true) (hd : (run env (reset env s₀) before).dynamic = false) (ho : Performance ops) :
    let s := run env (run env (reset env s₀) before) ops
    (∀ i, i < 13 → (s.dev i).noteOn = true →
      keyDown (s.dev i).midiChannel (if (s.dev i).glide = 0 then (s.dev i).pitch else (s.dev i).glide) ops = true) ∧
    ∀ n, n < 6 → Synth.keyed s.fm.synth.out n = true → (s.dev n).noteOn = true := by
  have hi : Inv [] (run env (reset env s₀) before) :=
    (run_idle before (fun op h => setup_prepares (hb op h)) (reset_idle s₀)).heldInv hd
  have h := inv_run (env := env) ops [] _ hi ho.playing (fun pre post c v e => by simpa using ho.zero pre post c v e)
    (fun pre post c v e => by simpa using ho.off pre post c v e)
  have k := run_keyInv he ops (fun op h => playing_unkeys (ho.playing op h))
    (run_keyInv he before (fun op h => setup_unkeys (hb op h)) (reset_keyInv he s₀))
  exact ⟨h.on, k.on⟩

/-- **C13**, its consequence: when no key is down, no voice sounds and every FM channel is keyed off. -/
theorem C13_silent_when_nothing_held_partial (env : Env) (he : env.Ok) (s₀ : St) (before ops : List Op)
    (hb : ∀ op ∈ before, setup op = true) (hd : (run env (reset env s₀) before).dynamic = false) (ho : Performance ops)
    (hn : ∀ c p, keyDown c p ops = false) :
    let s := run env (run env (reset env s₀) before) ops
    (∀ i, i < 13 → (s.dev i).noteOn = false) ∧ ∀ n, n < 6 → Synth.keyed s.fm.synth.out n = false := by
  obtain ⟨h1, h2⟩ := C13_only_held_notes_sound_partial env he s₀ before ops hb hd ho
  have off : ∀ i, i < 13 → ((run env (run env (reset env s₀) before) ops).dev i).noteOn = false := fun i hi => by
    refine Bool.eq_false_iff.2 fun e => ?_
    have := h1 i hi e
    rw [hn] at this; cases this
  refine ⟨off, fun n hn => Bool.eq_false_iff.2 fun e => ?_⟩
  have := h2 n hn e
  rw [off n (by omega)] at this; cases this

/-- **C13** (negation), portamento switched off during a glide: the chip channel stays keyed after both keys are up. -/
theorem C13_portamento_off_sticks :
    let ops : List Op := [.cc 0 65 127, .noteOn 0 60 100, .noteOn 0 64 100, .cc 0 65 0, .noteOff 0 64, .noteOff 0 60]
    let s := Ex.after .static ops
    keyDown 0 60 ops = false ∧ keyDown 0 64 ops = false ∧ (∀ op ∈ ops, playing op = true) ∧
    (s.dev 0).noteOn = true ∧ Synth.keyed s.fm.synth.out 0 = true := by
  decide +kernel

/-- **C13** (negation), key 0 pressed during a glide: the voice stays on at a pitch nobody pressed. -/
theorem C13_note_zero_sticks :
    let ops : List Op := [.cc 0 65 127, .noteOn 0 60 100, .noteOn 0 72 100, .tick, .tick, .tick, .noteOn 0 0 100,
      .noteOff 0 0, .noteOff 0 72, .noteOff 0 60]
    let s := Ex.after .static ops
    keyDown 0 0 ops = false ∧ keyDown 0 60 ops = false ∧ keyDown 0 72 ops = false ∧ (∀ op ∈ ops, playing op = true) ∧
    (s.dev 0).noteOn = true ∧ Synth.keyed s.fm.synth.out 0 = true := by
  decide +kernel

/-! ### Examples -/

/-- A glide, a released note, a second voice. -/
example : let s := Ex.after .static [.cc 0 65 127, .noteOn 0 60 100, .noteOn 0 72 100, .tick, .noteOn 1 50 90, .noteOff 0 72]
    (s.dev 0).noteOn = true ∧ (s.dev 0).glide = 60 ∧ (s.dev 1).pitch = 50 ∧ Synth.keyed s.fm.synth.out 0 = true ∧
    keyDown 0 60 [.cc 0 65 127, .noteOn 0 60 100, .noteOn 0 72 100, .tick, .noteOn 1 50 90, .noteOff 0 72] = true := by
  decide +kernel

/-- A performance in the sense of the theorem. -/
example : Performance [.cc 0 65 127, .noteOn 0 60 100, .noteOff 0 60, .cc 0 65 0, .noteOn 1 0 100, .cc 1 123 0] := by
  refine ⟨by decide, fun pre post c v h => ?_, fun pre post c v h => ?_⟩
  all_goals
    match pre, h with
    | [], h => simp at h; try simp [← h]
    | [_], h => simp at h
    | [_, _], h => simp at h
    | [a, b, d], h => simp at h; try (obtain ⟨rfl, rfl, rfl, ⟨rfl, rfl⟩, _⟩ := h; right; right; intro p; simp [keyDown]; try omega)
    | [a, b, d, e], h => simp at h; try (obtain ⟨rfl, rfl, rfl, rfl, ⟨rfl, rfl⟩, _⟩ := h; simp [PortamentoUsed])
    | [_, _, _, _, _], h => simp at h
    | _ :: _ :: _ :: _ :: _ :: _ :: _, h => simp at h

end Mdmi.Props
