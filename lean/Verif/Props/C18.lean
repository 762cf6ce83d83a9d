import Verif.Props.C17
/-! C18: All Notes Off forgets held notes. -/
namespace Mdmi.Props
open Mdmi Mdmi.Midi

/-- MIDI channel `c` is silent and remembers the keys `l`. -/
private structure Quiet (c : Nat) (l : List Nat) (s : St) : Prop where
  off : ∀ i, i < 13 → (s.dev i).midiChannel = c → (s.dev i).noteOn = false
  stack : NotePriority.Rep (s.chan c).stack l

private theorem quiet_off {env : Env} {c p : Nat} {l : List Nat} {s : St} (h : Quiet c l s) :
    Quiet c (l.filter (· ≠ p)).dropLast (noteOff env s c p) ∧ (noteOff env s c p).dev = s.dev ∧
    (noteOff env s c p).chan c = { s.chan c with stack := ((noteOff env s c p).chan c).stack } := by
  have e := noteOff_eff (env := env) (p := p) h.stack
  have hit : ∀ i, i < 13 → ¬Hit s c p i := fun i hi x => by
    have := isPlaying_on x.2
    rw [h.off i hi x.1] at this; cases this
  have hd : (noteOff env s c p).dev = s.dev := by
    funext i
    rw [e.dev i, if_neg (fun x => hit i x.1 x.2)]
  refine ⟨⟨by rw [hd]; exact h.off, e.popped ?_⟩, hd, e.chan⟩
  rintro ⟨⟨i, hi, x⟩, _⟩
  exact hit i hi x

private theorem quiet_offs {env : Env} {c : Nat} (hc : c < 16) (ps : List Nat) : ∀ (l : List Nat) (s : St), Quiet c l s →
    ∃ l', Quiet c l' (run env s (ps.map (.noteOff c))) ∧ (∀ q ∈ l', q ∈ l ∧ q ∉ ps) ∧
      (run env s (ps.map (.noteOff c))).dev = s.dev ∧
      (run env s (ps.map (.noteOff c))).chan c =
        { s.chan c with stack := ((run env s (ps.map (.noteOff c))).chan c).stack } := by
  induction ps with
  | nil => intro l s h; exact ⟨l, h, by simp, rfl, rfl⟩
  | cons p ps ih =>
    intro l s h
    obtain ⟨h1, h2, h3⟩ := quiet_off (env := env) (p := p) h
    have e : run env s ((p :: ps).map (.noteOff c)) = run env (noteOff env s c p) (ps.map (.noteOff c)) := by
      simp only [run, List.map_cons, List.foldl_cons, step, hc, if_true]
    rw [e]
    obtain ⟨l', k1, k2, k3, k4⟩ := ih _ _ h1
    refine ⟨l', k1, fun q hq => ?_, k3.trans h2, ?_⟩
    · have := k2 q hq
      have m := List.dropLast_subset _ this.1
      simp only [List.mem_filter, ne_eq, decide_not, Bool.not_eq_eq_eq_not, Bool.not_true, decide_eq_false_iff_not] at m
      exact ⟨m.1, by simp [m.2, this.2]⟩
    · rw [k4, h3]

/-- **C18**, what holds, in every reachable state.  After All Notes Off, releases alone start no note; once every
remembered key has been released the channel remembers none, no voice of it sounds and its other settings are as they
were.  Full statement: All Notes Off alone forgets; false (`C18_old_note_comes_back`, `C18_new_note_lost`). -/
theorem C18_forgotten_when_released_partial (env : Env) (he : env.Ok) (s : St) (hs : Reached env s) (c k v : Nat)
    (hk : isNotesOff k) (hw : Op.Wf (.cc c k v)) (ps : List Nat) :
    let t := run env s (.cc c k v :: ps.map (.noteOff c))
    (∀ i, i < 13 → (s.dev i).midiChannel = c → (t.dev i).noteOn = false) ∧
    (∀ q ∈ held (t.chan c).stack, q ∈ held (s.chan c).stack ∧ q ∉ ps) ∧
    t.chan c = { s.chan c with stack := (t.chan c).stack } := by
  have h := C17_all_notes_off_partial env he s hs c k v hk hw
  obtain ⟨tame, ho⟩ := hs.ok he
  obtain ⟨l, hr, -⟩ := (ho.chan c hw.1).stack
  have hm : ∀ i, i < 13 → ((step env s (.cc c k v)).dev i).midiChannel = c → (s.dev i).midiChannel = c := by
    intro i hi e
    refine Decidable.byContradiction fun hne => ?_
    rw [h.dev i hne] at e; exact hne e
  have hq : Quiet c l (step env s (.cc c k v)) :=
    ⟨fun i hi e => (h.stopped i hi (hm i hi e)).dev, by rw [h.chan]; exact hr⟩
  obtain ⟨l', k1, k2, k3, k4⟩ := quiet_offs (env := env) hw.1 ps l _ hq
  have e : run env s (.cc c k v :: ps.map (.noteOff c)) = run env (step env s (.cc c k v)) (ps.map (.noteOff c)) := rfl
  rw [e]
  refine ⟨fun i hi hic => ?_, ?_, ?_⟩
  · rw [k3]; exact (h.stopped i hi hic).dev
  · rw [Midi.Rep.held k1.stack, Midi.Rep.held hr]; exact k2
  · rw [k4, h.chan]

/-- **C18** (negation).  Key 60 down, All Notes Off, key 64 down and up: the voice sounds 60 again. -/
theorem C18_old_note_comes_back :
    let s := Ex.after .static [.noteOn 0 60 100, .cc 0 123 0, .noteOn 0 64 100, .noteOff 0 64]
    (s.dev 0).noteOn = true ∧ (s.dev 0).pitch = 60 ∧ Synth.keyed s.fm.synth.out 0 = true := by
  decide +kernel

/-- **C18** (negation).  With portamento the key pressed after All Notes Off does not sound at all: the engine glides
a voice that is off. -/
theorem C18_new_note_lost :
    let s := Ex.after .static [.cc 0 65 127, .noteOn 0 60 100, .cc 0 123 0, .noteOn 0 64 100, .tick, .tick]
    (s.dev 0).noteOn = false ∧ Synth.keyed s.fm.synth.out 0 = false := by
  decide +kernel

/-! ### Examples -/

/-- Both held keys released after All Notes Off: nothing is remembered and a new key behaves as on a fresh channel. -/
example : let s := Ex.after .static [.noteOn 0 60 100, .noteOn 0 62 100, .cc 0 123 0, .noteOff 0 60, .noteOff 0 62]
    let t := run (Ex.env .static) s [.noteOn 0 64 100]
    let u := run (Ex.env .static) t [.noteOff 0 64]
    held (s.chan 0).stack = [] ∧ (t.dev 0).pitch = 64 ∧ (t.dev 0).noteOn = true ∧ (u.dev 0).noteOn = false := by
  decide +kernel

end Mdmi.Props
