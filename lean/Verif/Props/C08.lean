import Verif.Proofs.MidiNote
import Verif.Spec.Example
/-! C08: a note never steals a voice that sounds for another MIDI channel. -/
namespace Mdmi.Props
open Mdmi Mdmi.Midi

/-- Voice `i` sounds for a MIDI channel other than `c`. -/
def SoundsElsewhere (s : St) (c i : Nat) : Prop := (s.dev i).noteOn = true ∧ (s.dev i).midiChannel ≠ c

/-- The voices MIDI channel `c` may be given in dynamic mode: those of the kind it already has, if the setting to
keep to a kind is on and it has any (its first voice decides), otherwise those of its device select. -/
def Selected (s : St) (c i : Nat) : Prop :=
  (s.cfg.stick = true ∧ ∃ a, a < 13 ∧ (s.dev a).midiChannel = c ∧ (∀ b, b < a → (s.dev b).midiChannel ≠ c) ∧
    if (s.dev a).ops = .fm then i ≤ 5 else 6 ≤ i ∧ i ≤ 8) ∨
  (s.cfg.stick = true → ∀ a, a < 13 → (s.dev a).midiChannel ≠ c) ∧
    match (s.chan c).deviceSelect with
    | 0 => i ≤ 8
    | 1 => i ≤ 5
    | 2 => 6 ≤ i ∧ i ≤ 8
    | _ => i = 9

/-- Voice `i` is idle and can play for channel `c`: percussion does not go to the PSG. -/
def IdleFor (s : St) (c i : Nat) : Prop := (s.dev i).noteOn = false ∧ ¬((s.dev i).ops = .psg ∧ c = 9)

/-- **C08**, device channels, in every state: a note message leaves a voice that sounds for another MIDI channel
exactly as it is. -/
theorem C08_other_voices_kept (env : Env) (s : St) (c p v : Nat) (hc : c < 16)
    (hst : StackOk (s.chan c).stack) (i : Nat) (hi : SoundsElsewhere s c i) :
    (step env s (.noteOn c p v)).dev i = s.dev i := by
  simp only [step, hc, if_true]
  by_cases hv : v = 0
  · simp only [noteOn, hv, if_true]
    rw [(noteOff_eff hst.rep).dev, if_neg]
    rintro ⟨_, h, _⟩; exact hi.2 h
  · refine noteOn_dev hc hv fun h => ?_
    rcases findFree_own h with h | h
    · rw [hi.1] at h; cases h
    · exact hi.2 h

/-- **C08**, chips, in every reachable state: registers, keys, tones and attenuations that belong only to voices
sounding for other MIDI channels are not touched. -/
theorem C08_other_voices_keep_sounding (env : Env) (he : env.Ok) (s : St) (hs : Reached env s) (c p v : Nat)
    (hw : Op.Wf (.noteOn c p v)) : ChipFrame (fun i => ¬SoundsElsewhere s c i) s (step env s (.noteOn c p v)) := by
  obtain ⟨tame, hs⟩ := hs.ok he
  obtain ⟨hc, hp, hv⟩ := hw
  simp only [step, hc, if_true]
  by_cases hv0 : v = 0
  · simp only [noteOn, hv0, if_true]
    exact ((noteOff_path he hs hc).1.mono (fun i h k => k.2 h) (fun _ h => h) (fun _ h => h) (fun _ h => h)).frame.chip
  · refine ((noteOn_path he hs hc (lt_top hp) hv hv0).mono (fun i h k => ?_) (fun _ h => h) (fun _ h => h) (fun _ h => h)).frame.chip
    rcases findFree_own h with h | h
    · rw [k.1] at h; cases h
    · exact k.2 h

private theorem span_idle {s : St} {c lo hi j : Nat} (h : lo ≤ j ∧ j ≤ hi) (hj : IdleFor s c j) :
    ∃ i, findInSpan s c lo hi = some i ∧ (s.dev i).noteOn = false := by
  unfold findInSpan
  cases e : (span lo hi).find? fun i => suitable (s.dev i) c with
  | none =>
    have := List.find?_eq_none.1 e j (mem_span.2 h)
    exact absurd (suitable_iff.2 hj) this
  | some i =>
    have := List.find?_some e
    exact ⟨i, rfl, (suitable_iff.1 this).1⟩

private theorem devByMidi_first {s : St} {c a : Nat} (ha : a < 13) (hc : (s.dev a).midiChannel = c)
    (hb : ∀ b, b < a → (s.dev b).midiChannel ≠ c) : devByMidi s c = some a := by
  unfold devByMidi
  rw [List.find?_range_eq_some]
  exact ⟨by simpa using hc, by simpa using ha, fun b hb' => by simpa using hb b hb'⟩

/-- The loops over the selected voices end at an idle one. -/
private theorem specific_idle {s : St} {c j : Nat} (hj : Selected s c j) (hi : IdleFor s c j) :
    (∃ i, findDeviceSpecific s c (minMax s c).1 (minMax s c).2 = some i ∧ (s.dev i).noteOn = false) ∨
    (findDeviceSpecific s c (minMax s c).1 (minMax s c).2 = none ∧ s.cfg.stick = true ∧
      ∀ a, a < 13 → (s.dev a).midiChannel ≠ c) := by
  unfold findDeviceSpecific
  rcases hj with ⟨hst, a, ha, hac, hb, hk⟩ | ⟨hst, hk⟩
  · rw [if_pos hst, devByMidi_first ha hac hb]
    simp only
    split
    · rename_i hf
      rw [if_pos hf] at hk
      exact .inl (span_idle ⟨Nat.zero_le _, hk⟩ hi)
    · rename_i hf
      rw [if_neg hf] at hk
      exact .inl (span_idle hk hi)
  · by_cases hs : s.cfg.stick = true
    · right
      rw [if_pos hs]
      cases e : devByMidi s c with
      | none => exact ⟨rfl, hs, hst hs⟩
      | some a => exact absurd (devByMidi_some e).2 (hst hs a (devByMidi_some e).1)
    · rw [if_neg hs]
      refine .inl (span_idle ?_ hi)
      unfold minMax
      split at hk <;> simp_all

/-- Where a dynamic-mode note goes while an idle selected voice is left: to an idle voice. -/
private theorem findFree_idle {s : St} {c j : Nat} (hd : s.dynamic = true) (hj : Selected s c j)
    (hi : IdleFor s c j) : (∀ i, findFree s c = some i → (s.dev i).noteOn = false) ∧
      ((s.cfg.stick = true → ∃ a, a < 13 ∧ (s.dev a).midiChannel = c) → ∃ i, findFree s c = some i) := by
  have sp := specific_idle hj hi
  unfold findFree
  revert sp
  rcases minMax s c with ⟨lo, hi⟩
  intro sp
  simp only [hd, Bool.not_true, Bool.false_eq_true, if_false] at sp ⊢
  cases e1 : findFreeMidiAssigned s c lo hi with
  | some k =>
    have := List.find?_some e1
    simp only [Bool.and_eq_true] at this
    refine ⟨fun i h => ?_, fun _ => ⟨k, rfl⟩⟩
    simp only [Option.some.injEq] at h; subst h
    exact (suitable_iff.1 this.2).1
  | none =>
    cases e2 : findFreePsgSquare s c with
    | some k =>
      refine ⟨fun i h => ?_, fun _ => ⟨k, rfl⟩⟩
      simp only [Option.some.injEq] at h; subst h
      unfold findFreePsgSquare at e2
      split at e2
      · have := List.find?_some e2
        exact (suitable_iff.1 this).1
      · cases e2
    | none =>
      rcases sp with ⟨k, e3, hk⟩ | ⟨e3, hs, hn⟩
      · rw [e3]
        refine ⟨fun i h => ?_, fun _ => ⟨k, rfl⟩⟩
        simp only [Option.some.injEq] at h; subst h; exact hk
      · rw [e3]
        refine ⟨fun i h => ?_, fun h => ?_⟩
        · unfold findAnyFree at h
          have := List.find?_some h
          exact (suitable_iff.1 this).1
        · obtain ⟨a, ha, hac⟩ := h hs
          exact absurd hac (hn a ha)

/-- **C08**, dynamic mode, in every state: while a selected voice is idle, a note leaves every sounding voice as it
is. -/
theorem C08_idle_voice_first (env : Env) (s : St) (c p v : Nat) (hc : c < 16) (hv : v ≠ 0) (hd : s.dynamic = true)
    (j : Nat) (hj : Selected s c j) (hidle : IdleFor s c j) (i : Nat) (hi : (s.dev i).noteOn = true) :
    (step env s (.noteOn c p v)).dev i = s.dev i := by
  simp only [step, hc, if_true]
  refine noteOn_dev hc hv fun h => ?_
  have := (findFree_idle hd hj hidle).1 i h
  rw [hi] at this; cases this

/-- **C08**, dynamic mode, on the chips. -/
theorem C08_idle_voice_first_chip (env : Env) (he : env.Ok) (s : St) (hs : Reached env s) (c p v : Nat)
    (hw : Op.Wf (.noteOn c p v)) (hv : v ≠ 0) (hd : s.dynamic = true)
    (j : Nat) (hj : Selected s c j) (hidle : IdleFor s c j) :
    ChipFrame (fun i => (s.dev i).noteOn = false) s (step env s (.noteOn c p v)) := by
  obtain ⟨tame, hs⟩ := hs.ok he
  simp only [step, hw.1, if_true]
  exact ((noteOn_path he hs hw.1 (lt_top hw.2.1) hw.2.2 hv).mono (fun i h => (findFree_idle hd hj hidle).1 i h) (fun _ h => h)
    (fun _ h => h) (fun _ h => h)).frame.chip

/-- **C08**, dynamic mode, in every state: while a selected voice is idle, the note is not lost but taken up by a voice
that was idle.  Not covered: a channel with exactly one voice (C15), percussion beyond two notes (C10), and a channel
that must keep to its kind of voice but has none. -/
theorem C08_placed (env : Env) (s : St) (c p v : Nat) (hc : c < 16) (hv : v ≠ 0) (hd : s.dynamic = true)
    (j : Nat) (hj : Selected s c j) (hidle : IdleFor s c j)
    (hk : s.cfg.stick = true → ∃ a, a < 13 ∧ (s.dev a).midiChannel = c)
    (h1 : ∀ a, a < 13 → (s.dev a).midiChannel = c → ∃ b, b < 13 ∧ b ≠ a ∧ (s.dev b).midiChannel = c)
    (h9 : c = 9 → ∀ a b, a < 13 → b < 13 → (s.dev a).midiChannel = 9 → (s.dev b).midiChannel = 9 →
      (s.dev a).noteOn = true → (s.dev b).noteOn = true → a = b) :
    ∃ i, i < 13 ∧ (s.dev i).noteOn = false ∧ ((step env s (.noteOn c p v)).dev i).noteOn = true ∧
      ((step env s (.noteOn c p v)).dev i).midiChannel = c ∧ ((step env s (.noteOn c p v)).dev i).pitch = p ∧
      ((step env s (.noteOn c p v)).dev i).cents = 0 := by
  obtain ⟨q1, q2⟩ := findFree_idle hd hj hidle
  obtain ⟨i, hi⟩ := q2 hk
  refine ⟨i, findFree_lt hi, q1 i hi, ?_⟩
  have few : tooManyPercussive s c = false := by
    unfold tooManyPercussive
    by_cases e : c = 9
    · simp only [e, beq_self_eq_true, Bool.true_and, decide_eq_false_iff_not, Nat.not_le]
      have nd : ((List.range 13).filter fun i => (s.dev i).midiChannel == 9 && (s.dev i).noteOn).Nodup :=
        List.nodup_range.sublist List.filter_sublist
      generalize hL : ((List.range 13).filter fun i => (s.dev i).midiChannel == 9 && (s.dev i).noteOn) = L at nd
      match L, nd with
      | [], _ => simp
      | [_], _ => simp
      | a :: b :: r, nd =>
        have ma : a ∈ a :: b :: r := by simp
        have mb : b ∈ a :: b :: r := by simp
        rw [← hL] at ma mb
        simp only [List.mem_filter, List.mem_range, Bool.and_eq_true, beq_iff_eq] at ma mb
        have := h9 e a b ma.1 mb.1 ma.2.1 mb.2.1 ma.2.2 mb.2.2
        simp [this] at nd
    · simp [e]
  have many : singleVoice s c false = false := by
    unfold singleVoice
    simp only [Bool.false_and, Bool.not_false, Bool.and_true, beq_eq_false_iff_ne, ne_eq]
    intro h
    obtain ⟨a, ha⟩ := List.length_eq_one_iff.1 h
    have ma : a ∈ [a] := by simp
    rw [← ha] at ma
    simp only [List.mem_filter, List.mem_range, beq_iff_eq] at ma
    obtain ⟨b, hb, hne, hbc⟩ := h1 a ma.1 ma.2
    have mb : b ∈ [a] := by rw [← ha]; simp [hb, hbc]
    exact hne (by simpa using mb)
  have e : step env s (.noteOn c p v) = startNote env s i c p v := by
    simp only [step, hc, if_true, noteOn, hv, if_false, few, hi, many, Bool.false_eq_true]
  rw [e, startNote_dev hc]
  simp [Dev.sync]

/-! ### Examples -/

/-- Dynamic mode, three notes on channel 1: three voices; a note on channel 2 takes a fourth. -/
example : let s := Ex.after .dynamic [.noteOn 0 60 100, .noteOn 0 64 100, .noteOn 0 67 100]
    SoundsElsewhere s 1 0 ∧ SoundsElsewhere s 1 2 ∧ Selected s 1 3 ∧ IdleFor s 1 3 ∧
    ((step (Ex.env .dynamic) s (.noteOn 1 50 90)).dev 3).pitch = 50 := by
  refine ⟨?_, ?_, .inr ⟨?_, ?_⟩, ?_, ?_⟩
  · unfold SoundsElsewhere; decide +kernel
  · unfold SoundsElsewhere; decide +kernel
  · decide +kernel
  · have h : ((Ex.after .dynamic [.noteOn 0 60 100, .noteOn 0 64 100, .noteOn 0 67 100]).chan 1).deviceSelect = 0 := by
      decide +kernel
    rw [h]; show 3 ≤ 8; decide
  · unfold IdleFor; decide +kernel
  · decide +kernel

/-- With every selected voice busy the channel reuses its own first voice, and a channel without one drops the note. -/
example : let s := Ex.after .dynamic ((List.range 9).map fun n => .noteOn 0 (60 + n) 100)
    ((step (Ex.env .dynamic) s (.noteOn 0 80 90)).dev 0).pitch = 80 ∧
    (step (Ex.env .dynamic) s (.noteOn 1 80 90)).log = .dropped 1 80 :: s.log := by decide +kernel

end Mdmi.Props
