import Verif.Proofs.MidiMono
import Verif.Spec.Example
/-! C15: last-note priority on a channel with one voice. -/
namespace Mdmi.Props
open Mdmi Mdmi.Midi

/-- A key of the channel goes down or up, or all of them are let go. -/
inductive Key where
  | down (p : Nat)
  | up (p : Nat)
  | off
  deriving DecidableEq

/-- What the messages `l` do to the keys of MIDI channel `c`. -/
def keys (c : Nat) (l : List Op) : List Key :=
  l.filterMap fun op => match op with
    | .noteOn k p v => if k = c then some (if v = 0 then .up p else .down p) else none
    | .noteOff k p => if k = c then some (.up p) else none
    | .cc k n _ => if k = c ∧ (n = 120 ∨ n = 123) then some .off else none
    | _ => none

/-- Keys that are down, in the order they were pressed. -/
def keysDown (l : List Key) : List Nat :=
  l.foldl (fun h k => match k with
    | .down p => h.filter (· ≠ p) ++ [p]
    | .up p => h.filter (· ≠ p)
    | .off => []) []

/-- What last-note priority asks for: the most recently pressed key that is still down. -/
def lastNote (l : List Key) : Option Nat := (keysDown l).getLast?

/-- What the code does with (remembered keys, sounding key). -/
def codeStep (m : List Nat × Option Nat) : Key → List Nat × Option Nat
  | .down p => if m.1.length = 10 then m else (m.1 ++ [p], some p)
  | .up p =>
    let l := m.1.filter (· ≠ p)
    (l.dropLast, if m.2 = some p then if l.getLastD 0 = 0 then none else some (l.getLastD 0) else m.2)
  | .off => (m.1, none)

/-- Voice `i` is the only one of MIDI channel `c`, idle, in a static mapping, with portamento off and no key
remembered; the note stacks are intact (they are in every reachable state, C05). -/
structure OneVoice (c i : Nat) (s : St) : Prop where
  chan : c < 16
  static : s.dynamic = false
  lt : i < 13
  only : ∀ j, j < 13 → ((s.dev j).midiChannel = c ↔ j = i)
  idle : (s.dev i).noteOn = false ∧ (s.dev i).glide = 0
  porta : (s.chan c).portamento = false
  stacks : ∀ k, k < 16 → StackOk (s.chan k).stack
  empty : held (s.chan c).stack = []

/-- Messages while playing `c`: all but resets, mapping changes, DAC and raw writes, and portamento of `c`
itself. -/
def beside (c : Nat) : Op → Bool
  | .noteOn k _ _ | .noteOff k _ => decide (k < 16)
  | .bend _ _ | .program _ _ | .tick | .psgTick => true
  | .cc k n _ => decide (k < 16) && n != 78 && n != 84 && n != 121 && (k != c || n != 65)
  | .sysex d _ => decide (d.take 4 ∉ [[0x7E, 0x7F, 0x09, 0x01], [0, 0x22, 0x77, 0], [0, 0x22, 0x77, 3], [0, 0x22, 0x77, 8], [0, 0x22, 0x77, 9]])
  | .remap _ _ | .reset => false

private theorem keys_cons {c : Nat} {op : Op} {l : List Op} : keys c (op :: l) = keys c [op] ++ keys c l := by
  unfold keys
  rw [← List.filterMap_append]; rfl

private structure Inv (c i : Nat) (m : List Nat × Option Nat) (s : St) : Prop where
  mono : Mono c i m.1 m.2 s
  stacks : Stacks s
  le : m.1.length ≤ 10

private theorem inv_still {c i : Nat} {m : List Nat × Option Nat} {s t : St} (h : Inv c i m s) (k : Still s t) : Inv c i m t :=
  ⟨k.keeps.mono h.mono, k.stacks h.stacks, h.le⟩

private theorem inv_up {env : Env} {c i p : Nat} {m : List Nat × Option Nat} {s : St} (hc : c < 16) (h : Inv c i m s) :
    Inv c i (codeStep m (.up p)) (noteOff env s c p) := by
  refine ⟨h.mono.release, noteOff_stacks hc h.stacks, ?_⟩
  simp only [codeStep, List.length_dropLast]
  have := List.length_filter_le (fun x => decide (x ≠ p)) m.1
  have := h.le
  omega

private theorem inv_step {env : Env} {c i : Nat} {m : List Nat × Option Nat} {s : St} {op : Op} (hc : c < 16)
    (h : Inv c i m s) (hb : beside c op = true) : Inv c i ((keys c [op]).foldl codeStep m) (step env s op) := by
  cases op with
  | noteOn k p v =>
    simp only [beside, decide_eq_true_eq] at hb
    simp only [step, hb, if_true]
    by_cases e : k = c
    · subst e
      simp only [keys, List.filterMap_cons, if_true, List.filterMap_nil, List.foldl_cons, List.foldl_nil]
      by_cases hv : v = 0
      · subst hv
        exact inv_up hc h
      · rw [if_neg hv]
        refine ⟨?_, noteOn_stacks hb h.stacks, ?_⟩
        · simp only [codeStep]
          split
          · rename_i hl; exact h.mono.full hv hl
          · exact h.mono.press hc hv (by have := h.le; omega)
        · simp only [codeStep]
          split
          · exact h.le
          · have := h.le; simp only [List.length_append, List.length_singleton]; omega
    · simp only [keys, List.filterMap_cons, e, if_false, List.filterMap_nil, List.foldl_nil]
      refine ⟨?_, noteOn_stacks hb h.stacks, h.le⟩
      by_cases hv : v = 0
      · subst hv
        obtain ⟨l, hl⟩ := h.stacks k hb
        exact (noteOff_keeps h.mono.solo e hl).mono h.mono
      · exact (noteOn_keeps h.mono.solo e hb hv).mono h.mono
  | noteOff k p =>
    simp only [beside, decide_eq_true_eq] at hb
    simp only [step, hb, if_true]
    by_cases e : k = c
    · subst e
      simp only [keys, List.filterMap_cons, if_true, List.filterMap_nil, List.foldl_cons, List.foldl_nil]
      exact inv_up hc h
    · simp only [keys, List.filterMap_cons, e, if_false, List.filterMap_nil, List.foldl_nil]
      obtain ⟨l, hl⟩ := h.stacks k hb
      exact ⟨(noteOff_keeps h.mono.solo e hl).mono h.mono, noteOff_stacks hb h.stacks, h.le⟩
  | bend k b =>
    refine inv_still h ?_
    simp only [step]; split
    · exact pitchBend_still k b
    · exact .ub
  | program k b =>
    refine inv_still h ?_
    simp only [step]; split
    · exact program_still k b
    · exact .ub
  | sysex d j =>
    refine inv_still h (sysex_still d j ?_)
    simpa only [voicingSysex, decide_eq_false_iff_not, beside, decide_eq_true_eq] using hb
  | remap => cases hb
  | reset => cases hb
  | tick =>
    refine ⟨(tick_keeps h.mono.solo h.mono.porta).mono h.mono, fun k hk => ?_, h.le⟩
    simp only [step, tick_chan]; exact h.stacks k hk
  | psgTick => exact inv_still h (.psg fun _ => rfl)
  | cc k n v =>
    simp only [beside, Bool.and_eq_true, decide_eq_true_eq, bne_iff_ne, Bool.or_eq_true] at hb
    obtain ⟨⟨⟨⟨hk, h78⟩, h84⟩, h121⟩, hx⟩ := hb
    simp only [step, hk, if_true]
    by_cases hv : voicing n = false
    · have e : keys c [Op.cc k n v] = [] := by
        simp only [voicing, Bool.or_eq_false_iff, beq_eq_false_iff_ne] at hv
        simp [keys, hv.1.1.2, hv.2]
      rw [e]
      exact inv_still h (cc_still k n v hv)
    · have hv : voicing n = true := by simpa using hv
      simp only [voicing, Bool.or_eq_true, beq_iff_eq] at hv
      refine inv_still ?_ (.emit _)
      have off : n = 120 ∨ n = 123 → Inv c i ((keys c [Op.cc k n v]).foldl codeStep m) (allNotesOff env s k) := fun hn => by
        have st : Stacks (allNotesOff env s k) := fun d hd => by rw [allNotesOff_chan]; exact h.stacks d hd
        by_cases e : k = c
        · subst e
          simp only [keys, List.filterMap_cons, hn, and_self, if_true, List.filterMap_nil, List.foldl_cons, List.foldl_nil, codeStep]
          exact ⟨h.mono.off, st, h.le⟩
        · simp only [keys, List.filterMap_cons, e, false_and, if_false, List.filterMap_nil, List.foldl_nil]
          exact ⟨(allNotesOff_keeps h.mono.solo e).mono h.mono, st, h.le⟩
      rcases hv with ((((rfl | rfl) | rfl) | rfl) | rfl) | rfl
      · have e : k ≠ c := by omega
        have kp : Kept c i s (setChan s k fun m => { m with portamento := v / 64 ≠ 0 }) :=
          ⟨rfl, fun _ _ => rfl, rfl, by rw [setChan_chan, Psg.upd_other _ _ _ _ (Ne.symm e)]⟩
        simp only [keys, List.filterMap_cons, e, false_and, if_false, List.filterMap_nil, List.foldl_nil]
        refine ⟨kp.mono h.mono, fun d hd => ?_, h.le⟩
        obtain ⟨l, hl⟩ := h.stacks d hd
        refine ⟨l, ?_⟩
        show NotePriority.Rep ((setChan s k fun m => { m with portamento := v / 64 ≠ 0 }).chan d).stack l
        rw [setChan_chan]
        by_cases ed : d = k
        · subst ed; rw [upd_self]; exact hl
        · rw [Psg.upd_other _ _ _ _ ed]; exact hl
      · exact absurd rfl h78
      · exact absurd rfl h84
      · exact off (by omega)
      · exact absurd rfl h121
      · exact off (by omega)

private theorem inv_run {env : Env} {c i : Nat} (hc : c < 16) (ops : List Op) : ∀ (m : List Nat × Option Nat) (s : St),
    Inv c i m s → (∀ op ∈ ops, beside c op = true) → Inv c i ((keys c ops).foldl codeStep m) (run env s ops) := by
  induction ops with
  | nil => intro m s h _; exact h
  | cons op ops ih =>
    intro m s h hb
    rw [keys_cons, List.foldl_append]
    exact ih _ _ (inv_step hc h (hb op (by simp))) fun o ho => hb o (by simp [ho])

/-- **C15**, what the code does instead, in full: for every history the sounding note of the voice is the one
`codeStep` computes from the keys of the channel. -/
theorem C15_behaviour (env : Env) (c i : Nat) (s : St) (hs : OneVoice c i s) (ops : List Op)
    (hb : ∀ op ∈ ops, beside c op = true) :
    let d := (run env s ops).dev i
    let m := (keys c ops).foldl codeStep ([], none)
    d.noteOn = m.2.isSome ∧ (∀ p, m.2 = some p → d.pitch = p) ∧ d.glide = 0 ∧ d.midiChannel = c ∧
    held ((run env s ops).chan c).stack = m.1 := by
  have h0 : Inv c i ([], none) s := by
    refine ⟨⟨⟨hs.static, hs.lt, hs.only⟩, ?_, hs.porta, hs.idle.2, by rw [hs.idle.1]; rfl, by simp⟩, fun k hk => ⟨_, (hs.stacks k hk).rep⟩, by simp⟩
    have := (hs.stacks c hs.chan).rep
    rwa [hs.empty] at this
  have h := inv_run (env := env) hs.chan ops _ _ h0 hb
  exact ⟨h.mono.cur.1, h.mono.cur.2, h.mono.glide, (h.mono.solo.only i hs.lt).2 rfl, Midi.Rep.held h.mono.stack⟩

/-! ### Pressed in order, released in reverse -/

private theorem code_downs (ps : List Nat) (hl : ps.length ≤ 10) : ∀ n, n ≤ ps.length →
    ((ps.take n).map Key.down).foldl codeStep ([], none) = (ps.take n, (ps.take n).getLast?) := by
  intro n
  induction n with
  | zero => intro _; simp
  | succ n ih =>
    intro hn
    have h : ps.take (n + 1) = ps.take n ++ [ps[n]] := by rw [List.take_add_one, List.getElem?_eq_getElem (by omega)]; rfl
    rw [h, List.map_append, List.foldl_append, ih (by omega)]
    simp only [List.map_cons, List.map_nil, List.foldl_cons, List.foldl_nil, codeStep]
    rw [if_neg (by rw [List.length_take]; omega), List.getLast?_concat]

private theorem filter_other {l : List Nat} {p : Nat} (h : p ∉ l) : l.filter (· ≠ p) = l := by
  rw [List.filter_eq_self]
  intro a ha
  simp only [ne_eq, decide_eq_true_eq]
  rintro rfl; exact h ha

private theorem down_downs (ps : List Nat) (hd : ps.Nodup) : keysDown (ps.map Key.down) = ps := by
  have : ∀ (l h : List Nat), (h ++ l).Nodup → (l.map Key.down).foldl (fun h k => match k with
      | .down p => h.filter (· ≠ p) ++ [p]
      | .up p => h.filter (· ≠ p)
      | .off => []) h = h ++ l := by
    intro l
    induction l with
    | nil => intro h _; simp
    | cons a l ih =>
      intro h hn
      have ha : a ∉ h := by
        rw [List.nodup_append] at hn
        intro ha; exact hn.2.2 a ha a (by simp) rfl
      simp only [List.map_cons, List.foldl_cons]
      rw [filter_other ha, ih (h ++ [a]) (by simpa using hn)]
      simp
  simpa [keysDown] using this ps [] (by simpa using hd)

private theorem filter_last {l : List Nat} {p : Nat} (h : p ∉ l) : (l ++ [p]).filter (· ≠ p) = l := by
  rw [List.filter_append, filter_other h]; simp

/-- Releasing from the end: remembered `l` (the sounding note at its end, or already taken off it). -/
private theorem code_ups : ∀ (k : Nat) (l : List Nat) (p : Nat) (x : List Nat), (l ++ [p]).Nodup → 0 ∉ l → k ≤ l.length + 1 →
    x = l ∨ x = l ++ [p] →
    ((((l ++ [p]).reverse.take k).map Key.up).foldl codeStep (x, some p)).2 = ((l ++ [p]).take (l.length + 1 - k)).getLast? := by
  intro k
  induction k with
  | zero =>
    intro l p x _ _ _ _
    have : (l ++ [p]).take (l.length + 1 - 0) = l ++ [p] := List.take_of_length_le (by simp)
    rw [this, List.getLast?_concat]; rfl
  | succ k ih =>
    intro l p x hn h0 hk hx
    have hp : p ∉ l := by
      rw [List.nodup_append] at hn
      intro ha; exact hn.2.2 p ha p (by simp) rfl
    have hf : x.filter (· ≠ p) = l := by
      rcases hx with rfl | rfl
      · exact filter_other hp
      · exact filter_last hp
    simp only [List.reverse_append, List.reverse_cons, List.reverse_nil, List.nil_append, List.cons_append, List.take_succ_cons,
      List.map_cons, List.foldl_cons]
    have e : codeStep (x, some p) (.up p) = (l.dropLast, if l.getLastD 0 = 0 then none else some (l.getLastD 0)) := by
      simp only [codeStep, hf, if_true]
    rw [e]
    rcases List.eq_nil_or_concat l with rfl | ⟨l', q, rfl⟩
    · have : k = 0 := by simp at hk; omega
      subst this; simp
    · simp only [List.concat_eq_append] at *
      have hq : q ≠ 0 := by rintro rfl; exact h0 (by simp)
      have hn' : (l' ++ [q]).Nodup := (List.nodup_append.1 hn).1
      rw [List.getLastD_concat, if_neg hq, List.dropLast_concat]
      have := ih l' q l' hn' (fun h => h0 (by simp [h])) (by simp at hk; omega) (.inl rfl)
      have e2 : (l' ++ [q] ++ [p]).take ((l' ++ [q]).length + 1 - (k + 1)) = (l' ++ [q]).take (l'.length + 1 - k) := by
        rw [List.take_append_of_le_length (by simp)]
        congr 1; simp
      rw [this, e2]

private theorem down_ups : ∀ (k : Nat) (l : List Nat), l.Nodup → k ≤ l.length →
    ((l.reverse.take k).map Key.up).foldl (fun h k => match k with
      | .down p => h.filter (· ≠ p) ++ [p]
      | .up p => h.filter (· ≠ p)
      | .off => []) l = l.take (l.length - k) := by
  intro k
  induction k with
  | zero => intro l _ _; simp
  | succ k ih =>
    intro l hn hk
    rcases List.eq_nil_or_concat l with rfl | ⟨l', q, rfl⟩
    · simp at hk
    · simp only [List.concat_eq_append] at *
      have hp : q ∉ l' := by
        rw [List.nodup_append] at hn
        intro ha; exact hn.2.2 q ha q (by simp) rfl
      simp only [List.reverse_append, List.reverse_cons, List.reverse_nil, List.nil_append, List.cons_append, List.take_succ_cons,
        List.map_cons, List.foldl_cons]
      rw [filter_last hp, ih l' (List.nodup_append.1 hn).1 (by simp at hk; omega)]
      simp only [List.length_append, List.length_singleton]
      rw [List.take_append_of_le_length (by omega)]
      congr 1; omega

/-- **C15**, for up to ten keys (none of them key 0) pressed in any order and then released latest first, among any
messages that leave the channel alone.  Full statement: for every press/release history; false (`C15_trill_silences`,
`C15_wrong_note`). -/
theorem C15_last_note_partial (env : Env) (c i : Nat) (s : St) (hs : OneVoice c i s) (ops : List Op)
    (hb : ∀ op ∈ ops, beside c op = true) (ps : List Nat) (k : Nat) (hn : ps.Nodup) (hl : ps.length ≤ 10) (h0 : 0 ∉ ps)
    (hk : k ≤ ps.length) (ho : keys c ops = ps.map Key.down ++ (ps.reverse.take k).map Key.up) :
    let d := (run env s ops).dev i
    d.noteOn = (lastNote (keys c ops)).isSome ∧ ∀ p, lastNote (keys c ops) = some p → d.pitch = p := by
  have h := C15_behaviour env c i s hs ops hb
  have e1 : ((keys c ops).foldl codeStep ([], none)).2 = (ps.take (ps.length - k)).getLast? := by
    rw [ho, List.foldl_append]
    have := code_downs ps hl ps.length (Nat.le_refl _)
    rw [List.take_length] at this
    rw [this]
    rcases List.eq_nil_or_concat ps with rfl | ⟨l, p, rfl⟩
    · have : k = 0 := by simpa using hk
      subst this; simp
    · simp only [List.concat_eq_append] at *
      rw [List.getLast?_concat]
      rw [code_ups k l p (l ++ [p]) hn (fun h => h0 (by simp [h])) (by simpa using hk) (.inr rfl)]
      simp
  have e2 : lastNote (keys c ops) = (ps.take (ps.length - k)).getLast? := by
    unfold lastNote
    congr 1
    rw [ho, keysDown, List.foldl_append]
    have := down_downs ps hn
    unfold keysDown at this
    rw [this]
    exact down_ups k ps hn hk
  rw [e2, ← e1]
  exact ⟨h.1, h.2.1⟩

/-- **C15** (negation), a trill: while key 60 is held, 64 is pressed and released twice; the voice falls silent. -/
theorem C15_trill_silences :
    let ops : List Op := [.noteOn 0 60 100, .noteOn 0 64 100, .noteOff 0 64, .noteOn 0 64 100, .noteOff 0 64]
    let s := Ex.after .static ops
    lastNote (keys 0 ops) = some 60 ∧ (∀ op ∈ ops, beside 0 op = true) ∧ (s.dev 0).noteOn = false ∧
    Synth.keyed s.fm.synth.out 0 = false := by
  decide +kernel

/-- **C15** (negation), the wrong note: 60 instead of 64. -/
theorem C15_wrong_note :
    let ops : List Op := [.noteOn 0 60 100, .noteOn 0 64 100, .noteOn 0 67 100, .noteOff 0 67, .noteOn 0 67 100, .noteOff 0 67]
    let s := Ex.after .static ops
    lastNote (keys 0 ops) = some 64 ∧ (s.dev 0).noteOn = true ∧ (s.dev 0).pitch = 60 := by
  decide +kernel

/-- **C15** (negation), after All Notes Off: keys let go by it are remembered (C18), and 64 sounds again when a later key is
released. -/
theorem C15_all_notes_off_resumes :
    let ops : List Op := [.noteOn 0 60 100, .noteOn 0 64 100, .cc 0 123 0, .noteOn 0 67 100, .noteOff 0 67]
    let s := Ex.after .static ops
    lastNote (keys 0 ops) = none ∧ (∀ op ∈ ops, beside 0 op = true) ∧ (keys 0 ops).foldl codeStep ([], none) = ([60], some 64) ∧
    (s.dev 0).noteOn = true ∧ (s.dev 0).pitch = 64 ∧ Synth.keyed s.fm.synth.out 0 = true := by
  decide +kernel

/-! ### Examples -/

private theorem decide_all {P : Nat → Prop} {n : Nat} (h : ∀ j ∈ List.range n, P j) : ∀ j, j < n → P j :=
  fun j hj => h j (by simpa using hj)

/-- Right after start-up channel 1 has one idle voice. -/
example : OneVoice 0 0 (Ex.start .static) :=
  ⟨by decide, by decide +kernel, by decide, decide_all (by decide +kernel), by decide +kernel, by decide +kernel,
    decide_all (by unfold StackOk; decide +kernel), by decide +kernel⟩

/-- Three keys, two released: the first sounds. -/
example : let ops : List Op := [.noteOn 0 60 100, .noteOn 0 64 100, .noteOn 1 40 90, .noteOn 0 67 100, .noteOff 0 67, .tick, .noteOff 0 64]
    let s := Ex.after .static ops
    keys 0 ops = [60, 64, 67].map Key.down ++ ([60, 64, 67].reverse.take 2).map Key.up ∧ lastNote (keys 0 ops) = some 60 ∧
    (s.dev 0).noteOn = true ∧ (s.dev 0).pitch = 60 ∧ (s.dev 1).pitch = 40 := by
  decide +kernel

end Mdmi.Props
