import Verif.Proofs.MidiReset
import Verif.Props.C13
import Verif.Proofs.MidiPolyKey
/-! C71: polyphony under dynamic assignment: with up to nine keys down each sounds on a voice of its own. -/
namespace Mdmi.Props
open Mdmi Mdmi.Midi

/-! ### Only held notes sound, in either mapping mode -/

/-- The messages of C13's performances but portamento (controller 65). -/
def glideless : Op → Bool
  | .cc c k v => playing (.cc c k v) && k != 65
  | op => playing op

private theorem glideless_playing {op : Op} (h : glideless op = true) : playing op = true := by
  cases op with
  | cc c k v => simp only [glideless, Bool.and_eq_true] at h; exact h.1
  | _ => exact h

private theorem keyDown_snoc {c p : Nat} {l : List Op} {op : Op} : keyDown c p (l ++ [op]) = match op with
    | .noteOn c' p' v => if c' = c ∧ p' = p then decide (v ≠ 0) else keyDown c p l
    | .noteOff c' p' => if c' = c ∧ p' = p then false else keyDown c p l
    | _ => keyDown c p l := by
  simp only [keyDown, List.foldl_append, List.foldl_cons, List.foldl_nil]
  cases op <;> rfl

private abbrev Inv (l : List Op) (s : St) : Prop := FreeInv (fun c p => keyDown c p l = true) s

private theorem inv_step {env : Env} {s : St} {l : List Op} {op : Op} (h : Inv l s) (hp : glideless op = true) :
    Inv (l ++ [op]) (step env s op) := by
  have still : Still s (step env s op) → (∀ c p, keyDown c p (l ++ [op]) = keyDown c p l) → Inv (l ++ [op]) (step env s op) :=
    fun k hk => (k.freeInv h).mono fun c p e => by rw [hk]; exact e
  cases op with
  | noteOn c p v =>
    simp only [glideless, playing, decide_eq_true_eq] at hp
    simp only [step, hp.1, if_true]
    by_cases hv : v = 0
    · subst hv
      refine noteOff_freeInv hp.1 h fun k q hk hn => ?_
      rw [keyDown_snoc]; simp only
      rw [if_neg (fun x => hn ⟨x.1.symm, x.2.symm⟩)]; exact hk
    · refine noteOn_freeInv hp.1 hv h fun k q hk => ?_
      rw [keyDown_snoc]; simp only
      split
      · simpa using hv
      · rename_i hn
        rcases hk with hk | hk
        · exact hk
        · exact absurd ⟨hk.1.symm, hk.2.symm⟩ hn
  | noteOff c p =>
    simp only [glideless, playing, decide_eq_true_eq] at hp
    simp only [step, hp.1, if_true]
    refine noteOff_freeInv hp.1 h fun k q hk hn => ?_
    rw [keyDown_snoc]; simp only
    rw [if_neg (fun x => hn ⟨x.1.symm, x.2.symm⟩)]; exact hk
  | bend c b =>
    refine still ?_ fun c p => keyDown_snoc
    simp only [step]; split
    · exact pitchBend_still c b
    · exact .ub
  | program c b =>
    refine still ?_ fun c p => keyDown_snoc
    simp only [step]; split
    · exact program_still c b
    · exact .ub
  | sysex d j =>
    refine still ?_ fun c p => keyDown_snoc
    refine sysex_still d j ?_
    simpa only [voicingSysex, decide_eq_false_iff_not, glideless, playing, decide_eq_true_eq] using hp
  | remap => cases hp
  | reset => cases hp
  | tick => exact still (tick_still h) fun c p => keyDown_snoc
  | psgTick => exact FreeInv.mono (h.same rfl rfl) (fun c p e => by rw [keyDown_snoc]; exact e)
  | cc c k v =>
    simp only [glideless, playing, Bool.and_eq_true, decide_eq_true_eq, bne_iff_ne] at hp
    obtain ⟨⟨⟨⟨hc, h78⟩, h84⟩, h121⟩, h65⟩ := hp
    by_cases hv : voicing k = false
    · refine still ?_ fun c p => keyDown_snoc
      simp only [step, hc, if_true]
      exact cc_still c k v hv
    · have hv : voicing k = true := by simpa using hv
      simp only [voicing, Bool.or_eq_true, beq_iff_eq] at hv
      simp only [step, hc, if_true]
      refine Still.freeInv (.emit _) ?_
      rcases hv with ((((rfl | rfl) | rfl) | rfl) | rfl) | rfl
      · exact absurd rfl h65
      · exact absurd rfl h78
      · exact absurd rfl h84
      · exact FreeInv.mono (allNotesOff_freeInv c h) (fun c p e => by rw [keyDown_snoc]; exact e)
      · exact absurd rfl h121
      · exact FreeInv.mono (allNotesOff_freeInv c h) (fun c p e => by rw [keyDown_snoc]; exact e)

private theorem inv_run {env : Env} (ops : List Op) : ∀ (l : List Op) (s : St), Inv l s → (∀ op ∈ ops, glideless op = true) →
    Inv (l ++ ops) (run env s ops) := by
  induction ops with
  | nil => intro l s h _; rw [List.append_nil]; exact h
  | cons op ops ih =>
    intro l s h hp
    have := ih (l ++ [op]) _ (inv_step (env := env) h (hp op (by simp))) fun o h => hp o (by simp [h])
    rw [List.append_assoc] at this; exact this

private theorem playing_unkeys {op : Op} (h : playing op = true) : op.unkeys = false := by
  cases op with
  | cc c k v =>
    simp only [playing, Bool.and_eq_true, decide_eq_true_eq, bne_iff_ne] at h
    simp [Op.unkeys, h.2, h.1.1.2]
  | sysex d j =>
    simp only [playing, decide_eq_true_eq, List.mem_cons, List.not_mem_nil, or_false, not_or] at h
    simp [Op.unkeys, h]
  | _ => rfl

private theorem setup_prepares {op : Op} (h : setup op = true) : op.prepares = true := by
  cases op with
  | cc c k v =>
    simp only [setup, Bool.and_eq_true, bne_iff_ne, Bool.not_eq_true'] at h
    simp [Op.prepares, Op.unkeys, h.1.1, h.1.2]
    have := h.2; simp at this; omega
  | sysex d j =>
    simp only [setup, decide_eq_true_eq, List.mem_cons, List.not_mem_nil, or_false, not_or] at h
    simp [Op.prepares, Op.unkeys, h]
  | noteOn c p v => exact h
  | _ => rfl

private theorem setup_unkeys {op : Op} (h : setup op = true) : op.unkeys = false := by
  cases op with
  | cc c k v =>
    simp only [setup, Bool.and_eq_true, bne_iff_ne, Bool.not_eq_true'] at h
    simp [Op.unkeys, h.1.1, h.1.2]
  | sysex d j =>
    simp only [setup, decide_eq_true_eq, List.mem_cons, List.not_mem_nil, or_false, not_or] at h
    simp [Op.unkeys, h]
  | _ => rfl

/-- **C71**, nothing but held notes sounds.  From any state: reset, any set-up, then any messages but those that change
the mapping, reset, play samples, write chip registers or use portamento.  Under either mapping, for any number of
keys, a voice sounds only a key of its MIDI channel that is down, and FM channels are keyed only for sounding voices.
Full statement: with portamento; it is false (`C71_portamento_note_sticks`). -/
theorem C71_only_held_notes_sound_partial (env : Env) (he : env.Ok) (s₀ : St) (before ops : List Op)
    (hb : ∀ op ∈ before, setup op = true) (ho : ∀ op ∈ ops, glideless op = true) :
    let s := run env (run env (reset env s₀) before) ops
    (∀ i, i < 13 → (s.dev i).noteOn = true → keyDown (s.dev i).midiChannel (s.dev i).pitch ops = true) ∧
    ∀ n, n < 6 → Synth.keyed s.fm.synth.out n = true → (s.dev n).noteOn = true := by
  have hi : Inv [] (run env (reset env s₀) before) :=
    (run_idle before (fun op h => setup_prepares (hb op h)) (reset_idle s₀)).freeInv
  have h := inv_run (env := env) ops [] _ hi ho
  have k := run_keyInv he ops (fun op h => playing_unkeys (glideless_playing (ho op h)))
    (run_keyInv he before (fun op h => setup_unkeys (hb op h)) (reset_keyInv he s₀))
  exact ⟨h.on, k.on⟩

/-- **C71**, with portamento: dynamic assignment starts the glide on a voice that does not sound, the note is lost, and
the voice keeps its target.  A note another MIDI channel plays there is not found by its release and sounds on, all keys
up. -/
theorem C71_portamento_note_sticks :
    let lost : List Op := [.cc 0 65 127, .noteOn 0 50 100, .noteOff 0 50, .noteOn 0 60 100, .noteOn 0 64 100]
    let ops := lost ++ [.noteOff 0 64, .noteOn 1 70 100, .noteOff 1 70, .noteOff 0 60]
    (∀ op ∈ ops, playing op = true) ∧
    keyDown 0 64 lost = true ∧ (∀ i, i < 13 → (((Ex.after .dynamic lost).dev i).noteOn = true ↔ i = 0)) ∧
      ((Ex.after .dynamic lost).dev 0).pitch = 60 ∧ ((Ex.after .dynamic lost).dev 0).glide = 0 ∧
    (∀ c, c < 2 → ∀ p, p < 128 → keyDown c p ops = false) ∧
      ((Ex.after .dynamic ops).dev 1).noteOn = true ∧ Synth.keyed (Ex.after .dynamic ops).fm.synth.out 1 = true := by
  decide +kernel

/-! ### Every held note sounds under dynamic assignment -/

/-- The keys that are down after the messages `l`, as pairs of MIDI channel and key, newest first. -/
def downKeys (l : List Op) : List (Nat × Nat) :=
  l.foldl (fun D op => match op with
    | .noteOn c p v => if v = 0 then D.filter (· ≠ (c, p)) else (c, p) :: D
    | .noteOff c p => D.filter (· ≠ (c, p))
    | _ => D) []

/-- `glideless` but for controllers 86 (voice group), 120 and 123 (all notes off) and the "stick" exclusive message. -/
def chordal : Op → Bool
  | .cc c k v => glideless (.cc c k v) && k != 86 && k != 120 && k != 123
  | .sysex d j => glideless (.sysex d j) && d.take 4 != [0, 0x22, 0x77, 5]
  | op => glideless op

/-- Keyboard playing: a key is pressed when it is up, on any MIDI channel but the percussion channel 10, and at most nine
are down at once. -/
structure Keyboard (l : List Op) : Prop where
  chordal : ∀ op ∈ l, chordal op = true
  press : ∀ pre post c p v, l = pre ++ .noteOn c p v :: post →
    v = 0 ∨ c ≠ 9 ∧ (c, p) ∉ downKeys pre ∧ (downKeys pre).length ≤ 8

private theorem downKeys_snoc {l : List Op} {op : Op} : downKeys (l ++ [op]) = match op with
    | .noteOn c p v => if v = 0 then (downKeys l).filter (· ≠ (c, p)) else (c, p) :: downKeys l
    | .noteOff c p => (downKeys l).filter (· ≠ (c, p))
    | _ => downKeys l := by
  simp only [downKeys, List.foldl_append, List.foldl_cons, List.foldl_nil]

private theorem chordal_glideless {op : Op} (h : chordal op = true) : glideless op = true := by
  cases op with
  | cc c k v => simp only [chordal, Bool.and_eq_true] at h; exact h.1.1.1
  | sysex d j => simp only [chordal, Bool.and_eq_true] at h; exact h.1
  | _ => exact h

/-- Messages that start and end no note keep voices and settings. -/
private theorem chordal_still {env : Env} {s : St} {H : Nat → Nat → Prop} {op : Op} (h : FreeInv H s) (hc : chordal op = true)
    (h1 : ∀ c p v, op ≠ .noteOn c p v) (h2 : ∀ c p, op ≠ .noteOff c p) :
    Still s (step env s op) ∧ Steady false s (step env s op) := by
  cases op with
  | noteOn c p v => exact absurd rfl (h1 c p v)
  | noteOff c p => exact absurd rfl (h2 c p)
  | bend c b =>
    simp only [step]; split
    · exact ⟨pitchBend_still c b, pitchBend_steady c b⟩
    · exact ⟨.ub, .ub⟩
  | program c b =>
    simp only [step]; split
    · exact ⟨program_still c b, program_steady c b⟩
    · exact ⟨.ub, .ub⟩
  | sysex d j =>
    simp only [chordal, glideless, playing, Bool.and_eq_true, decide_eq_true_eq, bne_iff_ne] at hc
    have hv : voicingSysex d = false := by simpa only [voicingSysex, decide_eq_false_iff_not] using hc.1
    exact ⟨sysex_still d j hv, sysex_steady d j hv hc.2⟩
  | remap => cases hc
  | reset => cases hc
  | tick => exact ⟨tick_still h, tick_steady⟩
  | psgTick => exact ⟨.psg fun _ => rfl, .psg⟩
  | cc c k v =>
    simp only [chordal, glideless, playing, Bool.and_eq_true, decide_eq_true_eq, bne_iff_ne] at hc
    obtain ⟨⟨⟨⟨⟨⟨⟨hc, h78⟩, h84⟩, h121⟩, h65⟩, h86⟩, h120⟩, h123⟩ := hc
    have hv : voicing k = false := by simp [voicing, h78, h84, h121, h65, h120, h123]
    simp only [step, hc, if_true]
    exact ⟨cc_still c k v hv, cc_steady c k v hv h86 (by simp)⟩

private theorem poly_step {env : Env} {s : St} {l : List Op} {op : Op} (h : PolyInv (downKeys l) s) (hp : chordal op = true)
    (hn : ∀ c p v, op = .noteOn c p v → v = 0 ∨ c ≠ 9 ∧ (c, p) ∉ downKeys l ∧ (downKeys l).length ≤ 8) :
    PolyInv (downKeys (l ++ [op])) (step env s op) := by
  rw [downKeys_snoc]
  cases op with
  | noteOn c p v =>
    simp only [chordal, glideless, playing, decide_eq_true_eq] at hp
    simp only [step, hp.1, if_true]
    by_cases hv : v = 0
    · subst hv; exact noteOff_polyInv hp.1 h
    · rw [if_neg hv]
      obtain h' | ⟨h9, hm, hl⟩ := hn c p v rfl
      · exact absurd h' hv
      · exact noteOn_polyInv hp.1 hv h9 h hl hm
  | noteOff c p =>
    simp only [chordal, glideless, playing, decide_eq_true_eq] at hp
    simp only [step, hp.1, if_true]
    exact noteOff_polyInv hp.1 h
  | _ =>
    obtain ⟨k, e⟩ := chordal_still (env := env) h.free hp (by simp) (by simp)
    exact k.polyInv e h

/-- The state in which the messages `before` leave the interface is ready for chords: dynamic assignment, every MIDI channel
may use all voices, voices are not stuck to MIDI channels. -/
structure Ready (s : St) : Prop where
  dynamic : s.dynamic = true
  all : ∀ c, c < 16 → (s.chan c).deviceSelect = 0
  stick : s.cfg.stick = false

private theorem poly_run {env : Env} (ops : List Op) : ∀ (l : List Op) (s : St), PolyInv (downKeys l) s →
    (∀ op ∈ ops, chordal op = true) →
    (∀ pre post c p v, ops = pre ++ .noteOn c p v :: post →
      v = 0 ∨ c ≠ 9 ∧ (c, p) ∉ downKeys (l ++ pre) ∧ (downKeys (l ++ pre)).length ≤ 8) →
    PolyInv (downKeys (l ++ ops)) (run env s ops) := by
  induction ops with
  | nil => intro l s h _ _; rw [List.append_nil]; exact h
  | cons op ops ih =>
    intro l s h hp hn
    have hs := poly_step (env := env) h (hp op (by simp)) (fun c p v e => by simpa using hn [] ops c p v (by rw [e]; rfl))
    have := ih (l ++ [op]) _ hs (fun o h => hp o (by simp [h]))
      (fun pre post c p v e => by simpa using hn (op :: pre) post c p v (by rw [e]; rfl))
    rw [List.append_assoc] at this; exact this

private theorem poly_of {env : Env} (s₀ : St) (before ops : List Op) (hb : ∀ op ∈ before, setup op = true)
    (hr : Ready (run env (reset env s₀) before)) (ho : Keyboard ops) :
    PolyInv (downKeys ops) (run env (run env (reset env s₀) before) ops) := by
  have hi : PolyInv (downKeys []) (run env (reset env s₀) before) :=
    (run_idle before (fun op h => setup_prepares (hb op h)) (reset_idle s₀)).polyInv hr.dynamic hr.all hr.stick
  exact poly_run (env := env) ops [] _ hi ho.chordal ho.press

/-- Keyboard playing up to a moment. -/
theorem Keyboard.of_append {pre post : List Op} (h : Keyboard (pre ++ post)) : Keyboard pre :=
  ⟨fun op ho => h.chordal op (by simp [ho]), fun a b c p v e => h.press a (b ++ post) c p v (by rw [e]; simp)⟩

theorem keyboard_poly {env : Env} (s₀ : St) (ops : List Op) (hr : Ready (reset env s₀)) (ho : Keyboard ops) :
    PolyInv (downKeys ops) (run env (reset env s₀) ops) :=
  poly_of s₀ [] ops (by simp) hr ho

/-- **C71**, nine-voice polyphony.  Under dynamic assignment with every voice open to every MIDI channel, however keys are
pressed and released on however many MIDI channels: while at most nine are down, each key that is down sounds on one and
only one of the nine tone voices, and nothing else sounds. -/
theorem C71_every_held_note_sounds (env : Env) (s₀ : St) (before ops : List Op) (hb : ∀ op ∈ before, setup op = true)
    (hr : Ready (run env (reset env s₀) before)) (ho : Keyboard ops) :
    let s := run env (run env (reset env s₀) before) ops
    let sounds := fun i c p => i < 13 ∧ (s.dev i).noteOn = true ∧ (s.dev i).midiChannel = c ∧ (s.dev i).pitch = p
    (∀ c p, (c, p) ∈ downKeys ops → ∃ i, sounds i c p ∧ i < 9 ∧ ∀ j, sounds j c p → j = i) ∧
    ∀ i c p, sounds i c p → (c, p) ∈ downKeys ops := by
  have h := poly_of s₀ before ops hb hr ho
  refine ⟨fun c p hm => ?_, fun i c p hs => ?_⟩
  · obtain ⟨i, hi, h1, h2, h3⟩ := h.down _ hm
    exact ⟨i, ⟨hi, h1, h2, h3⟩, by have := h.low i hi h1; omega,
      fun j ⟨hj, j1, j2, j3⟩ => h.inj j i hj hi j1 h1 (j2.trans h2.symm) (j3.trans h3.symm)⟩
  · obtain ⟨hi, h1, rfl, rfl⟩ := hs
    exact h.free.on i hi h1

private def Whole (s : St) : Prop := ∀ j, j < 13 → (s.dev j).cents = 0

private theorem upd_whole {s t : St} {i : Nat} {d : Dev} (h : Whole s) (e : t.dev = upd s.dev i d) (hd : i < 13 → d.cents = 0) :
    Whole t := fun j hj => by
  rw [e]
  by_cases x : j = i
  · subst x; rw [Psg.upd_same]; exact hd hj
  · rw [Psg.upd_other _ _ _ _ x]; exact h j hj

private theorem noteOff_whole {env : Env} {s : St} (c p : Nat) (h : Whole s) : Whole (noteOff env s c p) := by
  unfold noteOff
  split
  · exact h
  split
  · exact h
  rename_i st _
  simp only
  have h1 : Whole (setChan s c fun m => { m with stack := st }) := h
  generalize setChan s c _ = t at *
  refine List.foldlRecOn (motive := fun x : St × Bool => Whole x.1) _ _ h1 fun x h i _ => ?_
  obtain ⟨s, handled⟩ := x
  unfold noteOffBody
  simp only at h ⊢
  split
  · split
    · split
      · split
        · exact h
        · exact upd_whole (i := i) (d := { s.dev i with glide := _ }) h rfl fun hi => h i hi
      · exact upd_whole h (devChanNoteOn_dev i _ _) fun _ => rfl
    · exact upd_whole h (devChanNoteOff_dev i) fun hi => h i hi
  · exact h

private theorem noteOn_whole {env : Env} {s : St} {c : Nat} (hc : c < 16) (p v : Nat) (h : Whole s) :
    Whole (noteOn env s c p v) := by
  unfold noteOn
  split
  · exact noteOff_whole c p h
  split
  · exact h
  split
  · exact h
  rename_i i hi
  split
  · split
    · exact h
    split
    · exact h
    simp only
    split
    · exact upd_whole (s := s) (i := i) (d := { s.dev i with glide := p }) h rfl fun hi => h i hi
    · refine upd_whole ?_ (startNote_dev hc) fun _ => rfl
      exact upd_whole (s := s) (i := i) (d := { s.dev i with glide := 0 }) h rfl fun hi => h i hi
  · exact upd_whole h (startNote_dev hc) fun _ => rfl

private theorem whole_run {env : Env} (ops : List Op) : ∀ (l : List Op) (s : St), PolyInv (downKeys l) s → Whole s →
    (∀ op ∈ ops, chordal op = true) →
    (∀ pre post c p v, ops = pre ++ .noteOn c p v :: post →
      v = 0 ∨ c ≠ 9 ∧ (c, p) ∉ downKeys (l ++ pre) ∧ (downKeys (l ++ pre)).length ≤ 8) →
    Whole (run env s ops) := by
  induction ops with
  | nil => intro l s _ k _ _; exact k
  | cons op ops ih =>
    intro l s h k hp hn
    have hs := poly_step (env := env) h (hp op (by simp)) (fun c p v e => by simpa using hn [] ops c p v (by rw [e]; rfl))
    refine ih (l ++ [op]) _ hs ?_ (fun o h => hp o (by simp [h]))
      (fun pre post c p v e => by simpa using hn (op :: pre) post c p v (by rw [e]; rfl))
    have hp := hp op (by simp)
    cases op with
    | noteOn c p v =>
      simp only [chordal, glideless, playing, decide_eq_true_eq] at hp
      simp only [step, hp.1, if_true]
      exact noteOn_whole hp.1 p v k
    | noteOff c p =>
      simp only [chordal, glideless, playing, decide_eq_true_eq] at hp
      simp only [step, hp.1, if_true]
      exact noteOff_whole c p k
    | _ => exact fun j hj => (Dev.core_eq ((chordal_still (env := env) h.free hp (by simp) (by simp)).1.dev j)).2.2.2.2.2.1.trans (k j hj)

/-- Keyboard playing leaves every voice on its key: no glide moves it. -/
theorem keyboard_whole {env : Env} (s₀ : St) (ops : List Op) (hr : Ready (reset env s₀)) (ho : Keyboard ops) :
    ∀ j, j < 13 → ((run env (reset env s₀) ops).dev j).cents = 0 := by
  have hi : PolyInv (downKeys []) (reset env s₀) := (reset_idle s₀).polyInv hr.dynamic hr.all hr.stick
  refine whole_run (env := env) ops [] _ hi (fun j hj => ?_) ho.chordal ho.press
  unfold reset
  rw [resetChannels_devs j hj]
  rfl

/-! ### On the chip -/

private theorem keys_step {env : Env} (he : env.Ok) {s : St} {l : List Op} {op : Op} (h : PolyInv (downKeys l) s) (w : KeyInv s)
    (k : KeysOn s) (hp : chordal op = true) (hn : ∀ c p v, op = .noteOn c p v → v = 0 ∨ FmRange s c p) :
    KeysOn (step env s op) := by
  cases op with
  | noteOn c p v =>
    simp only [chordal, glideless, playing, decide_eq_true_eq] at hp
    simp only [step, hp.1, if_true]
    by_cases hv : v = 0
    · subst hv; exact noteOff_keysOn hp.1 h w k
    · obtain h' | hr := hn c p v rfl
      · exact absurd h' hv
      · exact noteOn_keysOn he hp.1 hv h.free w k hr
  | noteOff c p =>
    simp only [chordal, glideless, playing, decide_eq_true_eq] at hp
    simp only [step, hp.1, if_true]
    exact noteOff_keysOn hp.1 h w k
  | _ => exact (chordal_still (env := env) h.free hp (by simp) (by simp)).1.keysOn k

private theorem keys_run {env : Env} (he : env.Ok) (ops : List Op) : ∀ (l : List Op) (s : St), PolyInv (downKeys l) s → KeyInv s →
    KeysOn s → (∀ op ∈ ops, chordal op = true) →
    (∀ pre post c p v, ops = pre ++ .noteOn c p v :: post →
      v = 0 ∨ c ≠ 9 ∧ (c, p) ∉ downKeys (l ++ pre) ∧ (downKeys (l ++ pre)).length ≤ 8) →
    (∀ pre post c p v, ops = pre ++ .noteOn c p v :: post → v = 0 ∨ FmRange (run env s pre) c p) →
    KeysOn (run env s ops) := by
  induction ops with
  | nil => intro l s _ _ k _ _ _; exact k
  | cons op ops ih =>
    intro l s h w k hp hn hr
    have hs := poly_step (env := env) h (hp op (by simp)) (fun c p v e => by simpa using hn [] ops c p v (by rw [e]; rfl))
    have hk := keys_step he h w k (hp op (by simp)) (fun c p v e => hr [] ops c p v (by rw [e]; rfl))
    exact ih (l ++ [op]) _ hs (run_keyInv he [op] (fun o ho => playing_unkeys (glideless_playing (chordal_glideless
        (hp o (by simp at ho; simp [ho]))))) w) hk (fun o h => hp o (by simp [h]))
      (fun pre post c p v e => by simpa using hn (op :: pre) post c p v (by rw [e]; rfl))
      (fun pre post c p v e => hr (op :: pre) post c p v (by rw [e]; rfl))

/-- Induction over keyboard playing in dynamic mode. -/
theorem keyboard_induct {env : Env} (he : env.Ok) (P : List Op → St → Prop) (s₀ : St) (ops : List Op)
    (hr : Ready (reset env s₀)) (ho : Keyboard ops) (base : Idle (reset env s₀) → P [] (reset env s₀))
    (on : ∀ pre post c p v, ops = pre ++ .noteOn c p v :: post → c < 16 → v ≠ 0 → c ≠ 9 →
      let s := run env (reset env s₀) pre
      PolyInv (downKeys pre) s → (c, p) ∉ downKeys pre → (downKeys pre).length ≤ 8 → KeyInv s → P pre s →
        P (pre ++ [.noteOn c p v]) (noteOn env s c p v))
    (off : ∀ pre c p s op, op = .noteOff c p ∨ op = .noteOn c p 0 → c < 16 → PolyInv (downKeys pre) s → P pre s →
      P (pre ++ [op]) (noteOff env s c p))
    (still : ∀ pre s t op, (∀ c p v, op ≠ .noteOn c p v) → Still s t → P pre s → P (pre ++ [op]) t) :
    P ops (run env (reset env s₀) ops) := by
  have key : ∀ post pre, ops = pre ++ post → PolyInv (downKeys pre) (run env (reset env s₀) pre) → KeyInv (run env (reset env s₀) pre) →
      P pre (run env (reset env s₀) pre) → P ops (run env (reset env s₀) ops) := by
    intro post
    induction post with
    | nil => intro pre e _ _ h; rw [e, List.append_nil]; exact h
    | cons op post ih =>
      intro pre e h w k
      have hp := ho.chordal op (by rw [e]; simp)
      have hn : ∀ c p v, op = .noteOn c p v → v = 0 ∨ c ≠ 9 ∧ (c, p) ∉ downKeys pre ∧ (downKeys pre).length ≤ 8 :=
        fun c p v x => ho.press pre post c p v (by rw [e, x])
      have er : run env (reset env s₀) (pre ++ [op]) = step env (run env (reset env s₀) pre) op := by simp [run]
      refine ih (pre ++ [op]) (by rw [e]; simp) (er ▸ poly_step h hp hn) ?_ ?_
      · rw [er]
        exact run_keyInv he [op] (fun o ho => playing_unkeys (glideless_playing (chordal_glideless (by simp at ho; rw [ho]; exact hp)))) w
      rw [er]
      cases op with
      | noteOn c p v =>
        simp only [chordal, glideless, playing, decide_eq_true_eq] at hp
        simp only [step, hp.1, if_true]
        by_cases hv : v = 0
        · subst hv; exact off pre c p _ _ (.inr rfl) hp.1 h k
        · obtain ⟨h1, h2, h3⟩ := (hn c p v rfl).resolve_left hv
          exact on pre post c p v e hp.1 hv h1 h h2 h3 w k
      | noteOff c p =>
        simp only [chordal, glideless, playing, decide_eq_true_eq] at hp
        simp only [step, hp.1, if_true]
        exact off pre c p _ _ (.inl rfl) hp.1 h k
      | _ => exact still pre _ _ _ (by simp) (chordal_still (env := env) h.free hp (by simp) (by simp)).1 k
  have hi := reset_idle (env := env) s₀
  exact key ops [] rfl (hi.polyInv hr.dynamic hr.all hr.stick) (reset_keyInv he s₀) (base hi)

/-- **C71**, on the chip: when each key pressed, as tuned by its MIDI channel's bend and fine tuning at that moment, lies in
the range of the FM channels (11 to 106), an FM channel is keyed exactly while its voice sounds. -/
theorem C71_keyed_iff_sounding (env : Env) (he : env.Ok) (s₀ : St) (before ops : List Op) (hb : ∀ op ∈ before, setup op = true)
    (hr : Ready (run env (reset env s₀) before)) (ho : Keyboard ops)
    (hf : ∀ pre post c p v, ops = pre ++ .noteOn c p v :: post → v = 0 ∨
      let m := (run env (run env (reset env s₀) before) pre).chan c
      let pc := effectivePitchCents p 0 m.pitchBend m.range m.fineTune
      11 ≤ pc.pitch ∧ pc.pitch ≤ 106) :
    let s := run env (run env (reset env s₀) before) ops
    ∀ n, n < 6 → (Synth.keyed s.fm.synth.out n = true ↔ (s.dev n).noteOn = true) := by
  have hi := run_idle (env := env) before (fun op h => setup_prepares (hb op h)) (reset_idle (env := env) s₀)
  have hk := run_keyInv he before (fun op h => setup_unkeys (hb op h)) (reset_keyInv he s₀)
  have hp : PolyInv (downKeys []) (run env (reset env s₀) before) := hi.polyInv hr.dynamic hr.all hr.stick
  have k := run_keyInv he ops (fun op h => playing_unkeys (glideless_playing (chordal_glideless (ho.chordal op h)))) hk
  exact fun n hn => ⟨k.on n hn, keys_run he ops [] _ hp hk hi.keysOn ho.chordal ho.press hf n hn⟩

private theorem centred {p : Nat} (hp : p < 128) (r : PitchCents) : (effectivePitchCents p 0 0x2000 r 0).pitch = p := by
  have : toS16 ((((0x2000 : Nat) : Int) - 0x2000) * toS16 ((r.pitch : Int) * 100 + r.cents) |>.tdiv 8192) = 0 := by
    simp [toS16]
  simp only [effectivePitchCents, pcBend, this]
  have e : toU16 ((p : Int) * 100 + 0 + 0) = p * 100 := by unfold toU16; omega
  simp only [pcShift, e]
  have e1 : toU8 (((p * 100 / 100 : Nat)) : Int) = p := by unfold toU8; omega
  have e2 : toS8 ((p * 100 % 100 : Nat) : Int) = 0 := by simp [toS8]
  rw [e1, e2]
  have e : toU16 ((p : Int) * 100 + 0 + 0) = p * 100 := by unfold toU16; omega
  simp only [e, e1]

/-- Bends and fine tuning are left alone. -/
def untuned : Op → Bool
  | .bend _ _ => false
  | .cc _ k _ => k != 85
  | _ => true

private theorem untuned_steady {env : Env} {s : St} {op : Op} (hc : chordal op = true) (hu : untuned op = true) :
    Steady true s (step env s op) := by
  cases op with
  | noteOn c p v =>
    simp only [step]; split
    · exact noteOn_steady c p v
    · exact .ub
  | noteOff c p =>
    simp only [step]; split
    · exact noteOff_steady c p
    · exact .ub
  | bend c b => cases hu
  | program c b =>
    simp only [step]; split
    · exact program_steady c b
    · exact .ub
  | sysex d j =>
    simp only [chordal, glideless, playing, Bool.and_eq_true, decide_eq_true_eq, bne_iff_ne] at hc
    have hv : voicingSysex d = false := by simpa only [voicingSysex, decide_eq_false_iff_not] using hc.1
    exact sysex_steady d j hv hc.2
  | remap => cases hc
  | reset => cases hc
  | tick => exact tick_steady
  | psgTick => exact .psg
  | cc c k v =>
    simp only [untuned, bne_iff_ne] at hu
    simp only [chordal, glideless, playing, Bool.and_eq_true, decide_eq_true_eq, bne_iff_ne] at hc
    obtain ⟨⟨⟨⟨⟨⟨⟨hc, h78⟩, h84⟩, h121⟩, h65⟩, h86⟩, h120⟩, h123⟩ := hc
    have hv : voicing k = false := by simp [voicing, h78, h84, h121, h65, h120, h123]
    simp only [step, hc, if_true]
    exact cc_steady c k v hv h86 fun _ => hu

private theorem untuned_run {env : Env} (ops : List Op) : ∀ s : St, (∀ op ∈ ops, chordal op = true ∧ untuned op = true) →
    Steady true s (run env s ops) := by
  induction ops with
  | nil => intro s _; exact .refl
  | cons op ops ih =>
    intro s h
    have h0 := h op (by simp)
    exact (untuned_steady h0.1 h0.2).trans (ih _ fun o ho => h o (by simp [ho]))

/-- **C71**, with bends and tuning at rest: every key from 11 to 106 that is down keys its FM channel or sounds on a PSG
tone, and with all keys up every FM channel is keyed off. -/
theorem C71_held_keys_reach_chip (env : Env) (he : env.Ok) (s₀ : St) (before ops : List Op)
    (hb : ∀ op ∈ before, setup op = true) (hr : Ready (run env (reset env s₀) before)) (ho : Keyboard ops)
    (ht : ∀ c, c < 16 → ((run env (reset env s₀) before).chan c).pitchBend = 0x2000 ∧
      ((run env (reset env s₀) before).chan c).fineTune = 0) (hu : ∀ op ∈ ops, untuned op = true)
    (hk : ∀ c p v, .noteOn c p v ∈ ops → v = 0 ∨ 11 ≤ p ∧ p ≤ 106) :
    let s := run env (run env (reset env s₀) before) ops
    (∀ c p, (c, p) ∈ downKeys ops → ∃ i, (i < 6 ∧ Synth.keyed s.fm.synth.out i = true ∨ 6 ≤ i ∧ i < 9) ∧
      (s.dev i).noteOn = true ∧ (s.dev i).midiChannel = c ∧ (s.dev i).pitch = p) ∧
    ∀ n, n < 6 → Synth.keyed s.fm.synth.out n = true → ((s.dev n).midiChannel, (s.dev n).pitch) ∈ downKeys ops := by
  obtain ⟨h1, h2⟩ := C71_every_held_note_sounds env s₀ before ops hb hr ho
  have h3 := C71_keyed_iff_sounding env he s₀ before ops hb hr ho fun pre post c p v e => by
    obtain h | h := hk c p v (by rw [e]; simp)
    · exact .inl h
    refine .inr ?_
    have hm : chordal (.noteOn c p v) = true := ho.chordal _ (by rw [e]; simp)
    simp only [chordal, glideless, playing, decide_eq_true_eq] at hm
    have hs := untuned_run (env := env) pre (run env (reset env s₀) before) fun op hp =>
      ⟨ho.chordal op (by rw [e]; simp [hp]), hu op (by rw [e]; simp [hp])⟩
    obtain ⟨e1, e2⟩ := hs.tune rfl c
    simp only [e1, e2, (ht c hm.1).1, (ht c hm.1).2, centred hm.2]
    exact h
  refine ⟨fun c p hm => ?_, fun n hn h => ?_⟩
  · obtain ⟨i, ⟨-, a, b, d⟩, h9, -⟩ := h1 c p hm
    refine ⟨i, ?_, a, b, d⟩
    by_cases h6 : i < 6
    · exact .inl ⟨h6, (h3 i h6).2 a⟩
    · exact .inr ⟨by omega, h9⟩
  · exact h2 n _ _ ⟨by omega, (h3 n hn).1 h, rfl, rfl⟩

/-! ### Examples -/

/-- Ten keys over two MIDI channels in turn, one voice freed and taken again. -/
private def chord : List Op :=
  [.noteOn 0 60 100, .noteOn 0 64 100, .noteOn 1 67 100, .program 1 5, .noteOn 1 60 90, .noteOn 0 70 80, .noteOn 0 72 80, .tick,
    .noteOn 0 74 80, .noteOn 0 76 80, .noteOn 0 77 80, .noteOff 0 64, .noteOn 2 50 80]

/-- All nine tone voices sound; the freed voice was given to MIDI channel 3. -/
example : let s := Ex.after .dynamic chord
    (downKeys chord).length = 9 ∧ (∀ i, i < 9 → (s.dev i).noteOn = true) ∧ (∀ i, i < 6 → Synth.keyed s.fm.synth.out i = true) ∧
    (s.dev 1).midiChannel = 2 ∧ (s.dev 1).pitch = 50 ∧ (∀ i, i < 13 → 9 ≤ i → (s.dev i).noteOn = false) := by
  decide +kernel

/-- It is keyboard playing. -/
example : Keyboard chord ∧ ∀ op ∈ chord, untuned op = true := by
  have h : ∀ n, n < chord.length → (match chord[n]? with
    | some (.noteOn c p _) => decide (c ≠ 9 ∧ (c, p) ∉ downKeys (chord.take n) ∧ (downKeys (chord.take n)).length ≤ 8)
    | _ => true) = true := by decide +kernel
  refine ⟨⟨by decide, fun pre post c p v e => .inr ?_⟩, by decide⟩
  have h := h pre.length (by rw [e]; simp)
  rw [e] at h
  simpa using h

/-- The interface comes up ready in dynamic mode. -/
example : (Ex.start .dynamic).dynamic = true ∧ (∀ c, c < 16 → ((Ex.start .dynamic).chan c).deviceSelect = 0 ∧
    ((Ex.start .dynamic).chan c).pitchBend = 0x2000 ∧ ((Ex.start .dynamic).chan c).fineTune = 0) ∧
    (Ex.start .dynamic).cfg.stick = false := by
  decide +kernel

/-- A tenth key is not played. -/
example : let s := Ex.after .dynamic (chord ++ [.noteOn 3 80 100])
    ∀ i, i < 13 → ¬((s.dev i).noteOn = true ∧ (s.dev i).midiChannel = 3) := by
  decide +kernel

end Mdmi.Props
