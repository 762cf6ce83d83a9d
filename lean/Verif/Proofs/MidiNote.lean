import Verif.Proofs.MidiChip
/-!
# Notes: what the two note messages do to device channels and MIDI channels, in every state
-/
namespace Mdmi.Midi
open NotePriority (Rep Stack)

variable {env : Env} {s t : St}

theorem Reached.ok (he : env.Ok) (h : Reached env s) : ∃ tame, Ok env tame s := by
  obtain ⟨b, m, ops, hw, h | h, rfl⟩ := h
  · exact ⟨false, run_ok he ops _ (boot_ok he b m) hw (fun _ => h) (by simp)⟩
  · exact ⟨true, run_ok he ops _ (boot_ok he b m) hw (by simp) (fun _ => h)⟩

theorem StackOk.rep {st : Stack} (h : StackOk st) : Rep st (held st) := by
  obtain ⟨h1, h2, h3⟩ := h
  refine ⟨h1, ?_, ?_, fun k hk => ?_⟩
  · simp [held, h1]; omega
  · simp only [held, List.length_take, h1]; omega
  · simp only [held, List.length_take] at hk
    simp only [held, List.getElem_take]
    rw [List.getElem?_eq_getElem]

theorem Rep.held {st : Stack} {l : List Nat} (h : Rep st l) : held st = l := by
  have h3 := h.top
  have : (st.top + 1).toNat = l.length := by omega
  unfold Midi.held
  rw [this]
  refine List.ext_getElem? fun k => ?_
  by_cases hk : k < l.length
  · rw [List.getElem?_take_of_lt hk, h.get k hk, List.getElem?_eq_getElem hk]
  · rw [List.getElem?_eq_none (by simp; omega), List.getElem?_eq_none (by omega)]

theorem Rep.ok {st : Stack} {l : List Nat} (h : Rep st l) : StackOk st :=
  ⟨h.len, by have := h.top; omega, by have := h.top; have := h.le; omega⟩

theorem getLastD_mem {l : List Nat} (h : l.getLastD 0 ≠ 0) : l.getLastD 0 ∈ l := by
  rcases List.eq_nil_or_concat l with e | ⟨l', a, e⟩
  · subst e; exact absurd rfl h
  · subst e; simp

/-! ### Choice of a device channel -/

theorem suitable_iff {d : Dev} {c : Nat} :
    suitable d c = true ↔ d.noteOn = false ∧ ¬(d.ops = .psg ∧ c = 9) := by
  unfold suitable psgPercussive
  cases d.noteOn <;> cases d.ops <;> simp <;> omega

/-- Whatever is chosen is idle, or already belongs to the channel. -/
theorem findFree_own {c i : Nat} (h : findFree s c = some i) :
    (s.dev i).noteOn = false ∨ (s.dev i).midiChannel = c := by
  unfold findFree at h
  revert h
  rcases minMax s c with ⟨lo, hi⟩
  intro h
  simp only at h
  split at h
  · rename_i j hj
    simp only [Option.some.injEq] at h; subst h
    have := List.find?_some hj
    simp only [Bool.and_eq_true, beq_iff_eq] at this
    exact .inr this.1
  · split at h
    · exact .inr (devByMidi_some h).2
    · split at h
      · rename_i j hj
        simp only [Option.some.injEq] at h; subst h
        unfold findFreePsgSquare at hj
        split at hj
        · have := List.find?_some hj
          exact .inl (suitable_iff.1 this).1
        · cases hj
      · split at h
        · rename_i j hj
          simp only [Option.some.injEq] at h; subst h
          have k : ∀ lo hi, findInSpan s c lo hi = some j →
              (s.dev j).noteOn = false ∨ (s.dev j).midiChannel = c := by
            intro lo hi h
            rcases (findInSpan_some h).2.2 with h | h
            · exact .inl (suitable_iff.1 h).1
            · exact .inr h.1
          unfold findDeviceSpecific at hj
          split at hj
          · split at hj
            · cases hj
            · split at hj <;> exact k _ _ hj
          · exact k _ _ hj
        · unfold findAnyFree at h
          have := List.find?_some h
          exact .inl (suitable_iff.1 this).1

/-! ### Note on -/

/-- Device channel `i` is the only one a note-on touches, if it is chosen at all. -/
theorem noteOn_dev {c p v i : Nat} (hc : c < 16) (hv : v ≠ 0) (h : findFree s c ≠ some i) :
    (noteOn env s c p v).dev i = s.dev i := by
  unfold noteOn
  rw [if_neg hv]
  split
  · rfl
  split
  · rfl
  rename_i j hj
  have e : i ≠ j := fun e => h (e ▸ hj)
  split
  · split
    · rfl
    split
    · rfl
    simp only
    split
    · simp [Psg.upd_other _ _ _ _ e]
    · rw [startNote_dev hc]; simp [Psg.upd_other _ _ _ _ e]
  · rw [startNote_dev hc]; simp [Psg.upd_other _ _ _ _ e]

/-- A note-on touches no other MIDI channel. -/
theorem noteOn_chan {c p v k : Nat} (hv : v ≠ 0) (h : k ≠ c) :
    (noteOn env s c p v).chan k = s.chan k := by
  unfold noteOn
  rw [if_neg hv]
  split
  · rfl
  split
  · rfl
  split
  · split
    · rfl
    split
    · rfl
    simp only
    split
    · simp [Psg.upd_other _ _ _ _ h]
    · simp [Psg.upd_other _ _ _ _ h]
  · simp

/-! ### Note off -/

/-- Whether a note-off of `p` on `c` concerns the device channel. -/
def Hit (s : St) (c p i : Nat) : Prop := (s.dev i).midiChannel = c ∧ isPlaying (s.dev i) p = true

instance : Decidable (Hit s c p i) := by unfold Hit; infer_instance

theorem noteOffBody_miss {c p next i : Nat} {single : Bool} {x : St × Bool} (h : ¬Hit x.1 c p i) :
    noteOffBody env c p next single x i = x := by
  unfold noteOffBody
  exact if_neg h

theorem noteOffBody_release {c p next i : Nat} {single : Bool} {x : St × Bool} (h : Hit x.1 c p i)
    (ha : (single && next != 0) = false) :
    noteOffBody env c p next single x i = (devChanNoteOff env x.1 i, x.2) := by
  unfold noteOffBody
  simp only
  unfold Hit at h
  rw [if_pos h, if_neg]
  rw [Bool.and_assoc, ha]; simp

/-- No retrigger: every device channel the note sounds on is released, in order. -/
theorem noteOff_releases {c p next : Nat} {single : Bool} (ha : (single && next != 0) = false)
    (l : List Nat) (hl : l.Nodup) : ∀ x : St × Bool,
    (l.foldl (noteOffBody env c p next single) x).1 =
      (l.filter fun i => decide (Hit x.1 c p i)).foldl (devChanNoteOff env) x.1 := by
  induction l with
  | nil => intro x; rfl
  | cons i l ih =>
    intro x
    obtain ⟨hi, hl⟩ := List.nodup_cons.1 hl
    simp only [List.foldl_cons]
    by_cases h : Hit x.1 c p i
    · rw [noteOffBody_release h ha, ih hl]
      simp only [List.filter_cons, h, decide_true, if_true, List.foldl_cons]
      congr 1
      refine List.filter_congr fun j hj => ?_
      have e : j ≠ i := fun e => hi (e ▸ hj)
      have : Hit (devChanNoteOff env x.1 i) c p j ↔ Hit x.1 c p j := by
        unfold Hit; rw [devChanNoteOff_dev, Psg.upd_other _ _ _ _ e]
      simp only [this]
    · rw [noteOffBody_miss h, ih hl]
      simp [h]

theorem fold_miss {c p next : Nat} {single : Bool} (l : List Nat) (x : St × Bool) (h : ∀ i ∈ l, ¬Hit x.1 c p i) :
    l.foldl (noteOffBody env c p next single) x = x := by
  induction l with
  | nil => rfl
  | cons i l ih =>
    rw [List.foldl_cons, noteOffBody_miss (h i (by simp))]
    exact ih fun j hj => h j (by simp [hj])

/-- One device channel retriggered. -/
theorem fold_one {c p next a : Nat} {single : Bool} {l : List Nat} (hl : l.Nodup) (ha : a ∈ l) (s : St)
    (h1 : ∀ i ∈ l, Hit s c p i → i = a) (h2 : ∀ i, i ≠ a → (noteOffBody env c p next single (s, false) a).1.dev i = s.dev i) :
    l.foldl (noteOffBody env c p next single) (s, false) = noteOffBody env c p next single (s, false) a := by
  obtain ⟨l1, l2, rfl⟩ := List.append_of_mem ha
  rw [List.foldl_append, List.foldl_cons]
  have n := List.nodup_append.1 hl
  rw [fold_miss l1 (s, false)]
  · refine fold_miss l2 _ fun i hi hh => ?_
    have e : i ≠ a := by
      rintro rfl; exact (List.nodup_cons.1 n.2.1).1 hi
    unfold Hit at hh
    rw [h2 i e] at hh
    exact e (h1 i (by simp [hi]) hh)
  · intro i hi hh
    have := h1 i (by simp [hi]) hh
    subst this
    exact n.2.2 i hi i (by simp) rfl

/-- With a single sounding voice, at most one device channel is concerned. -/
theorem single_hit {c a b : Nat} (h : singleVoice s c true = true) (ha : a < 13) (hb : b < 13)
    (h1 : (s.dev a).midiChannel = c ∧ (s.dev a).noteOn = true)
    (h2 : (s.dev b).midiChannel = c ∧ (s.dev b).noteOn = true) : a = b := by
  unfold singleVoice at h
  simp only [beq_iff_eq] at h
  obtain ⟨k, hk⟩ := List.length_eq_one_iff.1 h
  have m : ∀ i, i < 13 → (s.dev i).midiChannel = c ∧ (s.dev i).noteOn = true → i = k := by
    intro i hi hh
    have : i ∈ [k] := by rw [← hk]; simp [hi, hh.1, hh.2]
    simpa using this
  rw [m a ha h1, m b hb h2]

theorem isPlaying_on {d : Dev} {p : Nat} (h : isPlaying d p = true) : d.noteOn = true := by
  unfold isPlaying at h; simp at h; exact h.1

/-- What a note-off does to a device channel it concerns. -/
def released (m : Chan) (single : Bool) (next : Nat) (d : Dev) : Dev :=
  if single = true ∧ next ≠ 0 then
    if m.portamento then { d with glide := next } else { d with noteOn := true, cents := 0, pitch := next }
  else { d with noteOn := false, pitch := 0 }

/-- The effect of a note-off on devices and channels, for a well-formed stack with contents `l`. -/
structure NoteOffEff (s t : St) (c p : Nat) (l : List Nat) : Prop where
  dev : ∀ i, t.dev i = if i < 13 ∧ Hit s c p i then
    released (s.chan c) (singleVoice s c true) ((l.filter (· ≠ p)).getLastD 0) (s.dev i) else s.dev i
  other : ∀ k, k ≠ c → t.chan k = s.chan k
  chan : t.chan c = { s.chan c with stack := (t.chan c).stack }
  kept : (∃ i, i < 13 ∧ Hit s c p i) ∧ singleVoice s c true = true ∧
    (l.filter (· ≠ p)).getLastD 0 ≠ 0 ∧ (s.chan c).portamento = true → Rep (t.chan c).stack (l.filter (· ≠ p))
  popped : ¬((∃ i, i < 13 ∧ Hit s c p i) ∧ singleVoice s c true = true ∧
    (l.filter (· ≠ p)).getLastD 0 ≠ 0 ∧ (s.chan c).portamento = true) →
    Rep (t.chan c).stack (l.filter (· ≠ p)).dropLast

theorem foldOff_dev (l : List Nat) (s : St) (j : Nat) : (l.foldl (devChanNoteOff env) s).dev j =
    if j ∈ l then { s.dev j with noteOn := false, pitch := 0 } else s.dev j := by
  induction l generalizing s with
  | nil => simp
  | cons i l ih =>
    rw [List.foldl_cons, ih, devChanNoteOff_dev]
    by_cases e : j = i
    · subst e; simp
    · simp [Psg.upd_other _ _ _ _ e, e]

theorem foldOff_chan (l : List Nat) (s : St) : (l.foldl (devChanNoteOff env) s).chan = s.chan := by
  induction l generalizing s with
  | nil => rfl
  | cons i l ih => rw [List.foldl_cons, ih, devChanNoteOff_chan]

theorem noteOff_eff {c p : Nat} {l : List Nat} (hl : Rep (s.chan c).stack l) :
    NoteOffEff s (noteOff env s c p) c p l := by
  obtain ⟨st, e, hr⟩ := hl.remove p
  obtain ⟨st', e', hr'⟩ := hr.pop
  generalize hq : l.filter (· ≠ p) = q at hr hr' e'
  simp only [noteOff, e, e']
  simp only [NoteStack.popNewest] at hr' ⊢
  generalize hs1 : setChan s c (fun m => { m with stack := st' }) = s1
  have d1 : s1.dev = s.dev := by rw [← hs1]; rfl
  have hh : ∀ i, Hit s1 c p i ↔ Hit s c p i := by intro i; unfold Hit; rw [d1]
  have c1 : s1.chan c = { s.chan c with stack := st' } := by rw [← hs1]; simp
  have c2 : ∀ k, k ≠ c → s1.chan k = s.chan k := fun k hk => by rw [← hs1]; simp [Psg.upd_other _ _ _ _ hk]
  have v1 : singleVoice s1 c true = singleVoice s c true := by unfold singleVoice; rw [d1]
  rw [v1]
  by_cases ha : (singleVoice s c true && q.getLastD 0 != 0) = true
  · simp only [Bool.and_eq_true, bne_iff_ne] at ha
    have hne : q ≠ [] := by rintro rfl; simp at ha
    by_cases hx : ∃ a, a < 13 ∧ Hit s c p a
    · obtain ⟨a, ha13, hxa⟩ := hx
      have uniq : ∀ i ∈ List.range 13, Hit s1 c p i → i = a := by
        intro i hi hhi
        rw [hh] at hhi
        exact single_hit ha.1 (by simpa using hi) ha13 ⟨hhi.1, isPlaying_on hhi.2⟩ ⟨hxa.1, isPlaying_on hxa.2⟩
      obtain ⟨st2, e2, hr2⟩ := hr'.push (q.getLastD 0)
      have hp : NotePriority.push (s1.chan c).stack (q.getLastD 0) = some st2 := by rw [c1]; exact e2
      have hd : ∀ i, i ≠ a → ∀ d, (upd s1.dev a d) i = s1.dev i := fun i hi d => Psg.upd_other _ _ _ _ hi
      have hlen : q.dropLast.length ≠ 10 := by
        have := hr.le; have := List.length_pos_iff.2 hne
        simp; omega
      rw [if_neg hlen] at hr2
      have hqq : q.dropLast ++ [q.getLastD 0] = q := by
        rcases List.eq_nil_or_concat q with e | ⟨l', a, e⟩
        · exact absurd e hne
        · subst e; simp
      rw [hqq] at hr2
      have body : noteOffBody env c p (q.getLastD 0) (singleVoice s c true) (s1, false) a =
          if (s.chan c).portamento then
            (setDev (setChan s1 c fun m => { m with stack := st2 }) a fun d => { d with glide := q.getLastD 0 }, true)
          else (devChanNoteOn env s1 a (q.getLastD 0) (s.chan c).lastVelocity, true) := by
        unfold noteOffBody
        simp only
        have hx1 := (hh a).2 hxa
        unfold Hit at hx1
        rw [if_pos hx1, if_pos (by simpa [ha.1] using ha.2), hp, c1]
      by_cases po : (s.chan c).portamento = true
      · rw [po] at body
        simp only [if_true] at body
        rw [fold_one List.nodup_range (by simpa using ha13) s1 uniq
          (fun i hi => by rw [body]; simp [hd i hi]), body]
        refine ⟨fun i => ?_, fun k hk => ?_, ?_, ?_, ?_⟩
        · rw [hq]
          by_cases ei : i = a
          · subst ei; rw [if_pos ⟨ha13, hxa⟩, released, if_pos ha, if_pos po, ← d1]; simp
          · have : ¬Hit s c p i ∨ ¬i < 13 := by
              by_cases h : i < 13
              · exact .inl fun h' => ei (uniq i (by simpa using h) ((hh i).2 h'))
              · exact .inr h
            rw [if_neg (by rintro ⟨h, h'⟩; rcases this with h1 | h1; exact h1 h'; exact h1 h)]
            rw [← d1]; exact hd i ei _
        · simp [Psg.upd_other _ _ _ _ hk, c2 k hk]
        · simp [c1]
        · intro _; rw [hq]; simpa using hr2
        · intro h; exact absurd ⟨⟨a, ha13, hxa⟩, ha.1, by rw [hq]; exact ha.2, po⟩ h
      · simp only [po] at body
        simp only [Bool.false_eq_true, if_false] at body
        rw [fold_one List.nodup_range (by simpa using ha13) s1 uniq
          (fun i hi => by rw [body]; simp only [devChanNoteOn_dev]; exact hd i hi _), body]
        refine ⟨fun i => ?_, fun k hk => ?_, ?_, ?_, ?_⟩
        · rw [hq]
          simp only [devChanNoteOn_dev]
          by_cases ei : i = a
          · subst ei; rw [if_pos ⟨ha13, hxa⟩, released, if_pos ha, if_neg po, ← d1]; simp
          · have : ¬Hit s c p i ∨ ¬i < 13 := by
              by_cases h : i < 13
              · exact .inl fun h' => ei (uniq i (by simpa using h) ((hh i).2 h'))
              · exact .inr h
            rw [if_neg (by rintro ⟨h, h'⟩; rcases this with h1 | h1; exact h1 h'; exact h1 h)]
            rw [← d1]; exact hd i ei _
        · simp [c2 k hk]
        · simp [c1]
        · rintro ⟨_, _, _, h⟩; exact absurd h po
        · intro _; rw [hq]; simpa [c1] using hr'
    · rw [fold_miss _ _ fun i hi hhi => hx ⟨i, by simpa using hi, (hh i).1 hhi⟩]
      refine ⟨fun i => ?_, c2, by simp [c1], ?_, ?_⟩
      · rw [if_neg fun h => hx ⟨i, h⟩]; simp [d1]
      · rintro ⟨h, _⟩; exact absurd h hx
      · intro _; rw [hq]; simpa [c1] using hr'
  · have ha : (singleVoice s c true && q.getLastD 0 != 0) = false := by simpa using ha
    rw [noteOff_releases ha _ List.nodup_range]
    refine ⟨fun i => ?_, fun k hk => ?_, ?_, ?_, ?_⟩
    · rw [foldOff_dev, hq]
      simp only [List.mem_filter, List.mem_range, decide_eq_true_eq, hh, d1]
      by_cases h : i < 13 ∧ Hit s c p i
      · rw [if_pos h, if_pos h, released, if_neg]
        rintro ⟨h1, h2⟩; rw [h1, Bool.true_and, bne_eq_false_iff_eq] at ha; exact h2 ha
      · rw [if_neg h, if_neg h]
    · rw [foldOff_chan]; exact c2 k hk
    · rw [foldOff_chan]; simp [c1]
    · rintro ⟨_, h1, h2, _⟩; rw [hq] at h2; rw [h1, Bool.true_and, bne_eq_false_iff_eq] at ha; exact absurd ha h2
    · intro _; rw [foldOff_chan, hq]; simpa [c1] using hr'

end Mdmi.Midi
