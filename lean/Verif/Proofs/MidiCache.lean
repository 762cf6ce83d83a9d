import Verif.Proofs.MidiKeep
/-!
# What device channels remember of their FM channel is true

The engine keeps, per device channel, the volume, pan and program it last sent to the device, and sends them again only
if they differ.  Here: what it remembers is what the FM driver has.
-/
namespace Mdmi.Midi
open Mdmi.Synth (extractPreset)
open Fm (Keep Lookup side)

variable {env : Env} {P D : Prop} {N i j c : Nat} {s t u : St}

/-- Device channels below `N` drive the channel of their number; only the first six drive FM channels. -/
structure Tie (N i : Nat) (s : St) : Prop where
  num : ∀ j, j < N → (s.dev j).num = chipNum j
  mine : (s.dev i).ops = .fm
  kind : ∀ j, j < N → (s.dev j).ops = .fm → j < 6
  psg : ∀ j, j < N → 6 ≤ j → j ≤ 9 → (s.dev j).ops = .psg

/-- Programs are tracked: `P`; while a voice that plays drums is not trusted (`D`), only off MIDI channel 10. -/
def Tracks (P D : Prop) (d : Dev) : Prop := P ∧ (D → d.midiChannel ≠ 9)

/-- What device channel `i` remembers of its FM channel is true. -/
structure Cached (env : Env) (P D : Prop) (N i : Nat) (s : St) : Prop where
  tie : Tie N i s
  vol : (s.fm.ch i).volume = (s.dev i).volume
  pan : (s.fm.synth.ch i).stereo = side (s.dev i).pan
  prog : Tracks P D (s.dev i) → ∀ q, Lookup env.fm s.fm (s.dev i).program q → extractPreset s.fm.synth i = q
  perc : Tracks P D (s.dev i) → (s.dev i).noteOn = true → (s.fm.ch i).percussive = false
  quiet : P → D → ∀ j, j < N → j ≠ i → chipNum j = i → (s.dev j).midiChannel ≠ 9

theorem setDev_fm (f : Dev → Dev) : (setDev s j f).fm = s.fm := rfl

theorem Tie.of (h : Tie N i s) (hi : i < N) (hn : ∀ j, j < N → (t.dev j).num = (s.dev j).num)
    (ho : ∀ j, j < N → (t.dev j).ops = (s.dev j).ops) : Tie N i t :=
  ⟨fun j k => by rw [hn j k]; exact h.num j k, by rw [ho i hi]; exact h.mine,
    fun j k e => h.kind j k (by rw [← ho j k]; exact e), fun j k a b => by rw [ho j k]; exact h.psg j k a b⟩

private theorem lookup_user {f g : Fm.St} {n : Nat} {q} (h : g.user = f.user) (k : Lookup env.fm g n q) :
    Lookup env.fm f n q := by
  unfold Lookup at *; rwa [h] at k

theorem chipNum_lt6 (h : j < 6) : chipNum j = j := by unfold chipNum; rw [if_pos (by omega)]

/-- A call that keeps the FM channel. -/
theorem Cached.fm (k : Cached env P D N i s) (hd : t.dev = s.dev) (h : Keep (Tracks P D (s.dev i)) i s.fm t.fm) :
    Cached env P D N i t := by
  obtain ⟨⟨a, b, c, d⟩, e, f, g, p, q⟩ := k
  refine ⟨?_, ?_, ?_, ?_, ?_, ?_⟩
  · refine ⟨?_, ?_, ?_, ?_⟩ <;> rw [hd] <;> assumption
  · rw [hd, h.vol]; exact e
  · rw [hd, h.synth.stereo]; exact f
  · rw [hd]; intro T x hx
    rw [h.synth.preset T]; exact g T x (lookup_user (h.user T) hx)
  · rw [hd]; intro T x; rw [h.perc T]; exact p T x
  · rw [hd]; exact q

theorem Cached.same (k : Cached env P D N i s) (h1 : t.dev = s.dev) (h2 : t.fm = s.fm) : Cached env P D N i t :=
  k.fm h1 (by rw [h2]; exact .refl)

/-- Stores to a device channel that keep the settings, start no note and, with drums, keep the mapping. -/
theorem Cached.setDev {f : Dev → Dev} (k : Cached env P D N i s) (hi : i < N) (h1 : (f (s.dev j)).num = (s.dev j).num)
    (h2 : (f (s.dev j)).ops = (s.dev j).ops)
    (h3 : P → D → (f (s.dev j)).midiChannel = (s.dev j).midiChannel ∨
      j ≠ i ∧ (chipNum j = i → (f (s.dev j)).midiChannel ≠ 9))
    (h4 : j = i → (f (s.dev i)).volume = (s.dev i).volume ∧ (f (s.dev i)).pan = (s.dev i).pan ∧
      (f (s.dev i)).program = (s.dev i).program ∧ ((f (s.dev i)).noteOn = true → (s.dev i).noteOn = true)) :
    Cached env P D N i (setDev s j f) := by
  refine ⟨k.tie.of hi (fun l _ => ?_) (fun l _ => ?_), ?_, ?_, ?_, ?_, ?_⟩
  · rw [setDev_dev]; by_cases e : l = j
    · subst e; simpa using h1
    · simp [Psg.upd_other _ _ _ _ e]
  · rw [setDev_dev]; by_cases e : l = j
    · subst e; simpa using h2
    · simp [Psg.upd_other _ _ _ _ e]
  all_goals by_cases e : i = j
  · subst e; simp [(h4 rfl).1]; exact k.vol
  · simp [Psg.upd_other _ _ _ _ e]; exact k.vol
  · subst e; simp [(h4 rfl).2.1]; exact k.pan
  · simp [Psg.upd_other _ _ _ _ e]; exact k.pan
  · subst e
    simp only [setDev_dev, upd_self]
    rw [(h4 rfl).2.2.1]
    intro T; refine k.prog ⟨T.1, fun d => ?_⟩
    rcases h3 T.1 d with h | h
    · rw [← h]; exact T.2 d
    · exact absurd rfl h.1
  · simp [Psg.upd_other _ _ _ _ e]; exact k.prog
  · subst e
    simp only [setDev_dev, upd_self]
    intro T h; refine k.perc ⟨T.1, fun d => ?_⟩ ((h4 rfl).2.2.2 h)
    rcases h3 T.1 d with h | h
    · rw [← h]; exact T.2 d
    · exact absurd rfl h.1
  · simp [Psg.upd_other _ _ _ _ e]; exact k.perc
  all_goals
    intro p d l hl hne hc
    rw [setDev_dev]
    by_cases e' : l = j
    · subst e'
      simp only [upd_self]
      rcases h3 p d with h | h
      · rw [h]; exact k.quiet p d l hl hne hc
      · exact h.2 hc
    · rw [Psg.upd_other _ _ _ _ e']; exact k.quiet p d l hl hne hc

theorem fold_cached {α : Type} {f : St → α → St} (l : List α)
    (h : ∀ s, ∀ a ∈ l, Cached env P D N i s → Cached env P D N i (f s a)) (s : St) (k : Cached env P D N i s) :
    Cached env P D N i (l.foldl f s) := by
  induction l generalizing s with
  | nil => exact k
  | cons a l ih => exact ih (fun s b hb => h s b (by simp [hb])) _ (h s a (by simp) k)

theorem foreach_cached {body : St → Nat → St}
    (h : ∀ s j, j < 13 → (s.dev j).midiChannel = c → Cached env P D N i s → Cached env P D N i (body s j))
    (k : Cached env P D N i s) : Cached env P D N i (foreach s c body) := by
  refine fold_cached _ (fun s j hj k => ?_) s k
  split
  · rename_i e; exact h s j (by simpa using hj) e k
  · exact k

/-! ### Calls through the vtable -/

/-- The FM channel a device channel other than `i` drives. -/
def Apt (i j : Nat) (s : St) : Prop := (s.dev j).ops = .fm → (s.dev j).num ≠ i

theorem Tie.apt (h : Tie N i s) (hj : j < N) (hne : j ≠ i) : Apt i j s := fun e => by
  rw [h.num j hj, chipNum_lt6 (h.kind j hj e)]; exact hne

theorem fmCall_keep {Q : Prop} {op : Fm.Op} (h : op.calm Q i s.fm) : Keep Q i s.fm (fmCall env s op).fm :=
  Fm.step_keep h

theorem devVolume_keep {Q : Prop} (h : Apt i j s) (v : Nat) : Keep Q i s.fm (devVolume env s j v).fm := by
  unfold devVolume
  split
  · rename_i e; exact fmCall_keep (h e)
  all_goals exact .refl

theorem devPan_keep {Q : Prop} (h : Apt i j s) (v : Nat) : Keep Q i s.fm (devPan env s j v).fm := by
  unfold devPan
  split
  · rename_i e; exact fmCall_keep (h e)
  all_goals exact .refl

theorem devProgram_keep {Q : Prop} (h : Apt i j s) (v : Nat) : Keep Q i s.fm (devProgram env s j v).fm := by
  unfold devProgram
  split
  · rename_i e; exact fmCall_keep fun _ => h e
  all_goals exact .refl

theorem devNoteOff_keep {Q : Prop} : Keep Q i s.fm (devNoteOff env s j).fm := by
  unfold devNoteOff
  split
  · exact fmCall_keep trivial
  · exact .refl
  · exact .refl
  · exact fmCall_keep trivial

theorem devAllNotesOff_keep {Q : Prop} : Keep Q i s.fm (devAllNotesOff env s j).fm := by
  unfold devAllNotesOff
  split
  · exact fmCall_keep trivial
  all_goals exact .refl

theorem devPitch_keep {Q : Prop} (p : Nat) (x : Int) : Keep Q i s.fm (devPitch env s j p x).fm := by
  unfold devPitch
  split
  · exact fmCall_keep trivial
  · exact .refl
  · exact fmCall_keep trivial
  · exact .refl

theorem devNoteOn_keep {Q : Prop} (p : Nat) (x : Int) (v : Nat) (h : Q → (s.dev j).ops = .fm → (s.dev j).num = i →
    (s.fm.ch i).percussive = false) : Keep Q i s.fm (devNoteOn env s j p x v).fm := by
  unfold devNoteOn
  split
  · rename_i e; exact fmCall_keep fun q => h q e
  · exact .refl
  · exact fmCall_keep trivial
  · exact fmCall_keep trivial

theorem setDownstreamPitch_keep {Q : Prop} : Keep Q i s.fm (setDownstreamPitch env s j).fm := by
  unfold setDownstreamPitch withPitch
  simp only
  split
  · exact devPitch_keep ..
  · exact .refl

theorem setDownstreamPitch_cached (k : Cached env P D N i s) : Cached env P D N i (setDownstreamPitch env s j) :=
  k.fm (by simp) setDownstreamPitch_keep

/-! ### Carrying settings over -/

theorem updateVolume_keep {Q : Prop} (h : Apt i j s) : Keep Q i s.fm (updateVolume env s c j).fm := by
  unfold updateVolume
  split
  · exact devVolume_keep h _
  · exact .refl

theorem updatePan_keep {Q : Prop} (h : Apt i j s) : Keep Q i s.fm (updatePan env s c j).fm := by
  unfold updatePan
  split
  · exact devPan_keep h _
  · exact .refl

theorem updateProgram_keep {Q : Prop} (h : Apt i j s) : Keep Q i s.fm (updateProgram env s c j).fm := by
  unfold updateProgram
  split
  · exact devProgram_keep h _
  · exact .refl

theorem updatePitchBend_keep {Q : Prop} : Keep Q i s.fm (updatePitchBend env s c j).fm := by
  unfold updatePitchBend
  split
  · exact setDownstreamPitch_keep (s := setDev s j fun d => { d with pitchBend := (s.chan c).pitchBend })
  · exact .refl

/-- Only settings of device channel `j` may differ. -/
theorem Cached.other (k : Cached env P D N i s) (hi : i < N) (hd : ∀ l, (t.dev l).core = (s.dev l).core)
    (he : t.dev i = s.dev i) (h : Keep (Tracks P D (s.dev i)) i s.fm t.fm) : Cached env P D N i t := by
  have c := fun l => Dev.core_eq (hd l)
  refine ⟨k.tie.of hi (fun l _ => (c l).1) (fun l _ => (c l).2.1), ?_, ?_, ?_, ?_, ?_⟩
  · rw [he, h.vol]; exact k.vol
  · rw [he, h.synth.stereo]; exact k.pan
  · rw [he]; intro T x hx
    rw [h.synth.preset T]; exact k.prog T x (lookup_user (h.user T) hx)
  · rw [he]; intro T x; rw [h.perc T]; exact k.perc T x
  · intro p d l hl hne hc; rw [(c l).2.2.2.1]; exact k.quiet p d l hl hne hc

theorem updateVolume_own (hi : i < 6) (hn : (s.dev i).num = i) (ho : (s.dev i).ops = .fm) :
    let t := updateVolume env s c i
    (t.fm.ch i).volume = (if (s.dev i).volume = (s.chan c).volume then (s.fm.ch i).volume else (s.chan c).volume) ∧
    t.fm.synth.ch = s.fm.synth.ch ∧ t.fm.user = s.fm.user ∧ (t.fm.ch i).percussive = (s.fm.ch i).percussive := by
  intro t
  by_cases e : (s.dev i).volume = (s.chan c).volume
  · have : t = s := by simp only [t, updateVolume]; rw [if_neg (by simp [e])]
    rw [this, if_pos e]; exact ⟨rfl, rfl, rfl, rfl⟩
  · have : t.fm = Fm.step env.fm s.fm (.volume i (s.chan c).volume) := by
      simp only [t, updateVolume]
      rw [if_pos e]
      simp only [setDev_fm, devVolume, ho, hn]; rfl
    rw [this, if_neg e]
    have k := Fm.volume_synth (env := env.fm) (i := i) s.fm (s.chan c).volume
    exact ⟨Fm.volume_own _ hi _, k.1, k.2.1, k.2.2 i⟩

theorem updatePan_own (hi : i < 6) (hn : (s.dev i).num = i) (ho : (s.dev i).ops = .fm) :
    let t := updatePan env s c i
    (t.fm.synth.ch i).stereo = (if (s.dev i).pan = (s.chan c).pan then (s.fm.synth.ch i).stereo else side (s.chan c).pan) ∧
    extractPreset t.fm.synth i = extractPreset s.fm.synth i ∧ t.fm.user = s.fm.user ∧
    (t.fm.ch i).percussive = (s.fm.ch i).percussive ∧ (t.fm.ch i).volume = (s.fm.ch i).volume := by
  intro t
  by_cases e : (s.dev i).pan = (s.chan c).pan
  · have : t = s := by simp only [t, updatePan]; rw [if_neg (by simp [e])]
    rw [this, if_pos e]; exact ⟨rfl, rfl, rfl, rfl, rfl⟩
  · have : t.fm = Fm.step env.fm s.fm (.pan i (s.chan c).pan) := by
      simp only [t, updatePan]
      rw [if_pos e]
      simp only [setDev_fm, devPan, ho, hn]; rfl
    rw [this, if_neg e]
    have k := Fm.pan_chan (env := env.fm) (i := i) s.fm (s.chan c).pan
    have k' := Fm.pan_own (env := env.fm) s.fm hi (s.chan c).pan
    exact ⟨k'.1, k'.2, k.1, (k.2 i).1, (k.2 i).2⟩

theorem updateProgram_own (hi : i < 6) (hn : (s.dev i).num = i) (ho : (s.dev i).ops = .fm) :
    let t := updateProgram env s c i
    (∀ q, Lookup env.fm s.fm (s.chan c).program q →
      ((s.dev i).program = (s.chan c).program → extractPreset s.fm.synth i = q) → extractPreset t.fm.synth i = q) ∧
    (t.fm.synth.ch i).stereo = (s.fm.synth.ch i).stereo ∧ t.fm.user = s.fm.user ∧ t.fm.ch = s.fm.ch := by
  intro t
  by_cases e : (s.dev i).program = (s.chan c).program
  · have : t = s := by simp only [t, updateProgram]; rw [if_neg (by simp [e])]
    rw [this]; exact ⟨fun q _ h => h e, rfl, rfl, rfl⟩
  · have : t.fm = Fm.step env.fm s.fm (.program i (s.chan c).program) := by
      simp only [t, updateProgram]
      rw [if_pos e]
      simp only [setDev_fm, devProgram, ho, hn]; rfl
    rw [this]
    exact ⟨fun q h _ => Fm.program_own s.fm hi h, Fm.program_stereo s.fm _⟩

/-- What carrying over the settings of its MIDI channel does to the FM channel of a device channel. -/
theorem updateDev_own (hi : i < 6) (hn : (s.dev i).num = i) (ho : (s.dev i).ops = .fm)
    (hc : (s.dev i).midiChannel < 16) :
    let t := updateDev env s i
    let m := s.chan (s.dev i).midiChannel
    (t.fm.ch i).volume = (if (s.dev i).volume = m.volume then (s.fm.ch i).volume else m.volume) ∧
    (t.fm.synth.ch i).stereo = (if (s.dev i).pan = m.pan then (s.fm.synth.ch i).stereo else side m.pan) ∧
    (∀ q, Lookup env.fm s.fm m.program q → ((s.dev i).program = m.program → extractPreset s.fm.synth i = q) →
      extractPreset t.fm.synth i = q) ∧
    (t.fm.ch i).percussive = ((s.dev i).midiChannel == 9) ∧ t.fm.user = s.fm.user := by
  intro t m
  obtain ⟨c, ec⟩ : ∃ c, c = (s.dev i).midiChannel := ⟨_, rfl⟩
  obtain ⟨a, ea⟩ : ∃ a, a = fmCall env s (.percussive i (c == 9)) := ⟨_, rfl⟩
  obtain ⟨b, eb⟩ : ∃ b, b = updateVolume env a c i := ⟨_, rfl⟩
  obtain ⟨d, ed⟩ : ∃ d, d = updatePan env b c i := ⟨_, rfl⟩
  obtain ⟨e, ee⟩ : ∃ e, e = updateProgram env d c i := ⟨_, rfl⟩
  have et : t = updatePitchBend env e c i := by
    show updateDev env s i = _
    rw [ee, ed, eb, ea]
    unfold updateDev
    simp only
    rw [if_pos hc, ← ec, hn]
  have da : a.dev = s.dev := by rw [ea]; rfl
  have ca : a.chan = s.chan := by rw [ea]; rfl
  have db : b.dev i = { s.dev i with volume := (s.chan c).volume } := by rw [eb]; simp [da, ca]
  have cb : b.chan = s.chan := by rw [eb]; simp [ca]
  have dd : d.dev i = { s.dev i with volume := (s.chan c).volume, pan := (s.chan c).pan } := by rw [ed]; simp [db, cb]
  have cd : d.chan = s.chan := by rw [ed]; simp [cb]
  have p1 : (a.fm.ch i).percussive = (c == 9) ∧ (a.fm.ch i).volume = (s.fm.ch i).volume ∧ a.fm.synth = s.fm.synth ∧
      a.fm.user = s.fm.user := by rw [ea]; exact Fm.percussive_own (env := env.fm) s.fm hi _
  have p2 := updateVolume_own (env := env) (s := a) (c := c) hi (by rw [da]; exact hn) (by rw [da]; exact ho)
  rw [← eb] at p2
  have p3 := updatePan_own (env := env) (s := b) (c := c) hi (by rw [db]; exact hn) (by rw [db]; exact ho)
  rw [← ed] at p3
  have p4 := updateProgram_own (env := env) (s := d) (c := c) hi (by rw [dd]; exact hn) (by rw [dd]; exact ho)
  rw [← ee] at p4
  have p5 : Keep True i e.fm t.fm := by rw [et]; exact updatePitchBend_keep
  simp only at p2 p3 p4
  have hm : m = s.chan c := by rw [ec]
  have ex : extractPreset d.fm.synth i = extractPreset s.fm.synth i := by
    rw [p3.2.1]; unfold extractPreset; rw [p2.2.1, p1.2.2.1]
  have us : d.fm.user = s.fm.user := by rw [p3.2.2.1, p2.2.2.1, p1.2.2.2]
  rw [hm, ← ec]
  refine ⟨?_, ?_, ?_, ?_, ?_⟩
  · rw [p5.vol, p4.2.2.2, p3.2.2.2.2, p2.1, da, ca, p1.2.1]
  · rw [p5.synth.stereo, p4.2.1, p3.1, db, cb, p2.2.1, p1.2.2.1]
  · intro q h1 h2
    rw [p5.synth.preset trivial]
    refine p4.1 q ?_ ?_
    · rw [cd]; exact lookup_user us.symm h1
    · rw [dd, cd, ex]; exact h2
  · rw [p5.perc trivial, p4.2.2.2, p3.2.2.2.1, p2.2.2.2, p1.1]
  · rw [p5.user trivial, p4.2.2.1, us]

/-- The device channel's own update makes what it remembers true. -/
theorem updateDev_cached_own (hi : i < 6) (hN : i < N) (tie : Tie N i s) (hc : (s.dev i).midiChannel < 16)
    (hv : (s.dev i).volume = (s.chan (s.dev i).midiChannel).volume → (s.fm.ch i).volume = (s.chan (s.dev i).midiChannel).volume)
    (hp : (s.dev i).pan = (s.chan (s.dev i).midiChannel).pan → (s.fm.synth.ch i).stereo = side (s.chan (s.dev i).midiChannel).pan)
    (hg : Tracks P D (s.dev i) → ∀ q, Lookup env.fm s.fm (s.chan (s.dev i).midiChannel).program q →
      (s.dev i).program = (s.chan (s.dev i).midiChannel).program → extractPreset s.fm.synth i = q)
    (h9 : Tracks P D (s.dev i) → (s.dev i).midiChannel = 9 → (s.dev i).noteOn = false)
    (hq : P → D → ∀ j, j < N → j ≠ i → chipNum j = i → (s.dev j).midiChannel ≠ 9) :
    Cached env P D N i (updateDev env s i) := by
  have o := updateDev_own (env := env) hi (by rw [tie.num i hN, chipNum_lt6 hi]) tie.mine hc
  simp only at o
  have st : Still s (updateDev env s i) := updateDev_still i
  have cr := fun l => Dev.core_eq (st.dev l)
  have ed : (updateDev env s i).dev i = (s.dev i).sync (s.chan (s.dev i).midiChannel) := by rw [updateDev_dev hc]; simp
  have tr : Tracks P D ((s.dev i).sync (s.chan (s.dev i).midiChannel)) → Tracks P D (s.dev i) := id
  refine ⟨tie.of hN (fun l _ => (cr l).1) (fun l _ => (cr l).2.1), ?_, ?_, ?_, ?_, ?_⟩
  · rw [ed, o.1]; simp only [Dev.sync]; split
    · rename_i e; exact hv e
    · rfl
  · rw [ed, o.2.1]; simp only [Dev.sync]; split
    · rename_i e; exact hp e
    · rfl
  · rw [ed]; intro T q h
    have h := lookup_user o.2.2.2.2 h
    exact o.2.2.1 q h (hg T q h)
  · rw [ed]; intro T h
    rw [o.2.2.2.1]
    simp only [beq_eq_false_iff_ne, ne_eq]
    intro e
    have := h9 T e
    rw [show ((s.dev i).sync (s.chan (s.dev i).midiChannel)).noteOn = (s.dev i).noteOn from rfl, this] at h
    cases h
  · intro p d l hl hne hcn; rw [(cr l).2.2.2.1]; exact hq p d l hl hne hcn

theorem percussive_cached (hi : i < 6) (k : Cached env P D N i s) {n : Nat} {b : Bool}
    (h : Tracks P D (s.dev i) → n = i → (s.dev i).noteOn = true → b = false) :
    Cached env P D N i (fmCall env s (.percussive n b)) := by
  by_cases e : n = i
  · subst e
    have o := Fm.percussive_own (env := env.fm) s.fm hi b
    exact ⟨⟨k.tie.num, k.tie.mine, k.tie.kind, k.tie.psg⟩, o.2.1.trans k.vol, by
        show ((Fm.step env.fm s.fm _).synth.ch n).stereo = _
        rw [o.2.2.1]; exact k.pan, fun T q hq => by
        show extractPreset (Fm.step env.fm s.fm _).synth n = _
        rw [o.2.2.1]; exact k.prog T q (lookup_user o.2.2.2 hq), fun T x => o.1.trans (h T rfl x), k.quiet⟩
  · exact k.fm rfl (fmCall_keep fun _ => e)

/-- Updates of another device channel. -/
theorem updateDev_cached_other (hi : i < 6) (hN : i < N) (hj : j < N) (hne : j ≠ i) (k : Cached env P D N i s)
    (h9 : Tracks P D (s.dev i) → chipNum j = i → (s.dev j).midiChannel = 9 → (s.dev i).noteOn = false) :
    Cached env P D N i (updateDev env s j) := by
  by_cases hc : (s.dev j).midiChannel < 16
  · have k1 : Cached env P D N i (fmCall env s (.percussive (s.dev j).num ((s.dev j).midiChannel == 9))) := by
      refine percussive_cached hi k fun T e x => ?_
      simp only [beq_eq_false_iff_ne, ne_eq]
      intro e'
      rw [h9 T (by rw [← k.tie.num j hj]; exact e) e'] at x; cases x
    unfold updateDev
    simp only
    rw [if_pos hc]
    generalize (s.dev j).midiChannel = c at *
    generalize fmCall env s (.percussive (s.dev j).num (c == 9)) = a at *
    have k2 : Cached env P D N i (updateVolume env a c j) :=
      k1.other hN (updateVolume_still c j).dev (by simp [Psg.upd_other _ _ _ _ (Ne.symm hne)]) (updateVolume_keep (k1.tie.apt hj hne))
    generalize updateVolume env a c j = b at *
    have k3 : Cached env P D N i (updatePan env b c j) :=
      k2.other hN (updatePan_still c j).dev (by simp [Psg.upd_other _ _ _ _ (Ne.symm hne)]) (updatePan_keep (k2.tie.apt hj hne))
    generalize updatePan env b c j = d at *
    have k4 : Cached env P D N i (updateProgram env d c j) :=
      k3.other hN (updateProgram_still c j).dev (by simp [Psg.upd_other _ _ _ _ (Ne.symm hne)]) (updateProgram_keep (k3.tie.apt hj hne))
    generalize updateProgram env d c j = e at *
    exact k4.other hN (updatePitchBend_still c j).dev (by simp [Psg.upd_other _ _ _ _ (Ne.symm hne)]) updatePitchBend_keep
  · unfold updateDev
    simp only
    rw [if_neg hc]
    exact k.same rfl rfl

theorem updateVolume_cached (hi : i < 6) (hN : i < N) (hj : j < N) (k : Cached env P D N i s) :
    Cached env P D N i (updateVolume env s c j) := by
  by_cases e : j = i
  · subst e
    have o := updateVolume_own (env := env) (c := c) hi (by rw [k.tie.num j hN, chipNum_lt6 hi]) k.tie.mine
    simp only at o
    have cr := fun l => Dev.core_eq ((updateVolume_still (env := env) (s := s) c j).dev l)
    have ed : (updateVolume env s c j).dev j = { s.dev j with volume := (s.chan c).volume } := by simp
    have tr : Tracks P D ((updateVolume env s c j).dev j) → Tracks P D (s.dev j) := by rw [ed]; exact id
    refine ⟨k.tie.of hN (fun l _ => (cr l).1) (fun l _ => (cr l).2.1), ?_, ?_, ?_, ?_, ?_⟩
    · rw [o.1, ed]; split
      · rename_i e; rw [k.vol]; exact e
      · rfl
    · rw [ed, o.2.1]; exact k.pan
    · intro T q h
      have h := lookup_user o.2.2.1 h
      rw [ed] at h
      rw [← k.prog (tr T) q h]; unfold extractPreset; rw [o.2.1]
    · intro T h; rw [(cr j).2.2.1] at h; rw [o.2.2.2]; exact k.perc (tr T) h
    · intro p d l hl hne hcn; rw [(cr l).2.2.2.1]; exact k.quiet p d l hl hne hcn
  · exact k.other hN (updateVolume_still c j).dev (by simp [Psg.upd_other _ _ _ _ (Ne.symm e)]) (updateVolume_keep (k.tie.apt hj e))

theorem updatePan_cached (hi : i < 6) (hN : i < N) (hj : j < N) (k : Cached env P D N i s) :
    Cached env P D N i (updatePan env s c j) := by
  by_cases e : j = i
  · subst e
    have o := updatePan_own (env := env) (c := c) hi (by rw [k.tie.num j hN, chipNum_lt6 hi]) k.tie.mine
    simp only at o
    have cr := fun l => Dev.core_eq ((updatePan_still (env := env) (s := s) c j).dev l)
    have ed : (updatePan env s c j).dev j = { s.dev j with pan := (s.chan c).pan } := by simp
    have tr : Tracks P D ((updatePan env s c j).dev j) → Tracks P D (s.dev j) := by rw [ed]; exact id
    refine ⟨k.tie.of hN (fun l _ => (cr l).1) (fun l _ => (cr l).2.1), ?_, ?_, ?_, ?_, ?_⟩
    · rw [ed, o.2.2.2.2]; exact k.vol
    · rw [o.1, ed]; split
      · rename_i e; rw [k.pan, e]
      · rfl
    · intro T q h
      have h := lookup_user o.2.2.1 h
      rw [ed] at h
      rw [o.2.1]; exact k.prog (tr T) q h
    · intro T h; rw [(cr j).2.2.1] at h; rw [o.2.2.2.1]; exact k.perc (tr T) h
    · intro p d l hl hne hcn; rw [(cr l).2.2.2.1]; exact k.quiet p d l hl hne hcn
  · exact k.other hN (updatePan_still c j).dev (by simp [Psg.upd_other _ _ _ _ (Ne.symm e)]) (updatePan_keep (k.tie.apt hj e))

theorem updateProgram_cached (hi : i < 6) (hN : i < N) (hj : j < N) (k : Cached env P D N i s) :
    Cached env P D N i (updateProgram env s c j) := by
  by_cases e : j = i
  · subst e
    have o := updateProgram_own (env := env) (c := c) hi (by rw [k.tie.num j hN, chipNum_lt6 hi]) k.tie.mine
    simp only at o
    have cr := fun l => Dev.core_eq ((updateProgram_still (env := env) (s := s) c j).dev l)
    have ed : (updateProgram env s c j).dev j = { s.dev j with program := (s.chan c).program } := by simp
    have tr : Tracks P D ((updateProgram env s c j).dev j) → Tracks P D (s.dev j) := by rw [ed]; exact id
    refine ⟨k.tie.of hN (fun l _ => (cr l).1) (fun l _ => (cr l).2.1), ?_, ?_, ?_, ?_, ?_⟩
    · rw [ed, o.2.2.2]; exact k.vol
    · rw [o.2.1, ed]; exact k.pan
    · intro T q h
      have h := lookup_user o.2.2.1 h
      rw [ed] at h
      exact o.1 q h fun e => k.prog (tr T) q (by rw [e]; exact h)
    · intro T h; rw [(cr j).2.2.1] at h; rw [o.2.2.2]; exact k.perc (tr T) h
    · intro p d l hl hne hcn; rw [(cr l).2.2.2.1]; exact k.quiet p d l hl hne hcn
  · exact k.other hN (updateProgram_still c j).dev (by simp [Psg.upd_other _ _ _ _ (Ne.symm e)]) (updateProgram_keep (k.tie.apt hj e))

theorem updatePitchBend_cached (hN : i < N) (k : Cached env P D N i s) : Cached env P D N i (updatePitchBend env s c j) := by
  unfold updatePitchBend
  split
  · exact setDownstreamPitch_cached (k.setDev hN rfl rfl (fun _ _ => .inl rfl) fun e => by subst e; exact ⟨rfl, rfl, rfl, id⟩)
  · exact k

/-! ### Notes -/

theorem setDownstreamNoteOn_cached (hj : j < N) (k : Cached env P D N i s) {v : Nat}
    (h : j = i → Tracks P D (s.dev i) → (s.fm.ch i).percussive = false) :
    Cached env P D N i (setDownstreamNoteOn env s j v) := by
  unfold setDownstreamNoteOn withPitch
  simp only
  split
  · refine k.fm (by simp) (devNoteOn_keep _ _ _ fun T e en => h ?_ T)
    rw [k.tie.num j hj, chipNum_lt6 (k.tie.kind j hj e)] at en; exact en
  · exact k.same rfl rfl

/-- A voice plays another note while it sounds. -/
theorem devChanNoteOn_cached (hi : i < N) (hj : j < N) (k : Cached env P D N i s) {p v : Nat} (h : (s.dev j).noteOn = true) :
    Cached env P D N i (devChanNoteOn env s j p v) := by
  unfold devChanNoteOn
  have k1 : Cached env P D N i (setDev s j fun d => { d with noteOn := true, cents := 0, pitch := p }) :=
    k.setDev hi rfl rfl (fun _ _ => .inl rfl) fun e => by subst e; exact ⟨rfl, rfl, rfl, fun _ => h⟩
  exact setDownstreamNoteOn_cached hj k1 fun e T => k1.perc T (by subst e; simp)

theorem devChanNoteOff_cached (hi : i < N) (k : Cached env P D N i s) : Cached env P D N i (devChanNoteOff env s j) := by
  unfold devChanNoteOff
  have k1 : Cached env P D N i (setDev s j fun d => { d with noteOn := false, pitch := 0 }) :=
    k.setDev hi rfl rfl (fun _ _ => .inl rfl) fun e => by subst e; exact ⟨rfl, rfl, rfl, fun h => by cases h⟩
  exact k1.fm (by simp) devNoteOff_keep

theorem noteOff_cached (hi : i < 13) (c p : Nat) (k : Cached env P D 13 i s) : Cached env P D 13 i (noteOff env s c p) := by
  unfold noteOff
  split
  · exact k.same rfl rfl
  split
  · exact k.same rfl rfl
  rename_i next st _
  extract_lets a
  have ka : Cached env P D 13 i a := k.same rfl rfl
  generalize singleVoice a c true = single
  have h : ∀ (l : List Nat) (x : St × Bool), (∀ j ∈ l, j < 13) → Cached env P D 13 i x.1 →
      Cached env P D 13 i (l.foldl (noteOffBody env c p next single) x).1 := by
    intro l
    induction l with
    | nil => intro x _ k; exact k
    | cons j l ih =>
      intro x hl k
      refine ih _ (fun j hj => hl j (by simp [hj])) ?_
      have hj := hl j (by simp)
      obtain ⟨s, handled⟩ := x
      unfold noteOffBody
      simp only
      split
      · rename_i hp
        split
        · split
          · split
            · exact k.same rfl rfl
            · exact Cached.setDev (s := setChan s c _) (j := j) (f := fun d => { d with glide := next }) (k.same rfl rfl) hi rfl rfl
                (fun _ _ => .inl rfl) fun _ => ⟨rfl, rfl, rfl, fun h => h⟩
          · refine devChanNoteOn_cached hi hj k ?_
            have := hp.2
            simp only [isPlaying, Bool.and_eq_true] at this
            exact this.1
        · exact devChanNoteOff_cached hi k
      · exact k
  exact h _ (a, false) (by simp) ka

/-- Where drum notes go: to a voice of MIDI channel 10 or not to the PSG. -/
theorem findFree_drums (h : findFree s 9 = some j) : (s.dev j).midiChannel = 9 ∨ (j ≤ 9 ∧ (s.dev j).ops ≠ .psg) := by
  have suit : ∀ {d : Dev}, suitable d 9 = true → d.ops ≠ .psg := by
    intro d h e
    simp [suitable, psgPercussive, e] at h
  have hm := minMax_lt s 9
  unfold findFree at h
  revert h hm
  rcases minMax s 9 with ⟨lo, hi⟩
  intro h hm
  simp only at h hm
  have spanned : ∀ {lo hi}, hi ≤ 9 → findInSpan s 9 lo hi = some j → (s.dev j).midiChannel = 9 ∨ (j ≤ 9 ∧ (s.dev j).ops ≠ .psg) := by
    intro lo hi hh h
    have := findInSpan_some h
    rcases this.2.2 with k | k
    · exact .inr ⟨by omega, suit k⟩
    · exact .inl k.1
  split at h
  · rename_i l hl
    simp only [Option.some.injEq] at h; subst h
    have := List.find?_some hl
    simp only [Bool.and_eq_true, beq_iff_eq] at this
    exact .inl this.1
  · split at h
    · exact .inl (devByMidi_some h).2
    · split at h
      · rename_i l hl
        simp only [Option.some.injEq] at h; subst h
        unfold findFreePsgSquare at hl
        split at hl
        · have h1 := List.mem_of_find?_eq_some hl
          have h2 := List.find?_some hl
          simp only [List.mem_cons, List.not_mem_nil, or_false] at h1
          exact .inr ⟨by omega, suit h2⟩
        · cases hl
      · split at h
        · rename_i l hl
          simp only [Option.some.injEq] at h; subst h
          unfold findDeviceSpecific at hl
          split at hl
          · split at hl
            · cases hl
            · split at hl
              · exact spanned (by omega) hl
              · exact spanned (by omega) hl
          · exact spanned hm hl
        · unfold findAnyFree at h
          have h1 := List.mem_of_find?_eq_some h
          have h2 := List.find?_some h
          simp only [List.mem_range'_1] at h1
          exact .inr ⟨by omega, suit h2⟩

theorem startNote_cached (hi : i < 6) (hj : j < 13) (hc : c < 16) (k : Cached env P D 13 i s) {p v : Nat}
    (h9 : P → ¬D → c ≠ 9) (hD : P → D → c = 9 → j ≠ i → chipNum j ≠ i) :
    Cached env P D 13 i (startNote env s j c p v) := by
  have nine : P → (D → c ≠ 9) → c ≠ 9 := fun p d => (Classical.em D).elim d (h9 p)
  unfold startNote
  extract_lets a b d
  have ad : a.dev = s.dev := by
    simp only [a]; split
    · simp
    · rfl
  have ac : a.chan = s.chan := by
    simp only [a]; split
    · simp
    · rfl
  have bi : b.dev j = { s.dev j with midiChannel := c, noteOn := true, cents := 0, pitch := p } := by simp [b, ad]
  by_cases e : j = i
  · subst e
    have bo : ∀ l, l ≠ j → b.dev l = s.dev l := fun l hl => by simp [b, ad, Psg.upd_other _ _ _ _ hl]
    have bc : b.chan = s.chan := ac
    have bf : b.fm = a.fm := rfl
    have af : a.fm.user = s.fm.user ∧ (a.fm.ch j).volume = (s.fm.ch j).volume ∧
        (a.fm.synth.ch j).stereo = (s.fm.synth.ch j).stereo := by
      simp only [a]; split
      · simp only [devProgram, k.tie.mine, k.tie.num j hj, chipNum_lt6 hi]
        have := Fm.program_stereo (env := env.fm) (i := j) s.fm (s.chan c).program
        exact ⟨this.2.1, by
          show ((Fm.step env.fm s.fm _).ch j).volume = _
          rw [this.2.2], this.1⟩
      · exact ⟨rfl, rfl, rfl⟩
    have kd : Cached env P D 13 j d := by
      have tie : Tie 13 j b := k.tie.of hj
        (fun l _ => by by_cases e : l = j
                       · subst e; rw [bi]
                       · rw [bo l e])
        (fun l _ => by by_cases e : l = j
                       · subst e; rw [bi]
                       · rw [bo l e])
      refine updateDev_cached_own hi hj tie (by rw [bi]; exact hc) ?_ ?_ ?_ ?_ ?_
      · rw [bi, bc, bf, af.2.1, k.vol]; exact id
      · rw [bi, bc, bf, af.2.2, k.pan]; intro h; rw [← h]
      · rw [bi, bc]
        intro T q hq h
        have hq : Lookup env.fm s.fm (s.chan c).program q := lookup_user af.1 hq
        have h : (s.dev j).program = (s.chan c).program := h
        rw [bf]
        have nc := nine T.1 T.2
        by_cases e9 : (s.dev j).midiChannel = 9
        · have : a = devProgram env s j (s.chan c).program := by simp only [a]; rw [if_pos ⟨e9, nc⟩]
          rw [this]
          simp only [devProgram, k.tie.mine, k.tie.num j hj, chipNum_lt6 hi]
          exact Fm.program_own s.fm hi hq
        · have : a = s := by simp only [a]; rw [if_neg (fun h => e9 h.1)]
          rw [this]
          exact k.prog ⟨T.1, fun _ => e9⟩ q (by rw [h]; exact hq)
      · rw [bi]; intro T e; exact absurd e (nine T.1 T.2)
      · intro p d l hl hne hcn; rw [bo l hne]; exact k.quiet p d l hl hne hcn
    refine setDownstreamNoteOn_cached hj kd fun _ T => ?_
    exact kd.perc T (by
      have : Still b d := updateDev_still j
      rw [(Dev.core_eq (this.dev j)).2.2.1, bi])
  · have ka : Cached env P D 13 i a := by
      refine k.fm ad ?_
      simp only [a]; split
      · exact devProgram_keep (k.tie.apt hj e) _
      · exact .refl
    have no9 : P → chipNum j = i → c ≠ 9 := fun p hn => (Classical.em D).elim (fun d h => hD p d h e hn) (h9 p)
    have kb : Cached env P D 13 i b :=
      ka.setDev (by omega) rfl rfl (fun p _ => .inr ⟨e, fun hn => no9 p hn⟩) fun h => absurd h e
    have kd : Cached env P D 13 i d :=
      updateDev_cached_other hi (by omega) hj e kb fun T hn h => by rw [bi] at h; exact absurd h (no9 T.1 hn)
    exact setDownstreamNoteOn_cached hj kd fun h => absurd h e

theorem noteOn_cached (hi : i < 6) (hc : c < 16) (p v : Nat) (k : Cached env P D 13 i s) (h9 : P → ¬D → c ≠ 9) :
    Cached env P D 13 i (noteOn env s c p v) := by
  unfold noteOn
  split
  · exact noteOff_cached (by omega) c p k
  split
  · exact k
  split
  · exact k.same rfl rfl
  rename_i j hj
  have h13 := findFree_lt hj
  have hD : P → D → c = 9 → j ≠ i → chipNum j ≠ i := by
    intro p d e hne hn
    subst e
    have q := k.quiet p d j h13 hne hn
    rcases findFree_drums hj with h | h
    · exact q h
    · by_cases h6 : j < 6
      · rw [chipNum_lt6 h6] at hn; exact hne hn
      · exact h.2 (k.tie.psg j h13 (by omega) h.1)
  split
  · split
    · exact k.same rfl rfl
    split
    · exact k.same rfl rfl
    rename_i st _
    have ks : Cached env P D 13 i (setChan s c fun m => { m with stack := st, lastVelocity := v }) := k.same rfl rfl
    simp only
    split
    · exact ks.setDev (by omega) rfl rfl (fun _ _ => .inl rfl) fun _ => ⟨rfl, rfl, rfl, id⟩
    · exact startNote_cached hi h13 hc (ks.setDev (by omega) rfl rfl (fun _ _ => .inl rfl) fun _ => ⟨rfl, rfl, rfl, id⟩) h9 hD
  · exact startNote_cached hi h13 hc k h9 hD

theorem allNotesOff_cached (hi : i < N) (c : Nat) (k : Cached env P D N i s) : Cached env P D N i (allNotesOff env s c) :=
  foreach_cached (fun s j _ _ k =>
    have k1 : Cached env P D N i (Midi.setDev s j fun d => { d with noteOn := false, pitch := 0 }) :=
      k.setDev hi rfl rfl (fun _ _ => .inl rfl) fun e => by subst e; exact ⟨rfl, rfl, rfl, fun h => by cases h⟩
    k1.fm (by simp) devAllNotesOff_keep) k

theorem tick_cached (hi : i < N) (k : Cached env P D N i s) : Cached env P D N i (tick env s) := by
  unfold tick
  refine fold_cached _ (fun s j _ k => ?_) s k
  split
  · exact k
  split
  · split
    · unfold processGlide
      split
      · exact k
      · exact setDownstreamPitch_cached (k.setDev hi rfl rfl (fun _ _ => .inl rfl) fun _ => ⟨rfl, rfl, rfl, id⟩)
    · exact k
  · exact k.same rfl rfl

/-! ### Mapping -/

/-- Any change of mapping keeps it, unless drums are allowed. -/
theorem Cached.remapped (hi : i < N) (k : Cached env P D N i s) (hPD : P → ¬D)
    (h : ∀ j, j < N → (t.dev j) = { s.dev j with midiChannel := (t.dev j).midiChannel }) (hf : t.fm = s.fm) :
    Cached env P D N i t := by
  have tr : ∀ d d' : Dev, Tracks P D d → Tracks P D d' := fun _ _ T => ⟨T.1, fun d => absurd d (hPD T.1)⟩
  have e := h i hi
  refine ⟨k.tie.of hi (fun j hj => by rw [h j hj]) (fun j hj => by rw [h j hj]), ?_, ?_, ?_, ?_, fun p d => absurd d (hPD p)⟩
  · rw [hf, e]; exact k.vol
  · rw [hf, e]; exact k.pan
  · rw [hf, e]; intro T q hq; exact k.prog (tr _ _ T) q hq
  · rw [hf, e]; intro T x; exact k.perc (tr _ _ T) x

theorem applyDynamicMode_cached (hi : i < 13) (k : Cached env P D 13 i s) (hPD : P → ¬D) :
    Cached env P D 13 i (applyDynamicMode s) :=
  k.remapped hi hPD (fun j hj => by simp [applyDynamicMode, hj]) rfl

theorem setDynamicMode_cached (hi : i < 13) (m : Mode) (k : Cached env P D 13 i s) (hPD : P → ¬D) :
    Cached env P D 13 i (setDynamicMode s m) := by
  unfold setDynamicMode
  cases m
  · exact applyDynamicMode_cached hi (k.same rfl rfl) hPD
  · exact applyDynamicMode_cached hi (k.same rfl rfl) hPD
  · exact k.same rfl rfl

theorem remap_cached (hi : i < 13) (c l : Nat) (k : Cached env P D 13 i s) (hPD : P → ¬D) :
    Cached env P D 13 i (remap s c l) := by
  have st : ∀ a m, Cached env P D 13 i (Midi.setDev s a fun d => { d with midiChannel := m }) := fun a m =>
    k.setDev hi rfl rfl (fun p d => absurd d (hPD p)) fun _ => ⟨rfl, rfl, rfl, id⟩
  unfold remap
  split
  · exact k.same rfl rfl
  split
  · split
    · exact st _ _
    · exact k
  split
  · exact k.same rfl rfl
  · exact st _ _

theorem setPolyphonic_cached (hi : i < 13) (e : Bool) (k : Cached env P D 13 i s) (hPD : P → ¬D) :
    Cached env P D 13 i (setPolyphonic s e) := by
  unfold setPolyphonic
  simp only
  split
  · exact fold_cached _ (fun s i _ k => remap_cached hi 0 i k hPD) _ (setDynamicMode_cached hi _ k hPD)
  · exact setDynamicMode_cached hi _ k hPD

/-! ### Resets -/

theorem initDev_wired (env : Env) (s : St) (j : Nat) (hj : j < 13) :
    ((initDev env s j).dev j).num = chipNum j ∧ (((initDev env s j).dev j).ops = .fm → j < 6) ∧ (j < 6 → ((initDev env s j).dev j).ops = .fm) ∧
    (6 ≤ j → j ≤ 9 → ((initDev env s j).dev j).ops = .psg) ∧ ((initDev env s j).dev j).noteOn = false ∧
    ∀ l, l ≠ j → (initDev env s j).dev l = s.dev l := by
  unfold initDev
  extract_lets b
  have st : Still b (updateDev env b j) := updateDev_still j
  have c := Dev.core_eq (st.dev j)
  have e : b.dev j = { (if j ≤ 5 then { s.dev j with num := j, ops := .fm }
      else if j ≤ 9 then { s.dev j with num := j - 6, ops := .psg }
      else { s.dev j with num := j - 10, ops := .sm }) with noteOn := false, midiChannel := j, pitch := 0, cents := 0, pitchBend := 0x2000, glide := 0 } := by
    simp only [b, setDev_dev, upd_self]
  have f : ∀ l, l ≠ j → b.dev l = s.dev l := fun l hl => by simp [b, Psg.upd_other _ _ _ _ hl]
  have mc : (b.dev j).midiChannel < 16 := by rw [e]; show j < 16; omega
  rw [c.1, c.2.1, c.2.2.1]
  refine ⟨?_, ?_, ?_, ?_, by rw [e], fun l hl => ?_⟩
  · rw [e]; unfold chipNum
    by_cases h5 : j ≤ 5
    · simp [h5]
    · by_cases h9 : j ≤ 9
      · simp [h5, h9]
      · simp [h5, h9]
  · rw [e]
    by_cases h5 : j ≤ 5
    · intro _; omega
    · by_cases h9 : j ≤ 9
      · simp [h5, h9]
      · simp [h5, h9]
  · intro h; rw [e]; simp [show j ≤ 5 by omega]
  · intro h h'; rw [e]; simp [show ¬ j ≤ 5 by omega, h']
  · rw [updateDev_dev mc, Psg.upd_other _ _ _ _ hl]; exact f l hl

@[simp] theorem initDev_chan (env : Env) (s : St) (j : Nat) : (initDev env s j).chan = s.chan := by
  unfold initDev; simp

/-- Initialising another FM device channel. -/
theorem initDev_keep (env : Env) (s : St) (hj : j < 6) (hne : j ≠ i) : Keep True i s.fm (initDev env s j).fm := by
  unfold initDev
  extract_lets b
  have bf : b.fm = s.fm := rfl
  have e : b.dev j = { s.dev j with num := j, ops := .fm, noteOn := false, midiChannel := j, pitch := 0, cents := 0, pitchBend := 0x2000, glide := 0 } := by
    simp [b, show j ≤ 5 by omega]
  rw [← bf]
  unfold updateDev
  simp only
  split
  · refine Keep.trans ?_ updatePitchBend_keep
    have apt : ∀ t : St, (∀ l, (t.dev l).core = (b.dev l).core) → Apt i j t := fun t h _ => by
      rw [(Dev.core_eq (h j)).1, e]; exact hne
    have s1 : Still b (fmCall env b (.percussive (b.dev j).num ((b.dev j).midiChannel == 9))) := .fm rfl
    refine Keep.trans (fmCall_keep (env := env) (op := .percussive (b.dev j).num ((b.dev j).midiChannel == 9))
      fun _ => by rw [e]; exact hne) ?_
    generalize fmCall env b (.percussive (b.dev j).num ((b.dev j).midiChannel == 9)) = a at *
    generalize (b.dev j).midiChannel = c
    have s2 : Still a (updateVolume env a c j) := updateVolume_still c j
    have s3 : Still (updateVolume env a c j) (updatePan env (updateVolume env a c j) c j) := updatePan_still c j
    exact (updateVolume_keep (apt _ s1.dev)).trans ((updatePan_keep (apt _ (s1.trans s2).dev)).trans
      (updateProgram_keep (apt _ ((s1.trans s2).trans s3).dev)))
  · exact .refl

/-- What a device channel remembers is not wrong about the settings of a fresh MIDI channel. -/
structure Start (env : Env) (P : Prop) (i : Nat) (s : St) : Prop where
  vol : (s.dev i).volume = 127 → (s.fm.ch i).volume = 127
  pan : (s.dev i).pan = 64 → (s.fm.synth.ch i).stereo = side 64
  prog : P → (s.dev i).program = 0 → ∀ q, Lookup env.fm s.fm 0 q → extractPreset s.fm.synth i = q

theorem Cached.start (k : Cached env P D N i s) (hPD : P → ¬D) : Start env P i s :=
  ⟨fun e => by rw [k.vol, e], fun e => by rw [k.pan, e], fun p e q h =>
    k.prog ⟨p, fun d => absurd d (hPD p)⟩ q (by rw [e]; exact h)⟩

/-- Initialising its device channel. -/
theorem initDev_own (hi : i < 6) (h : Start env P i s) (hc : s.chan i = freshChan) (hM : i < N)
    (hl : ∀ l, l < N → l ≠ i → (s.dev l).num = chipNum l ∧ ((s.dev l).ops = .fm → l < 6) ∧ (6 ≤ l → l ≤ 9 → (s.dev l).ops = .psg)) :
    Cached env P False N i (initDev env s i) := by
  unfold initDev
  extract_lets b
  have e : b.dev i = { s.dev i with num := i, ops := .fm, noteOn := false, midiChannel := i, pitch := 0, cents := 0, pitchBend := 0x2000, glide := 0 } := by
    simp [b, show i ≤ 5 by omega]
  have f : ∀ l, l ≠ i → b.dev l = s.dev l := fun l hl => by simp [b, Psg.upd_other _ _ _ _ hl]
  have bc : b.chan = s.chan := rfl
  have bf : b.fm = s.fm := rfl
  have tie : Tie N i b := by
    refine ⟨fun l h => ?_, by rw [e], fun l h => ?_, fun l h => ?_⟩
    · by_cases x : l = i
      · subst x; rw [e, chipNum_lt6 hi]
      · rw [f l x]; exact (hl l h x).1
    · by_cases x : l = i
      · subst x; intro _; exact hi
      · rw [f l x]; exact (hl l h x).2.1
    · by_cases x : l = i
      · subst x; omega
      · rw [f l x]; exact (hl l h x).2.2
  refine updateDev_cached_own hi hM tie (by rw [e]; show i < 16; omega) ?_ ?_ ?_ ?_ (fun _ d => d.elim)
  · rw [e, bc, bf]; show _ = (s.chan i).volume → _ = (s.chan i).volume; rw [hc]; exact h.vol
  · rw [e, bc, bf]; show _ = (s.chan i).pan → _ = side (s.chan i).pan; rw [hc]; exact h.pan
  · rw [e, bc, bf]
    show _ → ∀ q, Lookup env.fm s.fm (s.chan i).program q → _ = (s.chan i).program → _
    rw [hc]; exact fun T q hq x => h.prog T.1 x q hq
  · rw [e]; intro _ x; exact absurd (show i = 9 from x) (by omega)

/-- Initialising another device channel. -/
theorem initDev_other (hi : i < 6) (hN : i < N) (hj : j < 13) (hne : j ≠ i) (hM : j < N)
    (k : ∀ l, l < N → l ≠ j → (s.dev l).num = chipNum l ∧ ((s.dev l).ops = .fm → l < 6) ∧ (6 ≤ l → l ≤ 9 → (s.dev l).ops = .psg))
    (kc : ∃ M, Cached env P False M i s) (h9 : P → j = 9 → i = 3 → (s.dev i).noteOn = false) :
    Cached env P False N i (initDev env s j) := by
  obtain ⟨M, kc⟩ := kc
  have w := initDev_wired env s j hj
  unfold initDev at w ⊢
  revert w
  extract_lets b
  intro w
  have st : Still b (updateDev env b j) := updateDev_still j
  have cj := fun l => Dev.core_eq (st.dev l)
  have mj : (b.dev j).midiChannel = j := by simp [b]
  have f : ∀ l, l ≠ j → b.dev l = s.dev l := fun l hl => by simp [b, Psg.upd_other _ _ _ _ hl]
  have ei : b.dev i = s.dev i := f i (Ne.symm hne)
  rw [(cj j).1, (cj j).2.1] at w
  have kb : Cached env P False N i b := by
    refine ⟨⟨fun l h => ?_, by rw [ei]; exact kc.tie.mine, fun l h => ?_, fun l h => ?_⟩, ?_, ?_, ?_, ?_, fun _ d => d.elim⟩
    · by_cases x : l = j
      · subst x; exact w.1
      · rw [f l x]; exact (k l h x).1
    · by_cases x : l = j
      · subst x; exact w.2.1
      · rw [f l x]; exact (k l h x).2.1
    · by_cases x : l = j
      · subst x; exact w.2.2.2.1
      · rw [f l x]; exact (k l h x).2.2
    · rw [ei]; exact kc.vol
    · rw [ei]; exact kc.pan
    · rw [ei]; exact kc.prog
    · rw [ei]; exact kc.perc
  refine updateDev_cached_other hi hN hM hne kb fun T hn e => ?_
  rw [mj] at e
  subst e
  rw [ei]
  exact h9 T.1 rfl (by rw [← hn]; rfl)

theorem resetChannels_cached (hi : i < 6) (h : Start env P i s)
    (hD : P → D → i ≠ 3 ∨ s.dynamic = true) : Cached env P D 13 i (resetChannels env s) := by
  unfold resetChannels
  extract_lets a
  have ha : Start env P i a := ⟨h.vol, h.pan, h.prog⟩
  have ca : ∀ c, c < 16 → a.chan c = freshChan := fun c hc => by simp [a, hc]
  have key : ∀ n, n ≤ 13 → let t := (List.range n).foldl (initDev env) a
      t.chan = a.chan ∧ t.dynamic = a.dynamic ∧
      (∀ l, l < n → (t.dev l).num = chipNum l ∧ ((t.dev l).ops = .fm → l < 6) ∧ (6 ≤ l → l ≤ 9 → (t.dev l).ops = .psg)) ∧
      (n ≤ i → Start env P i t) ∧ (i < n → Cached env P False n i t ∧ (t.dev i).noteOn = false) := by
    intro n
    induction n with
    | zero => intro _; exact ⟨rfl, rfl, fun l hl => absurd hl (by omega), fun _ => ha, fun h => absurd h (by omega)⟩
    | succ m ih =>
      intro hm
      obtain ⟨h1, h0, h2, h3, h4⟩ := ih (by omega)
      simp only [List.range_succ, List.foldl_append, List.foldl_cons, List.foldl_nil]
      generalize (List.range m).foldl (initDev env) a = t at *
      have w := initDev_wired env t m (by omega)
      refine ⟨by simp [h1], ?_, fun l hl => ?_, fun hl => ?_, fun hl => ?_⟩
      · rw [← h0]
        show (updateDev env _ m).dynamic = _
        rw [(updateDev_still m).dynamic]; rfl
      · by_cases e : l = m
        · subst e; exact ⟨w.1, w.2.1, w.2.2.2.1⟩
        · rw [w.2.2.2.2.2 l e]; exact h2 l (by omega)
      · have k := initDev_keep env t (j := m) (i := i) (by omega) (by omega)
        have e := w.2.2.2.2.2 i (by omega)
        have hs := h3 (by omega)
        refine ⟨?_, ?_, ?_⟩
        · rw [e, k.vol]; exact hs.vol
        · rw [e, k.synth.stereo]; exact hs.pan
        · rw [e, k.synth.preset trivial]; intro p x q hq
          exact hs.prog p x q (lookup_user (k.user trivial) hq)
      · by_cases e : i = m
        · subst e
          refine ⟨initDev_own hi (h3 (by omega)) (by rw [h1]; exact ca i (by omega)) (by omega) fun l hl hne => h2 l (by omega), w.2.2.2.2.1⟩
        · have := h4 (by omega)
          refine ⟨initDev_other hi (by omega) (by omega) (Ne.symm e) (by omega) (fun l hl hne => h2 l (by omega)) ⟨m, this.1⟩ fun _ _ _ => this.2, ?_⟩
          rw [w.2.2.2.2.2 i e]; exact this.2
  obtain ⟨-, h0, -, -, k⟩ := key 13 (by omega)
  have k := (k (by omega)).1
  generalize (List.range 13).foldl (initDev env) a = t at *
  have k := applyDynamicMode_cached (by omega) k (fun _ d => d)
  refine ⟨k.tie, k.vol, k.pan, fun T => k.prog ⟨T.1, fun d => d.elim⟩, fun T => k.perc ⟨T.1, fun d => d.elim⟩, fun p d l hl hne hcn => ?_⟩
  simp only [applyDynamicMode, hl, if_true]
  split
  · omega
  · rename_i hdyn
    intro e
    have e : l = 9 := e
    subst e
    have h3 : i = 3 := by rw [← hcn]; rfl
    rcases hD p d with x | x
    · exact x h3
    · rw [h0] at hdyn; exact hdyn x

theorem reset_cached (he : env.Ok) (hi : i < 6)
    (hP : P → env.fm.sram = true → ∀ q, Sram.loadProgram s.fm.mem 0 ≠ .ok q) (hD : P → D → i ≠ 3 ∨ env.mode = .dynamic) :
    Cached env P D 13 i (reset env s) := by
  unfold reset
  extract_lets a b c d
  obtain ⟨q, hq, -⟩ := Fm.presetOf he.fm (n := 0) (by omega)
  have o := Fm.reset_own env.fm s.fm hi hq
  have df : d.fm = Fm.step env.fm (Fm.step env.fm s.fm .reset) .smReset := rfl
  have k : Keep True i (Fm.step env.fm s.fm .reset) d.fm := by rw [df]; exact Fm.step_keep trivial
  refine resetChannels_cached hi ⟨fun _ => k.vol.trans o.1, fun _ => k.synth.stereo.trans o.2.1, fun p _ x hx => ?_⟩ fun p d => ?_
  · rw [k.synth.preset trivial, o.2.2.1]
    have u : d.fm.user 0 = none := by
      rw [k.user trivial, o.2.2.2]
      split
      · rename_i hs
        have := hP p hs
        generalize Sram.loadProgram s.fm.mem 0 = r at this ⊢
        cases r with
        | ok q => exact absurd rfl (this q)
        | empty => rfl
        | badChecksum => rfl
      · rfl
    rcases hx.2 with y | y
    · rw [u] at y; cases y
    · rw [hq] at y; exact Option.some.inj y.2
  · refine (hD p d).imp id fun h => ?_
    show (env.mode == Mode.dynamic) = true
    rw [h]; rfl

theorem generalMidiReset_cached (hi : i < 6) (k : Cached env P D 13 i s) (hPD : P → ¬D) :
    Cached env P D 13 i (generalMidiReset env s) := by
  unfold generalMidiReset
  have ka : Cached env P D 13 i ((List.range 16).foldl (allNotesOff env) s) :=
    fold_cached _ (fun s c _ k => allNotesOff_cached (by omega) c k) _ k
  generalize (List.range 16).foldl (allNotesOff env) s = a at *
  extract_lets _ b
  have kb : Cached env P D 13 i b := by
    simp only [b]; split
    · exact ka.same rfl rfl
    · exact ka
  exact resetChannels_cached hi (kb.start hPD) fun p d => absurd d (hPD p)

theorem Cached.not_drums (k : Cached env P D N i s) (hPD : P → ¬D) : Cached env P False N i s :=
  ⟨k.tie, k.vol, k.pan, fun T => k.prog ⟨T.1, fun d => absurd d (hPD T.1)⟩, fun T => k.perc ⟨T.1, fun d => absurd d (hPD T.1)⟩,
    fun _ d => d.elim⟩

theorem Cached.drums (k : Cached env P False N i s) (hPD : P → ¬D) : Cached env P D N i s :=
  ⟨k.tie, k.vol, k.pan, fun T => k.prog ⟨T.1, fun d => d.elim⟩, fun T => k.perc ⟨T.1, fun d => d.elim⟩,
    fun p d => absurd d (hPD p)⟩

/-! ### Controllers and system exclusive -/

/-- Controllers that set an FM parameter other than the stereo mode. -/
def paramCc (k : Nat) : Bool :=
  (14 ≤ k && k ≤ 27) || (39 ≤ k && k ≤ 62) || (70 ≤ k && k ≤ 73) || k == 75 || k == 76 || (90 ≤ k && k ≤ 93)

theorem fmParam_calm {Q : Prop} {inv : Bool} {num k v : Nat} {op : Synth.Op} (h : fmParam inv num k v = some op) (h77 : k ≠ 77)
    (hp : Q → paramCc k = false) : op.calm Q i := by
  have hp' : ¬Q ∨ paramCc k = false := (Classical.em Q).elim (fun q => .inr (hp q)) .inl
  unfold fmParam at h
  split at h
  all_goals first
    | (cases h; done)
    | (simp only [Option.some.injEq] at h; subst h; exact absurd rfl h77)
    | (simp only [Option.some.injEq] at h; subst h; trivial)
    | (simp only [Option.some.injEq] at h; subst h
       refine .inr fun q => ?_
       have := hp q
       simp [paramCc] at this)

theorem enableDac_cached (e : Bool) (kc : Cached env P D 13 i s) (h78 : i = 5 → e = false) :
    Cached env P D 13 i (enableDac env s e) := by
  unfold enableDac
  have k1 : Cached env P D 13 i (Midi.setDev s 5 fun d => { d with ops := if e = true then .dac else .fm }) := by
    have ei : ∀ l, l ≠ 5 → (Midi.setDev s 5 fun d => { d with ops := if e = true then .dac else .fm }).dev l = s.dev l :=
      fun l hl => by simp [Psg.upd_other _ _ _ _ hl]
    have e5 : (Midi.setDev s 5 fun d => { d with ops := if e = true then .dac else .fm }).dev 5 =
      { s.dev 5 with ops := if e = true then .dac else .fm } := by simp
    have x : ∀ l, ((Midi.setDev s 5 fun d => { d with ops := if e = true then .dac else .fm }).dev l) =
        { s.dev l with ops := ((Midi.setDev s 5 fun d => { d with ops := if e = true then .dac else .fm }).dev l).ops } := by
      intro l
      by_cases hl : l = 5
      · subst hl; rw [e5]
      · rw [ei l hl]
    have m : ((Midi.setDev s 5 fun d => { d with ops := if e = true then .dac else .fm }).dev i).ops = .fm := by
      by_cases h : i = 5
      · subst h
        rw [e5]; simp [h78 rfl]
      · rw [ei i h]; exact kc.tie.mine
    have kd : ∀ l, l < 13 → ((Midi.setDev s 5 fun d => { d with ops := if e = true then .dac else .fm }).dev l).ops = .fm → l < 6 := by
      intro l hl h
      by_cases h5 : l = 5
      · omega
      · rw [ei l h5] at h; exact kc.tie.kind l hl h
    have kp : ∀ l, l < 13 → 6 ≤ l → l ≤ 9 → ((Midi.setDev s 5 fun d => { d with ops := if e = true then .dac else .fm }).dev l).ops = .psg :=
      fun l hl h6 h9 => by rw [ei l (by omega)]; exact kc.tie.psg l hl h6 h9
    have hf : (Midi.setDev s 5 fun d => { d with ops := if e = true then .dac else .fm }).fm = s.fm := rfl
    generalize (Midi.setDev s 5 fun d => { d with ops := if e = true then .dac else .fm }) = t at *
    refine ⟨⟨fun l hl => ?_, m, kd, kp⟩, ?_, ?_, ?_, ?_, ?_⟩
    · rw [x l]; exact kc.tie.num l hl
    · rw [hf, x i]; exact kc.vol
    · rw [hf, x i]; exact kc.pan
    · rw [hf, x i]; exact kc.prog
    · rw [hf, x i]; exact kc.perc
    · intro p d l hl; rw [x l]; exact kc.quiet p d l hl
  generalize (Midi.setDev s 5 fun d => { d with ops := if e = true then .dac else .fm }) = t at *
  exact k1.fm rfl (fmCall_keep trivial)

theorem setFmParam_cached {k v : Nat} (kc : Cached env P D 13 i s) (h77 : k ≠ 77)
    (hp : P → paramCc k = false) (h78 : i = 5 → k = 78 → v < 64) : Cached env P D 13 i (setFmParam env s j k v) := by
  unfold setFmParam
  split
  · rename_i op ho
    split
    · exact kc
    · exact kc.fm rfl (fmCall_keep (fmParam_calm ho h77 fun T => hp T.1))
  · split
    · split
      · exact kc
      · rename_i e _
        exact enableDac_cached _ kc fun h => by have := h78 h e; simp; omega
    · exact kc.same rfl rfl

theorem program_cached (hi : i < 6) (c p : Nat) (k : Cached env P D 13 i s) : Cached env P D 13 i (program env s c p) := by
  unfold program
  extract_lets a b
  have ka : Cached env P D 13 i a := k.same rfl rfl
  have kb : Cached env P D 13 i b := foreach_cached (fun s j hj _ k => updateProgram_cached hi (by omega) hj k) ka
  clear_value b
  exact kb.same rfl rfl

theorem pitchBend_cached (hi : i < 6) (c b : Nat) (k : Cached env P D 13 i s) : Cached env P D 13 i (pitchBend env s c b) := by
  unfold pitchBend
  extract_lets a
  have ka : Cached env P D 13 i a := k.same rfl rfl
  refine foreach_cached (fun s j hj _ k => ?_) ka
  split
  · exact updatePitchBend_cached (by omega) k
  · exact k

/-- Controllers allowed. -/
def ccKeeps (P D : Prop) (i k v : Nat) : Prop :=
  k ≠ 77 ∧ (i = 5 → k = 78 → v < 64) ∧ (P → paramCc k = false ∧ k ≠ 87 ∧ (k = 121 → i ≠ 3)) ∧ (P → D → k ≠ 84 ∧ k ≠ 121)

theorem resetAllControllers_cached (hi : i < 6) (k : Cached env P D 13 i s) (hPD : P → ¬D) (h3 : P → i ≠ 3) :
    Cached env P D 13 i (resetAllControllers env s c) := by
  unfold resetAllControllers
  extract_lets a b
  have ka : Cached env P False 13 i a := k.not_drums hPD |>.same rfl rfl
  have kb : Cached env P False 13 i b := by
    refine foreach_cached (fun s j hj _ k => ?_) ka
    have w : ∀ l, l < 13 → (s.dev l).num = chipNum l ∧ ((s.dev l).ops = .fm → l < 6) ∧ (6 ≤ l → l ≤ 9 → (s.dev l).ops = .psg) :=
      fun l hl => ⟨k.tie.num l hl, k.tie.kind l hl, k.tie.psg l hl⟩
    by_cases e : j = i
    · subst e
      unfold initDev
      extract_lets b
      have e : b.dev j = { s.dev j with noteOn := false, midiChannel := j, pitch := 0, cents := 0, pitchBend := 0x2000, glide := 0 } := by
        have h1 := k.tie.num j (by omega)
        have h2 := k.tie.mine
        rw [chipNum_lt6 hi] at h1
        simp only [b, setDev_dev, upd_self, show j ≤ 5 by omega, if_true]
        simp only [Dev.mk.injEq, and_self, and_true]
        exact ⟨h1.symm, h2.symm⟩
      have kb : Cached env P False 13 j (Midi.setDev s j fun d => { d with noteOn := false, midiChannel := j, pitch := 0, cents := 0, pitchBend := 0x2000, glide := 0 }) :=
        k.setDev (by omega) rfl rfl (fun _ d => d.elim) fun _ => ⟨rfl, rfl, rfl, fun h => by cases h⟩
      have kb : Cached env P False 13 j b := by
        refine kb.same ?_ rfl
        funext l
        by_cases x : l = j
        · subst x; rw [e]; simp
        · simp [b, Psg.upd_other _ _ _ _ x]
      refine updateDev_cached_own hi (by omega) kb.tie (by rw [e]; show j < 16; omega) ?_ ?_ ?_ ?_ (fun _ d => d.elim)
      · rw [kb.vol]; exact id
      · rw [kb.pan]; intro h; rw [h]
      · intro T q hq h; exact kb.prog T q (by rw [h]; exact hq)
      · intro _ _; rw [e]
    · exact initDev_other hi (by omega) hj e hj (fun l hl _ => w l hl) ⟨13, k⟩ fun p _ h => absurd h (h3 p)
  exact (setDynamicMode_cached (by omega) _ kb (fun _ d => d)).drums hPD

theorem ccSwitch_cached (hi : i < 6) {k v : Nat} (h : ccKeeps P D i k v) (kc : Cached env P D 13 i s) :
    Cached env P D 13 i (ccSwitch env s c k v) := by
  obtain ⟨h77, h78, hP, hPD⟩ := h
  have nn : ∀ {k}, k = 84 ∨ k = 121 → (P → D → k ≠ 84 ∧ k ≠ 121) → P → ¬D := by
    intro k e h p d; have := h p d; omega
  have st : ∀ s, Cached env P D 13 i s → ∀ f, Cached env P D 13 i (setChan s c f) := fun s k f => k.same rfl rfl
  have rng : ∀ msb, Cached env P D 13 i (rpnDataEntry env s c v msb) := by
    intro msb
    unfold rpnDataEntry
    split
    · unfold updatePbRange
      extract_lets a
      refine foreach_cached (fun s j hj _ k => ?_) (kc.same (t := a) rfl rfl)
      split
      · exact setDownstreamPitch_cached k
      · exact k
    · exact kc.same rfl rfl
  unfold ccSwitch
  split
  · split
    · exact st _ kc _
    · exact kc.same rfl rfl
  · exact foreach_cached (fun s j hj _ k => updateVolume_cached hi (by omega) hj k) (st _ kc _)
  · exact foreach_cached (fun s j hj _ k => updatePan_cached hi (by omega) hj k) (st _ kc _)
  · exact allNotesOff_cached (by omega) c kc
  · exact allNotesOff_cached (by omega) c kc
  · exact setPolyphonic_cached (by omega) _ kc (nn (.inl rfl) hPD)
  · exact kc.fm rfl (fmCall_keep trivial)
  · exact resetAllControllers_cached hi kc (nn (.inr rfl) hPD) fun p => (hP p).2.2 rfl
  · split
    · exact kc
    · exact kc.same rfl rfl
  · split
    · exact kc
    · exact st _ kc _
  · exact st _ kc _
  · split
    · exact kc
    · exact st _ kc _
  · exact rng true
  · exact rng false
  · exact st _ kc _
  · exact st _ kc _
  · exact kc
  · exact kc
  · exact kc
  · exact kc
  · unfold storeFromChannel
    split
    · rename_i l _
      have k1 : Cached env P D 13 i (fmCall env s (.storeFrom (s.dev l).num v)) :=
        kc.fm rfl (fmCall_keep fun T => absurd rfl (hP T.1).2.1)
      exact k1.same rfl rfl
    · exact kc
  · exact foreach_cached (fun s j _ _ k => setFmParam_cached k h77 (fun p => (hP p).1) h78) kc

/-- System exclusive messages allowed: with `P` no stores and no clears, with drums no remapping, change of mode or
General MIDI reset. -/
def sysexKeeps (P D : Prop) (d : List Nat) : Prop :=
  (P → d.take 4 ∉ [[0, 0x22, 0x77, 10], [0, 0x22, 0x77, 11], [0, 0x22, 0x77, 12]]) ∧
  (P → D → d.take 4 ∉ [[0x7E, 0x7F, 0x09, 0x01], [0, 0x22, 0x77, 0], [0, 0x22, 0x77, 3]])

theorem clears_cached (l : List Nat) (h : ¬P) (k : Cached env P D 13 i s) :
    Cached env P D 13 i (l.foldl (fun s n => fmCall env s (.clear n)) s) := by
  refine fold_cached l (fun s n _ k => ?_) s k
  exact k.fm (t := fmCall env s (.clear n)) rfl (fmCall_keep (op := .clear n) fun T => h T.1)

theorem Cached.say (k : Cached env P D N i s) (m : Msg) : Cached env P D N i (say s m) := k.same rfl rfl

theorem clearAll_cached (d : List Nat) (k : Cached env P D 13 i s) (h : ¬P) : Cached env P D 13 i (clearAll env s d) := by
  have k1 := clears_cached (List.range 128) h k
  unfold clearAll
  split
  · exact k1.say _
  · exact k.say _

theorem handler_cached (hi : i < 6) (c : Nat) (e : List Nat) (j : Nat) (k : Cached env P D 13 i s)
    (h1 : P → c ≠ 10 ∧ c ≠ 11 ∧ c ≠ 12) (h2 : P → D → c ≠ 0 ∧ c ≠ 3) : Cached env P D 13 i (handler env s c e j) := by
  have nn : ∀ {c}, c = 0 ∨ c = 3 → (P → D → c ≠ 0 ∧ c ≠ 3) → P → ¬D := by
    intro k e h p d; have := h p d; omega
  unfold handler
  split
  · exact remap_cached (by omega) _ _ k (nn (.inl rfl) h2)
  · exact k.same rfl rfl
  · exact setDynamicMode_cached (by omega) _ k (nn (.inr rfl) h2)
  · exact k.same rfl rfl
  · exact k.same rfl rfl
  · unfold loadPsgEnvelope; split
    · exact k.same rfl rfl
    · exact k.same rfl rfl
  · exact k.same rfl rfl
  · unfold directWrite; exact k.fm rfl (fmCall_keep trivial)
  · unfold directWrite; exact k.fm rfl (fmCall_keep trivial)
  · unfold storeProgram; split
    · have k1 : Cached env P D 13 i (fmCall env s (.store (e.getD 1 0) (presetOf e))) :=
        k.fm rfl (fmCall_keep fun T => absurd rfl (h1 T.1).1)
      exact k1.same rfl rfl
    · exact k.same rfl rfl
  · unfold clearProgram; split
    · have k1 : Cached env P D 13 i (fmCall env s (.clear (e.getD 1 0))) :=
        k.fm rfl (fmCall_keep fun T => absurd rfl (h1 T.1).2.1)
      exact k1.same rfl rfl
    · exact k.same rfl rfl
  · exact clearAll_cached e k fun p => (h1 p).2.2 rfl
  · unfold dumpPreset; split
    · split
      · exact k.same rfl rfl
      · exact k.same rfl rfl
    · exact k.same rfl rfl
  · unfold dumpChannel; simp only; split
    · exact k.same rfl rfl
    split
    · split
      · split
        · exact k.same rfl rfl
        · exact k.same rfl rfl
      · exact k.same rfl rfl
    · exact k.same rfl rfl
  · exact k

theorem sysex_cached (hi : i < 6) (d : List Nat) (j : Nat) (h : sysexKeeps P D d) (k : Cached env P D 13 i s) :
    Cached env P D 13 i (sysex env s d j) := by
  obtain ⟨h1, h2⟩ := h
  unfold sysex
  split
  · exact k
  rename_i hlen
  split
  · rename_i e
    exact generalMidiReset_cached hi k fun p d => h2 p d (by rw [e]; simp)
  split
  · exact k
  rename_i h3
  have h3 : d.take 3 = [0, 0x22, 0x77] := by simpa using h3
  have h4 : d.take 4 = [0, 0x22, 0x77, d.getD 3 0] := by
    rw [List.take_add_one, h3, List.getElem?_eq_getElem (by omega), List.getD_eq_getElem?_getD,
      List.getElem?_eq_getElem (by omega)]
    rfl
  rw [h4] at h1 h2
  simp only [List.mem_cons, List.cons.injEq, List.not_mem_nil, or_false, true_and, and_true, not_or] at h1 h2
  have hh := handler_cached (j := j) hi (d.getD 3 0) (d.drop 4) k h1 (fun p d => (h2 p d).2)
  simp only
  split
  · exact k.same rfl rfl
  · split
    · exact k.same rfl rfl
    · exact hh
  · exact hh

/-- Calls allowed: no stereo controller, no samples on this voice; if programs are tracked no FM parameters, no preset
stores, no system reset, and either no drum notes or no remapping, mode changes and controller resets. -/
def Op.keeps (P D : Prop) (i : Nat) : Op → Prop
  | .noteOn c _ _ => P → ¬D → c ≠ 9
  | .cc _ k v => ccKeeps P D i k v
  | .sysex d _ => sysexKeeps P D d
  | .remap _ _ => P → ¬D
  | .reset => ¬P
  | _ => True

theorem step_cached (he : env.Ok) (hi : i < 6) {op : Op} (h : op.keeps P D i) (k : Cached env P D 13 i s) :
    Cached env P D 13 i (step env s op) := by
  have ub : Cached env P D 13 i (ub s) := k.same rfl rfl
  cases op with
  | noteOn c p v =>
    simp only [step]; split
    · rename_i hc; exact noteOn_cached hi hc p v k h
    · exact ub
  | noteOff c p =>
    simp only [step]; split
    · exact noteOff_cached (by omega) c p k
    · exact ub
  | bend c b =>
    simp only [step]; split
    · exact pitchBend_cached hi c b k
    · exact ub
  | program c p =>
    simp only [step]; split
    · exact program_cached hi c p k
    · exact ub
  | sysex d j => exact sysex_cached hi d j h k
  | remap c l => exact remap_cached (by omega) c l k h
  | reset => exact reset_cached he hi (fun p => absurd p h) (fun p => absurd p h)
  | tick => exact tick_cached (by omega) k
  | psgTick => exact k.same rfl rfl
  | cc c n v =>
    simp only [step]; split
    · have := ccSwitch_cached (c := c) hi h k
      unfold cc
      generalize ccSwitch env s c n v = t at *
      exact this.same rfl rfl
    · exact ub

theorem run_cached (he : env.Ok) (hi : i < 6) (ops : List Op) (h : ∀ op ∈ ops, op.keeps P D i) (k : Cached env P D 13 i s) :
    Cached env P D 13 i (run env s ops) := fold_cached ops (fun _ op ho k => step_cached he hi (h op ho) k) s k

theorem boot_cached (he : env.Ok) (hi : i < 6) (b : Bool) (m : Sram.Mem)
    (hP : P → env.fm.sram = true → ∀ q, Sram.loadProgram m 0 ≠ .ok q) (hD : P → D → i ≠ 3 ∨ env.mode = .dynamic) :
    Cached env P D 13 i (boot env b m) := reset_cached he hi hP hD

end Mdmi.Midi
