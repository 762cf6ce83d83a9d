import Verif.Proofs.MidiMono
import Verif.Proofs.MidiPolyVel
/-!
# The one FM or PSG voice of a MIDI channel: its key and its velocity
-/
namespace Mdmi.Midi
open NotePriority (Rep)
open Mdmi.Synth (keyed)

variable {env : Env} {s t u : St} {c i j : Nat}

private theorem chipNum_fm {n : Nat} (h : n < 6) : chipNum n = n := by unfold chipNum; rw [if_pos (by omega)]

private theorem chipNum_psg {n : Nat} (h : 6 ≤ n) (h' : n < 10) : chipNum n = n - 6 := by
  unfold chipNum; rw [if_neg (by omega), if_pos (by omega)]

/-- Voice `i`'s FM channel stays keyed on or off, with the same velocity; its PSG channel keeps its velocity. -/
def Untouched (i : Nat) (s t : St) : Prop :=
  (i < 6 → keyed t.fm.synth.out i = keyed s.fm.synth.out i ∧ (t.fm.ch i).velocity = (s.fm.ch i).velocity) ∧
  (6 ≤ i → (t.psg.ch (i - 6)).velocity = (s.psg.ch (i - 6)).velocity)

theorem Untouched.refl : Untouched i s s := ⟨fun _ => ⟨rfl, rfl⟩, fun _ => rfl⟩
theorem Untouched.trans (h : Untouched i s t) (k : Untouched i t u) : Untouched i s u :=
  ⟨fun x => ⟨(k.1 x).1.trans (h.1 x).1, (k.1 x).2.trans (h.1 x).2⟩, fun x => (k.2 x).trans (h.2 x)⟩
theorem Untouched.same (h : t.fm = s.fm) (h' : t.psg = s.psg) : Untouched i s t := by
  unfold Untouched; rw [h, h']; exact ⟨fun _ => ⟨rfl, rfl⟩, fun _ => rfl⟩
theorem Still.untouched (h : Still s t) : Untouched i s t := ⟨fun _ => ⟨h.key i, h.vel i⟩, fun _ => h.pvel _⟩

theorem devNoteOn_untouched {p v : Nat} {x : Int} (hj : j < 13) (w : Wired s) (h : j ≠ i) (hi : i < 10) :
    Untouched i s (devNoteOn env s j p x v) := by
  unfold devNoteOn
  by_cases h6 : j < 6
  · rw [w.fm j h6]
    simp only [fmCall]
    rw [w.num j hj, chipNum_fm h6]
    exact ⟨fun hi => ⟨Fm.noteOn_key env.fm _ h6 hi h, Fm.step_strikes _ _ (by simp [Fm.Op.strikes]; exact h)⟩, fun _ => rfl⟩
  · by_cases h10 : j < 10
    · rw [w.square j (by omega) h10]
      simp only [psgCall]
      rw [w.num j hj, chipNum_psg (by omega) h10]
      exact ⟨fun _ => ⟨rfl, rfl⟩, fun _ => Psg.step_strikes _ _ (by simp [Psg.Op.strikes]; omega)⟩
    · rw [w.special j (by omega) hj]
      exact ⟨fun _ => ⟨Fm.step_keyless env.fm _ rfl i, Fm.step_strikes env.fm s.fm (op := .smNoteOn (s.dev j).num p x v) rfl⟩,
        fun _ => rfl⟩

theorem setDownstreamNoteOn_untouched {v : Nat} (hi : i < 10) (hj : j < 13) (w : Wired s) (h : j ≠ i) :
    Untouched i s (setDownstreamNoteOn env s j v) := by
  unfold setDownstreamNoteOn withPitch
  simp only
  split
  · exact devNoteOn_untouched hj w h hi
  · exact .same rfl rfl

theorem Wired.setDev {f : Dev → Dev} (w : Wired s) (h1 : (f (s.dev j)).num = (s.dev j).num) (h2 : (f (s.dev j)).ops = (s.dev j).ops) :
    Wired (setDev s j f) := by
  refine w.of (fun n _ => ?_) (fun n _ => ?_)
  all_goals
    rw [setDev_dev]
    by_cases e : n = j
    · subst e; simp [h1, h2]
    · simp [Psg.upd_other _ _ _ _ e]

theorem devChanNoteOn_untouched {p v : Nat} (hi : i < 10) (hj : j < 13) (w : Wired s) (h : j ≠ i) :
    Untouched i s (devChanNoteOn env s j p v) :=
  (Untouched.same (t := setDev s j fun d => { d with noteOn := true, cents := 0, pitch := p }) rfl rfl).trans
    (setDownstreamNoteOn_untouched hi hj (w.setDev rfl rfl) h)

theorem startNote_untouched {k p v : Nat} (hi : i < 10) (hj : j < 13) (w : KeyInv s) (h : j ≠ i) :
    Untouched i s (startNote env s j k p v) := by
  unfold startNote
  extract_lets a b d
  have ka : Still s a := by
    show Still s (if (s.dev j).midiChannel = 9 ∧ k ≠ 9 then devProgram env s j (s.chan k).program else s)
    split
    · exact devProgram_still j _
    · exact .refl
  have kd : Still b d := updateDev_still j
  have wb : KeyInv b := (ka.keyInv w).setDev rfl rfl fun _ => rfl
  refine ka.untouched.trans ((Untouched.same (t := b) rfl rfl).trans (kd.untouched.trans ?_))
  exact setDownstreamNoteOn_untouched hi hj (kd.keyInv wb).wired h

theorem devChanNoteOff_untouched (hj : j < 13) (w : Wired s) (h : j ≠ i) :
    Untouched i s (devChanNoteOff env s j) := by
  unfold devChanNoteOff
  refine (Untouched.same (t := setDev s j fun d => { d with noteOn := false, pitch := 0 }) rfl rfl).trans ?_
  refine ⟨fun hi => ⟨?_, (devNoteOff_vel j).1 i⟩, fun _ => (devNoteOff_vel j).2 _⟩
  rw [devNoteOff_key hj (w.setDev rfl rfl) hi, if_neg (Ne.symm h)]

theorem devAllNotesOff_untouched (hj : j < 13) (w : Wired s) (h : j ≠ i) :
    Untouched i s (devAllNotesOff env s j) := by
  refine ⟨fun hi => ⟨by rw [devAllNotesOff_key hj w hi, if_neg (Ne.symm h)], ?_⟩, fun _ => ?_⟩ <;> unfold devAllNotesOff <;> split
  · simp only [fmCall]; exact Fm.step_strikes _ _ rfl
  any_goals rfl
  · simp only [psgCall]; exact Psg.step_strikes _ _ rfl

/-- A key of another MIDI channel goes up. -/
theorem noteOff_untouched {k p : Nat} (hi : i < 10) (h : Solo c i s) (hk : k ≠ c) (w : KeyInv s) :
    Untouched i s (noteOff env s k p) := by
  unfold noteOff
  split
  · exact .same rfl rfl
  split
  · exact .same rfl rfl
  rename_i next st _
  extract_lets a
  have key : ∀ (l : List Nat), (∀ j ∈ l, j < 13) → ∀ (x : St × Bool), Untouched i s x.1 → KeyInv x.1 →
      (x.1.dev i).midiChannel = c → Untouched i s (l.foldl (noteOffBody env k p next (singleVoice a k true)) x).1 := by
    intro l
    induction l with
    | nil => intro _ x h1 _ _; exact h1
    | cons j l ih =>
      intro hl x h1 h2 h3
      have hj := hl j (by simp)
      rw [List.foldl_cons]
      by_cases e : j = i
      · subst e
        have : noteOffBody env k p next (singleVoice a k true) x j = x := by
          unfold noteOffBody
          simp only
          rw [if_neg]
          rintro ⟨z, -⟩
          exact hk (by rw [← z, h3])
        rw [this]
        exact ih (fun n hn => hl n (by simp [hn])) x h1 h2 h3
      · refine ih (fun n hn => hl n (by simp [hn])) _ ?_ ?_ ?_
        · unfold noteOffBody
          simp only
          split
          · split
            · split
              · split
                · exact h1.trans (.same rfl rfl)
                · exact h1.trans (.same rfl rfl)
              · exact h1.trans (devChanNoteOn_untouched hi hj h2.wired e)
            · exact h1.trans (devChanNoteOff_untouched hj h2.wired e)
          · exact h1
        · unfold noteOffBody
          simp only
          split
          · split
            · split
              · split
                · exact h2.same rfl rfl
                · rename_i st _
                  have h4 : KeyInv (setChan x.1 k fun m => { m with stack := st }) := h2.same rfl rfl
                  exact h4.setDev (f := fun d => { d with glide := next }) rfl rfl fun y => y
              · exact devChanNoteOn_keyInv hj h2
            · exact devChanNoteOff_keyInv hj h2
          · exact h2
        · unfold noteOffBody
          simp only
          split
          · split
            · split
              · split
                · exact h3
                · simpa [Psg.upd_other _ _ _ _ (Ne.symm e)] using h3
              · rw [devChanNoteOn_dev, Psg.upd_other _ _ _ _ (Ne.symm e)]; exact h3
            · rw [devChanNoteOff_dev, Psg.upd_other _ _ _ _ (Ne.symm e)]; exact h3
          · exact h3
  refine key _ (fun j hj => by simpa using hj) (a, false) (.same rfl rfl) (w.same rfl rfl) ?_
  exact (h.only i h.lt).2 rfl

/-- A key of another MIDI channel goes down. -/
theorem noteOn_untouched {k p v : Nat} (hi : i < 10) (h : Solo c i s) (hk : k ≠ c) (w : KeyInv s) :
    Untouched i s (noteOn env s k p v) := by
  unfold noteOn
  split
  · exact noteOff_untouched hi h hk w
  split
  · exact .refl
  split
  · exact .same rfl rfl
  rename_i j hf
  have hj := findFree_lt hf
  have e : j ≠ i := by
    rintro rfl
    exact hk ((findFree_static h.static hf).symm.trans ((h.only j h.lt).2 rfl))
  split
  · split
    · exact .same rfl rfl
    split
    · exact .same rfl rfl
    extract_lets a
    split
    · exact .same rfl rfl
    · have wa : KeyInv a := w.same rfl rfl
      exact (Untouched.same (t := setDev a j fun d => { d with glide := 0 }) rfl rfl).trans
        (startNote_untouched hi hj (wa.setDev rfl rfl fun x => x) e)
  · exact startNote_untouched hi hj w e

theorem allNotesOff_untouched {k : Nat} (h : Solo c i s) (hk : k ≠ c) (w : KeyInv s) :
    Untouched i s (allNotesOff env s k) := by
  refine (foreach_induct (Q := fun t => Untouched i s t ∧ Wired t ∧ (t.dev i).midiChannel = c) (fun t j hj hjk ht => ?_) s
    ⟨.refl, w.wired, (h.only i h.lt).2 rfl⟩).1
  obtain ⟨h1, h2, h3⟩ := ht
  have e : j ≠ i := by
    rintro rfl
    exact hk (by rw [← hjk, h3])
  have w2 := h2.setDev (j := j) (f := fun d => { d with noteOn := false, pitch := 0 }) rfl rfl
  refine ⟨h1.trans ((Untouched.same rfl rfl).trans (devAllNotesOff_untouched hj w2 e)), ?_, ?_⟩
  · exact w2.of (fun n _ => by rw [devAllNotesOff_dev]) (fun n _ => by rw [devAllNotesOff_dev])
  · rw [devAllNotesOff_dev, setDev_dev, Psg.upd_other _ _ _ _ (Ne.symm e)]; exact h3

theorem tick_untouched : Untouched i s (tick env s) := by
  refine List.foldlRecOn (motive := fun t => Untouched i s t) _ _ .refl fun t ht j _ => ?_
  split
  · exact ht
  split
  · split
    · unfold processGlide
      split
      · exact ht
      · exact ht.trans ((Untouched.same rfl rfl).trans (setDownstreamPitch_still j).untouched)
    · exact ht
  · exact ht.trans (.same rfl rfl)

/-! ### Keys of the voice's own channel -/

/-- Voice `i`'s FM channel is keyed on with velocity `v`; its PSG channel has velocity `v`. -/
def Struck (i v : Nat) (s : St) : Prop :=
  (i < 6 → keyed s.fm.synth.out i = true ∧ (s.fm.ch i).velocity = v) ∧ (6 ≤ i → (s.psg.ch (i - 6)).velocity = v)

theorem Untouched.struck {v : Nat} (h : Untouched i s t) (k : Struck i v s) : Struck i v t :=
  ⟨fun x => ⟨(h.1 x).1.trans (k.1 x).1, (h.1 x).2.trans (k.1 x).2⟩, fun x => (h.2 x).trans (k.2 x)⟩

/-- Voice `i`'s chip starts notes at this pitch. -/
def Starts (i p : Nat) : Prop := (i < 6 → 11 ≤ p ∧ p ≤ 106) ∧ (6 ≤ i → 45 ≤ p)

/-- The pitch voice `i` would have with key `p` is one its chip starts notes at. -/
def InRange (s : St) (i c p : Nat) : Prop :=
  Starts i (effectivePitchCents p 0 (s.dev i).pitchBend (s.chan c).range (s.chan c).fineTune).pitch

/-- The same under the bend of the channel. -/
def KeyRange (s : St) (i c p : Nat) : Prop :=
  Starts i (effectivePitchCents p 0 (s.chan c).pitchBend (s.chan c).range (s.chan c).fineTune).pitch

theorem setDownstreamNoteOn_struck (he : env.Ok) {p v : Nat} (hi : i < 10) (hc : c < 16) (w : Wired s)
    (hm : (s.dev i).midiChannel = c) (hp : (s.dev i).pitch = p) (h0 : (s.dev i).cents = 0) (hr : InRange s i c p)
    (hf : (setDownstreamNoteOn env s i v).psg.fault = false) : Struck i v (setDownstreamNoteOn env s i v) := by
  unfold setDownstreamNoteOn withPitch at hf ⊢
  simp only [hm, hp, h0, hc, if_true] at hf ⊢
  unfold devNoteOn at hf ⊢
  by_cases h6 : i < 6
  · rw [w.fm i h6]
    simp only [fmCall]
    rw [w.num i (by omega), chipNum_fm h6]
    obtain ⟨r1, r2⟩ := hr.1 h6
    exact ⟨fun _ => ⟨Fm.noteOn_keyed env.fm he.fm _ h6 r1 r2, Fm.noteOn_struck env.fm he.fm _ h6 r1 r2⟩, by omega⟩
  · rw [w.square i (by omega) hi] at hf ⊢
    simp only [psgCall] at hf ⊢
    rw [w.num i (by omega), chipNum_psg (by omega) hi] at hf ⊢
    exact ⟨by omega, fun h => Psg.noteOn_vel (hr.2 h) (by omega) hf⟩

theorem startNote_struck (he : env.Ok) {p v : Nat} (hi : i < 10) (hc : c < 16) (w : KeyInv s) (hr : KeyRange s i c p)
    (hf : (startNote env s i c p v).psg.fault = false) : Struck i v (startNote env s i c p v) := by
  have hdev := startNote_dev (env := env) (s := s) (i := i) (c := c) (p := p) (v := v) hc
  have hch := startNote_chan (env := env) (s := s) (i := i) (c := c) (p := p) (v := v)
  unfold startNote at hdev hch hf ⊢
  extract_lets a b d at hdev hch hf ⊢
  have ka : Still s a := by
    show Still s (if (s.dev i).midiChannel = 9 ∧ c ≠ 9 then devProgram env s i (s.chan c).program else s)
    split
    · exact devProgram_still i _
    · exact .refl
  have kd : Still b d := updateDev_still i
  have wb : KeyInv b := (ka.keyInv w).setDev rfl rfl fun _ => rfl
  have wd := kd.keyInv wb
  rw [setDownstreamNoteOn_dev] at hdev
  rw [setDownstreamNoteOn_chan] at hch
  have di : d.dev i = _ := congrFun hdev i
  rw [upd_self] at di
  refine setDownstreamNoteOn_struck he hi hc wd.wired (p := p) ?_ ?_ ?_ ?_ hf
  · rw [di]; simp [Dev.sync]
  · rw [di]; simp [Dev.sync]
  · rw [di]; simp [Dev.sync]
  · have db : (d.dev i).pitchBend = (s.chan c).pitchBend := by rw [di]; simp [Dev.sync]
    simp only [InRange, db, hch]
    exact hr

/-- The voice of a MIDI channel: what it plays, with the velocity of the channel's last note, on and not between keys. -/
structure Line (c i : Nat) (l : List Nat) (cur : Option Nat) (v : Nat) (s : St) : Prop where
  mono : Mono c i l cur s
  keyInv : KeyInv s
  cents : (s.dev i).cents = 0
  last : (s.chan c).lastVelocity = v
  struck : ∀ p, cur = some p → Struck i v s

variable {l : List Nat} {cur : Option Nat} {v : Nat}

theorem Line.keep (h : Line c i l cur v s) (k : Kept c i s t) (u : Untouched i s t) (w : KeyInv t) : Line c i l cur v t :=
  ⟨k.mono h.mono, w, (Dev.core_eq k.dev).2.2.2.2.2.1.trans h.cents, (Chan.core_velocity k.chan).trans h.last,
    fun p e => u.struck (h.struck p e)⟩

theorem Line.press (he : env.Ok) {p v' : Nat} (hi : i < 10) (hc : c < 16) (hv : v' ≠ 0) (hl : l.length < 10) (h : Line c i l cur v s)
    (hr : KeyRange s i c p) (hf : (noteOn env s c p v').psg.fault = false) : Line c i (l ++ [p]) (some p) v' (noteOn env s c p v') := by
  obtain ⟨st, e, -⟩ := h.mono.stack.push p
  have eq : noteOn env s c p v' = startNote env
      (setDev (setChan s c fun m => { m with stack := st, lastVelocity := v' }) i fun d => { d with glide := 0 }) i c p v' := by
    unfold noteOn
    rw [if_neg hv, if_neg (by rw [h.mono.solo.few]; simp), h.mono.solo.free]
    simp only [h.mono.solo.voice, if_true]
    rw [if_neg (by rw [h.mono.stack.isFull]; simp; omega), e]
    simp only [h.mono.porta, setChan_chan, upd_self]
    rw [if_neg (by simp)]
  refine ⟨h.mono.press hc hv hl, noteOn_keyInv c p v' h.keyInv, ?_, ?_, fun _ _ => ?_⟩
  · rw [eq, startNote_dev hc]; simp [Dev.sync]
  · rw [eq, startNote_chan]; simp
  · rw [eq] at hf ⊢
    have wa : KeyInv (setChan s c fun m => { m with stack := st, lastVelocity := v' }) := h.keyInv.same rfl rfl
    refine startNote_struck he hi hc (wa.setDev rfl rfl fun x => x) ?_ hf
    simpa [KeyRange] using hr

theorem Line.full {p v' : Nat} (hv : v' ≠ 0) (hl : l.length = 10) (h : Line c i l cur v s) :
    Line c i l cur v (noteOn env s c p v') := by
  have e : noteOn env s c p v' = say s (.stackFull c) := by
    unfold noteOn
    rw [if_neg hv, if_neg (by rw [h.mono.solo.few]; simp), h.mono.solo.free]
    simp only [h.mono.solo.voice, if_true]
    rw [if_pos (by rw [h.mono.stack.isFull]; simp [hl])]
  rw [e]
  have k : Still s (say s (.stackFull c)) := .say _
  exact h.keep k.keeps k.untouched (k.keyInv h.keyInv)

theorem Line.off (h : Line c i l cur v s) : Line c i l none v (allNotesOff env s c) := by
  refine ⟨h.mono.off, allNotesOff_keyInv c h.keyInv, ?_, by rw [allNotesOff_chan]; exact h.last, nofun⟩
  unfold allNotesOff
  refine foreach_induct (c := c) (Q := fun t : St => (t.dev i).cents = 0)
    (body := fun s i => devAllNotesOff env (Midi.setDev s i fun d => { d with noteOn := false, pitch := 0 }) i) (fun t j _ _ ht => ?_) s h.cents
  rw [devAllNotesOff_dev, setDev_dev]
  by_cases e : i = j
  · subst e; rw [upd_self]; exact ht
  · rw [Psg.upd_other _ _ _ _ e]; exact ht

theorem Line.release (he : env.Ok) {p : Nat} (hi : i < 10) (hc : c < 16) (h : Line c i l cur v s)
    (hr : cur = some p → (l.filter (· ≠ p)).getLastD 0 ≠ 0 → InRange s i c ((l.filter (· ≠ p)).getLastD 0))
    (hf : (noteOff env s c p).psg.fault = false) :
    Line c i (l.filter (· ≠ p)).dropLast
      (if cur = some p then if (l.filter (· ≠ p)).getLastD 0 = 0 then none else some ((l.filter (· ≠ p)).getLastD 0) else cur) v
      (noteOff env s c p) := by
  have eff := noteOff_eff (env := env) (p := p) h.mono.stack
  have hm := (h.mono.solo.only i h.mono.solo.lt).2 rfl
  have hh : Hit s c p i ↔ cur = some p := by
    unfold Hit isPlaying
    rw [h.mono.glide]
    simp only [hm, true_and, h.mono.cur.1]
    cases cur with
    | none => simp
    | some q => have := h.mono.cur.2 q rfl; simp [this]
  have only : ∀ j, j < 13 → Hit s c p j → j = i := fun j hj x => (h.mono.solo.only j hj).1 x.1
  refine ⟨h.mono.release, noteOff_keyInv c p h.keyInv, ?_, ?_, ?_⟩
  · rw [eff.dev i]
    split
    · unfold released
      rw [h.mono.porta]
      split
      · rfl
      · exact h.cents
    · exact h.cents
  · rw [eff.chan]; exact h.last
  · intro x hx
    obtain ⟨st, e, hr1⟩ := h.mono.stack.remove p
    obtain ⟨st', e', hr2⟩ := hr1.pop
    generalize hq : l.filter (· ≠ p) = q at *
    simp only [noteOff, e, e'] at hf ⊢
    simp only [NoteStack.popNewest] at hr2 hf ⊢
    generalize hs1 : setChan s c (fun m => { m with stack := st' }) = s1 at hf ⊢
    have d1 : s1.dev = s.dev := by rw [← hs1]; rfl
    have f1 : s1.fm = s.fm := by rw [← hs1]; rfl
    have g1 : s1.psg = s.psg := by rw [← hs1]; rfl
    have c1 : s1.chan c = { s.chan c with stack := st' } := by rw [← hs1]; simp
    have h1 : ∀ j, Hit s1 c p j ↔ Hit s c p j := by intro j; unfold Hit; rw [d1]
    have v1 : singleVoice s1 c true = singleVoice s c true := by unfold singleVoice; rw [d1]
    have w1 : KeyInv s1 := h.keyInv.same d1 f1
    rw [v1] at hf ⊢
    by_cases hcur : cur = some p
    · rw [if_pos hcur] at hx
      by_cases hn : q.getLastD 0 = 0
      · rw [if_pos hn] at hx; cases hx
      have hsv : singleVoice s c true = true := by rw [h.mono.solo.playing, h.mono.cur.1, hcur]; rfl
      have hx1 := (h1 i).2 (hh.2 hcur)
      have body : noteOffBody env c p (q.getLastD 0) (singleVoice s c true) (s1, false) i =
          (devChanNoteOn env s1 i (q.getLastD 0) (s.chan c).lastVelocity, true) := by
        unfold noteOffBody
        simp only
        unfold Hit at hx1
        rw [if_pos hx1, if_pos (by simpa [hsv] using hn), c1, h.mono.porta]
        rfl
      rw [fold_one List.nodup_range (by simpa using h.mono.solo.lt) s1 (fun j hj x => only j (by simpa using hj) ((h1 j).1 x))
          (fun j hj => by rw [body]; simp only [devChanNoteOn_dev]; exact Psg.upd_other _ _ _ _ hj), body] at hf ⊢
      simp only at hf ⊢
      unfold devChanNoteOn at hf ⊢
      rw [h.last] at hf ⊢
      refine setDownstreamNoteOn_struck he hi hc (w1.wired.setDev rfl rfl) (p := q.getLastD 0) ?_ ?_ ?_ ?_ hf
      · simp [d1, hm]
      · simp
      · simp
      · have := hr hcur hn
        simpa [InRange, d1, c1] using this
    · rw [if_neg hcur] at hx
      rw [fold_miss _ _ fun j hj y => hcur (hh.1 (by
        have y := (h1 j).1 y
        have := only j (by simpa using hj) y
        rwa [this] at y))]
      exact (Untouched.same f1 g1).struck (h.struck x hx)

end Mdmi.Midi
