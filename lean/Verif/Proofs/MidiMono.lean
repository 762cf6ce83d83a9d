import Verif.Proofs.MidiHeld
/-!
# A MIDI channel with one voice
-/
namespace Mdmi.Midi
open NotePriority (Rep)

variable {env : Env} {s t u : St} {c i : Nat}

/-- Static mapping, device channel `i` alone belongs to MIDI channel `c`. -/
structure Solo (c i : Nat) (s : St) : Prop where
  static : s.dynamic = false
  lt : i < 13
  only : ∀ j, j < 13 → ((s.dev j).midiChannel = c ↔ j = i)

theorem filter_one {p : Nat → Bool} {n i : Nat} (hi : i < n) (h : ∀ j, j < n → (p j = true ↔ j = i)) :
    (List.range n).filter p = [i] := by
  induction n with
  | zero => omega
  | succ n ih =>
    rw [List.range_succ, List.filter_append]
    by_cases e : i = n
    · subst e
      have : (List.range i).filter p = [] := by
        rw [List.filter_eq_nil_iff]
        intro j hj
        have : j < i := by simpa using hj
        rw [h j (by omega)]; omega
      rw [this]
      simp [(h i hi).2 rfl]
    · rw [ih (by omega) fun j hj => h j (by omega)]
      have : p n = false := by
        refine Bool.eq_false_iff.2 fun hp => ?_
        exact e ((h n (by omega)).1 hp).symm
      simp [this]

theorem Solo.voice (h : Solo c i s) : singleVoice s c false = true := by
  unfold singleVoice
  rw [filter_one h.lt]
  · rfl
  · intro j hj; simpa using h.only j hj

theorem Solo.playing (h : Solo c i s) : singleVoice s c true = (s.dev i).noteOn := by
  unfold singleVoice
  cases ho : (s.dev i).noteOn with
  | true =>
    rw [filter_one h.lt]
    · rfl
    · intro j hj
      have := h.only j hj
      by_cases e : j = i
      · subst e; simp [ho, this.2 rfl]
      · simp only [e, iff_false, Bool.and_eq_true, beq_iff_eq, not_and]
        intro x; exact absurd (this.1 x) e
  | false =>
    have : ((List.range 13).filter fun i => (s.dev i).midiChannel == c && !(true && !(s.dev i).noteOn)) = [] := by
      rw [List.filter_eq_nil_iff]
      intro j hj hp
      simp only [Bool.and_eq_true, beq_iff_eq, Bool.true_and, Bool.not_not] at hp
      have e := (h.only j (by simpa using hj)).1 hp.1
      subst e
      rw [ho] at hp; cases hp.2
    rw [this]; rfl

theorem Solo.free (h : Solo c i s) : findFree s c = some i := by
  have hm := (h.only i h.lt).2 rfl
  cases hf : findFree s c with
  | some j => rw [(h.only j (findFree_lt hf)).1 (findFree_static h.static hf)]
  | none =>
    exfalso
    unfold findFree at hf
    revert hf
    rcases minMax s c with ⟨lo, hi⟩
    intro hf
    simp only [h.static, Bool.not_false, if_true] at hf
    split at hf
    · cases hf
    · unfold devByMidi at hf
      have := List.find?_eq_none.1 hf i (by simpa using h.lt)
      simp [hm] at this

theorem Solo.few (h : Solo c i s) : tooManyPercussive s c = false := by
  unfold tooManyPercussive
  by_cases e : c = 9
  · subst e
    simp only [beq_self_eq_true, Bool.true_and, decide_eq_false_iff_not, Nat.not_le]
    have h1 : (List.range 13).filter (fun i => (s.dev i).midiChannel == 9) = [i] :=
      filter_one h.lt fun j hj => by simpa using h.only j hj
    have : ((List.range 13).filter fun i => (s.dev i).midiChannel == 9 && (s.dev i).noteOn) =
        ((List.range 13).filter (fun i => (s.dev i).midiChannel == 9)).filter fun i => (s.dev i).noteOn := by
      rw [List.filter_filter]
      refine List.filter_congr fun j _ => ?_
      exact Bool.and_comm _ _
    rw [this, h1]
    have := List.length_filter_le (fun i => (s.dev i).noteOn) [i]
    simp only [List.length_singleton] at this; omega
  · simp [e]

/-- The voice and its MIDI channel: remembered notes `l`, sounding note `cur`. -/
structure Mono (c i : Nat) (l : List Nat) (cur : Option Nat) (s : St) : Prop where
  solo : Solo c i s
  stack : Rep (s.chan c).stack l
  porta : (s.chan c).portamento = false
  glide : (s.dev i).glide = 0
  cur : (s.dev i).noteOn = cur.isSome ∧ ∀ p, cur = some p → (s.dev i).pitch = p

/-- Nothing that concerns the voice or its MIDI channel changes. -/
structure Kept (c i : Nat) (s t : St) : Prop where
  dynamic : t.dynamic = s.dynamic
  map : ∀ j, j < 13 → (t.dev j).midiChannel = (s.dev j).midiChannel
  dev : (t.dev i).core = (s.dev i).core
  chan : (t.chan c).core = (s.chan c).core

theorem Kept.refl : Kept c i s s := ⟨rfl, fun _ _ => rfl, rfl, rfl⟩
theorem Kept.trans (h : Kept c i s t) (k : Kept c i t u) : Kept c i s u :=
  ⟨k.dynamic.trans h.dynamic, fun j hj => (k.map j hj).trans (h.map j hj), k.dev.trans h.dev, k.chan.trans h.chan⟩
theorem Still.keeps (h : Still s t) : Kept c i s t :=
  ⟨h.dynamic, fun j _ => (Dev.core_eq (h.dev j)).2.2.2.1, h.dev i, h.chan c⟩

theorem Kept.solo (k : Kept c i s t) (h : Solo c i s) : Solo c i t :=
  ⟨k.dynamic.trans h.static, h.lt, fun j hj => by rw [k.map j hj]; exact h.only j hj⟩

theorem Kept.mono (k : Kept c i s t) {l : List Nat} {cur : Option Nat} (h : Mono c i l cur s) : Mono c i l cur t := by
  obtain ⟨-, -, e1, -, e2, -, e3⟩ := Dev.core_eq k.dev
  obtain ⟨e4, e5⟩ := Chan.core_eq k.chan
  refine ⟨k.solo h.solo, by rw [e4]; exact h.stack, by rw [e5]; exact h.porta, by rw [e3]; exact h.glide, ?_⟩
  rw [e1, e2]; exact h.cur

theorem noteOn_dynamic' {c p v : Nat} (hv : v ≠ 0) : (noteOn env s c p v).dynamic = s.dynamic := by
  unfold noteOn; rw [if_neg hv]
  split
  · rfl
  split
  · rfl
  split
  · split
    · rfl
    split
    · rfl
    simp only; split <;> simp
  · simp

/-- Pressing a key. -/
theorem Mono.press {l : List Nat} {cur : Option Nat} {p v : Nat} (h : Mono c i l cur s) (hc : c < 16) (hv : v ≠ 0)
    (hl : l.length < 10) : Mono c i (l ++ [p]) (some p) (noteOn env s c p v) := by
  have hdyn := noteOn_dynamic' (env := env) (s := s) (c := c) (p := p) hv
  have e := noteOn_eff (env := env) (p := p) hc hv h.stack
  have hm := (h.solo.only i h.solo.lt).2 rfl
  have hlen := h.stack
  have stay : (noteOn env s c p v).chan ≠ s.chan := by
    intro hch
    have : Rep ((noteOn env s c p v).chan c).stack (l ++ [p]) := by
      unfold noteOn
      rw [if_neg hv, if_neg (by rw [h.solo.few]; simp), h.solo.free]
      simp only [h.solo.voice, if_true]
      rw [if_neg (by rw [h.stack.isFull]; simp; omega)]
      obtain ⟨st, e, hr⟩ := h.stack.push p
      rw [if_neg (by omega)] at hr
      rw [e]
      simp only [h.porta, setChan_chan, upd_self]
      rw [if_neg (by simp)]
      simpa using hr
    rw [hch] at this
    have l1 := this.len; have l2 := h.stack.len
    have c1 := this.count; have c2 := h.stack.count
    rw [List.length_append] at c1
    simp only [List.length_singleton] at c1; omega
  generalize noteOn env s c p v = t at *
  cases e with
  | ignored hd hch => exact absurd hch stay
  | glide j _ _ _ hp => rw [h.porta] at hp; cases hp
  | poly j _ hs => rw [h.solo.voice] at hs; cases hs
  | single j hj _ ho hd hk hpo hr =>
    rw [h.solo.free, Option.some.injEq] at hj; subst hj
    simp only [Dev.core, started, Dev.mk.injEq] at hd
    obtain ⟨-, -, d3, d4, -, d6, -, -, -, -, d11⟩ := hd
    refine ⟨⟨hdyn.trans h.solo.static, h.solo.lt, fun j hj => ?_⟩, hr, hpo.trans h.porta, d11, by rw [d3]; rfl, ?_⟩
    · by_cases e : j = i
      · subst e; simp [d4]
      · rw [ho j e]; exact h.solo.only j hj
    · intro q hq
      injection hq with hq
      rw [d6, hq]

/-- Pressing a key when ten are held. -/
theorem Mono.full {l : List Nat} {cur : Option Nat} {p v : Nat} (h : Mono c i l cur s) (hv : v ≠ 0)
    (hl : l.length = 10) : Mono c i l cur (noteOn env s c p v) := by
  have e : noteOn env s c p v = say s (.stackFull c) := by
    unfold noteOn
    rw [if_neg hv, if_neg (by rw [h.solo.few]; simp), h.solo.free]
    simp only [h.solo.voice, if_true]
    rw [if_pos (by rw [h.stack.isFull]; simp [hl])]
  rw [e]
  exact (Still.say (s := s) (.stackFull c)).keeps.mono h

/-- Releasing a key. -/
theorem Mono.release {l : List Nat} {cur : Option Nat} {p : Nat} (h : Mono c i l cur s) :
    Mono c i (l.filter (· ≠ p)).dropLast
      (if cur = some p then if (l.filter (· ≠ p)).getLastD 0 = 0 then none else some ((l.filter (· ≠ p)).getLastD 0) else cur)
      (noteOff env s c p) := by
  have e := noteOff_eff (env := env) (p := p) h.stack
  have m := noteOff_mild (env := env) (s := s) c p
  have hm := (h.solo.only i h.solo.lt).2 rfl
  have solo : Solo c i (noteOff env s c p) :=
    ⟨m.dynamic.trans h.solo.static, h.solo.lt, fun j hj => by rw [m.map j]; exact h.solo.only j hj⟩
  have hpo : ((noteOff env s c p).chan c).portamento = false := by rw [e.chan]; exact h.porta
  have hst : Rep ((noteOff env s c p).chan c).stack (l.filter (· ≠ p)).dropLast := by
    refine e.popped ?_
    rintro ⟨_, _, _, hp⟩
    rw [h.porta] at hp; cases hp
  have ei := e.dev i
  generalize noteOff env s c p = t at *
  have hh : Hit s c p i ↔ cur = some p := by
    unfold Hit isPlaying
    rw [h.glide]
    simp only [hm, true_and, h.cur.1]
    cases cur with
    | none => simp
    | some q => have := h.cur.2 q rfl; simp [this]
  by_cases hcur : cur = some p
  · rw [if_pos ⟨h.solo.lt, hh.2 hcur⟩] at ei
    rw [if_pos hcur]
    have hon : (s.dev i).noteOn = true := by rw [h.cur.1, hcur]; rfl
    have hsv : singleVoice s c true = true := by rw [h.solo.playing]; exact hon
    unfold released at ei
    by_cases hn : (l.filter (· ≠ p)).getLastD 0 = 0
    · rw [if_neg (fun x => x.2 hn)] at ei
      rw [if_pos hn]
      exact ⟨solo, hst, hpo, by rw [ei]; exact h.glide, by rw [ei]; rfl, by simp⟩
    · rw [if_pos ⟨hsv, hn⟩, if_neg (by rw [h.porta]; simp)] at ei
      rw [if_neg hn]
      refine ⟨solo, hst, hpo, by rw [ei]; exact h.glide, by rw [ei]; rfl, fun q hq => ?_⟩
      injection hq with hq
      rw [ei, hq]
  · rw [if_neg (fun x => hcur (hh.1 x.2))] at ei
    rw [if_neg hcur]
    exact ⟨solo, hst, hpo, by rw [ei]; exact h.glide, by rw [ei]; exact h.cur⟩

/-! ### Messages that do not concern the voice -/

theorem noteOn_keeps {k p v : Nat} (h : Solo c i s) (hk : k ≠ c) (hk16 : k < 16) (hv : v ≠ 0) :
    Kept c i s (noteOn env s k p v) := by
  have hm := (h.only i h.lt).2 rfl
  refine ⟨noteOn_dynamic' hv, fun j hj => ?_, ?_, ?_⟩
  · by_cases hf : findFree s k = some j
    · have hjk := findFree_static h.static hf
      rw [hjk]
      unfold noteOn
      rw [if_neg hv]
      split
      · exact hjk
      rw [hf]
      simp only
      split
      · split
        · exact hjk
        split
        · exact hjk
        split
        · simpa using hjk
        · rw [startNote_dev hk16]; simp [Dev.sync]
      · rw [startNote_dev hk16]; simp [Dev.sync]
    · rw [noteOn_dev hk16 hv hf]
  · rw [noteOn_dev hk16 hv]
    intro hf
    exact hk (by rw [← findFree_static h.static hf, hm])
  · rw [noteOn_chan hv (Ne.symm hk)]

theorem noteOff_keeps {k p : Nat} {l : List Nat} (h : Solo c i s) (hk : k ≠ c) (hl : Rep (s.chan k).stack l) :
    Kept c i s (noteOff env s k p) := by
  have e := noteOff_eff (env := env) (p := p) hl
  have m := noteOff_mild (env := env) (s := s) k p
  have hm := (h.only i h.lt).2 rfl
  refine ⟨m.dynamic, fun j _ => m.map j, ?_, ?_⟩
  · rw [e.dev i, if_neg]
    rintro ⟨_, h1, _⟩
    exact hk (by rw [← h1, hm])
  · rw [e.other c (Ne.symm hk)]

theorem allNotesOff_keeps {k : Nat} (h : Solo c i s) (hk : k ≠ c) : Kept c i s (allNotesOff env s k) := by
  have hm := (h.only i h.lt).2 rfl
  refine foreach_induct (Q := fun t => Kept c i s t) (fun t j hj hjk ht => ?_) s .refl
  have hij : i ≠ j := by
    rintro rfl
    rw [ht.map i hj, hm] at hjk; exact hk hjk.symm
  refine ht.trans ⟨?_, fun n _ => ?_, ?_, ?_⟩
  · rw [devAllNotesOff_dynamic]; rfl
  · rw [devAllNotesOff_dev, setDev_dev]
    by_cases e : n = j
    · subst e; simp
    · simp [Psg.upd_other _ _ _ _ e]
  · rw [devAllNotesOff_dev, setDev_dev, Psg.upd_other _ _ _ _ hij]
  · rw [devAllNotesOff_chan]; rfl

theorem tick_keeps (h : Solo c i s) (hp : (s.chan c).portamento = false) : Kept c i s (tick env s) := by
  have hm := (h.only i h.lt).2 rfl
  refine List.foldlRecOn (motive := fun t => Kept c i s t) _ _ .refl fun t ht j hj => ?_
  have hj : j < 13 := by simpa using hj
  split
  · exact ht
  split
  · split
    · rename_i hpj
      unfold processGlide
      split
      · exact ht
      rename_i g hg
      have hij : i ≠ j := by
        rintro rfl
        rw [ht.map i hj, hm, (Chan.core_eq ht.chan).2, hp] at hpj
        cases hpj
      refine ht.trans (Kept.trans (t := setDev t j fun d => { d with pitch := g.pitch, cents := g.cents, glide := g.target })
        ⟨rfl, fun n _ => ?_, ?_, rfl⟩ (setDownstreamPitch_still j).keeps)
      · rw [setDev_dev]
        by_cases e : n = j
        · subst e; simp
        · simp [Psg.upd_other _ _ _ _ e]
      · rw [setDev_dev, Psg.upd_other _ _ _ _ hij]
    · exact ht
  · exact ht.trans ⟨rfl, fun _ _ => rfl, rfl, rfl⟩

/-! ### Note stacks stay intact -/

/-- Every MIDI channel's note stack is intact. -/
def Stacks (s : St) : Prop := ∀ c, c < 16 → ∃ l, Rep (s.chan c).stack l

theorem Still.stacks (k : Still s t) (h : Stacks s) : Stacks t := fun c hc => by
  rw [(Chan.core_eq (k.chan c)).1]; exact h c hc

theorem noteOff_stacks {k p : Nat} (hk : k < 16) (h : Stacks s) : Stacks (noteOff env s k p) := by
  obtain ⟨l, hl⟩ := h k hk
  have e := noteOff_eff (env := env) (p := p) hl
  intro c hc
  by_cases ec : c = k
  · subst ec
    by_cases hx : (∃ i, i < 13 ∧ Hit s c p i) ∧ singleVoice s c true = true ∧
      (l.filter (· ≠ p)).getLastD 0 ≠ 0 ∧ (s.chan c).portamento = true
    · exact ⟨_, e.kept hx⟩
    · exact ⟨_, e.popped hx⟩
  · rw [e.other c ec]; exact h c hc

theorem noteOn_stacks {k p v : Nat} (hk : k < 16) (h : Stacks s) : Stacks (noteOn env s k p v) := by
  by_cases hv : v = 0
  · subst hv
    exact noteOff_stacks hk h
  obtain ⟨l, hl⟩ := h k hk
  intro c hc
  cases noteOn_eff (env := env) (p := p) hk hv hl with
  | ignored _ hch => rw [hch]; exact h c hc
  | glide i _ _ _ _ _ _ ho _ hr =>
    by_cases ec : c = k
    · subst ec; exact ⟨_, hr⟩
    · rw [ho c ec]; exact h c hc
  | single i _ _ _ _ ho _ hr =>
    by_cases ec : c = k
    · subst ec; exact ⟨_, hr⟩
    · rw [ho c ec]; exact h c hc
  | poly i _ _ _ _ hch => rw [hch]; exact h c hc

theorem allNotesOff_chan (k : Nat) : (allNotesOff env s k).chan = s.chan := by
  refine foreach_induct (Q := fun t : St => t.chan = s.chan) (fun t j _ _ ht => ?_) s rfl
  rw [devAllNotesOff_chan]; exact ht

/-- All Notes Off: the voice rests, its MIDI channel remembers the notes. -/
theorem Mono.off {l : List Nat} {cur : Option Nat} (h : Mono c i l cur s) : Mono c i l none (allNotesOff env s c) := by
  have key : ∀ xs : List Nat, (∀ j ∈ xs, j < 13) → ∀ t : St, t.dynamic = s.dynamic →
      (∀ j, (t.dev j).midiChannel = (s.dev j).midiChannel ∧ (t.dev j).glide = (s.dev j).glide) →
      let u := xs.foldl (fun t j => if (t.dev j).midiChannel = c then
        devAllNotesOff env (setDev t j fun d => { d with noteOn := false, pitch := 0 }) j else t) t
      u.dynamic = s.dynamic ∧ (∀ j, (u.dev j).midiChannel = (s.dev j).midiChannel ∧ (u.dev j).glide = (s.dev j).glide) ∧
      ((t.dev i).noteOn = false ∨ i ∈ xs → (u.dev i).noteOn = false) := by
    intro xs
    induction xs with
    | nil => intro _ t h1 h2; exact ⟨h1, h2, fun x => by simpa using x⟩
    | cons n xs ih =>
      intro hx t h1 h2
      rw [List.foldl_cons]
      by_cases hn : (t.dev n).midiChannel = c
      · rw [if_pos hn]
        have e : n = i := (h.solo.only n (hx n (by simp))).1 (by rw [← (h2 n).1]; exact hn)
        subst e
        have d : ∀ j, (devAllNotesOff env (setDev t n fun d => { d with noteOn := false, pitch := 0 }) n).dev j =
            if j = n then { t.dev n with noteOn := false, pitch := 0 } else t.dev j := fun j => by
          rw [devAllNotesOff_dev, setDev_dev]
          by_cases e : j = n
          · subst e; simp
          · simp [Psg.upd_other _ _ _ _ e, e]
        obtain ⟨k1, k2, k3⟩ := ih (fun j hj => hx j (by simp [hj]))
            (devAllNotesOff env (setDev t n fun d => { d with noteOn := false, pitch := 0 }) n)
            (by rw [devAllNotesOff_dynamic]; exact h1) fun j => by
          rw [d]
          by_cases e : j = n
          · subst e; simp [h2]
          · simp [e, h2]
        exact ⟨k1, k2, fun _ => k3 (.inl (by rw [d]; simp))⟩
      · rw [if_neg hn]
        obtain ⟨k1, k2, k3⟩ := ih (fun j hj => hx j (by simp [hj])) t h1 h2
        refine ⟨k1, k2, fun x => k3 (x.imp id fun x => ?_)⟩
        rcases List.mem_cons.1 x with rfl | x
        · exact absurd ((h2 i).1.trans ((h.solo.only i h.solo.lt).2 rfl)) hn
        · exact x
  have k := key (List.range 13) (fun j hj => by simpa using hj) s rfl fun _ => ⟨rfl, rfl⟩
  have e : allNotesOff env s c = (List.range 13).foldl (fun t j => if (t.dev j).midiChannel = c then
      devAllNotesOff env (setDev t j fun d => { d with noteOn := false, pitch := 0 }) j else t) s := rfl
  simp only [← e] at k
  obtain ⟨k1, k2, k3⟩ := k
  refine ⟨⟨k1.trans h.solo.static, h.solo.lt, fun j hj => by rw [(k2 j).1]; exact h.solo.only j hj⟩, by rw [allNotesOff_chan]; exact h.stack,
    by rw [allNotesOff_chan]; exact h.porta, (k2 i).2.trans h.glide, ?_, nofun⟩
  rw [k3 (.inr (by simpa using h.solo.lt))]; rfl

theorem tick_chan : (tick env s).chan = s.chan := by
  refine List.foldlRecOn (motive := fun t : St => t.chan = s.chan) _ _ rfl fun t ht j _ => ?_
  split
  · exact ht
  split
  · split
    · unfold processGlide
      split
      · exact ht
      · rw [setDownstreamPitch_chan]; exact ht
    · exact ht
  · exact ht

end Mdmi.Midi
