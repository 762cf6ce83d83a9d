import Verif.Proofs.MidiKeyInv
/-!
# Fixed mapping: every sounding voice plays a note that is held
-/
namespace Mdmi.Midi
open NotePriority (Rep)

variable {env : Env} {s t : St}

/-- The device channel a started note leaves behind, but for the settings taken over from the MIDI channel. -/
def started (d : Dev) (c p : Nat) : Dev := { d with midiChannel := c, noteOn := true, cents := 0, pitch := p }

/-- What a note-on does to device and MIDI channels. -/
inductive NoteOnEff (s t : St) (c p : Nat) (l : List Nat) : Prop where
  | ignored : t.dev = s.dev → t.chan = s.chan → NoteOnEff s t c p l
  | glide (i : Nat) : findFree s c = some i → singleVoice s c false = true → l ≠ [] → (s.chan c).portamento = true →
      (∀ j, j ≠ i → t.dev j = s.dev j) → (t.dev i).core = { (s.dev i).core with glide := p } →
      (∀ k, k ≠ c → t.chan k = s.chan k) → (t.chan c).portamento = (s.chan c).portamento →
      Rep (t.chan c).stack (l ++ [p]) → NoteOnEff s t c p l
  | single (i : Nat) : findFree s c = some i → singleVoice s c false = true →
      (∀ j, j ≠ i → t.dev j = s.dev j) → (t.dev i).core = { started (s.dev i).core c p with glide := 0 } →
      (∀ k, k ≠ c → t.chan k = s.chan k) → (t.chan c).portamento = (s.chan c).portamento →
      Rep (t.chan c).stack (l ++ [p]) → NoteOnEff s t c p l
  | poly (i : Nat) : findFree s c = some i → singleVoice s c false = false →
      (∀ j, j ≠ i → t.dev j = s.dev j) → (t.dev i).core = started (s.dev i).core c p → t.chan = s.chan →
      NoteOnEff s t c p l

theorem noteOn_eff {c p v : Nat} {l : List Nat} (hc : c < 16) (hv : v ≠ 0) (hl : Rep (s.chan c).stack l) :
    NoteOnEff s (noteOn env s c p v) c p l := by
  unfold noteOn
  rw [if_neg hv]
  split
  · exact .ignored rfl rfl
  split
  · exact .ignored rfl rfl
  rename_i i hi
  split
  · rename_i hs
    split
    · exact .ignored rfl rfl
    rename_i hf
    rw [hl.isFull] at hf
    obtain ⟨st, e, hr⟩ := hl.push p
    have hf : l.length ≠ 10 := by simpa using hf
    rw [if_neg hf] at hr
    rw [e]
    simp only
    split
    · rename_i hp
      simp only [setChan_chan, upd_self] at hp
      rw [hr.count, List.length_append] at hp
      refine .glide i hi hs ?_ hp.1 (fun j hj => ?_) (by simp [Dev.core]) (fun k hk => ?_) (by simp) (by simpa using hr)
      · rintro rfl; simp at hp
      · simp [Psg.upd_other _ _ _ _ hj]
      · simp [Psg.upd_other _ _ _ _ hk]
    · refine .single i hi hs (fun j hj => ?_) ?_ (fun k hk => ?_) (by simp) (by simpa using hr)
      · rw [startNote_dev hc]; simp [Psg.upd_other _ _ _ _ hj]
      · rw [startNote_dev hc]; simp [Dev.sync, Dev.core, started]
      · simp [Psg.upd_other _ _ _ _ hk]
  · rename_i hs
    refine .poly i hi (by simpa using hs) (fun j hj => ?_) ?_ (by simp)
    · rw [startNote_dev hc]; simp [Psg.upd_other _ _ _ _ hj]
    · rw [startNote_dev hc]; simp [Dev.sync, Dev.core, started]

/-- In static mode the chosen voice is the channel's own. -/
theorem findFree_static {c i : Nat} (hd : s.dynamic = false) (h : findFree s c = some i) : (s.dev i).midiChannel = c := by
  unfold findFree at h
  revert h
  rcases minMax s c with ⟨lo, hi⟩
  intro h
  simp only [hd, Bool.not_false, if_true] at h
  split at h
  · rename_i j hj
    simp only [Option.some.injEq] at h; subst h
    have := List.find?_some hj
    simp only [Bool.and_eq_true, beq_iff_eq] at this
    exact this.1
  · exact (devByMidi_some h).2

theorem singleVoice_congr {c : Nat} (h : ∀ i, i < 13 → (t.dev i).midiChannel = (s.dev i).midiChannel) :
    singleVoice t c false = singleVoice s c false := by
  unfold singleVoice
  congr 2
  refine List.filter_congr fun i hi => ?_
  rw [h i (by simpa using hi)]; simp

/-- The pitch a device channel sounds or glides to. -/
def Dev.goal (d : Dev) : Nat := if d.glide = 0 then d.pitch else d.glide

/-- Every sounding voice plays, and every remembered note is, a note in `H`; portamento only on channels in `P`. -/
structure HeldInv (H : Nat → Nat → Prop) (P : Nat → Prop) (s : St) : Prop where
  static : s.dynamic = false
  on : ∀ i, i < 13 → (s.dev i).noteOn = true → H (s.dev i).midiChannel (s.dev i).goal
  glide : ∀ i, i < 13 → (s.dev i).noteOn = true → (s.dev i).glide ≠ 0 → (s.chan (s.dev i).midiChannel).portamento = true
  lone : ∀ i, i < 13 → (s.dev i).glide ≠ 0 → singleVoice s (s.dev i).midiChannel false = true
  range : ∀ i, i < 13 → (s.dev i).glide < 256
  stack : ∀ c, c < 16 → ∃ l, Rep (s.chan c).stack l ∧ (∀ q ∈ l, q < 256 ∧ H c q) ∧ (l ≠ [] → singleVoice s c false = true)
  porta : ∀ c, c < 16 → (s.chan c).portamento = true → P c

variable {H H' : Nat → Nat → Prop} {P P' : Nat → Prop}

theorem HeldInv.mono (h : HeldInv H P s) (hH : ∀ c p, H c p → H' c p) (hP : ∀ c, P c → P' c) : HeldInv H' P' s :=
  ⟨h.static, fun i hi ho => hH _ _ (h.on i hi ho), h.glide, h.lone, h.range,
    fun c hc => let ⟨l, h1, h2, h3⟩ := h.stack c hc; ⟨l, h1, fun q hq => ⟨(h2 q hq).1, hH _ _ (h2 q hq).2⟩, h3⟩,
    fun c hc hp => hP c (h.porta c hc hp)⟩

theorem Still.heldInv (k : Still s t) (h : HeldInv H P s) : HeldInv H P t := by
  have d := fun j => Dev.core_eq (k.dev j)
  have c := fun j => Chan.core_eq (k.chan j)
  have hs : ∀ c, singleVoice t c false = singleVoice s c false := fun c => singleVoice_congr fun i _ => (d i).2.2.2.1
  refine ⟨k.dynamic.trans h.static, fun i hi ho => ?_, fun i hi ho hg => ?_, fun i hi hg => ?_, fun i hi => ?_,
    fun j hj => ?_, fun j hj hp => ?_⟩
  · obtain ⟨-, -, e1, e2, e3, -, e4⟩ := d i
    unfold Dev.goal; rw [e2, e3, e4]; rw [e1] at ho; exact h.on i hi ho
  · obtain ⟨-, -, e1, e2, e3, -, e4⟩ := d i
    rw [e1] at ho; rw [e4] at hg; rw [e2, (c _).2]; exact h.glide i hi ho hg
  · obtain ⟨-, -, e1, e2, e3, -, e4⟩ := d i
    rw [e4] at hg; rw [e2, hs]; exact h.lone i hi hg
  · rw [(d i).2.2.2.2.2.2]; exact h.range i hi
  · rw [(c j).1, hs]; exact h.stack j hj
  · rw [(c j).2] at hp; exact h.porta j hj hp

theorem isPlaying_goal {d : Dev} {p : Nat} (hg : d.glide < 256) : isPlaying d p = true ↔ d.noteOn = true ∧ d.goal = p := by
  unfold isPlaying Dev.goal
  by_cases h : d.glide = 0
  · simp [h]
  · simp [h, Nat.mod_eq_of_lt hg]

theorem noteOff_heldInv {c p : Nat} (hc : c < 16) (h : HeldInv H P s)
    (hH : ∀ k q, H k q → ¬(k = c ∧ q = p) → H' k q) : HeldInv H' P (noteOff env s c p) := by
  obtain ⟨l, hl, hq, hn⟩ := h.stack c hc
  have e := noteOff_eff (env := env) (p := p) hl
  have hdyn : (noteOff env s c p).dynamic = s.dynamic := (noteOff_mild c p).dynamic
  have hmap := (noteOff_mild (env := env) (s := s) c p).map
  have hs : ∀ c', singleVoice (noteOff env s c p) c' false = singleVoice s c' false :=
    fun c' => singleVoice_congr fun i _ => hmap i
  have hpo : ∀ k, ((noteOff env s c p).chan k).portamento = (s.chan k).portamento := by
    intro k
    by_cases ek : k = c
    · subst ek; rw [e.chan]
    · rw [e.other k ek]
  generalize noteOff env s c p = t at *
  generalize hnx : (l.filter (· ≠ p)).getLastD 0 = next at *
  have nm : next ≠ 0 → next ∈ l ∧ next ≠ p := by
    intro h0
    rw [← hnx] at h0 ⊢
    have := getLastD_mem h0
    simpa using this
  have lone : next ≠ 0 → singleVoice s c false = true := fun h0 => hn (by rintro rfl; exact absurd (nm h0).1 (by simp))
  have sub : ∀ q, q ∈ l.filter (· ≠ p) → q < 256 ∧ H' c q := by
    intro q hm
    have : q ∈ l ∧ q ≠ p := by simpa using hm
    exact ⟨(hq q this.1).1, hH c q (hq q this.1).2 (fun x => this.2 x.2)⟩
  have key : ∀ i, i < 13 → (t.dev i = s.dev i ∧ ¬((s.dev i).midiChannel = c ∧ (s.dev i).noteOn = true ∧ (s.dev i).goal = p)) ∨
      ((s.dev i).midiChannel = c ∧ (s.dev i).noteOn = true ∧
        ((next ≠ 0 ∧ (s.chan c).portamento = true ∧ t.dev i = { s.dev i with glide := next }) ∨
         (next ≠ 0 ∧ (s.dev i).glide = 0 ∧ t.dev i = { s.dev i with noteOn := true, cents := 0, pitch := next }) ∨
         t.dev i = { s.dev i with noteOn := false, pitch := 0 })) := by
    intro i hi
    have ei := e.dev i
    by_cases hh : Hit s c p i
    · rw [if_pos ⟨hi, hh⟩] at ei
      have ho := isPlaying_on hh.2
      refine .inr ⟨hh.1, ho, ?_⟩
      unfold released at ei
      rw [hnx] at ei
      split at ei
      · rename_i hsn
        split at ei
        · rename_i hp; exact .inl ⟨hsn.2, hp, ei⟩
        · rename_i hp
          refine .inr (.inl ⟨hsn.2, ?_, ei⟩)
          exact Decidable.byContradiction fun hg => hp (by rw [← hh.1]; exact h.glide i hi ho hg)
      · exact .inr (.inr ei)
    · rw [if_neg (fun x => hh x.2)] at ei
      refine .inl ⟨ei, fun x => hh ⟨x.1, ?_⟩⟩
      exact (isPlaying_goal (h.range i hi)).2 x.2
  refine ⟨hdyn.trans h.static, fun i hi ho => ?_, fun i hi ho hg => ?_, fun i hi hg => ?_, fun i hi => ?_,
    fun k hk => ?_, fun k hk hp => ?_⟩
  · rcases key i hi with ⟨e1, e2⟩ | ⟨hm, hon, ⟨h0, _, e1⟩ | ⟨h0, hg0, e1⟩ | e1⟩
    · rw [e1] at ho ⊢
      exact hH _ _ (h.on i hi ho) fun x => e2 ⟨x.1, ho, x.2⟩
    · rw [e1]; simp only [Dev.goal, h0, if_false, hm]
      exact hH c next (hq next (nm h0).1).2 fun x => (nm h0).2 x.2
    · rw [e1]; simp only [Dev.goal, hg0, if_true, hm]
      exact hH c next (hq next (nm h0).1).2 fun x => (nm h0).2 x.2
    · rw [e1] at ho; cases ho
  · rw [hpo]
    rcases key i hi with ⟨e1, e2⟩ | ⟨hm, hon, ⟨h0, hp, e1⟩ | ⟨h0, hg0, e1⟩ | e1⟩
    · rw [e1] at ho hg ⊢; exact h.glide i hi ho hg
    · rw [e1]; simp only [hm]; exact hp
    · rw [e1] at hg; exact absurd hg0 hg
    · rw [e1] at ho; cases ho
  · rw [hs]
    rcases key i hi with ⟨e1, e2⟩ | ⟨hm, hon, ⟨h0, hp, e1⟩ | ⟨h0, hg0, e1⟩ | e1⟩
    · rw [e1] at hg ⊢; exact h.lone i hi hg
    · rw [e1]; simp only [hm]; exact lone h0
    · rw [e1] at hg; exact absurd hg0 hg
    · rw [e1] at hg ⊢; exact h.lone i hi hg
  · rcases key i hi with ⟨e1, e2⟩ | ⟨hm, hon, ⟨h0, hp, e1⟩ | ⟨h0, hg0, e1⟩ | e1⟩ <;> rw [e1]
    · exact h.range i hi
    · exact (hq next (nm h0).1).1
    · exact h.range i hi
    · exact h.range i hi
  · by_cases ek : k = c
    · subst ek
      by_cases hx : (∃ i, i < 13 ∧ Hit s k p i) ∧ singleVoice s k true = true ∧ next ≠ 0 ∧ (s.chan k).portamento = true
      · exact ⟨_, e.kept (by rw [hnx]; exact hx), sub, fun _ => by rw [hs]; exact lone hx.2.2.1⟩
      · refine ⟨_, e.popped (by rw [hnx]; exact hx), fun q hm => sub q (List.dropLast_subset _ hm), fun hne => ?_⟩
        rw [hs]
        refine hn ?_
        rintro rfl; exact hne rfl
    · rw [e.other k ek, hs]
      obtain ⟨l', h1, h2, h3⟩ := h.stack k hk
      exact ⟨l', h1, fun q hm => ⟨(h2 q hm).1, hH k q (h2 q hm).2 fun x => ek x.1⟩, h3⟩
  · rw [hpo] at hp; exact h.porta k hk hp

theorem noteOn_heldInv {c p v : Nat} (hc : c < 16) (hp : p < 256) (hv : v ≠ 0) (h : HeldInv H P s)
    (h0 : p = 0 → ¬P c) (hH : ∀ k q, H k q ∨ (k = c ∧ q = p) → H' k q) : HeldInv H' P (noteOn env s c p v) := by
  obtain ⟨l, hl, hq, hn⟩ := h.stack c hc
  have e := noteOn_eff (env := env) (p := p) hc hv hl
  have hdyn : (noteOn env s c p v).dynamic = s.dynamic := by
    unfold noteOn; rw [if_neg hv]
    split
    · rfl
    split
    · rfl
    split
    · split
      · rfl
      split
      · rfl
      simp only; split <;> simp
    · simp
  generalize noteOn env s c p v = t at *
  have done : ∀ i, i < 13 → (s.dev i).midiChannel = c → (∀ j, j ≠ i → t.dev j = s.dev j) →
      (t.dev i).midiChannel = c → ((t.dev i).noteOn = true → (t.dev i).goal = p) →
      ((t.dev i).glide ≠ 0 → (s.chan c).portamento = true ∧ singleVoice s c false = true) → (t.dev i).glide < 256 →
      (∀ k, k ≠ c → t.chan k = s.chan k) → (t.chan c).portamento = (s.chan c).portamento →
      (∃ l', Rep (t.chan c).stack l' ∧ (∀ q ∈ l', q ∈ l ∨ q = p) ∧ (l' ≠ [] → singleVoice s c false = true)) →
      HeldInv H' P t := by
    intro i hi hm ho hm' hgo hgl hr hk hpo ⟨l', hl', hq', hn'⟩
    have hs : ∀ c', singleVoice t c' false = singleVoice s c' false := fun c' => singleVoice_congr fun j _ => by
      by_cases ej : j = i
      · subst ej; rw [hm, hm']
      · rw [ho j ej]
    have hpo : ∀ k, (t.chan k).portamento = (s.chan k).portamento := by
      intro k
      by_cases ek : k = c
      · subst ek; exact hpo
      · rw [hk k ek]
    refine ⟨hdyn.trans h.static, fun j hj hon => ?_, fun j hj hon hg => ?_, fun j hj hg => ?_, fun j hj => ?_,
      fun k hk' => ?_, fun k hk' hp => ?_⟩
    · by_cases ej : j = i
      · subst ej; rw [hm', hgo hon]; exact hH c p (.inr ⟨rfl, rfl⟩)
      · rw [ho j ej] at hon ⊢; exact hH _ _ (.inl (h.on j hj hon))
    · rw [hpo]
      by_cases ej : j = i
      · subst ej; rw [hm']; exact (hgl hg).1
      · rw [ho j ej] at hon hg ⊢; exact h.glide j hj hon hg
    · rw [hs]
      by_cases ej : j = i
      · subst ej; rw [hm']; exact (hgl hg).2
      · rw [ho j ej] at hg ⊢; exact h.lone j hj hg
    · by_cases ej : j = i
      · subst ej; exact hr
      · rw [ho j ej]; exact h.range j hj
    · rw [hs]
      by_cases ek : k = c
      · subst ek
        refine ⟨l', hl', fun q hm => ?_, hn'⟩
        rcases hq' q hm with hm | rfl
        · exact ⟨(hq q hm).1, hH k q (.inl (hq q hm).2)⟩
        · exact ⟨hp, hH k q (.inr ⟨rfl, rfl⟩)⟩
      · rw [hk k ek]
        obtain ⟨l', h1, h2, h3⟩ := h.stack k hk'
        exact ⟨l', h1, fun q hm => ⟨(h2 q hm).1, hH k q (.inl (h2 q hm).2)⟩, h3⟩
    · rw [hpo] at hp; exact h.porta k hk' hp
  cases e with
  | ignored hd hch =>
    have m := h.mono (H' := H') (P' := P) (fun k q x => hH k q (.inl x)) (fun _ x => x)
    have hs : ∀ c', singleVoice t c' false = singleVoice s c' false := fun c' => singleVoice_congr fun j _ => by rw [hd]
    obtain ⟨a1, a2, a3, a4, a5, a6, a7⟩ := m
    exact ⟨hdyn.trans a1, by rw [hd]; exact a2, by rw [hd, hch]; exact a3, by simpa only [hd, hs] using a4,
      by rw [hd]; exact a5, by simpa only [hch, hs] using a6, by rw [hch]; exact a7⟩
  | glide i hi hs hl0 hpo ho hd hk hpo' hr =>
    have hm := findFree_static h.static hi
    have hi13 := findFree_lt hi
    have p0 : p ≠ 0 := fun e => h0 e (h.porta c hc hpo)
    simp only [Dev.core, Dev.mk.injEq] at hd
    obtain ⟨-, -, -, d4, -, -, -, -, -, -, d11⟩ := hd
    refine done i hi13 hm ho (d4.trans hm) (fun _ => ?_) (fun _ => ⟨hpo, hs⟩) (by rw [d11]; exact hp) hk hpo'
      ⟨_, hr, fun q hm => ?_, fun _ => hs⟩
    · unfold Dev.goal; rw [d11, if_neg p0]
    · simpa using hm
  | single i hi hs ho hd hk hpo' hr =>
    have hm := findFree_static h.static hi
    have hi13 := findFree_lt hi
    simp only [Dev.core, started, Dev.mk.injEq] at hd
    obtain ⟨-, -, -, d4, -, d6, -, -, -, -, d11⟩ := hd
    refine done i hi13 hm ho d4 (fun _ => ?_) (fun x => absurd d11 x) (by rw [d11]; omega) hk hpo'
      ⟨_, hr, fun q hm => ?_, fun _ => hs⟩
    · unfold Dev.goal; rw [d11, if_pos rfl, d6]
    · simpa using hm
  | poly i hi hs ho hd hch =>
    have hm := findFree_static h.static hi
    have hi13 := findFree_lt hi
    simp only [Dev.core, started, Dev.mk.injEq] at hd
    obtain ⟨-, -, -, d4, -, d6, -, -, -, -, d11⟩ := hd
    have g0 : (t.dev i).glide = 0 := by
      rw [d11]
      refine Decidable.byContradiction fun hg => ?_
      have := h.lone i hi13 hg
      rw [hm, hs] at this; cases this
    refine done i hi13 hm ho d4 (fun _ => ?_) (fun x => absurd g0 x) (by rw [g0]; omega) (fun k _ => by rw [hch])
      (by rw [hch]) ⟨l, by rw [hch]; exact hl, fun q hm => .inl hm, hn⟩
    unfold Dev.goal; rw [g0, if_pos rfl, d6]

theorem foreach_induct {Q : St → Prop} {c : Nat} {body : St → Nat → St} (h : ∀ s i, i < 13 → (s.dev i).midiChannel = c →
    Q s → Q (body s i)) (s : St) (hs : Q s) : Q (foreach s c body) := by
  unfold foreach
  have : ∀ l : List Nat, (∀ i ∈ l, i < 13) → ∀ s, Q s →
      Q (l.foldl (fun s i => if (s.dev i).midiChannel = c then body s i else s) s) := by
    intro l
    induction l with
    | nil => intro _ s hs; exact hs
    | cons a l ih =>
      intro hl s hs
      refine ih (fun i hi => hl i (by simp [hi])) _ ?_
      simp only
      split
      · rename_i hm; exact h s a (hl a (by simp)) hm hs
      · exact hs
  exact this _ (by simp) s hs

/-- Silencing a voice. -/
theorem HeldInv.silence {i : Nat} (h : HeldInv H P s) :
    HeldInv H P (setDev s i fun d => { d with noteOn := false, pitch := 0 }) := by
  have hs : ∀ c', singleVoice (setDev s i fun d => { d with noteOn := false, pitch := 0 }) c' false = singleVoice s c' false :=
    fun c' => singleVoice_congr fun j _ => by
      rw [setDev_dev]
      by_cases ej : j = i
      · subst ej; simp
      · simp [Psg.upd_other _ _ _ _ ej]
  refine ⟨h.static, fun j hj ho => ?_, fun j hj ho hg => ?_, fun j hj hg => ?_, fun j hj => ?_, fun k hk => ?_, h.porta⟩
  · by_cases ej : j = i
    · subst ej; simp at ho
    · simp only [setDev_dev, Psg.upd_other _ _ _ _ ej] at ho ⊢; exact h.on j hj ho
  · by_cases ej : j = i
    · subst ej; simp at ho
    · simp only [setDev_dev, Psg.upd_other _ _ _ _ ej] at ho hg ⊢; exact h.glide j hj ho hg
  · rw [hs]
    by_cases ej : j = i
    · subst ej; simp only [setDev_dev, upd_self] at hg ⊢; exact h.lone j hj hg
    · simp only [setDev_dev, Psg.upd_other _ _ _ _ ej] at hg ⊢; exact h.lone j hj hg
  · by_cases ej : j = i
    · subst ej; simp only [setDev_dev, upd_self]; exact h.range j hj
    · simp only [setDev_dev, Psg.upd_other _ _ _ _ ej]; exact h.range j hj
  · rw [hs]; exact h.stack k hk

/-- Nothing but the chips and the display changes. -/
theorem HeldInv.same (h : HeldInv H P s) (h1 : t.dev = s.dev) (h2 : t.chan = s.chan) (h3 : t.dynamic = s.dynamic) :
    HeldInv H P t := by
  have hs : ∀ c', singleVoice t c' false = singleVoice s c' false := fun c' => singleVoice_congr fun j _ => by rw [h1]
  obtain ⟨a1, a2, a3, a4, a5, a6, a7⟩ := h
  exact ⟨h3.trans a1, by rw [h1]; exact a2, by rw [h1, h2]; exact a3, by simpa only [h1, hs] using a4,
    by rw [h1]; exact a5, by simpa only [h2, hs] using a6, by rw [h2]; exact a7⟩

theorem allNotesOff_heldInv (c : Nat) (h : HeldInv H P s) : HeldInv H P (allNotesOff env s c) := by
  refine foreach_induct (fun s i _ _ h => ?_) s h
  exact (h.silence (i := i)).same (devAllNotesOff_dev i) (devAllNotesOff_chan i) (devAllNotesOff_dynamic i)

theorem glide_goal {k : Nat} {d : Dev} {g : Glide} (hr : d.glide < 256)
    (h : glideStep k ⟨d.pitch, d.cents, d.glide⟩ = some g) :
    d.glide ≠ 0 ∧ ({ d with pitch := g.pitch, cents := g.cents, glide := g.target } : Dev).goal = d.goal ∧
      (g.target = 0 ∨ g.target = d.glide) := by
  have h0 : d.glide ≠ 0 := by
    intro e
    rw [glideStep, if_pos (by simp [e])] at h
    cases h
  refine ⟨h0, ?_, ?_⟩
  · rcases glideStep_target h with ⟨e1, e2⟩ | e1
    · simp only [Dev.goal, e1, h0, if_true, if_false, e2, toU8]
      omega
    · simp only at e1
      simp only [Dev.goal, e1, h0, if_false]
  · rcases glideStep_target h with ⟨e1, _⟩ | e1
    · exact .inl e1
    · exact .inr e1

theorem processGlide_heldInv {i k : Nat} (h : HeldInv H P s) (hi : i < 13) : HeldInv H P (processGlide env s i k) := by
  unfold processGlide
  split
  · exact h
  rename_i g hg
  refine (setDownstreamPitch_still i).heldInv ?_
  obtain ⟨h0, hgo, ht⟩ := glide_goal (h.range i hi) hg
  have hs : ∀ c', singleVoice (setDev s i fun d => { d with pitch := g.pitch, cents := g.cents, glide := g.target }) c' false =
      singleVoice s c' false := fun c' => singleVoice_congr fun j _ => by
    rw [setDev_dev]
    by_cases ej : j = i
    · subst ej; simp
    · simp [Psg.upd_other _ _ _ _ ej]
  refine ⟨h.static, fun j hj ho => ?_, fun j hj ho hg => ?_, fun j hj hg => ?_, fun j hj => ?_, fun k hk => ?_, h.porta⟩
  · by_cases ej : j = i
    · subst ej
      simp only [setDev_dev, upd_self] at ho ⊢
      rw [hgo]; exact h.on j hj ho
    · simp only [setDev_dev, Psg.upd_other _ _ _ _ ej] at ho ⊢; exact h.on j hj ho
  · by_cases ej : j = i
    · subst ej; simp only [setDev_dev, upd_self] at ho ⊢; exact h.glide j hj ho h0
    · simp only [setDev_dev, Psg.upd_other _ _ _ _ ej] at ho hg ⊢; exact h.glide j hj ho hg
  · rw [hs]
    by_cases ej : j = i
    · subst ej; simp only [setDev_dev, upd_self]; exact h.lone j hj h0
    · simp only [setDev_dev, Psg.upd_other _ _ _ _ ej] at hg ⊢; exact h.lone j hj hg
  · by_cases ej : j = i
    · subst ej
      have := h.range j hj
      simp only [setDev_dev, upd_self]; omega
    · simp only [setDev_dev, Psg.upd_other _ _ _ _ ej]; exact h.range j hj
  · rw [hs]; exact h.stack k hk

theorem tick_heldInv (h : HeldInv H P s) : HeldInv H P (tick env s) := by
  unfold tick
  have : ∀ l : List Nat, (∀ i ∈ l, i < 13) → ∀ s, HeldInv H P s → HeldInv H P (l.foldl (fun s i =>
    if (s.dev i).midiChannel = 0x7F then s
    else if (s.dev i).midiChannel < 16 then
      if (s.chan (s.dev i).midiChannel).portamento && (s.dev i).noteOn then
        processGlide env s i (s.chan (s.dev i).midiChannel).interval
      else s
    else ub s) s) := by
    intro l
    induction l with
    | nil => intro _ s h; exact h
    | cons a l ih =>
      intro hl s h
      refine ih (fun i hi => hl i (by simp [hi])) _ ?_
      simp only
      split
      · exact h
      split
      · split
        · exact processGlide_heldInv h (hl a (by simp))
        · exact h
      · exact h.same rfl rfl rfl
  exact this _ (by simp) s h

/-- The portamento switch. -/
theorem portamento_heldInv {c : Nat} {b : Bool} (h : HeldInv H P s) (hb : b = true → P' c) (hP : ∀ k, P k → P' k)
    (hoff : b = false → ¬P c ∨ ∀ p, ¬H c p) (hc : c < 16) :
    HeldInv H P' (setChan s c fun m => { m with portamento := b }) := by
  refine ⟨h.static, h.on, fun i hi ho hg => ?_, h.lone, h.range, fun k hk => ?_, fun k hk hp => ?_⟩
  · have g := h.glide i hi ho hg
    simp only [setChan_dev] at *
    by_cases e : (s.dev i).midiChannel = c
    · rw [e] at g ⊢
      simp only [setChan_chan, upd_self]
      cases b with
      | true => rfl
      | false =>
        rcases hoff rfl with h1 | h1
        · exact absurd (h.porta c hc g) h1
        · have := h.on i hi ho
          rw [e] at this; exact absurd this (h1 _)
    · simp only [setChan_chan, Psg.upd_other _ _ _ _ e]; exact g
  · obtain ⟨l, h1, h2, h3⟩ := h.stack k hk
    refine ⟨l, ?_, h2, h3⟩
    by_cases e : k = c
    · subst e; simpa using h1
    · simpa [Psg.upd_other _ _ _ _ e] using h1
  · by_cases e : k = c
    · subst e; simp only [setChan_chan, upd_self] at hp; exact hb hp
    · simp only [setChan_chan, Psg.upd_other _ _ _ _ e] at hp; exact hP k (h.porta k hk hp)

/-! ### Nothing played yet -/

/-- No voice sounds or glides, no note is remembered, portamento is off. -/
structure Idle (s : St) : Prop where
  off : ∀ i, i < 13 → (s.dev i).noteOn = false ∧ (s.dev i).glide = 0
  stack : ∀ c, c < 16 → Rep (s.chan c).stack [] ∧ (s.chan c).portamento = false

theorem Idle.heldInv (h : Idle s) (hd : s.dynamic = false) : HeldInv H P s := by
  refine ⟨hd, fun i hi ho => ?_, fun i hi ho => ?_, fun i hi hg => absurd (h.off i hi).2 hg, fun i hi => ?_,
    fun c hc => ⟨[], (h.stack c hc).1, by simp, by simp⟩, fun c hc hp => ?_⟩
  · rw [(h.off i hi).1] at ho; cases ho
  · rw [(h.off i hi).1] at ho; cases ho
  · rw [(h.off i hi).2]; omega
  · rw [(h.stack c hc).2] at hp; cases hp

theorem Still.idle (k : Still s t) (h : Idle s) : Idle t := by
  have d := fun j => Dev.core_eq (k.dev j)
  have c := fun j => Chan.core_eq (k.chan j)
  refine ⟨fun i hi => ?_, fun i hi => ?_⟩
  · obtain ⟨-, -, e1, -, -, -, e4⟩ := d i
    rw [e1, e4]; exact h.off i hi
  · rw [(c i).1, (c i).2]; exact h.stack i hi

theorem Idle.setDev {i : Nat} {f : Dev → Dev} (h : Idle s)
    (hf : (f (s.dev i)).glide = (s.dev i).glide ∧ ((f (s.dev i)).noteOn = (s.dev i).noteOn ∨ (f (s.dev i)).noteOn = false)) :
    Idle (setDev s i f) := by
  refine ⟨fun j hj => ?_, h.stack⟩
  rw [setDev_dev]
  by_cases e : j = i
  · subst e
    have := h.off j hj
    rw [upd_self, hf.1]
    rcases hf.2 with e | e <;> rw [e]
    · exact this
    · exact ⟨rfl, this.2⟩
  · rw [Psg.upd_other _ _ _ _ e]; exact h.off j hj

theorem Idle.of (h : Idle s) (hd : ∀ i, i < 13 → (t.dev i).noteOn = (s.dev i).noteOn ∧ (t.dev i).glide = (s.dev i).glide)
    (hc : t.chan = s.chan) : Idle t := by
  obtain ⟨h1, h2⟩ := h
  refine ⟨fun i hi => ?_, by rw [hc]; exact h2⟩
  rw [(hd i hi).1, (hd i hi).2]; exact h1 i hi

theorem applyDynamicMode_idle (h : Idle s) : Idle (applyDynamicMode s) :=
  h.of (fun i hi => by simp [applyDynamicMode, hi]) rfl

theorem setDynamicMode_idle (m : Mode) (h : Idle s) : Idle (setDynamicMode s m) := by
  unfold setDynamicMode
  cases m
  · exact applyDynamicMode_idle (h.of (fun _ _ => ⟨rfl, rfl⟩) rfl)
  · exact applyDynamicMode_idle (h.of (fun _ _ => ⟨rfl, rfl⟩) rfl)
  · exact h.of (fun _ _ => ⟨rfl, rfl⟩) rfl

theorem remap_idle (c i : Nat) (h : Idle s) : Idle (remap s c i) := by
  unfold remap
  split
  · exact h.of (fun _ _ => ⟨rfl, rfl⟩) rfl
  split
  · split
    · exact h.setDev ⟨rfl, .inl rfl⟩
    · exact h
  split
  · exact h.of (fun _ _ => ⟨rfl, rfl⟩) rfl
  · exact h.setDev ⟨rfl, .inl rfl⟩

theorem setPolyphonic_idle (e : Bool) (h : Idle s) : Idle (setPolyphonic s e) := by
  unfold setPolyphonic
  simp only
  split
  · exact List.foldlRecOn (motive := Idle) _ _ (setDynamicMode_idle _ h) fun s h i _ => remap_idle 0 i h
  · exact setDynamicMode_idle _ h

theorem noteOff_idle {c p : Nat} (hc : c < 16) (h : Idle s) : Idle (noteOff env s c p) := by
  have e := noteOff_eff (env := env) (p := p) (h.stack c hc).1
  refine ⟨fun i hi => ?_, fun k hk => ?_⟩
  · rw [e.dev i, if_neg]
    · exact h.off i hi
    · rintro ⟨_, _, hp⟩
      have := isPlaying_on hp
      rw [(h.off i hi).1] at this; cases this
  · by_cases ek : k = c
    · subst ek
      refine ⟨?_, by rw [e.chan]; exact (h.stack k hk).2⟩
      refine e.popped ?_
      rintro ⟨⟨i, hi, _, hp⟩, _⟩
      have := isPlaying_on hp
      rw [(h.off i hi).1] at this; cases this
    · rw [e.other k ek]; exact h.stack k hk

theorem allNotesOff_idle (c : Nat) (h : Idle s) : Idle (allNotesOff env s c) := by
  refine foreach_induct (fun s i _ _ h => ?_) s h
  exact Idle.of (h.setDev (i := i) (f := fun d => { d with noteOn := false, pitch := 0 }) ⟨rfl, .inr rfl⟩)
    (fun j _ => by rw [devAllNotesOff_dev]; exact ⟨rfl, rfl⟩) (devAllNotesOff_chan i)

theorem tick_idle (h : Idle s) : Idle (tick env s) := by
  refine List.foldlRecOn (motive := Idle) _ _ h fun s h i hi => ?_
  split
  · exact h
  split
  · rw [if_neg]
    · exact h
    · rw [(h.off i (by simpa using hi)).1]; simp
  · exact h.of (fun _ _ => ⟨rfl, rfl⟩) rfl

theorem resetChannels_idle (s : St) : Idle (resetChannels env s) := by
  unfold resetChannels
  extract_lets a
  refine applyDynamicMode_idle ?_
  have h : ∀ n, n ≤ 13 → let t := (List.range n).foldl (initDev env) a
      (∀ i, i < n → (t.dev i).noteOn = false ∧ (t.dev i).glide = 0) ∧
      ∀ c, c < 16 → (t.chan c).core = freshChan.core := by
    intro n
    induction n with
    | zero => intro _; exact ⟨fun i hi => absurd hi (by omega), fun c hc => by simp [a, hc]⟩
    | succ n ih =>
      intro hn
      obtain ⟨h1, h2⟩ := ih (by omega)
      rw [List.range_succ, List.foldl_append]
      simp only [List.foldl_cons, List.foldl_nil]
      generalize (List.range n).foldl (initDev env) a = b at *
      unfold initDev
      extract_lets u
      have k := updateDev_still (env := env) (s := u) n
      refine ⟨fun i hi => ?_, fun c hc => ?_⟩
      · obtain ⟨-, -, e1, -, -, -, e4⟩ := Dev.core_eq (k.dev i)
        rw [e1, e4]
        by_cases e : i = n
        · subst e; simp [u]
        · simp only [u, setDev_dev, Psg.upd_other _ _ _ _ e]; exact h1 i (by omega)
      · rw [k.chan c]; exact h2 c hc
  obtain ⟨h1, h2⟩ := h 13 (by omega)
  refine ⟨h1, fun c hc => ?_⟩
  obtain ⟨e1, e2⟩ := Chan.core_eq (h2 c hc)
  rw [e1, e2]
  exact ⟨Rep.init, rfl⟩

theorem reset_idle (s : St) : Idle (reset env s) := resetChannels_idle _

/-- Set-up messages: no note starts, portamento stays off, sample playback and raw register writes unused. -/
def Op.prepares : Op → Bool
  | .noteOn _ _ v => v == 0
  | .cc c k v => !(Op.cc c k v).unkeys && k != 78 && !(k == 65 && decide (64 ≤ v))
  | .sysex d j => !(Op.sysex d j).unkeys
  | _ => true

theorem sysex_idle (d : List Nat) (j : Nat) (h : Op.unkeys (.sysex d j) = false) (k : Idle s) : Idle (sysex env s d j) := by
  by_cases hv : voicingSysex d = false
  · exact (sysex_still d j hv).idle k
  · have hv : voicingSysex d = true := by simpa using hv
    simp only [voicingSysex, List.mem_cons, List.not_mem_nil, or_false, decide_eq_true_eq] at hv
    simp only [Op.unkeys, List.mem_cons, List.not_mem_nil, or_false, decide_eq_false_iff_not, not_or] at h
    rcases hv with e | e | e | e | e
    · exact absurd e h.1
    · rw [sysex_cmd e]
      simp only [commandLength]
      split
      · exact k.of (fun _ _ => ⟨rfl, rfl⟩) rfl
      · exact remap_idle _ _ k
    · rw [sysex_cmd e]
      simp only [commandLength]
      split
      · exact k.of (fun _ _ => ⟨rfl, rfl⟩) rfl
      · exact setDynamicMode_idle _ k
    · exact absurd e h.2.1
    · exact absurd e h.2.2

theorem step_idle {op : Op} (h : op.prepares = true) (k : Idle s) : Idle (step env s op) := by
  have ub : Idle (ub s) := k.of (fun _ _ => ⟨rfl, rfl⟩) rfl
  cases op with
  | noteOn c p v =>
    simp only [Op.prepares, beq_iff_eq] at h; subst h
    simp only [step]; split
    · rename_i hc; exact noteOff_idle hc k
    · exact ub
  | noteOff c p =>
    simp only [step]; split
    · rename_i hc; exact noteOff_idle hc k
    · exact ub
  | bend c b =>
    simp only [step]; split
    · exact (pitchBend_still c b).idle k
    · exact ub
  | program c p =>
    simp only [step]; split
    · exact (program_still c p).idle k
    · exact ub
  | sysex d j => exact sysex_idle d j (by simpa [Op.prepares] using h) k
  | remap c i => exact remap_idle c i k
  | reset => exact reset_idle s
  | tick => exact tick_idle k
  | psgTick => exact k.of (fun _ _ => ⟨rfl, rfl⟩) rfl
  | cc c n v =>
    simp only [step]; split
    · rename_i hc
      by_cases hv : voicing n = false
      · exact (cc_still c n v hv).idle k
      · simp only [Op.prepares, Op.unkeys, Bool.and_eq_true, Bool.not_eq_true', Bool.or_eq_false_iff, Bool.and_eq_false_iff,
          beq_eq_false_iff_ne, decide_eq_false_iff_not, bne_iff_ne] at h
        refine Still.idle (.emit _) ?_
        have hv : voicing n = true := by simpa using hv
        simp only [voicing, Bool.or_eq_true, beq_iff_eq] at hv
        rcases hv with ((((rfl | rfl) | rfl) | rfl) | rfl) | rfl
        · refine ⟨k.off, fun d hd => ?_⟩
          have e : (decide (v / 64 ≠ 0)) = false := by simp at h ⊢; omega
          show Rep ((setChan s c fun m => { m with portamento := v / 64 ≠ 0 }).chan d).stack [] ∧
            ((setChan s c fun m => { m with portamento := v / 64 ≠ 0 }).chan d).portamento = false
          rw [setChan_chan]
          by_cases ed : d = c
          · subst ed; rw [upd_self]; exact ⟨(k.stack d hd).1, e⟩
          · rw [Psg.upd_other _ _ _ _ ed]; exact k.stack d hd
        · exact absurd rfl h.1.2
        · exact setPolyphonic_idle _ k
        · exact allNotesOff_idle c k
        · exact absurd rfl h.1.1.1
        · exact allNotesOff_idle c k
    · exact ub

theorem run_idle (ops : List Op) (h : ∀ op ∈ ops, op.prepares = true) (k : Idle s) : Idle (run env s ops) := by
  induction ops generalizing s with
  | nil => exact k
  | cons a l ih => exact ih (fun b hb => h b (by simp [hb])) (step_idle (h a (by simp)) k)

end Mdmi.Midi
