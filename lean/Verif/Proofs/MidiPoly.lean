import Verif.Proofs.MidiKept
/-!
# Notes without portamento, whatever the assignment
-/
namespace Mdmi.Midi
open NotePriority (Rep)
open Mdmi.Synth (keyed)

variable {env : Env} {s t : St}

/-! ### Only held notes sound -/

/-- No portamento; every sounding voice plays, and every remembered note is, a note in `H`. -/
structure FreeInv (H : Nat → Nat → Prop) (s : St) : Prop where
  porta : ∀ c, c < 16 → (s.chan c).portamento = false
  glide : ∀ i, i < 13 → (s.dev i).glide = 0
  on : ∀ i, i < 13 → (s.dev i).noteOn = true → H (s.dev i).midiChannel (s.dev i).pitch
  stack : ∀ c, c < 16 → ∃ l, Rep (s.chan c).stack l ∧ ∀ q ∈ l, H c q

variable {H H' : Nat → Nat → Prop}

theorem FreeInv.mono (h : FreeInv H s) (hH : ∀ c p, H c p → H' c p) : FreeInv H' s :=
  ⟨h.porta, h.glide, fun i hi ho => hH _ _ (h.on i hi ho),
    fun c hc => let ⟨l, h1, h2⟩ := h.stack c hc; ⟨l, h1, fun q hq => hH _ _ (h2 q hq)⟩⟩

theorem FreeInv.same (h : FreeInv H s) (h1 : t.dev = s.dev) (h2 : t.chan = s.chan) : FreeInv H t := by
  obtain ⟨a1, a2, a3, a4⟩ := h
  exact ⟨by rw [h2]; exact a1, by rw [h1]; exact a2, by rw [h1]; exact a3, by rw [h2]; exact a4⟩

theorem Still.freeInv (k : Still s t) (h : FreeInv H s) : FreeInv H t := by
  have d := fun j => Dev.core_eq (k.dev j)
  have c := fun j => Chan.core_eq (k.chan j)
  refine ⟨fun j hj => by rw [(c j).2]; exact h.porta j hj, fun i hi => by rw [(d i).2.2.2.2.2.2]; exact h.glide i hi,
    fun i hi ho => ?_, fun j hj => by rw [(c j).1]; exact h.stack j hj⟩
  obtain ⟨-, -, e1, e2, e3, -, e4⟩ := d i
  rw [e2, e3]; rw [e1] at ho; exact h.on i hi ho

theorem Idle.freeInv (h : Idle s) : FreeInv H s :=
  ⟨fun c hc => (h.stack c hc).2, fun i hi => (h.off i hi).2, (fun i hi ho => by rw [(h.off i hi).1] at ho; cases ho),
    fun c hc => ⟨[], (h.stack c hc).1, by simp⟩⟩

theorem noteOff_freeInv {c p : Nat} (hc : c < 16) (h : FreeInv H s)
    (hH : ∀ k q, H k q → ¬(k = c ∧ q = p) → H' k q) : FreeInv H' (noteOff env s c p) := by
  obtain ⟨l, hl, hq⟩ := h.stack c hc
  have e := noteOff_eff (env := env) (p := p) hl
  generalize noteOff env s c p = t at *
  generalize hnx : (l.filter (· ≠ p)).getLastD 0 = next at *
  have nm : next ≠ 0 → next ∈ l ∧ next ≠ p := by
    intro h0
    rw [← hnx] at h0 ⊢
    simpa using getLastD_mem h0
  have np : (s.chan c).portamento = false := h.porta c hc
  refine ⟨fun k hk => ?_, fun i hi => ?_, fun i hi ho => ?_, fun k hk => ?_⟩
  · by_cases ek : k = c
    · subst ek; rw [e.chan]; exact np
    · rw [e.other k ek]; exact h.porta k hk
  · rw [e.dev i]
    split
    · unfold released; rw [np]
      split <;> exact h.glide i hi
    · exact h.glide i hi
  · have ei := e.dev i
    by_cases hh : Hit s c p i
    · rw [if_pos ⟨hi, hh⟩] at ei
      unfold released at ei
      rw [np, hnx] at ei
      split at ei
      · rename_i hsn
        rw [ei]; simp only [hh.1]
        exact hH c next (hq next (nm hsn.2).1) fun x => (nm hsn.2).2 x.2
      · rw [ei] at ho; cases ho
    · rw [if_neg (fun x => hh x.2)] at ei
      rw [ei] at ho ⊢
      refine hH _ _ (h.on i hi ho) fun x => hh ⟨x.1, ?_⟩
      unfold isPlaying
      simp [h.glide i hi, ho, x.2]
  · by_cases ek : k = c
    · subst ek
      refine ⟨_, e.popped (fun x => by rw [np] at x; cases x.2.2.2), fun q hm => ?_⟩
      have := List.dropLast_subset _ hm
      simp only [List.mem_filter, decide_eq_true_eq] at this
      exact hH k q (hq q this.1) fun x => this.2 x.2
    · rw [e.other k ek]
      obtain ⟨l', h1, h2⟩ := h.stack k hk
      exact ⟨l', h1, fun q hm => hH k q (h2 q hm) fun x => ek x.1⟩

theorem noteOn_freeInv {c p v : Nat} (hc : c < 16) (hv : v ≠ 0) (h : FreeInv H s)
    (hH : ∀ k q, H k q ∨ (k = c ∧ q = p) → H' k q) : FreeInv H' (noteOn env s c p v) := by
  obtain ⟨l, hl, hq⟩ := h.stack c hc
  have e := noteOn_eff (env := env) (p := p) hc hv hl
  generalize noteOn env s c p v = t at *
  have done : ∀ i, (∀ j, j ≠ i → t.dev j = s.dev j) → (t.dev i).midiChannel = c → (t.dev i).pitch = p →
      (i < 13 → (t.dev i).glide = 0) → (∀ k, k ≠ c → t.chan k = s.chan k) →
      (t.chan c).portamento = (s.chan c).portamento →
      (∃ l', Rep (t.chan c).stack l' ∧ ∀ q ∈ l', q ∈ l ∨ q = p) → FreeInv H' t := by
    intro i ho hm hpi hg hk hpo ⟨l', hl', hq'⟩
    refine ⟨fun k hk' => ?_, fun j hj => ?_, fun j hj hon => ?_, fun k hk' => ?_⟩
    · by_cases ek : k = c
      · subst ek; rw [hpo]; exact h.porta k hk'
      · rw [hk k ek]; exact h.porta k hk'
    · by_cases ej : j = i
      · subst ej; exact hg hj
      · rw [ho j ej]; exact h.glide j hj
    · by_cases ej : j = i
      · subst ej; rw [hm, hpi]; exact hH c p (.inr ⟨rfl, rfl⟩)
      · rw [ho j ej] at hon ⊢; exact hH _ _ (.inl (h.on j hj hon))
    · by_cases ek : k = c
      · subst ek
        refine ⟨l', hl', fun q hm => ?_⟩
        rcases hq' q hm with hm | rfl
        · exact hH k q (.inl (hq q hm))
        · exact hH k q (.inr ⟨rfl, rfl⟩)
      · rw [hk k ek]
        obtain ⟨l', h1, h2⟩ := h.stack k hk'
        exact ⟨l', h1, fun q hm => hH k q (.inl (h2 q hm))⟩
  cases e with
  | ignored hd hch => exact (h.mono fun k q x => hH k q (.inl x)).same hd hch
  | glide i hi hs hl0 hpo => rw [h.porta c hc] at hpo; cases hpo
  | single i hi hs ho hd hk hpo' hr =>
    simp only [Dev.core, started, Dev.mk.injEq] at hd
    obtain ⟨-, -, -, d4, -, d6, -, -, -, -, d11⟩ := hd
    exact done i ho d4 d6 (fun _ => d11) hk hpo' ⟨_, hr, fun q hm => by simpa using hm⟩
  | poly i hi hs ho hd hch =>
    simp only [Dev.core, started, Dev.mk.injEq] at hd
    obtain ⟨-, -, -, d4, -, d6, -, -, -, -, d11⟩ := hd
    exact done i ho d4 d6 (fun hi => by rw [d11]; exact h.glide i hi) (fun k _ => by rw [hch]) (by rw [hch])
      ⟨l, by rw [hch]; exact hl, fun q hm => .inl hm⟩

/-- Without portamento frames change nothing. -/
theorem tick_still (h : FreeInv H s) : Still s (tick env s) := by
  unfold tick
  have : ∀ l : List Nat, ∀ t, (∀ c, c < 16 → (t.chan c).portamento = false) → Still t (l.foldl (fun s i =>
    if (s.dev i).midiChannel = 0x7F then s
    else if (s.dev i).midiChannel < 16 then
      if (s.chan (s.dev i).midiChannel).portamento && (s.dev i).noteOn then
        processGlide env s i (s.chan (s.dev i).midiChannel).interval
      else s
    else ub s) t) := by
    intro l
    induction l with
    | nil => intro t _; exact .refl
    | cons a l ih =>
      intro t ht
      rw [List.foldl_cons]
      split
      · exact ih t ht
      split
      · rename_i h16
        rw [ht _ h16]
        exact ih t ht
      · exact Still.ub.trans (ih _ ht)
  exact this _ s h.porta

theorem FreeInv.silence {i : Nat} (h : FreeInv H s) :
    FreeInv H (setDev s i fun d => { d with noteOn := false, pitch := 0 }) := by
  refine ⟨h.porta, fun j hj => ?_, fun j hj ho => ?_, h.stack⟩
  · rw [setDev_dev]
    by_cases e : j = i
    · subst e; simpa using h.glide j hj
    · simpa [Psg.upd_other _ _ _ _ e] using h.glide j hj
  · rw [setDev_dev] at ho ⊢
    by_cases e : j = i
    · subst e; simp at ho
    · simp only [Psg.upd_other _ _ _ _ e] at ho ⊢; exact h.on j hj ho

theorem allNotesOff_freeInv (c : Nat) (h : FreeInv H s) : FreeInv H (allNotesOff env s c) := by
  refine foreach_induct (fun s i _ _ h => ?_) s h
  exact (h.silence (i := i)).same (devAllNotesOff_dev i) (devAllNotesOff_chan i)

/-! ### Every held note sounds -/

theorem length_le_of_subset {α : Type} [DecidableEq α] : ∀ (l m : List α), l.Nodup → (∀ x ∈ l, x ∈ m) → l.length ≤ m.length := by
  intro l
  induction l with
  | nil => intro m _ _; simp
  | cons a l ih =>
    intro m hn hm
    obtain ⟨h1, h2⟩ := List.nodup_cons.1 hn
    have := ih (m.erase a) h2 fun x hx =>
      (List.mem_erase_of_ne (by rintro rfl; exact h1 hx)).2 (hm x (by simp [hx]))
    rw [List.length_erase_of_mem (hm a (by simp))] at this
    have := List.length_pos_of_mem (hm a (by simp))
    simp only [List.length_cons]
    omega

theorem rep_unique {st : NotePriority.Stack} {l m : List Nat} (h : Rep st l) (k : Rep st m) : l = m := by
  have e : l.length = m.length := by have := h.top; have := k.top; omega
  refine List.ext_getElem e fun i h1 h2 => ?_
  have := (h.get i h1).symm.trans (k.get i h2)
  simpa using this

/-- Dynamic assignment of all nine tone voices, no portamento; the keys in `D` sound, each on one voice, and no others. -/
structure PolyInv (D : List (Nat × Nat)) (s : St) : Prop where
  free : FreeInv (fun c p => (c, p) ∈ D) s
  dynamic : s.dynamic = true
  sel : ∀ c, c < 16 → (s.chan c).deviceSelect = 0
  stick : s.cfg.stick = false
  low : ∀ i, i < 13 → (s.dev i).noteOn = true → i ≤ 8
  down : ∀ x ∈ D, ∃ i, i < 13 ∧ (s.dev i).noteOn = true ∧ (s.dev i).midiChannel = x.1 ∧ (s.dev i).pitch = x.2
  inj : ∀ i j, i < 13 → j < 13 → (s.dev i).noteOn = true → (s.dev j).noteOn = true →
    (s.dev i).midiChannel = (s.dev j).midiChannel → (s.dev i).pitch = (s.dev j).pitch → i = j
  nodup : ∀ c, c < 16 → ∀ l, Rep (s.chan c).stack l → l.Nodup

variable {D : List (Nat × Nat)}

theorem Idle.polyInv (h : Idle s) (hd : s.dynamic = true) (hs : ∀ c, c < 16 → (s.chan c).deviceSelect = 0)
    (hk : s.cfg.stick = false) : PolyInv [] s := by
  have no : ∀ i, i < 13 → (s.dev i).noteOn = true → False := fun i hi ho => by rw [(h.off i hi).1] at ho; cases ho
  exact ⟨h.freeInv, hd, hs, hk, fun i hi ho => (no i hi ho).elim, by simp, fun i j hi _ ho => (no i hi ho).elim,
    fun c hc l hl => by rw [rep_unique hl (h.stack c hc).1]; simp⟩

theorem Still.polyInv {b : Bool} (k : Still s t) (e : Steady b s t) (h : PolyInv D s) : PolyInv D t := by
  have d := fun j => Dev.core_eq (k.dev j)
  have c := fun j => Chan.core_eq (k.chan j)
  refine ⟨k.freeInv h.free, k.dynamic.trans h.dynamic, fun j hj => (e.sel j).trans (h.sel j hj), e.stick.trans h.stick,
    fun i hi ho => h.low i hi ((d i).2.2.1 ▸ ho), fun x hx => ?_, fun i j hi hj h1 h2 h3 h4 => ?_, fun j hj => ?_⟩
  · obtain ⟨i, hi, h1, h2, h3⟩ := h.down x hx
    exact ⟨i, hi, (d i).2.2.1.trans h1, (d i).2.2.2.1.trans h2, (d i).2.2.2.2.1.trans h3⟩
  · rw [(d i).2.2.1] at h1; rw [(d j).2.2.1] at h2
    rw [(d i).2.2.2.1, (d j).2.2.2.1] at h3
    rw [(d i).2.2.2.2.1, (d j).2.2.2.2.1] at h4
    exact h.inj i j hi hj h1 h2 h3 h4
  · rw [(c j).1]; exact h.nodup j hj

/-- With fewer than nine keys down a tone voice is free. -/
theorem PolyInv.exists_free (h : PolyInv D s) (hD : D.length ≤ 8) : ∃ i, i ≤ 8 ∧ (s.dev i).noteOn = false := by
  refine Decidable.byContradiction fun hn => ?_
  have all : ∀ i, i ≤ 8 → (s.dev i).noteOn = true := fun i hi =>
    Bool.not_eq_false _ ▸ fun e => hn ⟨i, hi, e⟩
  have := length_le_of_subset ((List.range 9).map fun i => ((s.dev i).midiChannel, (s.dev i).pitch)) D ?_ ?_
  · simp at this; omega
  · rw [List.nodup_iff_pairwise_ne, List.pairwise_map]
    refine List.Pairwise.imp_of_mem (fun {a b} ha hb hab e => hab ?_) List.nodup_range
    simp only [List.mem_range] at ha hb
    simp only [Prod.mk.injEq] at e
    exact h.inj a b (by omega) (by omega) (all a (by omega)) (all b (by omega)) e.1 e.2
  · intro x hx
    simp only [List.mem_map, List.mem_range] at hx
    obtain ⟨i, hi, rfl⟩ := hx
    exact h.free.on i (by omega) (all i (by omega))

/-- The voice chosen then is a free one. -/
theorem findFree_poly {c : Nat} (hd : s.dynamic = true) (hs : (s.chan c).deviceSelect = 0) (hk : s.cfg.stick = false)
    (h9 : c ≠ 9) (hf : ∃ i, i ≤ 8 ∧ (s.dev i).noteOn = false) :
    ∃ i, findFree s c = some i ∧ i ≤ 8 ∧ (s.dev i).noteOn = false := by
  have suit : ∀ i, suitable (s.dev i) c = !(s.dev i).noteOn := fun i => by simp [suitable, psgPercussive, h9]
  have mm : minMax s c = (0, 8) := by unfold minMax; rw [hs]; rfl
  unfold findFree
  rw [mm]
  simp only [hd, Bool.not_true, Bool.false_eq_true, if_false]
  cases e1 : findFreeMidiAssigned s c 0 8 with
  | some i =>
    unfold findFreeMidiAssigned at e1
    have hm := List.mem_of_find?_eq_some e1
    have hp := List.find?_some e1
    rw [suit] at hp
    simp only [span, List.mem_range'_1, Bool.and_eq_true, Bool.not_eq_true'] at hm hp
    exact ⟨i, rfl, by omega, hp.2⟩
  | none =>
    simp only
    cases e2 : findFreePsgSquare s c with
    | some i =>
      unfold findFreePsgSquare at e2
      split at e2
      · have hm := List.mem_of_find?_eq_some e2
        have hp := List.find?_some e2
        rw [suit] at hp
        simp only [List.mem_cons, List.not_mem_nil, or_false, Bool.not_eq_true'] at hm hp
        exact ⟨i, rfl, by omega, hp⟩
      · cases e2
    | none =>
      simp only
      obtain ⟨j, hj, hn⟩ := hf
      have : ∃ i, findDeviceSpecific s c 0 8 = some i ∧ i ≤ 8 ∧ (s.dev i).noteOn = false := by
        unfold findDeviceSpecific findInSpan
        rw [hk]
        simp only [Bool.false_eq_true, if_false]
        cases e3 : (span 0 8).find? fun i => suitable (s.dev i) c with
        | some i =>
          have hm := List.mem_of_find?_eq_some e3
          have hp := List.find?_some e3
          rw [suit] at hp
          simp only [span, List.mem_range'_1, Bool.not_eq_true'] at hm hp
          exact ⟨i, rfl, by omega, hp⟩
        | none =>
          have := List.find?_eq_none.1 e3 j (by simp only [span, List.mem_range'_1]; omega)
          rw [suit, hn] at this
          exact absurd rfl this
      obtain ⟨i, e, h1, h2⟩ := this
      rw [e]
      exact ⟨i, rfl, h1, h2⟩

/-- A note-on that comes to a free voice. -/
theorem noteOn_plays {c p v i : Nat} {l : List Nat} (hc : c < 16) (hv : v ≠ 0) (h9 : c ≠ 9) (hi : findFree s c = some i)
    (hp : (s.chan c).portamento = false) (hg : (s.dev i).glide = 0) (hl : Rep (s.chan c).stack l) (hlen : l.length < 10) :
    let t := noteOn env s c p v
    (∀ j, j ≠ i → t.dev j = s.dev j) ∧ (t.dev i).core = started (s.dev i).core c p ∧
    (∃ l', Rep (t.chan c).stack l' ∧ (l' = l ∨ l' = l ++ [p])) ∧ (∀ k, k ≠ c → t.chan k = s.chan k) := by
  intro t
  have ht : t = noteOn env s c p v := rfl
  unfold noteOn at ht
  have h9' : tooManyPercussive s c = false := by simp [tooManyPercussive, h9]
  rw [if_neg hv, h9', hi] at ht
  simp only [Bool.false_eq_true, if_false] at ht
  by_cases hs : singleVoice s c false = true
  · obtain ⟨st, e, hr⟩ := hl.push p
    rw [if_neg (by omega)] at hr
    have hf : ¬NotePriority.isFull (s.chan c).stack = true := by rw [hl.isFull]; simp; omega
    rw [if_pos hs, if_neg hf, e] at ht
    simp only [setChan_chan, upd_self, hp, Bool.false_eq_true, false_and, if_false] at ht
    rw [ht]
    refine ⟨fun j hj => ?_, ?_, ⟨_, ?_, .inr rfl⟩, fun k hk => ?_⟩
    · rw [startNote_dev hc]; simp [Psg.upd_other _ _ _ _ hj]
    · rw [startNote_dev hc]; simp [Dev.sync, Dev.core, started, hg]
    · simpa using hr
    · simp [Psg.upd_other _ _ _ _ hk]
  · rw [if_neg hs] at ht
    rw [ht]
    refine ⟨fun j hj => ?_, ?_, ⟨l, ?_, .inl rfl⟩, fun k hk => ?_⟩
    · rw [startNote_dev hc]; simp [Psg.upd_other _ _ _ _ hj]
    · rw [startNote_dev hc]; simp [Dev.sync, Dev.core, started]
    · simpa using hl
    · simp

theorem noteOn_dynamic {c p v : Nat} (hv : v ≠ 0) : (noteOn env s c p v).dynamic = s.dynamic := by
  unfold noteOn; rw [if_neg hv]
  split
  · rfl
  split
  · rfl
  split
  · split
    · rfl
    split
    · rfl
    simp only; split <;> simp
  · simp

/-- The stacks are short. -/
theorem PolyInv.stack (h : PolyInv D s) {c : Nat} (hc : c < 16) : ∃ l, Rep (s.chan c).stack l ∧ l.Nodup ∧
    (∀ q ∈ l, (c, q) ∈ D) ∧ l.length ≤ D.length := by
  obtain ⟨l, h1, h2⟩ := h.free.stack c hc
  have hn := h.nodup c hc l h1
  refine ⟨l, h1, hn, h2, ?_⟩
  have := length_le_of_subset (l.map fun q => (c, q)) D ?_ ?_
  · simpa using this
  · rw [List.nodup_iff_pairwise_ne, List.pairwise_map]
    exact hn.imp fun hab e => hab (by simpa using e)
  · intro x hx
    simp only [List.mem_map] at hx
    obtain ⟨q, hq, rfl⟩ := hx
    exact h2 q hq

theorem noteOn_polyInv {c p v : Nat} (hc : c < 16) (hv : v ≠ 0) (h9 : c ≠ 9) (h : PolyInv D s) (hD : D.length ≤ 8)
    (hn : (c, p) ∉ D) : PolyInv ((c, p) :: D) (noteOn env s c p v) := by
  obtain ⟨i, hi, hi8, hoff⟩ := findFree_poly h.dynamic (h.sel c hc) h.stick h9 (h.exists_free hD)
  obtain ⟨l, hl, hnd, hq, hlen⟩ := h.stack hc
  have hf := noteOn_freeInv (env := env) (p := p) (H' := fun c' p' => (c', p') ∈ (c, p) :: D) hc hv h.free fun k q x => by
    rcases x with x | ⟨rfl, rfl⟩
    · exact List.mem_cons_of_mem _ x
    · exact List.mem_cons_self
  have hk := noteOn_steady (env := env) (s := s) (tn := false) c p v
  have hdy := noteOn_dynamic (env := env) (s := s) (c := c) (p := p) hv
  obtain ⟨ho, hcore, ⟨l', hl', hl''⟩, hch⟩ := noteOn_plays (env := env) (v := v) (p := p) hc hv h9 hi (h.free.porta c hc)
    (h.free.glide i (by omega)) hl (by omega)
  generalize noteOn env s c p v = t at *
  simp only [Dev.core, started, Dev.mk.injEq] at hcore
  obtain ⟨-, -, d3, d4, -, d6, -, -, -, -, -⟩ := hcore
  have old : ∀ j, j < 13 → j ≠ i → (s.dev j).noteOn = true → ¬((s.dev j).midiChannel = c ∧ (s.dev j).pitch = p) := by
    rintro j hj - hon ⟨rfl, rfl⟩
    exact hn (h.free.on j hj hon)
  refine ⟨hf, hdy.trans h.dynamic, fun k hk' => (hk.sel k).trans (h.sel k hk'), hk.stick.trans h.stick, fun j hj hon => ?_,
    fun x hx => ?_, fun a b ha hb h1 h2 h3 h4 => ?_, fun k hk' m hm => ?_⟩
  · by_cases e : j = i
    · omega
    · rw [ho j e] at hon; exact h.low j hj hon
  · rcases List.mem_cons.1 hx with rfl | hx
    · exact ⟨i, by omega, d3, d4, d6⟩
    · obtain ⟨j, hj, h1, h2, h3⟩ := h.down x hx
      have e : j ≠ i := by rintro rfl; rw [hoff] at h1; cases h1
      exact ⟨j, hj, by rw [ho j e]; exact h1, by rw [ho j e]; exact h2, by rw [ho j e]; exact h3⟩
  · by_cases ea : a = i
    · by_cases eb : b = i
      · rw [ea, eb]
      · subst ea
        rw [ho b eb] at h2 h3 h4
        exact absurd ⟨h3.symm.trans d4, h4.symm.trans d6⟩ (old b hb eb h2)
    · by_cases eb : b = i
      · subst eb
        rw [ho a ea] at h1 h3 h4
        exact absurd ⟨h3.trans d4, h4.trans d6⟩ (old a ha ea h1)
      · rw [ho a ea] at h1 h3 h4; rw [ho b eb] at h2 h3 h4
        exact h.inj a b ha hb h1 h2 h3 h4
  · by_cases e : k = c
    · subst e
      rw [rep_unique hm hl']
      rcases hl'' with rfl | rfl
      · exact hnd
      · rw [List.nodup_append]
        refine ⟨hnd, by simp, fun a ha b hb e => ?_⟩
        simp only [List.mem_singleton] at hb
        subst hb; subst e
        exact hn (hq a ha)
    · rw [hch k e] at hm; exact h.nodup k hk' m hm

/-- A release does not fall back to an older note: that one sounds on a voice of its own. -/
theorem PolyInv.released (h : PolyInv D s) {c p i next : Nat} {l : List Nat} (hl : Rep (s.chan c).stack l) (hc : c < 16)
    (hi : i < 13) (hh : Hit s c p i) (hnx : (l.filter (· ≠ p)).getLastD 0 = next) :
    ¬(singleVoice s c true = true ∧ next ≠ 0) := by
  rintro ⟨h1, h0⟩
  obtain ⟨l', hl', -, hq, -⟩ := h.stack hc
  rw [rep_unique hl hl'] at hnx
  rw [← hnx] at h0
  have := getLastD_mem h0
  rw [hnx] at this
  simp only [List.mem_filter, decide_eq_true_eq] at this
  obtain ⟨j, hj, j1, j2, j3⟩ := h.down _ (hq next this.1)
  have e := single_hit h1 hi hj ⟨hh.1, isPlaying_on hh.2⟩ ⟨j2, j1⟩
  subst e
  have hp := hh.2
  simp only [isPlaying, h.free.glide i hi, ne_eq, not_true_eq_false, if_false, Bool.and_eq_true, beq_iff_eq] at hp
  exact this.2 (j3.symm.trans hp.2)

theorem noteOff_polyInv {c p : Nat} (hc : c < 16) (h : PolyInv D s) :
    PolyInv (D.filter (· ≠ (c, p))) (noteOff env s c p) := by
  obtain ⟨l, hl, hnd, hq, hlen⟩ := h.stack hc
  have e := noteOff_eff (env := env) (p := p) hl
  have hf := noteOff_freeInv (env := env) (p := p) (H' := fun c' p' => (c', p') ∈ D.filter (· ≠ (c, p))) hc h.free
    fun k q x hn => by simp only [List.mem_filter, decide_eq_true_eq]; exact ⟨x, fun e => hn (by simpa using e)⟩
  have hk := noteOff_steady (env := env) (s := s) (tn := false) c p
  have hdy : (noteOff env s c p).dynamic = s.dynamic := (noteOff_mild c p).dynamic
  generalize noteOff env s c p = t at *
  have dev : ∀ i, i < 13 → t.dev i = if Hit s c p i then { s.dev i with noteOn := false, pitch := 0 } else s.dev i := by
    intro i hi
    rw [e.dev i]
    by_cases hh : Hit s c p i
    · rw [if_pos ⟨hi, hh⟩, if_pos hh]
      unfold Midi.released
      rw [if_neg (h.released hl hc hi hh rfl)]
    · rw [if_neg (fun x => hh x.2), if_neg hh]
  have keep : ∀ i, i < 13 → (t.dev i).noteOn = true → t.dev i = s.dev i := by
    intro i hi ho
    rw [dev i hi] at ho ⊢
    split
    · rename_i hh; rw [if_pos hh] at ho; cases ho
    · rfl
  have np : (s.chan c).portamento = false := h.free.porta c hc
  refine ⟨hf, hdy.trans h.dynamic, fun k hk' => (hk.sel k).trans (h.sel k hk'), hk.stick.trans h.stick, fun j hj hon => ?_,
    fun x hx => ?_, fun a b ha hb h1 h2 h3 h4 => ?_, fun k hk' m hm => ?_⟩
  · rw [keep j hj hon] at hon; exact h.low j hj hon
  · simp only [List.mem_filter, decide_eq_true_eq] at hx
    obtain ⟨j, hj, h1, h2, h3⟩ := h.down x hx.1
    have hh : ¬Hit s c p j := by
      intro hh
      have hp := hh.2
      simp only [isPlaying, h.free.glide j hj, ne_eq, not_true_eq_false, if_false, Bool.and_eq_true, beq_iff_eq] at hp
      exact hx.2 (Prod.ext (h2.symm.trans hh.1) (h3.symm.trans hp.2))
    have ej := dev j hj
    rw [if_neg hh] at ej
    exact ⟨j, hj, by rw [ej]; exact h1, by rw [ej]; exact h2, by rw [ej]; exact h3⟩
  · have ka := keep a ha h1
    have kb := keep b hb h2
    rw [ka] at h1 h3 h4; rw [kb] at h2 h3 h4
    exact h.inj a b ha hb h1 h2 h3 h4
  · by_cases ek : k = c
    · subst ek
      have hr := e.popped (fun x => by rw [np] at x; cases x.2.2.2)
      rw [rep_unique hm hr]
      exact (hnd.filter _).sublist (List.dropLast_sublist _)
    · rw [e.other k ek] at hm; exact h.nodup k hk' m hm

end Mdmi.Midi
