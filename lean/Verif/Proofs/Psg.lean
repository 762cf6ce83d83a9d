import Verif.Spec.Psg
/-! Lemmas about the PSG driver. -/
namespace Mdmi.Psg

theorem upd_same {α : Type} (f : Nat → α) (i : Nat) (x : α) : upd f i x i = x := by simp [upd]

theorem upd_other {α : Type} (f : Nat → α) (i j : Nat) (x : α) (h : j ≠ i) :
    upd f i x j = f j := by simp [upd, h]

/-! ### Tables -/

theorem toneForMidiKey_some (pal : Bool) (k : Nat) : ∃ t, toneForMidiKey pal k = some t := by
  unfold toneForMidiKey
  cases pal <;> simp only [Bool.false_eq_true, if_false, if_true]
  all_goals
    split
    · exact ⟨_, rfl⟩
    · split
      · exact ⟨_, rfl⟩
      · rename_i h1 h2
        refine ⟨_, List.getElem?_eq_getElem (h := ?_)⟩
        simp [tonesNtsc, tonesPal]; omega

theorem toneFromPitchCents_some (pal : Bool) (pc : PitchCents) :
    ∃ t, toneFromPitchCents pal pc = some t := by
  unfold toneFromPitchCents
  obtain ⟨t, ht⟩ := toneForMidiKey_some pal pc.pitch
  obtain ⟨t', ht'⟩ := toneForMidiKey_some pal (toU8 (pc.pitch + 1 : Nat))
  rw [ht, ht']
  simp only
  split <;> exact ⟨_, rfl⟩

theorem envelopeTone_some (pal : Bool) (c : Chan) (b : Nat) : ∃ t, envelopeTone pal c b = some t :=
  toneFromPitchCents_some _ _

theorem attenuations_length : attenuations.length = 128 := by decide +kernel

theorem mul_div_127 {a b : Nat} (ha : a < 128) (hb : b < 128) : a * b / 127 < 128 := by
  have : a * b ≤ 127 * 127 := Nat.mul_le_mul (by omega) (by omega)
  omega

theorem effectiveAttenuation_some (c : Chan) (b : Nat) (hv : c.volume < 128)
    (hw : c.velocity < 128) : ∃ a, effectiveAttenuation c b = some a := by
  unfold effectiveAttenuation
  have h : c.volume * c.velocity / 127 < attenuations.length := by
    rw [attenuations_length]; exact mul_div_127 hv hw
  rw [List.getElem?_eq_getElem h]
  exact ⟨_, rfl⟩

/-! ### Pointers -/

/-- There is an END byte `k` bytes after `p`. -/
def EndAt (env : Env) (buf : Nat → Nat) (p : Ptr) (k : Nat) : Prop :=
  deref env buf ⟨p.src, p.off + k⟩ = some 0xFF

/-- There is an END byte at or after `p`. -/
def HasEnd (env : Env) (buf : Nat → Nat) (p : Ptr) : Prop := ∃ k, EndAt env buf p k

theorem deref_of_later {env : Env} {buf : Nat → Nat} {s : Src} {i k : Nat} {v : Nat}
    (h : deref env buf ⟨s, i + k⟩ = some v) : ∃ b, deref env buf ⟨s, i⟩ = some b := by
  cases s with
  | user =>
    simp only [deref] at *
    split at h
    · rw [if_pos (by omega)]; exact ⟨_, rfl⟩
    · simp at h
  | builtin n =>
    simp only [deref] at *
    cases he : env.envelopes[n]? with
    | none => simp [he] at h
    | some e =>
      simp only [he, Option.bind_some] at *
      have := List.getElem?_eq_some_iff.1 h
      obtain ⟨hlt, _⟩ := this
      exact ⟨_, List.getElem?_eq_getElem (h := by omega)⟩

theorem HasEnd.deref {env : Env} {buf : Nat → Nat} {p : Ptr} (h : HasEnd env buf p) :
    ∃ b, Psg.deref env buf p = some b := by
  obtain ⟨k, hk⟩ := h
  exact deref_of_later hk

theorem EndAt.next {env : Env} {buf : Nat → Nat} {p : Ptr} {k b : Nat}
    (h : EndAt env buf p k) (hd : Psg.deref env buf p = some b) (hb : b ≠ 0xFF) :
    ∃ j, k = j + 1 ∧ EndAt env buf p.next j := by
  cases k with
  | zero =>
    simp only [EndAt, Nat.add_zero] at h
    rw [hd] at h; simp at h; exact absurd h hb
  | succ j =>
    refine ⟨j, rfl, ?_⟩
    simp only [EndAt, Ptr.next] at *
    rw [← h]; congr 2; omega

theorem HasEnd.next {env : Env} {buf : Nat → Nat} {p : Ptr} {b : Nat}
    (h : HasEnd env buf p) (hd : Psg.deref env buf p = some b) (hb : b ≠ 0xFF) :
    HasEnd env buf p.next := by
  obtain ⟨k, hk⟩ := h
  obtain ⟨j, _, hj⟩ := hk.next hd hb
  exact ⟨j, hj⟩

/-! ### Channel invariant -/

/-- Invariant of one channel. -/
structure ChanInv (env : Env) (buf : Nat → Nat) (c : Chan) : Prop where
  step : HasEnd env buf c.step
  loop : ∀ ls, c.loopStart = some ls → HasEnd env buf ls
  vol : c.volume < 128
  vel : c.velocity < 128
  envl : c.envelope < 128
  cents : 0 ≤ c.cents ∧ c.cents < 100

theorem ChanInv.of_step {env : Env} {buf : Nat → Nat} {c : Chan} (h : ChanInv env buf c) (p : Ptr)
    (hp : HasEnd env buf p) : ChanInv env buf { c with step := p } :=
  ⟨hp, h.loop, h.vol, h.vel, h.envl, h.cents⟩

theorem applyTone_inv {env : Env} {buf : Nat → Nat} {n : Nat} {o : Out} {t : Nat}
    (h : ChanInv env buf o.1) : ChanInv env buf (applyTone n o t).1 := by
  unfold applyTone; split
  · exact ⟨h.step, h.loop, h.vol, h.vel, h.envl, h.cents⟩
  · exact h

theorem applyAttenuation_inv {env : Env} {buf : Nat → Nat} {n : Nat} {o : Out} {t : Nat}
    (h : ChanInv env buf o.1) : ChanInv env buf (applyAttenuation n o t).1 := by
  unfold applyAttenuation; split
  · exact ⟨h.step, h.loop, h.vol, h.vel, h.envl, h.cents⟩
  · exact h

theorem noteOffChan_inv {env : Env} {buf : Nat → Nat} {n : Nat} {o : Out}
    (h : ChanInv env buf o.1) : ChanInv env buf (noteOffChan n o).1 := by
  have := applyAttenuation_inv (n := n) (t := 15) h
  exact ⟨this.step, this.loop, this.vol, this.vel, this.envl, this.cents⟩

theorem applyLevel_inv {env : Env} {buf : Nat → Nat} {n : Nat} {o : Out}
    (h : ChanInv env buf o.1) :
    ∃ o', applyLevel env buf n o = some o' ∧ ChanInv env buf o'.1 := by
  obtain ⟨b, hb⟩ := h.step.deref
  obtain ⟨t, ht⟩ := envelopeTone_some env.isPAL o.1 b
  have h' := applyTone_inv (n := n) (t := t) h
  obtain ⟨a, ha⟩ := effectiveAttenuation_some (applyTone n o t).1 b h'.vol h'.vel
  refine ⟨_, ?_, applyAttenuation_inv (n := n) (t := a) h'⟩
  simp only [applyLevel, hb, ht, ha]

theorem stepLoopStart_inv {env : Env} {buf : Nat → Nat} {c : Chan} (h : ChanInv env buf c) :
    ∃ c', stepLoopStart env buf c = some c' ∧ ChanInv env buf c' := by
  obtain ⟨b, hb⟩ := h.step.deref
  simp only [stepLoopStart, hb]
  refine ⟨_, rfl, ?_⟩
  split
  · have hn := h.step.next hb (by omega)
    refine ⟨hn, ?_, h.vol, h.vel, h.envl, h.cents⟩
    intro ls hls
    simp only [Option.some.injEq] at hls
    subst hls; exact hn
  · exact h

theorem stepLoopEnd_inv {env : Env} {buf : Nat → Nat} {c : Chan} (h : ChanInv env buf c) :
    ∃ c', stepLoopEnd env buf c = some c' ∧ ChanInv env buf c' := by
  obtain ⟨b, hb⟩ := h.step.deref
  simp only [stepLoopEnd, hb]
  cases hl : c.loopStart with
  | none => exact ⟨_, rfl, h⟩
  | some ls =>
    simp only
    by_cases hbe : b = 0xFD
    · rw [if_pos hbe]
      refine ⟨_, rfl, ?_⟩
      have hn := h.step.next hb (by omega)
      split
      · simpa [hl] using h.of_step _ (h.loop ls hl)
      · simpa [hl] using h.of_step _ hn
    · rw [if_neg hbe]
      exact ⟨_, rfl, h⟩

theorem applyEnvelopeStep_inv {env : Env} {buf : Nat → Nat} {n : Nat} {c : Chan}
    (h : ChanInv env buf c) :
    ∃ o, applyEnvelopeStep env buf n c = some o ∧ ChanInv env buf o.1 := by
  obtain ⟨c1, e1, h1⟩ := stepLoopStart_inv h
  obtain ⟨c2, e2, h2⟩ := stepLoopEnd_inv h1
  obtain ⟨b, hb⟩ := h2.step.deref
  simp only [applyEnvelopeStep, e1, e2, Option.bind_some, hb]
  by_cases hbe : b = 0xFF
  · rw [if_pos hbe]
    cases hl : c2.loopStart with
    | none => exact ⟨_, rfl, noteOffChan_inv (o := (c2, [])) h2⟩
    | some ls =>
      cases hr : c2.noteReleased with
      | true => exact ⟨_, rfl, noteOffChan_inv (o := (c2, [])) h2⟩
      | false =>
        refine applyLevel_inv (o := (_, [])) ?_
        simpa [hl, hr] using h2.of_step ls (h2.loop ls hl)
  · rw [if_neg hbe]
    exact applyLevel_inv (o := (c2, [])) h2

/-! ### State invariant -/

/-- Invariant of the driver. -/
structure Good (env : Env) (s : St) : Prop where
  nofault : s.fault = false
  chans : ∀ n < 4, ChanInv env s.userBuf (s.ch n)
  user : s.userLoaded = true → HasEnd env s.userBuf ⟨.user, 0⟩

theorem Env.Legal.hasEnd {env : Env} (he : env.Legal) (buf : Nat → Nat) {n : Nat} (hn : n < 128) :
    HasEnd env buf ⟨.builtin n, 0⟩ := by
  have hlt : n < env.envelopes.length := by rw [he.count]; exact hn
  have hm := he.ended _ (List.getElem_mem hlt)
  obtain ⟨k, hk, e⟩ := List.mem_iff_getElem.1 hm
  refine ⟨k, ?_⟩
  simp [EndAt, deref, List.getElem?_eq_getElem hlt, List.getElem?_eq_getElem hk, e]

theorem initEnvelope_inv {env : Env} (he : env.Legal) {buf : Nat → Nat} {ul : Bool}
    (hu : ul = true → HasEnd env buf ⟨.user, 0⟩) {c : Chan} (hv : c.volume < 128)
    (hw : c.velocity < 128) (hc : c.envelope < 128) (hcents : 0 ≤ c.cents ∧ c.cents < 100) :
    ∃ c', initEnvelope env ul c = some c' ∧ ChanInv env buf c' ∧ c'.loopStart = none ∧
      c' = { c with step := c'.step, loopStart := none } := by
  unfold initEnvelope
  cases ul with
  | true => exact ⟨_, rfl, ⟨hu rfl, by simp, hv, hw, hc, hcents⟩, rfl, rfl⟩
  | false =>
    simp only [Bool.false_eq_true, if_false]
    rw [if_pos (by rw [he.count]; exact hc)]
    exact ⟨_, rfl, ⟨he.hasEnd buf hc, by simp, hv, hw, hc, hcents⟩, rfl, rfl⟩

theorem onChan_good {env : Env} {s : St} (h : Good env s) {n : Nat} (hn : n < 4)
    {f : Chan → Option Out}
    (hf : ChanInv env s.userBuf (s.ch n) →
      ∃ o, f (s.ch n) = some o ∧ ChanInv env s.userBuf o.1) :
    Good env (onChan s n f) := by
  obtain ⟨o, e, ho⟩ := hf (h.chans n hn)
  simp only [onChan, hn, if_true, e]
  refine ⟨h.nofault, ?_, h.user⟩
  intro m hm
  by_cases hmn : m = n
  · subst hmn; simpa [upd_same] using ho
  · simpa [upd_other _ _ _ _ hmn] using h.chans m hm

theorem foldl_good {env : Env} {g : St → Nat → St}
    (hg : ∀ s n, n < 4 → Good env s → Good env (g s n)) :
    ∀ (l : List Nat) (s : St), (∀ n ∈ l, n < 4) → Good env s → Good env (l.foldl g s) := by
  intro l
  induction l with
  | nil => intro s _ h; exact h
  | cons n l ih =>
    intro s hl h
    exact ih _ (fun m hm => hl m (by simp [hm])) (hg s n (hl n (by simp)) h)

theorem loadLoop_spec : ∀ (e : List Nat) (i : Nat) (buf : Nat → Nat) (k : Nat),
    e[k]? = some 0xFF → (∀ j < k, e[j]? ≠ some 0xFF) → i + k < 256 →
    ∃ buf', loadLoop e i buf = some buf' ∧ buf' (i + k) = 0xFF ∧
      (∀ j, j < i ∨ i + k < j → buf' j = buf j) ∧ (∀ j < k, some (buf' (i + j)) = e[j]?) := by
  intro e
  induction e with
  | nil => intro i buf k h; simp at h
  | cons b e ih =>
    intro i buf k h hmin hlt
    have hi : i < 256 := by omega
    cases k with
    | zero =>
      simp at h
      subst h
      refine ⟨upd buf i 0xFF, by simp [loadLoop, hi], by simp [upd], ?_, by simp⟩
      intro j hj; exact upd_other _ _ _ _ (by omega)
    | succ k =>
      have hb : b ≠ 0xFF := by have := hmin 0 (by omega); simpa using this
      obtain ⟨buf', e1, e2, e3, e4⟩ := ih (i + 1) (upd buf i b) k (by simpa using h)
        (fun j hj => by have := hmin (j + 1) (by omega); simpa using this) (by omega)
      refine ⟨buf', by simp [loadLoop, hi, hb, e1], ?_, ?_, ?_⟩
      · rw [← e2]; congr 1; omega
      · intro j hj
        rw [e3 j (by omega)]
        exact upd_other _ _ _ _ (by omega)
      · intro j hj
        cases j with
        | zero => rw [e3 (i + 0) (by omega)]; simp [upd]
        | succ j =>
          have := e4 j (by omega)
          rw [show i + (j + 1) = i + 1 + j by omega]
          simpa using this

theorem exists_first {e : List Nat} {k v : Nat} (h : e[k]? = some v) :
    ∃ m, m ≤ k ∧ e[m]? = some v ∧ ∀ j < m, e[j]? ≠ some v := by
  induction k using Nat.strongRecOn with
  | _ k ih =>
    by_cases hx : ∃ j, j < k ∧ e[j]? = some v
    · obtain ⟨j, hj, e1⟩ := hx
      obtain ⟨m, a, b, c⟩ := ih j hj e1
      exact ⟨m, by omega, b, c⟩
    · exact ⟨k, by omega, h, fun j hj e1 => hx ⟨j, hj, e1⟩⟩

/-- Loading an envelope keeps an END byte at or after every cursor. -/
theorem hasEnd_load {env : Env} {buf buf' : Nat → Nat} {k : Nat} (hk : k < 256)
    (h1 : buf' k = 0xFF) (h2 : ∀ j, k < j → buf' j = buf j) {p : Ptr} (hp : HasEnd env buf p) :
    HasEnd env buf' p := by
  obtain ⟨src, off⟩ := p
  obtain ⟨d, hd⟩ := hp
  cases src with
  | builtin n => exact ⟨d, hd⟩
  | user =>
    by_cases ho : off ≤ k
    · refine ⟨k - off, ?_⟩
      simp only [EndAt, deref]
      rw [show off + (k - off) = k by omega, if_pos hk, h1]
    · refine ⟨d, ?_⟩
      simp only [EndAt, deref] at *
      split at hd
      · rename_i hlt
        rw [h2 _ (by omega)]; rw [if_pos hlt]; exact hd
      · simp at hd

theorem step_good {env : Env} (he : env.Legal) {s : St} (h : Good env s) (op : Op)
    (hop : op.Legal) : Good env (step env s op) := by
  cases op with
  | noteOn n p c v =>
    obtain ⟨hn, hp, hc0, hc1, hv⟩ := hop
    simp only [step, noteOn]
    split
    · exact h
    · refine onChan_good h hn fun hc => ?_
      obtain ⟨c', e1, hi, _⟩ := initEnvelope_inv he h.user
        (c := { s.ch n with noteReleased := false, pitch := p, cents := c, velocity := v,
                            noteOn := true }) hc.vol hv hc.envl ⟨hc0, hc1⟩
      simp only [noteOnChan, e1, Option.bind_some]
      exact applyEnvelopeStep_inv hi
  | noteOff n =>
    refine onChan_good h hop fun hc => ?_
    unfold releaseChan
    split
    · split
      · exact ⟨_, rfl, ⟨hc.step, hc.loop, hc.vol, hc.vel, hc.envl, hc.cents⟩⟩
      · exact ⟨_, rfl, noteOffChan_inv (o := (_, [])) hc⟩
    · exact ⟨_, rfl, hc⟩
  | allNotesOff n =>
    refine onChan_good h hop fun hc => ?_
    unfold releaseChan
    split
    · split
      · exact ⟨_, rfl, ⟨hc.step, hc.loop, hc.vol, hc.vel, hc.envl, hc.cents⟩⟩
      · exact ⟨_, rfl, noteOffChan_inv (o := (_, [])) hc⟩
    · exact ⟨_, rfl, hc⟩
  | volume n v =>
    refine onChan_good h hop.1 fun hc => ?_
    have hc' : ChanInv env s.userBuf { s.ch n with volume := v } :=
      ⟨hc.step, hc.loop, hop.2, hc.vel, hc.envl, hc.cents⟩
    simp only [volumeChan]
    split
    · obtain ⟨b, hb⟩ := hc.step.deref
      obtain ⟨a, ha⟩ := effectiveAttenuation_some _ b hc'.vol hc'.vel
      simp only [hb, ha, Option.bind_some]
      exact ⟨_, rfl, applyAttenuation_inv (o := (_, [])) hc'⟩
    · exact ⟨_, rfl, hc'⟩
  | program n p =>
    refine onChan_good (f := fun c => some ({ c with envelope := p }, [])) h hop.1 fun hc => ?_
    exact ⟨_, rfl, ⟨hc.step, hc.loop, hc.vol, hc.vel, hop.2, hc.cents⟩⟩
  | pitch n p c =>
    refine onChan_good h hop.1 fun hc => ?_
    have hc' : ChanInv env s.userBuf { s.ch n with pitch := p, cents := c } :=
      ⟨hc.step, hc.loop, hc.vol, hc.vel, hc.envl, hop.2.2⟩
    obtain ⟨b, hb⟩ := hc.step.deref
    obtain ⟨t, ht⟩ := envelopeTone_some env.isPAL { s.ch n with pitch := p, cents := c } b
    simp only [pitchChan, hb, ht, Option.bind_some]
    exact ⟨_, rfl, applyTone_inv (o := (_, [])) hc'⟩
  | tick =>
    refine foldl_good (fun s n hn hs => onChan_good hs hn fun hc => ?_) _ s (by simp) h
    unfold tickChan
    split
    · obtain ⟨b, hb⟩ := hc.step.deref
      simp only [hb, Option.bind_some]
      split
      · rename_i hne
        exact applyEnvelopeStep_inv (hc.of_step _ (hc.step.next hb hne))
      · exact applyEnvelopeStep_inv hc
    · exact ⟨_, rfl, hc⟩
  | loadEnvelope e =>
    obtain ⟨k, hk, hek⟩ := hop
    obtain ⟨m, hm, hem, hmin⟩ := exists_first hek
    obtain ⟨buf', e1, e2, e3, _⟩ := loadLoop_spec e 0 s.userBuf m hem hmin (by omega)
    simp only [Nat.zero_add] at e2 e3
    have hl : ∀ p, HasEnd env s.userBuf p → HasEnd env buf' p := fun p hp =>
      hasEnd_load (k := m) (by omega) e2 (fun j hj => e3 j (Or.inr hj)) hp
    simp only [step, loadEnvelope, e1]
    refine ⟨h.nofault, ?_, ?_⟩
    · intro n hn
      have hc := h.chans n hn
      exact ⟨hl _ hc.step, fun ls hls => hl _ (hc.loop ls hls), hc.vol, hc.vel, hc.envl, hc.cents⟩
    · intro _
      refine ⟨m, ?_⟩
      simp only [EndAt, deref, Nat.zero_add]
      rw [if_pos (by omega), e2]
  | reset =>
    refine foldl_good (fun s n hn hs => onChan_good hs hn fun hc => ?_) _ _ (by simp)
      ⟨h.nofault, h.chans, by simp⟩
    obtain ⟨c', e1, hi, _⟩ := initEnvelope_inv (buf := s.userBuf) he (ul := false) (by simp)
      (c := { s.ch n with
        attenuation := 15, noteOn := false, volume := 127, velocity := 127, envelope := 0,
        noteReleased := false, freq := 0, pitch := 0, cents := 0 })
      (by simp) (by simp) (by simp) (by simp)
    simp only [resetChan, e1, Option.map_some]
    exact ⟨_, rfl, hi⟩

theorem run_good {env : Env} (he : env.Legal) (ops : List Op) : ∀ {s : St}, Good env s →
    (∀ op ∈ ops, op.Legal) → Good env (run env s ops) := by
  induction ops with
  | nil => intro s h _; exact h
  | cons op ops ih =>
    intro s h hl
    exact ih (step_good he h op (hl op (by simp))) (fun o ho => hl o (by simp [ho]))

/-- The channel reset does not depend on the previous contents. -/
theorem init_eq {env : Env} (he : env.Legal) :
    (init env).fault = false ∧ (init env).userLoaded = false ∧ (init env).out = [] ∧
    (init env).userBuf = (fun _ => 0) ∧
    ∀ n < 4, (init env).ch n = ⟨0, 0, 15, 0, false, 127, 127, 0, ⟨.builtin 0, 0⟩, none, false⟩ := by
  have h0 : 0 < env.envelopes.length := by rw [he.count]; omega
  refine ⟨?_, ?_, ?_, ?_, ?_⟩
  any_goals
    simp [init, reset, resetChan, initEnvelope, onChan, h0, List.range, List.range.loop, upd]
  intro n hn
  have : n = 0 ∨ n = 1 ∨ n = 2 ∨ n = 3 := by omega
  rcases this with rfl | rfl | rfl | rfl <;> simp [zeroChan]

theorem init_good {env : Env} (he : env.Legal) : Good env (init env) := by
  obtain ⟨h1, h2, h3, h4, h5⟩ := init_eq he
  refine ⟨h1, ?_, by simp [h2]⟩
  intro n hn
  rw [h5 n hn]
  exact ⟨he.hasEnd _ (by omega), by simp, by simp, by simp, by simp, by simp⟩

end Mdmi.Psg
