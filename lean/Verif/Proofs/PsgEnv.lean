import Verif.Proofs.PsgSync
/-! Lemmas about the course of a PSG envelope. -/
namespace Mdmi.Psg

/-! ### What a call leaves alone -/

theorem onChan_buf (s : St) (n : Nat) (f : Chan → Option Out) :
    (onChan s n f).userBuf = s.userBuf := by
  unfold onChan; split
  · split <;> rfl
  · rfl

theorem onChan_other (s : St) (n m : Nat) (f : Chan → Option Out) (h : m ≠ n) :
    (onChan s n f).ch m = s.ch m := by
  unfold onChan; split
  · split
    · rfl
    · exact upd_other _ _ _ _ h
  · rfl

theorem onChan_same {s : St} {n : Nat} {f : Chan → Option Out} {o : Out} (hn : n < 4)
    (e : f (s.ch n) = some o) : (onChan s n f).ch n = o.1 := by
  simp [onChan, hn, e, upd_same]

theorem step_other {env : Env} {s : St} {op : Op} {n : Nat} (h1 : op.target ≠ some n)
    (h2 : op ≠ .tick) (h3 : op ≠ .reset) : (step env s op).ch n = s.ch n := by
  cases op with
  | tick => exact absurd rfl h2
  | reset => exact absurd rfl h3
  | loadEnvelope e => simp only [step, loadEnvelope]; split <;> rfl
  | noteOn m p c v =>
    simp only [step, noteOn]; split
    · rfl
    · exact onChan_other _ _ _ _ (by simp [Op.target] at h1; omega)
  | noteOff m => exact onChan_other _ _ _ _ (by simp [Op.target] at h1; omega)
  | allNotesOff m => exact onChan_other _ _ _ _ (by simp [Op.target] at h1; omega)
  | volume m v => exact onChan_other _ _ _ _ (by simp [Op.target] at h1; omega)
  | program m p => exact onChan_other _ _ _ _ (by simp [Op.target] at h1; omega)
  | pitch m p c => exact onChan_other _ _ _ _ (by simp [Op.target] at h1; omega)

theorem step_buf {env : Env} {s : St} {op : Op} (h : ∀ e, op ≠ .loadEnvelope e) :
    (step env s op).userBuf = s.userBuf := by
  cases op with
  | loadEnvelope e => exact absurd rfl (h e)
  | tick => simp [step, tick, List.range, List.range.loop, onChan_buf]
  | reset => simp [step, reset, List.range, List.range.loop, onChan_buf]
  | noteOn m p c v =>
    simp only [step, noteOn]; split
    · rfl
    · exact onChan_buf _ _ _
  | _ => exact onChan_buf _ _ _

theorem tick_ch {env : Env} {s : St} {n : Nat} (hn : n < 4) {o : Out}
    (e : tickChan env s.userBuf n (s.ch n) = some o) : (tick env s).ch n = o.1 := by
  simp only [tick, List.range, List.range.loop, List.foldl_cons, List.foldl_nil]
  have hcase : n = 0 ∨ n = 1 ∨ n = 2 ∨ n = 3 := by omega
  rcases hcase with rfl | rfl | rfl | rfl
  · rw [onChan_other _ _ _ _ (by omega), onChan_other _ _ _ _ (by omega),
      onChan_other _ _ _ _ (by omega)]
    exact onChan_same (by omega) e
  · rw [onChan_other _ _ _ _ (by omega), onChan_other _ _ _ _ (by omega)]
    refine onChan_same (by omega) ?_
    rw [onChan_buf, onChan_other _ _ _ _ (by omega)]; exact e
  · rw [onChan_other _ _ _ _ (by omega)]
    refine onChan_same (by omega) ?_
    simp only [onChan_buf]
    rw [onChan_other _ _ _ _ (by omega), onChan_other _ _ _ _ (by omega)]; exact e
  · refine onChan_same (by omega) ?_
    simp only [onChan_buf]
    rw [onChan_other _ _ _ _ (by omega), onChan_other _ _ _ _ (by omega),
      onChan_other _ _ _ _ (by omega)]; exact e

theorem tickChan_some {env : Env} {buf : Nat → Nat} {n : Nat} {c : Chan} (h : ChanInv env buf c) :
    ∃ o, tickChan env buf n c = some o := by
  unfold tickChan
  split
  · obtain ⟨b, hb⟩ := h.step.deref
    simp only [hb, Option.bind_some]
    split
    · rename_i hne
      obtain ⟨o, e, _⟩ := applyEnvelopeStep_inv (n := n) (h.of_step _ (h.step.next hb hne))
      exact ⟨o, e⟩
    · obtain ⟨o, e, _⟩ := applyEnvelopeStep_inv (n := n) h
      exact ⟨o, e⟩
  · exact ⟨_, rfl⟩

/-! ### Effect of one envelope step on a channel -/

/-- Fields `applyLevel` keeps. -/
structure SameEnv (c c' : Chan) : Prop where
  step : c'.step = c.step
  loop : c'.loopStart = c.loopStart
  on : c'.noteOn = c.noteOn
  rel : c'.noteReleased = c.noteReleased

theorem applyTone_same (n : Nat) (o : Out) (t : Nat) : SameEnv o.1 (applyTone n o t).1 := by
  unfold applyTone; split <;> exact ⟨rfl, rfl, rfl, rfl⟩

theorem applyAttenuation_same (n : Nat) (o : Out) (t : Nat) :
    SameEnv o.1 (applyAttenuation n o t).1 := by
  unfold applyAttenuation; split <;> exact ⟨rfl, rfl, rfl, rfl⟩

theorem applyLevel_same {env : Env} {buf : Nat → Nat} {n : Nat} {o o' : Out}
    (e : applyLevel env buf n o = some o') : SameEnv o.1 o'.1 := by
  unfold applyLevel at e
  split at e
  · simp at e
  · split at e
    · simp at e
    · simp only at e
      split at e
      · simp at e
      · rename_i t _ _ a _
        simp only [Option.some.injEq] at e
        subst e
        have h1 := applyTone_same n o t
        have h2 := applyAttenuation_same n (applyTone n o t) a
        exact ⟨h2.step.trans h1.step, h2.loop.trans h1.loop, h2.on.trans h1.on, h2.rel.trans h1.rel⟩

theorem noteOffChan_on (n : Nat) (o : Out) :
    (noteOffChan n o).1.noteOn = false ∧ (noteOffChan n o).1.attenuation = 15 := by
  unfold noteOffChan applyAttenuation
  refine ⟨rfl, ?_⟩
  simp only; split
  · rfl
  · rename_i h; simpa using (Decidable.not_not.1 h).symm

/-- A channel that is sounding, released, and past a loop start. -/
structure Releasing (c : Chan) : Prop where
  on : c.noteOn = true
  rel : c.noteReleased = true
  loop : ∃ ls, c.loopStart = some ls

/-- One envelope step of a releasing channel: it ends, or the END byte does not move further away. -/
theorem applyEnvelopeStep_releasing {env : Env} {buf : Nat → Nat} {n k : Nat} {c : Chan} {o : Out}
    (hr : Releasing c) (hk : EndAt env buf c.step k)
    (e : applyEnvelopeStep env buf n c = some o) :
    (o.1.noteOn = false ∧ o.1.attenuation = 15) ∨ (Releasing o.1 ∧ o.1.step.src = c.step.src ∧
      c.step.off ≤ o.1.step.off ∧ 0 < k ∧ ∃ j, j ≤ k ∧ EndAt env buf o.1.step j) := by
  have s1 : ∃ c1, stepLoopStart env buf c = some c1 ∧ Releasing c1 ∧ c1.step.src = c.step.src ∧
      c.step.off ≤ c1.step.off ∧ ∃ j, j ≤ k ∧ EndAt env buf c1.step j := by
    obtain ⟨b, hb⟩ := (show HasEnd env buf c.step from ⟨k, hk⟩).deref
    simp only [stepLoopStart, hb]
    refine ⟨_, rfl, ?_⟩
    split
    · obtain ⟨j, hj, hE⟩ := hk.next hb (by omega)
      exact ⟨⟨hr.on, hr.rel, _, rfl⟩, rfl, by simp [Ptr.next], j, by omega, hE⟩
    · exact ⟨hr, rfl, Nat.le_refl _, k, Nat.le_refl _, hk⟩
  obtain ⟨c1, e1, hr1, hs1, ho1, k1, hk1, hE1⟩ := s1
  have s2 : ∃ c2, stepLoopEnd env buf c1 = some c2 ∧ Releasing c2 ∧ c2.step.src = c.step.src ∧
      c.step.off ≤ c2.step.off ∧ ∃ j, j ≤ k ∧ EndAt env buf c2.step j := by
    obtain ⟨b, hb⟩ := (show HasEnd env buf c1.step from ⟨k1, hE1⟩).deref
    obtain ⟨ls, hls⟩ := hr1.loop
    simp only [stepLoopEnd, hb, hls]
    by_cases hbe : b = 0xFD
    · rw [if_pos hbe]
      simp only [hr1.rel, Bool.not_true, Bool.false_eq_true, if_false]
      obtain ⟨j, hj, hE⟩ := hE1.next hb (by omega)
      refine ⟨_, rfl, ⟨hr1.on, rfl, _, rfl⟩, hs1, ?_, j, by omega, hE⟩
      simp only [Ptr.next]; omega
    · rw [if_neg hbe]
      exact ⟨_, rfl, hr1, hs1, ho1, k1, hk1, hE1⟩
  obtain ⟨c2, e2, hr2, hs2, ho2, k2, hk2, hE2⟩ := s2
  obtain ⟨b, hb⟩ := (show HasEnd env buf c2.step from ⟨k2, hE2⟩).deref
  simp only [applyEnvelopeStep, e1, e2, Option.bind_some, hb] at e
  by_cases hbe : b = 0xFF
  · rw [if_pos hbe] at e
    left
    obtain ⟨ls, hls⟩ := hr2.loop
    rw [hls, hr2.rel] at e
    simp only [Option.some.injEq] at e
    rw [← e]
    exact noteOffChan_on _ _
  · rw [if_neg hbe] at e
    right
    have hsame := applyLevel_same e
    simp only at hsame
    refine ⟨⟨hsame.on.trans hr2.on, hsame.rel.trans hr2.rel, ?_⟩, ?_, ?_, ?_, k2, hk2, ?_⟩
    · rw [hsame.loop]; exact hr2.loop
    · rw [hsame.step]; exact hs2
    · rw [hsame.step]; exact ho2
    · obtain ⟨j, hj, _⟩ := hE2.next hb hbe; omega
    · rw [hsame.step]; exact hE2

/-- One tick of a releasing channel: it ends, or the cursor moves on and the END byte comes
nearer. -/
theorem tickChan_releasing {env : Env} {buf : Nat → Nat} {n k : Nat} {c : Chan} {o : Out}
    (hr : Releasing c) (hk : EndAt env buf c.step k)
    (e : tickChan env buf n c = some o) :
    (o.1.noteOn = false ∧ o.1.attenuation = 15) ∨ (Releasing o.1 ∧ o.1.step.src = c.step.src ∧
      c.step.off < o.1.step.off ∧ ∃ j, j < k ∧ EndAt env buf o.1.step j) := by
  obtain ⟨b, hb⟩ := (show HasEnd env buf c.step from ⟨k, hk⟩).deref
  simp only [tickChan, hr.on, if_true, hb, Option.bind_some] at e
  by_cases hbe : b = 0xFF
  · rw [if_neg (by simpa using hbe)] at e
    rcases applyEnvelopeStep_releasing hr hk e with h | ⟨_, _, _, _, _⟩
    · exact Or.inl h
    · -- at END the channel has ended: use distance 0
      have h0 : EndAt env buf c.step 0 := by simpa [EndAt, hbe] using hb
      rcases applyEnvelopeStep_releasing hr h0 e with h | ⟨_, _, _, h4, _⟩
      · exact Or.inl h
      · omega
  · rw [if_pos hbe] at e
    obtain ⟨j, hj, hE⟩ := hk.next hb hbe
    have hr' : Releasing { c with noteOn := true, step := c.step.next } := ⟨rfl, hr.rel, hr.loop⟩
    rcases applyEnvelopeStep_releasing hr' hE e with h | ⟨h1, h2, h3, _, i, hi, hEi⟩
    · exact Or.inl h
    · refine Or.inr ⟨h1, h2, ?_, i, by omega, hEi⟩
      simp only [Ptr.next] at h3; omega

/-- A channel that is sounding, held, and past a loop start. -/
structure Held (c : Chan) : Prop where
  on : c.noteOn = true
  rel : c.noteReleased = false
  loop : ∃ ls, c.loopStart = some ls

theorem applyEnvelopeStep_held {env : Env} {buf : Nat → Nat} {n : Nat} {c : Chan} {o : Out}
    (hr : Held c) (e : applyEnvelopeStep env buf n c = some o) : Held o.1 := by
  unfold applyEnvelopeStep at e
  cases e1 : stepLoopStart env buf c with
  | none => simp [e1] at e
  | some c1 =>
    have hr1 : Held c1 := by
      unfold stepLoopStart at e1
      split at e1
      · simp at e1
      · simp only [Option.some.injEq] at e1
        subst e1; split
        · exact ⟨hr.on, hr.rel, _, rfl⟩
        · exact hr
    simp only [e1, Option.bind_some] at e
    cases e2 : stepLoopEnd env buf c1 with
    | none => simp [e2] at e
    | some c2 =>
      have hr2 : Held c2 := by
        obtain ⟨ls, hls⟩ := hr1.loop
        unfold stepLoopEnd at e2
        split at e2
        · simp at e2
        · simp only [hls] at e2
          split at e2
          · simp only [Option.some.injEq] at e2
            subst e2; simp only [hr1.rel, Bool.not_false, if_true]
            exact ⟨hr1.on, rfl, _, rfl⟩
          · simp only [Option.some.injEq] at e2
            subst e2; exact hr1
      simp only [e2, Option.bind_some] at e
      obtain ⟨ls, hls⟩ := hr2.loop
      split at e
      · simp at e
      · split at e
        · rw [hls, hr2.rel] at e
          simp only at e
          have hs := applyLevel_same e
          simp only at hs
          exact ⟨hs.on.trans hr2.on, hs.rel, by rw [hs.loop]; exact ⟨_, rfl⟩⟩
        · have hs := applyLevel_same e
          simp only at hs
          exact ⟨hs.on.trans hr2.on, hs.rel.trans hr2.rel, by rw [hs.loop]; exact hr2.loop⟩

theorem tickChan_held {env : Env} {buf : Nat → Nat} {n : Nat} {c : Chan} {o : Out}
    (hr : Held c) (e : tickChan env buf n c = some o) : Held o.1 := by
  simp only [tickChan, hr.on, if_true] at e
  cases hd : deref env buf c.step with
  | none => simp [hd] at e
  | some b =>
    simp only [hd, Option.bind_some] at e
    refine applyEnvelopeStep_held ?_ e
    split
    · exact ⟨rfl, hr.rel, hr.loop⟩
    · exact hr

/-! ### A note that is off is silent -/

/-- Channels that are off are at full attenuation. -/
def Quiet (s : St) : Prop := ∀ n < 4, (s.ch n).noteOn = false → (s.ch n).attenuation = 15

theorem onChan_quiet {s : St} (h : Quiet s) {n : Nat} {f : Chan → Option Out}
    (hf : n < 4 → ∀ o, f (s.ch n) = some o → o.1.noteOn = false → o.1.attenuation = 15) :
    Quiet (onChan s n f) := by
  by_cases hn : n < 4
  · cases e : f (s.ch n) with
    | none => simp only [onChan, hn, if_true, e]; exact h
    | some o =>
      intro m hm
      by_cases hmn : m = n
      · subst hmn; rw [onChan_same hn e]; exact hf hn o e
      · rw [onChan_other _ _ _ _ hmn]; exact h m hm
  · simp only [onChan, hn, if_false]; exact h

theorem applyEnvelopeStep_quiet {env : Env} {buf : Nat → Nat} {n : Nat} {c : Chan} {o : Out}
    (hc : c.noteOn = true) (e : applyEnvelopeStep env buf n c = some o)
    (ho : o.1.noteOn = false) : o.1.attenuation = 15 := by
  unfold applyEnvelopeStep at e
  cases e1 : stepLoopStart env buf c with
  | none => simp [e1] at e
  | some c1 =>
    have hr1 : c1.noteOn = true := by
      unfold stepLoopStart at e1
      split at e1
      · simp at e1
      · simp only [Option.some.injEq] at e1
        subst e1; split <;> exact hc
    simp only [e1, Option.bind_some] at e
    cases e2 : stepLoopEnd env buf c1 with
    | none => simp [e2] at e
    | some c2 =>
      have hr2 : c2.noteOn = true := by
        unfold stepLoopEnd at e2
        split at e2
        · simp at e2
        · split at e2
          · split at e2
            · simp only [Option.some.injEq] at e2
              subst e2; split <;> exact hr1
            · simp only [Option.some.injEq] at e2
              subst e2; exact hr1
          · simp only [Option.some.injEq] at e2
            subst e2; exact hr1
      simp only [e2, Option.bind_some] at e
      split at e
      · simp at e
      · split at e
        · split at e
          · have := (applyLevel_same e).on
            rw [ho] at this; simp only at this; rw [hr2] at this; simp at this
          · simp only [Option.some.injEq] at e
            subst e; exact (noteOffChan_on _ _).2
        · have := (applyLevel_same e).on
          rw [ho] at this; simp only at this; rw [hr2] at this; simp at this

theorem tickChan_quiet {env : Env} {buf : Nat → Nat} {n : Nat} {c : Chan} {o : Out}
    (hc : c.noteOn = false → c.attenuation = 15) (e : tickChan env buf n c = some o)
    (ho : o.1.noteOn = false) : o.1.attenuation = 15 := by
  unfold tickChan at e
  split at e
  · rename_i hon
    cases hd : deref env buf c.step with
    | none => simp [hd] at e
    | some b =>
      simp only [hd, Option.bind_some] at e
      refine applyEnvelopeStep_quiet ?_ e ho
      split <;> exact hon
  · simp only [Option.some.injEq] at e
    subst e; exact hc ho

theorem foldl_quiet {g : St → Nat → St} (hg : ∀ s n, Quiet s → Quiet (g s n)) :
    ∀ (l : List Nat) (s : St), Quiet s → Quiet (l.foldl g s) := by
  intro l
  induction l with
  | nil => intro s h; exact h
  | cons n l ih => intro s h; exact ih _ (hg s n h)

theorem resetChan_quiet {env : Env} {c : Chan} {o : Out} (e : resetChan env c = some o) :
    o.1.attenuation = 15 := by
  unfold resetChan initEnvelope at e
  split at e
  · simp at e; subst e; rfl
  · split at e
    · simp at e; subst e; rfl
    · simp at e

theorem step_quiet {env : Env} {s : St} (h : Quiet s) (op : Op) : Quiet (step env s op) := by
  cases op with
  | noteOn n p c v =>
    simp only [step, noteOn]; split
    · exact h
    · refine onChan_quiet h fun _ o e ho => ?_
      simp only [noteOnChan] at e
      cases hi : initEnvelope env s.userLoaded ({ s.ch n with
          noteReleased := false, pitch := p, cents := c, velocity := v, noteOn := true } : Chan) with
      | none => simp [hi] at e
      | some c1 =>
        simp only [hi, Option.bind_some] at e
        refine applyEnvelopeStep_quiet ?_ e ho
        unfold initEnvelope at hi
        split at hi
        · simp only [Option.some.injEq] at hi; subst hi; rfl
        · split at hi
          · simp only [Option.some.injEq] at hi; subst hi; rfl
          · simp at hi
  | noteOff n | allNotesOff n =>
    refine onChan_quiet h fun hn o e ho => ?_
    unfold releaseChan at e
    split at e
    · rename_i hon
      split at e
      · simp only [Option.some.injEq] at e; subst e; simp [hon] at ho
      · simp only [Option.some.injEq] at e; subst e; exact (noteOffChan_on _ _).2
    · simp only [Option.some.injEq] at e; subst e; exact h n hn ho
  | volume n v =>
    refine onChan_quiet h fun hn o e ho => ?_
    simp only [volumeChan] at e
    split at e
    · rename_i hon
      cases hd : deref env s.userBuf (s.ch n).step with
      | none => simp [hd] at e
      | some b =>
        simp only [hd, Option.bind_some] at e
        cases ha : effectiveAttenuation ({ s.ch n with volume := v } : Chan) b with
        | none => simp [ha] at e
        | some a =>
          simp only [ha, Option.bind_some, Option.some.injEq] at e
          subst e
          rw [(applyAttenuation_same _ _ _).on] at ho
          simp [hon] at ho
    · simp only [Option.some.injEq] at e; subst e; exact h n hn ho
  | program n p =>
    refine onChan_quiet h fun hn o e ho => ?_
    simp only [Option.some.injEq] at e; subst e; exact h n hn ho
  | pitch n p c =>
    refine onChan_quiet h fun hn o e ho => ?_
    simp only [pitchChan] at e
    cases hd : deref env s.userBuf (s.ch n).step with
    | none => simp [hd] at e
    | some b =>
      simp only [hd, Option.bind_some] at e
      cases ht : envelopeTone env.isPAL ({ s.ch n with pitch := p, cents := c } : Chan) b with
      | none => simp [ht] at e
      | some t =>
        simp only [ht, Option.bind_some, Option.some.injEq] at e
        subst e
        rw [(applyTone_same _ _ _).on] at ho
        have := h n hn ho
        unfold applyTone; split <;> exact this
  | tick =>
    refine foldl_quiet (fun s n hs => ?_) _ _ h
    exact onChan_quiet hs fun hn o e ho => tickChan_quiet (hs n hn) e ho
  | loadEnvelope e => simp only [step, loadEnvelope]; split <;> exact h
  | reset =>
    refine foldl_quiet (fun s n hs => ?_) _ { s with userLoaded := false } h
    exact onChan_quiet hs fun _ o e _ => resetChan_quiet e

theorem run_quiet {env : Env} (ops : List Op) : ∀ {s : St}, Quiet s → Quiet (run env s ops) := by
  induction ops with
  | nil => intro s h; exact h
  | cons op ops ih => intro s h; exact ih (step_quiet h op)

theorem init_quiet {env : Env} (he : env.Legal) : Quiet (init env) := by
  intro n hn _
  rw [(init_eq he).2.2.2.2 n hn]

end Mdmi.Psg
