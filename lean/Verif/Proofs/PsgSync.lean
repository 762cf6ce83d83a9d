import Verif.Proofs.Pitch
import Verif.Proofs.Psg
/-! Cache and chip agree; bounds on the values written. -/
namespace Mdmi.Psg

/-! ### Chip registers after appended events -/

/-- The events of `o` belong to channel `n`, and if channel `c` agreed with the chip before, then `o`
agrees with it afterwards. -/
structure OutRel (n : Nat) (c : Chan) (o : Out) : Prop where
  sync : ∀ base, c.freq = chipTone base n → c.attenuation = chipAtt base n →
    o.1.freq = chipTone (o.2 ++ base) n ∧ o.1.attenuation = chipAtt (o.2 ++ base) n
  frame : ∀ base m, m ≠ n →
    chipTone (o.2 ++ base) m = chipTone base m ∧ chipAtt (o.2 ++ base) m = chipAtt base m

theorem OutRel.refl {n : Nat} {c c' : Chan} (h1 : c'.freq = c.freq)
    (h2 : c'.attenuation = c.attenuation) : OutRel n c (c', []) :=
  ⟨fun base a b => by simp [h1, h2, a, b], fun base m _ => by simp⟩

theorem OutRel.tone {n : Nat} {c : Chan} {o : Out} {t : Nat} (h : OutRel n c o) :
    OutRel n c (applyTone n o t) := by
  unfold applyTone; split
  · refine ⟨fun base a b => ?_, fun base m hm => ?_⟩
    · have := h.sync base a b
      simp [chipTone, chipAtt, this.2]
    · have := h.frame base m hm
      simp [chipTone, chipAtt, this.1, this.2, hm.symm]
  · exact h

theorem OutRel.att {n : Nat} {c : Chan} {o : Out} {t : Nat} (h : OutRel n c o) :
    OutRel n c (applyAttenuation n o t) := by
  unfold applyAttenuation; split
  · refine ⟨fun base a b => ?_, fun base m hm => ?_⟩
    · have := h.sync base a b
      simp [chipTone, chipAtt, this.1]
    · have := h.frame base m hm
      simp [chipTone, chipAtt, this.1, this.2, hm.symm]
  · exact h

theorem OutRel.off {n : Nat} {c : Chan} {o : Out} (h : OutRel n c o) :
    OutRel n c (noteOffChan n o) := by
  have := h.att (t := 15)
  exact ⟨this.sync, this.frame⟩

theorem OutRel.level {env : Env} {buf : Nat → Nat} {n : Nat} {c : Chan} {o o' : Out}
    (h : OutRel n c o) (e : applyLevel env buf n o = some o') : OutRel n c o' := by
  unfold applyLevel at e
  split at e
  · simp at e
  · split at e
    · simp at e
    · simp only at e
      split at e
      · simp at e
      · simp only [Option.some.injEq] at e
        subst e
        exact h.tone.att

theorem stepLoopStart_same {env : Env} {buf : Nat → Nat} {c c' : Chan}
    (e : stepLoopStart env buf c = some c') :
    c'.freq = c.freq ∧ c'.attenuation = c.attenuation ∧ c'.volume = c.volume ∧
      c'.velocity = c.velocity ∧ c'.noteOn = c.noteOn ∧ c'.noteReleased = c.noteReleased ∧
      c'.pitch = c.pitch ∧ c'.cents = c.cents ∧ c'.envelope = c.envelope := by
  unfold stepLoopStart at e
  split at e
  · simp at e
  · simp only [Option.some.injEq] at e
    split at e <;> subst e <;> simp

theorem stepLoopEnd_same {env : Env} {buf : Nat → Nat} {c c' : Chan}
    (e : stepLoopEnd env buf c = some c') :
    c'.freq = c.freq ∧ c'.attenuation = c.attenuation ∧ c'.volume = c.volume ∧
      c'.velocity = c.velocity ∧ c'.noteOn = c.noteOn ∧ c'.noteReleased = c.noteReleased ∧
      c'.pitch = c.pitch ∧ c'.cents = c.cents ∧ c'.envelope = c.envelope ∧
      c'.loopStart = c.loopStart := by
  unfold stepLoopEnd at e
  split at e
  · simp at e
  · split at e
    · split at e
      · simp only [Option.some.injEq] at e
        split at e <;> subst e <;> simp
      · simp only [Option.some.injEq] at e
        subst e; simp
    · simp only [Option.some.injEq] at e
      subst e; simp

theorem applyEnvelopeStep_rel {env : Env} {buf : Nat → Nat} {n : Nat} {c c0 : Chan} {o : Out}
    (h1 : c.freq = c0.freq) (h2 : c.attenuation = c0.attenuation)
    (e : applyEnvelopeStep env buf n c = some o) : OutRel n c0 o := by
  unfold applyEnvelopeStep at e
  cases e1 : stepLoopStart env buf c with
  | none => simp [e1] at e
  | some c1 =>
    cases e2 : stepLoopEnd env buf c1 with
    | none => simp [e1, e2] at e
    | some c2 =>
      simp only [e1, e2, Option.bind_some] at e
      have a1 := stepLoopStart_same e1
      have a2 := stepLoopEnd_same e2
      have f1 : c2.freq = c0.freq := by rw [a2.1, a1.1, h1]
      have f2 : c2.attenuation = c0.attenuation := by rw [a2.2.1, a1.2.1, h2]
      split at e
      · simp at e
      · split at e
        · split at e
          · exact (OutRel.refl (c' := { c2 with step := _ }) (by exact f1) (by exact f2)).level e
          · simp only [Option.some.injEq] at e
            subst e
            exact (OutRel.refl f1 f2).off
        · exact (OutRel.refl f1 f2).level e

/-- Cache and chip agree on all four channels. -/
def Synced (s : St) : Prop :=
  ∀ n < 4, (s.ch n).freq = chipTone s.out n ∧ (s.ch n).attenuation = chipAtt s.out n

theorem onChan_synced {s : St} (h : Synced s) {n : Nat} {f : Chan → Option Out}
    (hf : ∀ o, f (s.ch n) = some o → OutRel n (s.ch n) o) : Synced (onChan s n f) := by
  unfold onChan
  split
  · rename_i hn
    split
    · exact h
    · rename_i c evs e
      have hr := hf _ e
      intro m hm
      by_cases hmn : m = n
      · subst hmn
        simp only [upd_same]
        exact hr.sync s.out (h m hm).1 (h m hm).2
      · simp only [upd_other _ _ _ _ hmn]
        have := hr.frame s.out m hmn
        simp only at this
        rw [this.1, this.2]
        exact h m hm
  · exact h

theorem step_synced {env : Env} {s : St} (h : Synced s) (op : Op) (hop : op ≠ .reset) :
    Synced (step env s op) := by
  have rel : ∀ n c o, releaseChan n c = some o → OutRel n c o := by
    intro n c o e
    unfold releaseChan at e
    split at e
    · split at e
      · simp only [Option.some.injEq] at e; subst e; exact OutRel.refl rfl rfl
      · simp only [Option.some.injEq] at e; subst e; exact (OutRel.refl rfl rfl).off
    · simp only [Option.some.injEq] at e; subst e; exact OutRel.refl rfl rfl
  cases op with
  | noteOn n p c v =>
    simp only [step, noteOn]
    split
    · exact h
    · refine onChan_synced h fun o e => ?_
      simp only [noteOnChan, initEnvelope] at e
      split at e
      · exact applyEnvelopeStep_rel (c0 := s.ch n) (by rfl) (by rfl) ((Option.bind_some _ _) ▸ e)
      · split at e
        · exact applyEnvelopeStep_rel (c0 := s.ch n) (by rfl) (by rfl) ((Option.bind_some _ _) ▸ e)
        · simp at e
  | noteOff n => exact onChan_synced h fun o e => rel _ _ _ e
  | allNotesOff n => exact onChan_synced h fun o e => rel _ _ _ e
  | volume n v =>
    refine onChan_synced h fun o e => ?_
    simp only [volumeChan] at e
    split at e
    · cases e1 : deref env s.userBuf (s.ch n).step with
      | none => simp [e1] at e
      | some b =>
        cases e2 : effectiveAttenuation { s.ch n with volume := v } b with
        | none => simp [e1, e2] at e
        | some a =>
          simp only [e1, e2, Option.bind_some, Option.some.injEq] at e
          subst e
          exact OutRel.att (OutRel.refl rfl rfl)
    · simp only [Option.some.injEq] at e; subst e; exact OutRel.refl rfl rfl
  | program n p =>
    refine onChan_synced (f := fun c => some ({ c with envelope := p }, [])) h fun o e => ?_
    simp only [Option.some.injEq] at e; subst e; exact OutRel.refl rfl rfl
  | pitch n p c =>
    refine onChan_synced h fun o e => ?_
    simp only [pitchChan] at e
    cases e1 : deref env s.userBuf (s.ch n).step with
    | none => simp [e1] at e
    | some b =>
      cases e2 : envelopeTone env.isPAL { s.ch n with pitch := p, cents := c } b with
      | none => simp [e1, e2] at e
      | some a =>
        simp only [e1, e2, Option.bind_some, Option.some.injEq] at e
        subst e
        exact OutRel.tone (OutRel.refl rfl rfl)
  | tick =>
    suffices H : ∀ (l : List Nat) (s : St), Synced s →
        Synced (l.foldl (fun s n => onChan s n (tickChan env s.userBuf n)) s) from H _ s h
    intro l
    induction l with
    | nil => intro s h; exact h
    | cons n l ih =>
      intro s h
      refine ih _ (onChan_synced h fun o e => ?_)
      unfold tickChan at e
      split at e
      · cases e1 : deref env s.userBuf (s.ch n).step with
        | none => simp [e1] at e
        | some b =>
          simp only [e1, Option.bind_some] at e
          refine applyEnvelopeStep_rel (c0 := s.ch n) ?_ ?_ e <;> split <;> rfl
      · simp only [Option.some.injEq] at e; subst e; exact OutRel.refl rfl rfl
  | loadEnvelope e =>
    simp only [step, loadEnvelope]
    split <;> exact h
  | reset => exact absurd rfl hop

theorem run_synced {env : Env} (ops : List Op) : ∀ {s : St}, Synced s →
    (∀ op ∈ ops, op ≠ .reset) → Synced (run env s ops) := by
  induction ops with
  | nil => intro s h _; exact h
  | cons op ops ih =>
    intro s h hl
    exact ih (step_synced h op (hl op (by simp))) (fun o ho => hl o (by simp [ho]))

theorem init_synced {env : Env} (he : env.Legal) : Synced (init env) := by
  obtain ⟨_, _, h3, _, h5⟩ := init_eq he
  intro n hn
  rw [h5 n hn, h3]
  simp [chipTone, chipAtt]

/-! ### Values -/

/-- Tone of a key (total form of the table lookup). -/
def keyTone (pal : Bool) (k : Nat) : Nat := (toneForMidiKey pal k).getD 0

theorem toneForMidiKey_eq (pal : Bool) (k : Nat) : toneForMidiKey pal k = some (keyTone pal k) := by
  obtain ⟨t, h⟩ := toneForMidiKey_some pal k
  simp [keyTone, h]

theorem keyTone_table : ∀ pal : Bool, ∀ k : Fin 255,
    keyTone pal (k.val + 1) ≤ keyTone pal k.val ∧ 8 ≤ keyTone pal (k.val + 1) ∧
      keyTone pal k.val ≤ 1016 := by decide +kernel

theorem keyTone_step (pal : Bool) {k : Nat} (h : k < 255) :
    keyTone pal (k + 1) ≤ keyTone pal k := (keyTone_table pal ⟨k, h⟩).1

theorem keyTone_bounds (pal : Bool) (k : Nat) : 8 ≤ keyTone pal k ∧ keyTone pal k ≤ 1016 := by
  have big : ∀ k, 127 < k → keyTone pal k = keyTone pal 200 := by
    intro k hk
    have h1 : ¬ k < 45 := by omega
    cases pal <;> simp [keyTone, toneForMidiKey, h1, hk]
  by_cases hk : k < 255
  · have := keyTone_table pal ⟨k, hk⟩
    simp only at this; omega
  · rw [big k (by omega)]
    have := keyTone_table pal ⟨200, by omega⟩
    have := keyTone_table pal ⟨199, by omega⟩
    simp only at *; omega

theorem toU8_small {n : Nat} (h : n < 256) : toU8 (n : Int) = n := by
  unfold toU8; omega

theorem toU16_small {n : Nat} (h : n < 65536) : toU16 (n : Int) = n := by
  unfold toU16; omega

/-- Interpolation between two tones, rounded toward the higher one. -/
theorem interp (t n c : Nat) (hn : n ≤ t) (ht : t < 65536) (_hc : c < 100) :
    toU16 ((t : Int) + (((n : Int) - t) * (c : Int)).tdiv 100) = t - (t - n) * c / 100 := by
  obtain ⟨d, rfl⟩ : ∃ d, t = n + d := ⟨t - n, by omega⟩
  have e : ((n : Int) - ((n + d : Nat) : Int)) * (c : Int) = -((d * c : Nat) : Int) := by
    push_cast; rw [show (n : Int) - (n + d) = -d by omega, Int.neg_mul]
  rw [e, Int.neg_tdiv, show ((d * c : Nat) : Int).tdiv 100 = ((d * c / 100 : Nat) : Int) from
    (Int.ofNat_tdiv _ 100).symm]
  have h1 : d * c / 100 ≤ d := by
    apply Nat.div_le_of_le_mul
    rw [Nat.mul_comm 100 d]
    exact Nat.mul_le_mul_left d (by omega)
  simp only [Nat.add_sub_cancel_left]
  generalize d * c / 100 = q at *
  unfold toU16
  omega

theorem interp_up (t n c : Nat) (hn : t ≤ n) (ht : n < 65536) (_hc : c < 100) :
    toU16 ((t : Int) + (((n : Int) - t) * (c : Int)).tdiv 100) = t + (n - t) * c / 100 := by
  obtain ⟨d, rfl⟩ : ∃ d, n = t + d := ⟨n - t, by omega⟩
  have e : (((t + d : Nat) : Int) - (t : Int)) * (c : Int) = ((d * c : Nat) : Int) := by
    push_cast; rw [show ((t : Int) + d) - t = d by omega]
  rw [e, show ((d * c : Nat) : Int).tdiv 100 = ((d * c / 100 : Nat) : Int) from
    (Int.ofNat_tdiv _ 100).symm]
  have h1 : d * c / 100 ≤ d := by
    apply Nat.div_le_of_le_mul
    rw [Nat.mul_comm 100 d]
    exact Nat.mul_le_mul_left d (by omega)
  simp only [Nat.add_sub_cancel_left]
  generalize d * c / 100 = q at *
  unfold toU16
  omega

theorem toneFromPitchCents_eq (pal : Bool) {p c : Nat} (hp : p < 255) (hc : c < 100) :
    toneFromPitchCents pal ⟨p, c⟩ =
      some (keyTone pal p - (keyTone pal p - keyTone pal (p + 1)) * c / 100) := by
  have hb := keyTone_bounds pal p
  unfold toneFromPitchCents
  simp only [toneForMidiKey_eq]
  rw [toU8_small (by omega)]
  split
  · rename_i h0
    have : c = 0 := by omega
    subst this; simp
  · rw [interp _ _ _ (keyTone_step pal hp) (by omega) hc]

theorem toneFromPitchCents_bounds (pal : Bool) (pc : PitchCents) (h0 : 0 ≤ pc.cents)
    (h1 : pc.cents < 100) {t : Nat} (e : toneFromPitchCents pal pc = some t) :
    8 ≤ t ∧ t ≤ 1016 := by
  obtain ⟨p, c⟩ := pc
  simp only at h0 h1
  obtain ⟨c, rfl⟩ : ∃ n : Nat, c = n := ⟨c.toNat, by omega⟩
  unfold toneFromPitchCents at e
  simp only [toneForMidiKey_eq] at e
  have hb := keyTone_bounds pal p
  have hb' := keyTone_bounds pal (toU8 (p + 1 : Nat))
  generalize keyTone pal p = a at *
  generalize keyTone pal (toU8 (p + 1 : Nat)) = b at *
  have hd : ∀ d : Nat, d * c / 100 ≤ d := by
    intro d
    apply Nat.div_le_of_le_mul
    rw [Nat.mul_comm 100 d]
    exact Nat.mul_le_mul_left d (by omega)
  split at e
  · simp only [Option.some.injEq] at e; omega
  · simp only [Option.some.injEq] at e
    rcases Nat.le_total b a with hle | hle
    · rw [interp _ _ _ hle (by omega) (by omega)] at e
      have := hd (a - b); omega
    · rw [interp_up _ _ _ hle (by omega) (by omega)] at e
      have := hd (b - a); omega

theorem pcShift_cents (pc : PitchCents) (x : Int) :
    0 ≤ (pcShift pc x).cents ∧ (pcShift pc x).cents < 100 := by
  simp only [pcShift, toS8]
  omega

theorem envelopeShift_cents (pc : PitchCents) (n : Nat) (h : 0 ≤ pc.cents ∧ pc.cents < 100) :
    0 ≤ (envelopeShift pc n).cents ∧ (envelopeShift pc n).cents < 100 := by
  unfold envelopeShift
  split
  all_goals first | exact pcShift_cents _ _ | exact h

theorem envelopeShift_total (pc : PitchCents) (n : Nat) (hp : 5 ≤ pc.pitch ∧ pc.pitch < 256)
    (h : 0 ≤ pc.cents ∧ pc.cents < 100) :
    100 * ((envelopeShift pc n).pitch : Int) + (envelopeShift pc n).cents =
      (100 * pc.pitch + pc.cents + shiftCents n) % 25600 := by
  rcases n with _ | _ | _ | _ | _ | _ | _ | _ | _ | _ | _ | _ | _ | _ | _ | n
  all_goals try simp only [Nat.zero_add, Nat.reduceAdd]
  all_goals generalize h' : shiftCents _ = x
  all_goals simp [shiftCents] at h'
  all_goals subst h'
  all_goals simp only [envelopeShift]
  all_goals first
    | (refine pcShift_total pc _ ?_ ?_ <;> omega)
    | (simp only [toU8]; omega)
    | omega

theorem envelopeTone_bounds {pal : Bool} {c : Chan} {b t : Nat}
    (h : 0 ≤ c.cents ∧ c.cents < 100) (e : envelopeTone pal c b = some t) : 8 ≤ t ∧ t ≤ 1016 := by
  have := envelopeShift_cents ⟨c.pitch, c.cents⟩ (b / 16) h
  exact toneFromPitchCents_bounds pal _ this.1 this.2 e

/-- Combined attenuation of a volume index and an envelope level. -/
def combine (i b : Nat) : Nat := 15 - (15 - (attenuations[i]?).getD 15) * (15 - b % 16) / 15

theorem attenuations_le : ∀ i : Fin 128, (attenuations[i.val]?).getD 15 ≤ 15 := by decide +kernel

theorem effectiveAttenuation_eq (c : Chan) (b : Nat) (hv : c.volume < 128) (hw : c.velocity < 128) :
    effectiveAttenuation c b = some (combine (c.volume * c.velocity / 127) b) := by
  have hi := mul_div_127 hv hw
  have hlt : c.volume * c.velocity / 127 < attenuations.length := by
    rw [attenuations_length]; exact hi
  have hle := attenuations_le ⟨_, hi⟩
  unfold effectiveAttenuation combine
  simp only [List.getElem?_eq_getElem hlt, Option.getD_some] at *
  generalize attenuations[c.volume * c.velocity / 127] = a at *
  have h1 : toU8 (15 - (a : Int)) = 15 - a := by unfold toU8; omega
  have h2 : toU8 (15 - ((b % 16 : Nat) : Int)) = 15 - b % 16 := by unfold toU8; omega
  simp only [h1, h2]
  have h3 : (15 - a) * (15 - b % 16) ≤ 15 * 15 := Nat.mul_le_mul (by omega) (by omega)
  have h4 : (15 - a) * (15 - b % 16) / 15 ≤ 15 := by omega
  generalize (15 - a) * (15 - b % 16) / 15 = q at *
  congr 1
  unfold toU8
  omega

theorem combine_le (i b : Nat) : combine i b ≤ 15 := by unfold combine; omega

/-- Legal events. -/
def Ev.Legal : Ev → Prop
  | .tone ch v => ch < 4 ∧ 8 ≤ v ∧ v ≤ 1016
  | .att ch v => ch < 4 ∧ v ≤ 15

theorem legal_tone {n : Nat} (hn : n < 4) {o : Out} {t : Nat} (h : ∀ e ∈ o.2, e.Legal)
    (ht : 8 ≤ t ∧ t ≤ 1016) : ∀ e ∈ (applyTone n o t).2, e.Legal := by
  unfold applyTone; split
  · intro e he
    simp only [List.mem_cons] at he
    rcases he with rfl | he
    · exact ⟨hn, ht⟩
    · exact h e he
  · exact h

theorem legal_att {n : Nat} (hn : n < 4) {o : Out} {t : Nat} (h : ∀ e ∈ o.2, e.Legal)
    (ht : t ≤ 15) : ∀ e ∈ (applyAttenuation n o t).2, e.Legal := by
  unfold applyAttenuation; split
  · intro e he
    simp only [List.mem_cons] at he
    rcases he with rfl | he
    · exact ⟨hn, ht⟩
    · exact h e he
  · exact h

theorem legal_off {n : Nat} (hn : n < 4) {o : Out} (h : ∀ e ∈ o.2, e.Legal) :
    ∀ e ∈ (noteOffChan n o).2, e.Legal := legal_att hn h (by omega)

theorem legal_level {env : Env} {buf : Nat → Nat} {n : Nat} (hn : n < 4) {o o' : Out}
    (hi : ChanInv env buf o.1) (h : ∀ e ∈ o.2, e.Legal)
    (e : applyLevel env buf n o = some o') : ∀ e ∈ o'.2, e.Legal := by
  obtain ⟨b, hb⟩ := hi.step.deref
  obtain ⟨t, ht⟩ := envelopeTone_some env.isPAL o.1 b
  have h' := applyTone_inv (n := n) (t := t) hi
  have ha := effectiveAttenuation_eq (applyTone n o t).1 b h'.vol h'.vel
  simp only [applyLevel, hb, ht, ha, Option.some.injEq] at e
  subst e
  exact legal_att hn (legal_tone hn h (envelopeTone_bounds hi.cents ht)) (combine_le _ _)

theorem legal_step {env : Env} {buf : Nat → Nat} {n : Nat} (hn : n < 4) {c : Chan} {o : Out}
    (h : ChanInv env buf c) (e : applyEnvelopeStep env buf n c = some o) :
    ∀ e ∈ o.2, e.Legal := by
  obtain ⟨c1, e1, h1⟩ := stepLoopStart_inv h
  obtain ⟨c2, e2, h2⟩ := stepLoopEnd_inv h1
  obtain ⟨b, hb⟩ := h2.step.deref
  simp only [applyEnvelopeStep, e1, e2, Option.bind_some, hb] at e
  by_cases hbe : b = 0xFF
  · rw [if_pos hbe] at e
    cases hl : c2.loopStart with
    | none =>
      simp only [hl, Option.some.injEq] at e
      subst e; exact legal_off hn (by simp)
    | some ls =>
      cases hr : c2.noteReleased with
      | true =>
        simp only [hl, hr, Option.some.injEq] at e
        subst e; exact legal_off hn (by simp)
      | false =>
        simp only [hl, hr] at e
        refine legal_level hn ?_ (by simp) e
        simpa [hl, hr] using h2.of_step ls (h2.loop ls hl)
  · rw [if_neg hbe] at e
    exact legal_level hn h2 (by simp) e

theorem onChan_legal {s : St} {n : Nat} {f : Chan → Option Out} (h : ∀ e ∈ s.out, e.Legal)
    (hf : ∀ o, f (s.ch n) = some o → ∀ e ∈ o.2, e.Legal) :
    ∀ e ∈ (onChan s n f).out, e.Legal := by
  unfold onChan
  split
  · split
    · exact h
    · rename_i c evs e
      intro x hx
      simp only [List.mem_append] at hx
      rcases hx with hx | hx
      · exact hf _ e x hx
      · exact h x hx
  · exact h

theorem step_legal {env : Env} (he : env.Legal) {s : St} (hg : Good env s)
    (h : ∀ e ∈ s.out, e.Legal) (op : Op) (hop : op.Legal) :
    ∀ e ∈ (step env s op).out, e.Legal := by
  have rel : ∀ n c o, n < 4 → releaseChan n c = some o → ∀ e ∈ o.2, e.Legal := by
    intro n c o hn e
    unfold releaseChan at e
    split at e
    · split at e
      · simp only [Option.some.injEq] at e; subst e; simp
      · simp only [Option.some.injEq] at e; subst e; exact legal_off hn (by simp)
    · simp only [Option.some.injEq] at e; subst e; simp
  cases op with
  | noteOn n p c v =>
    obtain ⟨hn, hp, hc0, hc1, hv⟩ := hop
    simp only [step, noteOn]
    split
    · exact h
    · refine onChan_legal h fun o e => ?_
      have hc := hg.chans n hn
      obtain ⟨c', e1, hi, _⟩ := initEnvelope_inv he hg.user
        (c := { s.ch n with noteReleased := false, pitch := p, cents := c, velocity := v,
                            noteOn := true }) hc.vol hv hc.envl ⟨hc0, hc1⟩
      simp only [noteOnChan, e1, Option.bind_some] at e
      exact legal_step hn hi e
  | noteOff n => exact onChan_legal h fun o e => rel _ _ _ hop e
  | allNotesOff n => exact onChan_legal h fun o e => rel _ _ _ hop e
  | volume n v =>
    refine onChan_legal h fun o e => ?_
    have hc := hg.chans n hop.1
    simp only [volumeChan] at e
    split at e
    · obtain ⟨b, hb⟩ := hc.step.deref
      have ha := effectiveAttenuation_eq { s.ch n with volume := v } b hop.2 hc.vel
      simp only [hb, ha, Option.bind_some, Option.some.injEq] at e
      subst e
      exact legal_att hop.1 (by simp) (combine_le _ _)
    · simp only [Option.some.injEq] at e; subst e; simp
  | program n p =>
    refine onChan_legal (f := fun c => some ({ c with envelope := p }, [])) h fun o e => ?_
    simp only [Option.some.injEq] at e; subst e; simp
  | pitch n p c =>
    refine onChan_legal h fun o e => ?_
    have hc := hg.chans n hop.1
    obtain ⟨b, hb⟩ := hc.step.deref
    obtain ⟨t, ht⟩ := envelopeTone_some env.isPAL { s.ch n with pitch := p, cents := c } b
    simp only [pitchChan, hb, ht, Option.bind_some, Option.some.injEq] at e
    subst e
    exact legal_tone hop.1 (by simp) (envelopeTone_bounds hop.2.2 ht)
  | tick =>
    suffices H : ∀ (l : List Nat) (s : St), (∀ n ∈ l, n < 4) → Good env s →
        (∀ e ∈ s.out, e.Legal) →
        ∀ e ∈ (l.foldl (fun s n => onChan s n (tickChan env s.userBuf n)) s).out, e.Legal from
      H _ s (by simp) hg h
    intro l
    induction l with
    | nil => intro s _ _ h; exact h
    | cons n l ih =>
      intro s hl hg h
      have hn := hl n (by simp)
      have hc := hg.chans n hn
      have key : ∀ o, tickChan env s.userBuf n (s.ch n) = some o →
          ChanInv env s.userBuf o.1 ∧ ∀ e ∈ o.2, e.Legal := by
        intro o e
        unfold tickChan at e
        split at e
        · obtain ⟨b, hb⟩ := hc.step.deref
          simp only [hb, Option.bind_some] at e
          have hi : ChanInv env s.userBuf
              (if b ≠ 0xFF then { s.ch n with step := (s.ch n).step.next } else s.ch n) := by
            split
            · rename_i hne
              exact hc.of_step _ (hc.step.next hb hne)
            · exact hc
          obtain ⟨o', e', ho'⟩ := applyEnvelopeStep_inv (n := n) hi
          have : o = o' := by rw [e] at e'; simpa using e'
          exact ⟨this ▸ ho', legal_step hn hi e⟩
        · simp only [Option.some.injEq] at e; subst e; exact ⟨hc, by simp⟩
      refine ih _ (fun m hm => hl m (by simp [hm])) ?_ (onChan_legal h fun o e => (key o e).2)
      refine onChan_good hg hn fun _ => ?_
      unfold tickChan
      split
      · obtain ⟨b, hb⟩ := hc.step.deref
        simp only [hb, Option.bind_some]
        split
        · rename_i hne
          exact applyEnvelopeStep_inv (hc.of_step _ (hc.step.next hb hne))
        · exact applyEnvelopeStep_inv hc
      · exact ⟨_, rfl, hc⟩
  | loadEnvelope e =>
    simp only [step, loadEnvelope]
    split <;> exact h
  | reset =>
    suffices H : ∀ (l : List Nat) (s : St), (∀ e ∈ s.out, e.Legal) →
        ∀ e ∈ (l.foldl (fun s n => onChan s n (resetChan env)) s).out, e.Legal from H _ _ h
    intro l
    induction l with
    | nil => intro s h; exact h
    | cons n l ih =>
      intro s h
      refine ih _ (onChan_legal h fun o e => ?_)
      simp only [resetChan, Option.map_eq_some_iff] at e
      obtain ⟨c, _, rfl⟩ := e
      simp

theorem run_legal {env : Env} (he : env.Legal) (ops : List Op) : ∀ {s : St}, Good env s →
    (∀ e ∈ s.out, e.Legal) → (∀ op ∈ ops, op.Legal) → ∀ e ∈ (run env s ops).out, e.Legal := by
  induction ops with
  | nil => intro s _ h _; exact h
  | cons op ops ih =>
    intro s hg h hl
    have ho := hl op (by simp)
    exact ih (step_good he hg op ho) (step_legal he hg h op ho) (fun o ho => hl o (by simp [ho]))

end Mdmi.Psg
