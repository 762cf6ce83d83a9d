import Verif.Proofs.PsgEnv
/-! The exact course of a PSG envelope over time. -/
namespace Mdmi.Psg

/-- The channel after its tone and attenuation were set for envelope byte `b`. -/
def leveled (env : Env) (c : Chan) (b : Nat) : Chan :=
  { c with freq := (envelopeTone env.isPAL c b).getD 0,
           attenuation := combine (c.volume * c.velocity / 127) b }

theorem applyLevel_eq {env : Env} {buf : Nat → Nat} {n b : Nat} {c : Chan}
    (hv : c.volume < 128) (hw : c.velocity < 128) (hd : deref env buf c.step = some b) :
    ∃ evs, applyLevel env buf n (c, []) = some (leveled env c b, evs) := by
  obtain ⟨t, ht⟩ := envelopeTone_some env.isPAL c b
  have ha : ∀ f, effectiveAttenuation { c with freq := f } b =
      some (combine (c.volume * c.velocity / 127) b) :=
    fun f => effectiveAttenuation_eq { c with freq := f } b hv hw
  by_cases h1 : t = c.freq
  · have ha' := ha c.freq
    by_cases h2 : combine (c.volume * c.velocity / 127) b = c.attenuation
    · refine ⟨[], ?_⟩
      simp only [applyLevel, hd, ht, applyTone, h1, ne_eq, not_true_eq_false, if_false]
      simp only [show effectiveAttenuation c b = _ from ha', applyAttenuation, h2, ne_eq,
        not_true_eq_false, if_false]
      simp [leveled, ht, h1, h2]
    · refine ⟨[.att n (combine (c.volume * c.velocity / 127) b)], ?_⟩
      simp only [applyLevel, hd, ht, applyTone, h1, ne_eq, not_true_eq_false, if_false]
      simp only [show effectiveAttenuation c b = _ from ha', applyAttenuation, h2, ne_eq,
        not_false_eq_true, if_true]
      simp [leveled, ht, h1]
  · by_cases h2 : combine (c.volume * c.velocity / 127) b = c.attenuation
    · refine ⟨[.tone n t], ?_⟩
      simp only [applyLevel, hd, ht, applyTone, h1, ne_eq, not_false_eq_true, if_true]
      simp only [ha t, applyAttenuation, h2, ne_eq, not_true_eq_false, if_false]
      simp [leveled, ht, h2]
    · refine ⟨[.att n (combine (c.volume * c.velocity / 127) b), .tone n t], ?_⟩
      simp only [applyLevel, hd, ht, applyTone, h1, ne_eq, not_false_eq_true, if_true]
      simp only [ha t, applyAttenuation, h2, ne_eq, not_false_eq_true, if_true]
      simp [leveled, ht]

section
variable {env : Env} {buf : Nat → Nat} {n b : Nat} {c : Chan}
  (hv : c.volume < 128) (hw : c.velocity < 128)
include hv hw

/-- A data byte. -/
theorem step_data (hd : deref env buf c.step = some b) (hb : b < 0xFD) :
    ∃ evs, applyEnvelopeStep env buf n c = some (leveled env c b, evs) := by
  obtain ⟨evs, e⟩ := applyLevel_eq (n := n) hv hw hd
  refine ⟨evs, ?_⟩
  have e1 : stepLoopStart env buf c = some c := by
    simp only [stepLoopStart, hd]; rw [if_neg (by omega)]
  have e2 : stepLoopEnd env buf c = some c := by
    simp only [stepLoopEnd, hd]
    split
    · rw [if_neg (by omega)]
    · rfl
  simp only [applyEnvelopeStep, e1, e2, Option.bind_some, hd]
  rw [if_neg (by omega), e]

/-- A loop start followed by a data byte. -/
theorem step_loopStart (h0 : deref env buf c.step = some 0xFE)
    (hd : deref env buf c.step.next = some b) (hb : b < 0xFD) :
    ∃ evs, applyEnvelopeStep env buf n c =
      some (leveled env { c with step := c.step.next, loopStart := some c.step.next } b, evs) := by
  obtain ⟨evs, e⟩ := applyLevel_eq (env := env) (buf := buf) (n := n) (b := b)
    (c := { c with step := c.step.next, loopStart := some c.step.next }) hv hw hd
  refine ⟨evs, ?_⟩
  have e1 : stepLoopStart env buf c =
      some { c with step := c.step.next, loopStart := some c.step.next } := by
    simp [stepLoopStart, h0]
  have e2 : stepLoopEnd env buf { c with step := c.step.next, loopStart := some c.step.next } =
      some { c with step := c.step.next, loopStart := some c.step.next } := by
    simp only [stepLoopEnd, hd]; rw [if_neg (by omega)]
  simp only [applyEnvelopeStep, e1, e2, Option.bind_some, hd]
  rw [if_neg (by omega), e]

/-- A loop end while held. -/
theorem step_loopEnd_held {ls : Ptr} (h0 : deref env buf c.step = some 0xFD)
    (hl : c.loopStart = some ls) (hr : c.noteReleased = false)
    (hd : deref env buf ls = some b) (hb : b < 0xFD) :
    ∃ evs, applyEnvelopeStep env buf n c = some (leveled env { c with step := ls } b, evs) := by
  obtain ⟨evs, e⟩ := applyLevel_eq (env := env) (buf := buf) (n := n) (b := b)
    (c := { c with step := ls }) hv hw hd
  refine ⟨evs, ?_⟩
  have e1 : stepLoopStart env buf c = some c := by simp [stepLoopStart, h0]
  have e2 : stepLoopEnd env buf c = some { c with step := ls } := by
    simp [stepLoopEnd, h0, hl, hr]
  simp only [applyEnvelopeStep, e1, e2, Option.bind_some, hd]
  rw [if_neg (by omega), e]

/-- A loop end after release, followed by a data byte. -/
theorem step_loopEnd_released {ls : Ptr} (h0 : deref env buf c.step = some 0xFD)
    (hl : c.loopStart = some ls) (hr : c.noteReleased = true)
    (hd : deref env buf c.step.next = some b) (hb : b < 0xFD) :
    ∃ evs, applyEnvelopeStep env buf n c =
      some (leveled env { c with step := c.step.next } b, evs) := by
  obtain ⟨evs, e⟩ := applyLevel_eq (env := env) (buf := buf) (n := n) (b := b)
    (c := { c with step := c.step.next }) hv hw hd
  refine ⟨evs, ?_⟩
  have e1 : stepLoopStart env buf c = some c := by simp [stepLoopStart, h0]
  have e2 : stepLoopEnd env buf c = some { c with step := c.step.next } := by
    simp [stepLoopEnd, h0, hl, hr]
  simp only [applyEnvelopeStep, e1, e2, Option.bind_some, hd]
  rw [if_neg (by omega), e]

end

/-- END after release. -/
theorem step_end_released {env : Env} {buf : Nat → Nat} {n : Nat} {c : Chan}
    (h0 : deref env buf c.step = some 0xFF) (hr : c.noteReleased = true) :
    ∃ o, applyEnvelopeStep env buf n c = some o ∧ o.1.noteOn = false := by
  have e1 : stepLoopStart env buf c = some c := by simp [stepLoopStart, h0]
  have e2 : stepLoopEnd env buf c = some c := by
    simp only [stepLoopEnd, h0]
    split
    · rw [if_neg (by omega)]
    · rfl
  refine ⟨_, ?_, (noteOffChan_on n (c, [])).1⟩
  simp only [applyEnvelopeStep, e1, e2, Option.bind_some, h0, if_true]
  cases hl : c.loopStart <;> simp [hr]

/-- A loop end after release, directly followed by END. -/
theorem step_loopEnd_end {env : Env} {buf : Nat → Nat} {n : Nat} {c : Chan} {ls : Ptr}
    (h0 : deref env buf c.step = some 0xFD) (hl : c.loopStart = some ls)
    (h1 : deref env buf c.step.next = some 0xFF) (hr : c.noteReleased = true) :
    ∃ o, applyEnvelopeStep env buf n c = some o ∧ o.1.noteOn = false := by
  have e1 : stepLoopStart env buf c = some c := by simp [stepLoopStart, h0]
  have e2 : stepLoopEnd env buf c = some { c with step := c.step.next } := by
    simp [stepLoopEnd, h0, hl, hr]
  refine ⟨_, ?_, (noteOffChan_on n ({ c with step := c.step.next }, [])).1⟩
  simp only [applyEnvelopeStep, e1, e2, Option.bind_some, h1, if_true, hl, hr]

/-! ### An envelope in attack / loop / tail form -/

theorem eef_attack {A L T : List Nat} {i : Nat} (h : i < A.length) : (eef A L T)[i]? = A[i]? := by
  simp [eef, List.getElem?_append_left h]

theorem eef_start {A L T : List Nat} : (eef A L T)[A.length]? = some 0xFE := by
  simp [eef]

theorem eef_loop {A L T : List Nat} {i : Nat} (h : i < L.length) :
    (eef A L T)[A.length + 1 + i]? = L[i]? := by
  rw [eef, List.getElem?_append_right (by omega), show A.length + 1 + i - A.length = i + 1 by omega,
    List.getElem?_cons_succ, List.getElem?_append_left h]

theorem eef_end {A L T : List Nat} : (eef A L T)[A.length + 1 + L.length]? = some 0xFD := by
  rw [eef, List.getElem?_append_right (by omega),
    show A.length + 1 + L.length - A.length = L.length + 1 by omega, List.getElem?_cons_succ,
    List.getElem?_append_right (by omega)]
  simp

theorem eef_tail {A L T : List Nat} {i : Nat} (h : i < T.length) :
    (eef A L T)[A.length + L.length + 2 + i]? = T[i]? := by
  rw [eef, List.getElem?_append_right (by omega),
    show A.length + L.length + 2 + i - A.length = (L.length + 1 + i) + 1 by omega,
    List.getElem?_cons_succ,
    List.getElem?_append_right (by omega), show L.length + 1 + i - L.length = i + 1 by omega,
    List.getElem?_cons_succ, List.getElem?_append_left h]

theorem eef_stop {A L T : List Nat} :
    (eef A L T)[A.length + L.length + 2 + T.length]? = some 0xFF := by
  rw [eef, List.getElem?_append_right (by omega),
    show A.length + L.length + 2 + T.length - A.length = (L.length + 1 + T.length) + 1 by omega,
    List.getElem?_cons_succ,
    List.getElem?_append_right (by omega),
    show L.length + 1 + T.length - L.length = T.length + 1 by omega,
    List.getElem?_cons_succ, List.getElem?_append_right (by omega)]
  simp

theorem eef_length (A L T : List Nat) :
    (eef A L T).length = A.length + L.length + T.length + 3 := by
  simp [eef]; omega

theorem EefOk.first {A L T : List Nat} (h : EefOk A L T) {j : Nat}
    (hj : j < A.length + L.length + 2 + T.length) : (eef A L T)[j]? ≠ some 0xFF := by
  have data : ∀ (l : List Nat), (∀ b ∈ l, b < 0xFD) → ∀ i : Nat, l[i]? ≠ some 0xFF := by
    intro l hl i e
    have := hl _ (List.mem_of_getElem? e)
    omega
  by_cases h1 : j < A.length
  · rw [eef_attack h1]; exact data _ h.attack _
  by_cases h2 : j = A.length
  · rw [h2, eef_start]; simp
  by_cases h3 : j < A.length + 1 + L.length
  · rw [show j = A.length + 1 + (j - (A.length + 1)) by omega, eef_loop (by omega)]
    exact data _ h.loop _
  by_cases h4 : j = A.length + 1 + L.length
  · rw [h4, eef_end]; simp
  · rw [show j = A.length + L.length + 2 + (j - (A.length + L.length + 2)) by omega,
      eef_tail (by omega)]
    exact data _ h.tail _

/-- The array `src` starts with the envelope. -/
def Holds (env : Env) (buf : Nat → Nat) (src : Src) (e : List Nat) : Prop :=
  ∀ i b, e[i]? = some b → deref env buf ⟨src, i⟩ = some b

theorem load_holds {env : Env} {A L T : List Nat} (h : EefOk A L T) (hsize : (eef A L T).length ≤ 256)
    (s : St) : ∃ buf, loadLoop (eef A L T) 0 s.userBuf = some buf ∧
      Holds env buf .user (eef A L T) := by
  rw [eef_length] at hsize
  obtain ⟨buf, e1, e2, _, e4⟩ := loadLoop_spec (eef A L T) 0 s.userBuf
    (A.length + L.length + 2 + T.length) eef_stop (fun j hj => h.first hj)
    (by omega)
  refine ⟨buf, e1, ?_⟩
  intro i b hb
  have hi := (List.getElem?_eq_some_iff.1 hb).1
  rw [eef_length] at hi
  simp only [Psg.deref]
  rw [if_pos (by omega)]
  by_cases hk : i = A.length + L.length + 2 + T.length
  · rw [hk, eef_stop] at hb
    rw [hk, ← hb]; simpa using e2
  · have := e4 i (by omega)
    rw [hb] at this
    simpa using this

theorem builtin_holds {env : Env} {buf : Nat → Nat} {n : Nat} {e : List Nat}
    (h : env.envelopes[n]? = some e) : Holds env buf (.builtin n) e := by
  intro i b hb
  simp [Psg.deref, h, hb]

theorem Holds.deref {env : Env} {buf : Nat → Nat} {src : Src} {A L T : List Nat}
    (h : Holds env buf src (eef A L T)) {i b : Nat} (hb : (eef A L T)[i]? = some b) :
    Psg.deref env buf ⟨src, i⟩ = some b := h i b hb

/-- What a sounding channel looks like: playing pitch `p`, cents `c`, volume `v`, velocity `w`, with
the cursor at `off` on byte `b` and levels set for it. -/
structure Playing (env : Env) (src : Src) (ch : Chan) (p : Nat) (c : Int) (v w off b : Nat) : Prop where
  on : ch.noteOn = true
  pitch : ch.pitch = p
  cents : ch.cents = c
  vol : ch.volume = v
  vel : ch.velocity = w
  step : ch.step = ⟨src, off⟩
  freq : some ch.freq = toneFromPitchCents env.isPAL (envelopeShift ⟨p, c⟩ (b / 16))
  att : ch.attenuation = combine (v * w / 127) b

theorem playing_leveled {env : Env} {src : Src} {ch : Chan} {p v w off b : Nat} {c : Int}
    (on : ch.noteOn = true) (pitch : ch.pitch = p) (cents : ch.cents = c) (vol : ch.volume = v)
    (vel : ch.velocity = w) (step : ch.step = ⟨src, off⟩) :
    Playing env src (leveled env ch b) p c v w off b := by
  refine ⟨on, pitch, cents, vol, vel, step, ?_, ?_⟩
  · obtain ⟨t, ht⟩ := envelopeTone_some env.isPAL ch b
    simp only [leveled, ht, Option.getD_some]
    rw [← ht, envelopeTone, pitch, cents]
  · simp only [leveled]; rw [vol, vel]

/-- Cursor offset of a held note after `t` ticks. -/
def heldOff (A L : List Nat) (t : Nat) : Nat :=
  if t < A.length then t else A.length + 1 + (t - A.length) % L.length

/-- A held note after `t` ticks. -/
def HeldAt (env : Env) (src : Src) (A L : List Nat) (p : Nat) (c : Int) (v w t : Nat) (ch : Chan) : Prop :=
  ∃ b, heldByte A L t = some b ∧ Playing env src ch p c v w (heldOff A L t) b ∧
    ch.noteReleased = false ∧
    ch.loopStart = if t < A.length then none else some ⟨src, A.length + 1⟩

section
variable {env : Env} {buf : Nat → Nat} {src : Src} {n : Nat} {A L T : List Nat} (ok : EefOk A L T)
  (hb : Holds env buf src (eef A L T)) {p v w : Nat} {c : Int} (hv : v < 128) (hw : w < 128)
include ok hb hv hw

omit ok hb hv hw in
theorem mem_lt {l : List Nat} (h : ∀ b ∈ l, b < 0xFD) {i : Nat} (hi : i < l.length) :
    ∃ b, l[i]? = some b ∧ b < 0xFD :=
  ⟨l[i], List.getElem?_eq_getElem hi, h _ (List.getElem_mem hi)⟩

/-- The first step of the attack, or of the loop when there is no attack. -/
theorem held_start {ch : Chan} (on : ch.noteOn = true) (hp : ch.pitch = p) (hc : ch.cents = c)
    (hvol : ch.volume = v) (hvel : ch.velocity = w) (hs : ch.step = ⟨src, 0⟩)
    (hl : ch.loopStart = none) (hr : ch.noteReleased = false) :
    ∃ o, applyEnvelopeStep env buf n ch = some o ∧ HeldAt env src A L p c v w 0 o.1 := by
  have hLpos : 0 < L.length := List.length_pos_iff.2 ok.nonempty
  by_cases hA : 0 < A.length
  · obtain ⟨b, e, hlt⟩ := mem_lt ok.attack hA
    have hd : deref env buf ch.step = some b := by
      rw [hs]; exact hb.deref (by rw [eef_attack hA]; exact e)
    obtain ⟨evs, e1⟩ := step_data (n := n) (by omega) (by omega) hd hlt
    refine ⟨_, e1, b, by simp only [heldByte, hA, if_true]; exact e, ?_, hr, by simp [hA]; exact hl⟩
    simp only [heldOff, hA, if_true]
    exact playing_leveled on hp hc hvol hvel hs
  · have hA0 : A.length = 0 := by omega
    obtain ⟨b, e, hlt⟩ := mem_lt ok.loop hLpos
    have h0 : deref env buf ch.step = some 0xFE := by
      rw [hs]
      have := eef_start (A := A) (L := L) (T := T)
      rw [hA0] at this
      exact hb.deref this
    have hn : ch.step.next = ⟨src, 1⟩ := by rw [hs]; rfl
    have hd : deref env buf ch.step.next = some b := by
      rw [hn]
      have := eef_loop (A := A) (L := L) (T := T) hLpos
      rw [hA0] at this
      exact hb.deref (by simpa using this.trans e)
    obtain ⟨evs, e1⟩ := step_loopStart (n := n) (by omega) (by omega) h0 hd hlt
    refine ⟨_, e1, b, by simp [heldByte, hA0, e], ?_, hr, by simp [hA0, leveled, hn]⟩
    simp only [heldOff, hA0, Nat.lt_irrefl, if_false]
    exact playing_leveled on hp hc hvol hvel (by simp [hn])

/-- One tick of a held note. -/
theorem held_tick {ch : Chan} {t : Nat} (h : HeldAt env src A L p c v w t ch) :
    ∃ o, tickChan env buf n ch = some o ∧ HeldAt env src A L p c v w (t + 1) o.1 := by
  have hLpos : 0 < L.length := List.length_pos_iff.2 ok.nonempty
  obtain ⟨b0, hb0, hpl, hr, hl⟩ := h
  have hd0 : ∃ b, deref env buf ch.step = some b ∧ b ≠ 0xFF := by
    rw [hpl.step]
    by_cases hA : t < A.length
    · obtain ⟨b, e, hlt⟩ := mem_lt ok.attack hA
      refine ⟨b, ?_, by omega⟩
      simp only [heldOff, hA, if_true]
      exact hb.deref (by rw [eef_attack hA]; exact e)
    · have hm : (t - A.length) % L.length < L.length := Nat.mod_lt _ hLpos
      obtain ⟨b, e, hlt⟩ := mem_lt ok.loop hm
      refine ⟨b, ?_, by omega⟩
      simp only [heldOff, hA, if_false]
      exact hb.deref (by rw [eef_loop hm]; exact e)
  obtain ⟨bx, hdx, hbx⟩ := hd0
  have htick : tickChan env buf n ch =
      applyEnvelopeStep env buf n { ch with step := ch.step.next } := by
    simp [tickChan, hpl.on, hdx, hbx]
  rw [htick]
  by_cases hA : t < A.length
  · simp only [hA, if_true] at hl
    have hs : ch.step.next = ⟨src, t + 1⟩ := by rw [hpl.step]; simp [heldOff, hA, Ptr.next]
    by_cases hA' : t + 1 < A.length
    · obtain ⟨b, e, hlt⟩ := mem_lt ok.attack hA'
      have hd : deref env buf ch.step.next = some b := by
        rw [hs]; exact hb.deref (by rw [eef_attack hA']; exact e)
      obtain ⟨evs, e1⟩ := step_data (n := n) (c := { ch with step := ch.step.next })
        (by simp only [hpl.vol]; omega) (by simp only [hpl.vel]; omega) hd hlt
      refine ⟨_, e1, b, by simp only [heldByte, hA', if_true]; exact e, ?_, hr, by simp [hA']; exact hl⟩
      simp only [heldOff, hA', if_true]
      exact playing_leveled hpl.on hpl.pitch hpl.cents hpl.vol hpl.vel hs
    · have hteq : t + 1 = A.length := by omega
      obtain ⟨b, e, hlt⟩ := mem_lt ok.loop hLpos
      have h0 : deref env buf ch.step.next = some 0xFE := by
        rw [hs, hteq]; exact hb.deref eef_start
      have hn : ch.step.next.next = ⟨src, A.length + 1⟩ := by rw [hs, ← hteq]; rfl
      have hd : deref env buf ch.step.next.next = some b := by
        rw [hn]; exact hb.deref (by have := eef_loop (A := A) (T := T) hLpos; simpa using this.trans e)
      obtain ⟨evs, e1⟩ := step_loopStart (n := n) (c := { ch with step := ch.step.next })
        (by simp only [hpl.vol]; omega) (by simp only [hpl.vel]; omega) h0 hd hlt
      refine ⟨_, e1, b, by simp [heldByte, hteq, e], ?_, hr, by simp [hteq, leveled, hn]⟩
      simp only [heldOff, hteq, Nat.lt_irrefl, if_false, Nat.sub_self, Nat.zero_mod, Nat.add_zero]
      exact playing_leveled hpl.on hpl.pitch hpl.cents hpl.vol hpl.vel (by simp [hn])
  · simp only [hA, if_false] at hl
    have hA' : ¬ t + 1 < A.length := by omega
    have hm : (t - A.length) % L.length < L.length := Nat.mod_lt _ hLpos
    have hs : ch.step.next = ⟨src, A.length + 1 + ((t - A.length) % L.length + 1)⟩ := by
      rw [hpl.step]; simp [heldOff, hA, Ptr.next]; omega
    by_cases hwrap : (t - A.length) % L.length + 1 < L.length
    · have hmod : (t + 1 - A.length) % L.length = (t - A.length) % L.length + 1 := by
        rw [show t + 1 - A.length = (t - A.length) + 1 by omega, Nat.add_mod]
        by_cases h1 : L.length = 1
        · omega
        · rw [Nat.mod_eq_of_lt (a := 1) (by omega), Nat.mod_eq_of_lt hwrap]
      obtain ⟨b, e, hlt⟩ := mem_lt ok.loop hwrap
      have hd : deref env buf ch.step.next = some b := by
        rw [hs]; exact hb.deref (by rw [eef_loop hwrap]; exact e)
      obtain ⟨evs, e1⟩ := step_data (n := n) (c := { ch with step := ch.step.next })
        (by simp only [hpl.vol]; omega) (by simp only [hpl.vel]; omega) hd hlt
      refine ⟨_, e1, b, by simp [heldByte, hA', hmod, e], ?_, hr, by simp [hA']; exact hl⟩
      simp only [heldOff, hA', if_false, hmod]
      exact playing_leveled hpl.on hpl.pitch hpl.cents hpl.vol hpl.vel hs
    · have hlast : (t - A.length) % L.length + 1 = L.length := by omega
      have hmod : (t + 1 - A.length) % L.length = 0 := by
        rw [show t + 1 - A.length = (t - A.length) + 1 by omega]
        have hda := Nat.div_add_mod (t - A.length) L.length
        have : t - A.length + 1 = L.length * ((t - A.length) / L.length + 1) := by
          rw [Nat.mul_add, Nat.mul_one]; omega
        rw [this]; exact Nat.mul_mod_right _ _
      obtain ⟨b, e, hlt⟩ := mem_lt ok.loop hLpos
      have h0 : deref env buf ch.step.next = some 0xFD := by
        rw [hs, hlast]; exact hb.deref eef_end
      have hd : deref env buf ⟨src, A.length + 1⟩ = some b :=
        hb.deref (by have := eef_loop (A := A) (T := T) hLpos; simpa using this.trans e)
      obtain ⟨evs, e1⟩ := step_loopEnd_held (n := n) (c := { ch with step := ch.step.next })
        (by simp only [hpl.vol]; omega) (by simp only [hpl.vel]; omega) h0 hl hr hd hlt
      refine ⟨_, e1, b, by simp [heldByte, hA', hmod, e], ?_, hr, by simp [hA']; exact hl⟩
      simp only [heldOff, hA', if_false, hmod, Nat.add_zero]
      exact playing_leveled hpl.on hpl.pitch hpl.cents hpl.vol hpl.vel rfl

/-- A released note, `i` loop-and-tail bytes in: silent once they are used up. -/
def RelAt (env : Env) (src : Src) (A L T : List Nat) (p : Nat) (c : Int) (v w i : Nat) (ch : Chan) : Prop :=
  match (L ++ T)[i]? with
  | none => ch.noteOn = false
  | some b =>
    Playing env src ch p c v w (if i < L.length then A.length + 1 + i else A.length + 2 + i) b ∧
    ch.noteReleased = true ∧ ∃ ls, ch.loopStart = some ls

omit ok hb hv hw in
theorem rel_off {ch : Chan} {i : Nat} (h : L.length + T.length ≤ i) (hoff : ch.noteOn = false) :
    RelAt env src A L T p c v w i ch := by
  unfold RelAt
  rw [List.getElem?_eq_none (by simp; omega)]; exact hoff

/-- One tick of a released note. -/
theorem rel_tick {ch : Chan} {i : Nat} (h : RelAt env src A L T p c v w i ch) :
    ∃ o, tickChan env buf n ch = some o ∧ RelAt env src A L T p c v w (i + 1) o.1 := by
  unfold RelAt at h
  cases hi : (L ++ T)[i]? with
  | none =>
    rw [hi] at h
    simp only at h
    have := List.getElem?_eq_none_iff.1 hi
    refine ⟨(ch, []), by simp [tickChan, h], rel_off (by simp at this; omega) h⟩
  | some b0 =>
    rw [hi] at h
    simp only at h
    obtain ⟨hpl, hr, ls, hls⟩ := h
    have hil : i < L.length + T.length := by
      have := (List.getElem?_eq_some_iff.1 hi).1; simpa using this
    have hd0 : ∃ b, deref env buf ch.step = some b ∧ b ≠ 0xFF := by
      rw [hpl.step]
      by_cases hA : i < L.length
      · obtain ⟨b, e, hlt⟩ := mem_lt ok.loop hA
        refine ⟨b, ?_, by omega⟩
        rw [if_pos hA]
        exact hb.deref (by rw [eef_loop hA]; exact e)
      · obtain ⟨b, e, hlt⟩ := mem_lt ok.tail (i := i - L.length) (by omega)
        refine ⟨b, ?_, by omega⟩
        rw [if_neg hA]
        have := eef_tail (A := A) (L := L) (T := T) (i := i - L.length) (by omega)
        rw [show A.length + L.length + 2 + (i - L.length) = A.length + 2 + i by omega] at this
        exact hb.deref (this.trans e)
    obtain ⟨bx, hdx, hbx⟩ := hd0
    have htick : tickChan env buf n ch =
        applyEnvelopeStep env buf n { ch with step := ch.step.next } := by
      simp [tickChan, hpl.on, hdx, hbx]
    rw [htick]
    have tailDeref : ∀ j, L.length ≤ j → j < L.length + T.length →
        ∃ b, deref env buf ⟨src, A.length + 2 + j⟩ = some b ∧ (L ++ T)[j]? = some b ∧ b < 0xFD := by
      intro j h1 h2
      obtain ⟨b, e, hlt⟩ := mem_lt ok.tail (i := j - L.length) (by omega)
      have := eef_tail (A := A) (L := L) (T := T) (i := j - L.length) (by omega)
      rw [show A.length + L.length + 2 + (j - L.length) = A.length + 2 + j by omega] at this
      exact ⟨b, hb.deref (this.trans e), by rw [List.getElem?_append_right h1]; exact e, hlt⟩
    have hstop : deref env buf ⟨src, A.length + L.length + 2 + T.length⟩ = some 0xFF :=
      hb.deref eef_stop
    by_cases h1 : i + 1 < L.length
    · have hs : ch.step.next = ⟨src, A.length + 1 + (i + 1)⟩ := by
        rw [hpl.step, if_pos (by omega)]; rfl
      obtain ⟨b, e, hlt⟩ := mem_lt ok.loop h1
      have hd : deref env buf ch.step.next = some b := by
        rw [hs]; exact hb.deref (by rw [eef_loop h1]; exact e)
      obtain ⟨evs, e1⟩ := step_data (n := n) (c := { ch with step := ch.step.next })
        (by simp only [hpl.vol]; omega) (by simp only [hpl.vel]; omega) hd hlt
      refine ⟨_, e1, ?_⟩
      unfold RelAt
      rw [List.getElem?_append_left h1, e]
      simp only [h1, if_true]
      exact ⟨playing_leveled hpl.on hpl.pitch hpl.cents hpl.vol hpl.vel hs, hr, ls, hls⟩
    · by_cases h2 : i + 1 = L.length
      · have hs : ch.step.next = ⟨src, A.length + 1 + L.length⟩ := by
          rw [hpl.step, if_pos (by omega)]; simp [Ptr.next]; omega
        have h0 : deref env buf ch.step.next = some 0xFD := by
          rw [hs]; exact hb.deref eef_end
        have hn : ch.step.next.next = ⟨src, A.length + 2 + (i + 1)⟩ := by
          rw [hs, h2]; simp [Ptr.next]; omega
        by_cases h3 : i + 1 < L.length + T.length
        · obtain ⟨b, hd, e, hlt⟩ := tailDeref (i + 1) (by omega) h3
          obtain ⟨evs, e1⟩ := step_loopEnd_released (n := n) (c := { ch with step := ch.step.next })
            (by simp only [hpl.vol]; omega) (by simp only [hpl.vel]; omega) h0 hls hr
            (by simp only; rw [hn]; exact hd) hlt
          refine ⟨_, e1, ?_⟩
          unfold RelAt
          rw [e]
          simp only [h1, if_false]
          exact ⟨playing_leveled hpl.on hpl.pitch hpl.cents hpl.vol hpl.vel hn, hr, ls, hls⟩
        · have hT : T.length = 0 := by omega
          rw [hT] at hstop
          obtain ⟨o, e1, hoff⟩ := step_loopEnd_end (n := n) (c := { ch with step := ch.step.next })
            h0 hls (by
              simp only; rw [hn, h2]
              rw [show A.length + 2 + L.length = A.length + L.length + 2 + 0 by omega]; exact hstop) hr
          exact ⟨o, e1, rel_off (by omega) hoff⟩
      · have hs : ch.step.next = ⟨src, A.length + 2 + (i + 1)⟩ := by
          rw [hpl.step, if_neg (by omega)]; rfl
        by_cases h3 : i + 1 < L.length + T.length
        · obtain ⟨b, hd, e, hlt⟩ := tailDeref (i + 1) (by omega) h3
          obtain ⟨evs, e1⟩ := step_data (n := n) (c := { ch with step := ch.step.next })
            (by simp only [hpl.vol]; omega) (by simp only [hpl.vel]; omega)
            (by simp only; rw [hs]; exact hd) hlt
          refine ⟨_, e1, ?_⟩
          unfold RelAt
          rw [e]
          simp only [h1, if_false]
          exact ⟨playing_leveled hpl.on hpl.pitch hpl.cents hpl.vol hpl.vel hs, hr, ls, hls⟩
        · obtain ⟨o, e1, hoff⟩ := step_end_released (n := n) (c := { ch with step := ch.step.next })
            (by
              simp only; rw [hs]
              rw [show A.length + 2 + (i + 1) = A.length + L.length + 2 + T.length by omega]
              exact hstop) hr
          exact ⟨o, e1, rel_off (by omega) hoff⟩

end

end Mdmi.Psg
