import Verif.Proofs.PsgCourse
import Verif.Props.C24
/-! C26: PSG envelopes sustain while held and end after release. -/
namespace Mdmi.Props
open Mdmi Mdmi.Psg

private theorem ticks_cons_tick (ops : List Op) : ticks (.tick :: ops) = ticks ops + 1 := by
  simp [ticks]

private theorem ticks_cons_other {op : Op} (h : op ≠ .tick) (ops : List Op) :
    ticks (op :: ops) = ticks ops := by
  cases op <;> simp_all [ticks]

private theorem off_stays {env : Env} (he : env.Legal) {n : Nat} (hn : n < 4) (ops : List Op) :
    ∀ {s : St}, Good env s → (s.ch n).noteOn = false →
      (∀ op ∈ ops, op.Legal ∧ op.target ≠ some n ∧ op ≠ .reset) →
      ((Psg.run env s ops).ch n).noteOn = false := by
  induction ops with
  | nil => intro s _ h _; exact h
  | cons op ops ih =>
    intro s hg h hops
    obtain ⟨h1, h2, h3⟩ := hops op (by simp)
    refine ih (step_good he hg op h1) ?_ fun o ho => hops o (by simp [ho])
    by_cases ht : op = .tick
    · subst ht
      rw [show Psg.step env s .tick = Psg.tick env s from rfl,
        tick_ch hn (o := (s.ch n, [])) (by simp [tickChan, h])]
      exact h
    · rw [step_other h2 ht h3]; exact h

/-- Size of the memory an envelope pointer walks in. -/
private def region (env : Env) : Src → Nat
  | .user => 256
  | .builtin n => (env.envelopes[n]?.getD []).length

private theorem deref_region {env : Env} {buf : Nat → Nat} {p : Ptr} {b : Nat}
    (h : deref env buf p = some b) : p.off < region env p.src := by
  obtain ⟨src, off⟩ := p
  cases src with
  | user => simp only [deref] at h; simp only [region]; split at h <;> simp_all
  | builtin n =>
    simp only [deref] at h
    cases e : env.envelopes[n]? with
    | none => simp [e] at h
    | some l =>
      simp only [e, Option.bind_some] at h
      simp only [region, e, Option.getD_some]
      exact (List.getElem?_eq_some_iff.1 h).1

private theorem releasing_run {env : Env} (he : env.Legal) {n : Nat} (hn : n < 4) (ops : List Op) :
    ∀ {s : St}, Good env s → Releasing (s.ch n) →
      (∀ op ∈ ops, op.Legal ∧ op.target ≠ some n ∧ op ≠ .reset) →
      ((Psg.run env s ops).ch n).noteOn = false ∨
        (Releasing ((Psg.run env s ops).ch n) ∧
          ((Psg.run env s ops).ch n).step.src = (s.ch n).step.src ∧
          (s.ch n).step.off + ticks ops ≤ ((Psg.run env s ops).ch n).step.off) := by
  induction ops with
  | nil => intro s _ h _; exact Or.inr ⟨h, rfl, by simp [ticks, Psg.run]⟩
  | cons op ops ih =>
    intro s hg h hops
    obtain ⟨h1, h2, h3⟩ := hops op (by simp)
    have hg' := step_good he hg op h1
    have hrest : ∀ op ∈ ops, op.Legal ∧ op.target ≠ some n ∧ op ≠ .reset :=
      fun o ho => hops o (by simp [ho])
    by_cases ht : op = .tick
    · subst ht
      obtain ⟨o, e⟩ := tickChan_some (n := n) (hg.chans n hn)
      obtain ⟨k, hk⟩ := (hg.chans n hn).step
      have hch : ((Psg.step env s .tick).ch n) = o.1 := tick_ch hn e
      rcases tickChan_releasing h hk e with hoff | ⟨hr, hsrc, hoff, _⟩
      · exact Or.inl (off_stays he hn ops hg' (by rw [hch]; exact hoff.1) hrest)
      · rcases ih hg' (by rw [hch]; exact hr) hrest with h' | ⟨ha, hb, hc⟩
        · exact Or.inl h'
        · rw [hch] at hb hc
          exact Or.inr ⟨ha, hb.trans hsrc, by
            rw [ticks_cons_tick]; show _ ≤ ((Psg.run env (Psg.step env s .tick) ops).ch n).step.off
            omega⟩
    · have hch := step_other (env := env) (s := s) h2 ht h3
      rcases ih hg' (by rw [hch]; exact h) hrest with h' | ⟨ha, hb, hc⟩
      · exact Or.inl h'
      · rw [hch] at hb hc
        exact Or.inr ⟨ha, hb, by rw [ticks_cons_other ht]; exact hc⟩

private theorem good_at {env : Env} (he : env.Legal) {ops : List Op} (h : ∀ op ∈ ops, op.Legal) :
    Good env (Psg.run env (Psg.init env) ops) := run_good he ops (init_good he) h

private theorem chip_silent {env : Env} (he : env.Legal) {ops : List Op} (h : ∀ op ∈ ops, op ≠ .reset)
    {n : Nat} (hn : n < 4) (hoff : ((Psg.run env (Psg.init env) ops).ch n).noteOn = false) :
    chipAtt (Psg.run env (Psg.init env) ops).out n = 15 := by
  rw [← (run_synced ops (init_synced he) h n hn).2]
  exact run_quiet ops (init_quiet he) n hn hoff

/-- **C26** (release ends).  After any legal history without a driver reset, release channel `ch`, and
let anything happen that does not address that channel again, including new envelopes being loaded
over the one playing: once as many ticks have passed as the longest envelope has bytes, the channel
is silent. -/
theorem C26_release_terminates (env : Env) (he : env.Legal) (hist ops : List Op) (ch N : Nat)
    (hch : ch < 4) (hh : ∀ op ∈ hist, op.Legal ∧ op ≠ .reset)
    (ho : ∀ op ∈ ops, op.Legal ∧ op.target ≠ some ch ∧ op ≠ .reset)
    (hN : 256 ≤ N ∧ ∀ e ∈ env.envelopes, e.length ≤ N) (ht : N ≤ ticks ops) :
    chipAtt (Psg.run env (Psg.init env) (hist ++ [.noteOff ch] ++ ops)).out ch = 15 := by
  refine chip_silent he ?_ hch ?_
  · intro op hop
    simp only [List.mem_append, List.mem_singleton] at hop
    rcases hop with (hop | rfl) | hop
    · exact (hh op hop).2
    · simp
    · exact (ho op hop).2.2
  have hg1 := good_at he (ops := hist) fun op hop => (hh op hop).1
  have hg2 := step_good he hg1 (.noteOff ch) hch
  have hrun : Psg.run env (Psg.init env) (hist ++ [.noteOff ch] ++ ops) =
      Psg.run env (Psg.step env (Psg.run env (Psg.init env) hist) (.noteOff ch)) ops := by
    simp [Psg.run, List.foldl_append]
  rw [hrun]
  generalize Psg.run env (Psg.init env) hist = s at *
  have hrel : ((Psg.step env s (.noteOff ch)).ch ch).noteOn = false ∨
      Releasing ((Psg.step env s (.noteOff ch)).ch ch) := by
    simp only [Psg.step, Psg.noteOff, onChan, hch, if_true, releaseChan]
    by_cases h1 : (s.ch ch).noteOn = true
    · cases h2 : (s.ch ch).loopStart with
      | none =>
        left
        simp only [h1, if_true, upd_same]
        exact (noteOffChan_on _ _).1
      | some ls =>
        right
        simp only [h1, if_true, upd_same]
        exact ⟨rfl, rfl, ls, rfl⟩
    · left
      simp [h1, upd_same]
  rcases hrel with h | h
  · exact off_stays he hch ops hg2 h ho
  · rcases releasing_run he hch ops hg2 h ho with h' | ⟨_, _, hc⟩
    · exact h'
    · exfalso
      have hg3 := run_good he ops hg2 fun op hop => (ho op hop).1
      obtain ⟨b, hb⟩ := (hg3.chans ch hch).step.deref
      have hlt := deref_region hb
      have hsz : ∀ src, region env src ≤ N := by
        intro src
        cases src with
        | user => exact hN.1
        | builtin n =>
          simp only [region]
          cases e : env.envelopes[n]? with
          | none => simp
          | some l => exact hN.2 l (List.mem_of_getElem? e)
      have := hsz ((Psg.run env (Psg.step env s (.noteOff ch)) ops).ch ch).step.src
      omega

/-- The two parts of a note's history the exact statements below speak about: calls that neither
address the channel nor load envelopes nor reset. -/
def Elsewhere (ch : Nat) (ops : List Op) : Prop :=
  ∀ op ∈ ops, op.Legal ∧ op.target ≠ some ch ∧ op ≠ .reset ∧ ∀ e, op ≠ .loadEnvelope e

private theorem run_pred {env : Env} (he : env.Legal) {n : Nat} (hn : n < 4) {buf : Nat → Nat}
    {P : Nat → Chan → Prop}
    (hP : ∀ t c, P t c → ∃ o, tickChan env buf n c = some o ∧ P (t + 1) o.1) (ops : List Op) :
    ∀ {s : St} {t : Nat}, Good env s → s.userBuf = buf → P t (s.ch n) → Elsewhere n ops →
      (Psg.run env s ops).userBuf = buf ∧ P (t + ticks ops) ((Psg.run env s ops).ch n) := by
  induction ops with
  | nil => intro s t _ hb h _; exact ⟨hb, by simpa [ticks, Psg.run] using h⟩
  | cons op ops ih =>
    intro s t hg hb h hops
    obtain ⟨h1, h2, h3, h4⟩ := hops op (by simp)
    have hg' := step_good he hg op h1
    have hb' : (Psg.step env s op).userBuf = buf := (step_buf h4).trans hb
    have hrest : Elsewhere n ops := fun o ho => hops o (by simp [ho])
    by_cases ht : op = .tick
    · subst ht
      obtain ⟨o, e, hp⟩ := hP t _ h
      have hch : ((Psg.step env s .tick).ch n) = o.1 := tick_ch hn (by rw [hb]; exact e)
      have := ih hg' hb' (t := t + 1) (by rw [hch]; exact hp) hrest
      rw [ticks_cons_tick, show t + (ticks ops + 1) = t + 1 + ticks ops by omega]
      exact this
    · have hch := step_other (env := env) (s := s) h2 ht h3
      have := ih hg' hb' (t := t) (by rw [hch]; exact h) hrest
      rw [ticks_cons_other ht]
      exact this

/-- Ways to choose the envelope of the next note on channel `ch`: load it, or, when none has been
loaded before, select a program that has it. -/
def Chooses (env : Env) (hist : List Op) (ch : Nat) (pre : Op) (E : List Nat) : Prop :=
  (pre = .loadEnvelope E ∧ E.length ≤ 256) ∨
  (∃ n, pre = .program ch n ∧ n < 128 ∧ env.envelopes[n]? = some E ∧
    ∀ op ∈ hist, ∀ e, op ≠ .loadEnvelope e)

private theorem chooses_legal {env : Env} {hist : List Op} {ch : Nat} {pre : Op} {A L T : List Nat}
    (hch : ch < 4) (h : Chooses env hist ch pre (eef A L T)) : pre.Legal ∧ pre ≠ .reset := by
  rcases h with ⟨rfl, h⟩ | ⟨n, rfl, hn, _⟩
  · rw [eef_length] at h
    exact ⟨⟨_, by omega, eef_stop⟩, by simp⟩
  · exact ⟨⟨hch, hn⟩, by simp⟩

private theorem legal_parts {env : Env} {hist mid : List Op} {ch p v w : Nat} {c : Int} {pre : Op}
    {A L T : List Nat} (hpre : Chooses env hist ch pre (eef A L T)) (hch : ch < 4) (hp : p < 256)
    (hc : 0 ≤ c ∧ c < 100) (hv : v < 128) (hw : w < 128)
    (hh : ∀ op ∈ hist, op.Legal ∧ op ≠ .reset) (hm : Elsewhere ch mid) :
    ∀ op ∈ hist ++ [pre, .volume ch v, .noteOn ch p c w] ++ mid, op.Legal ∧ op ≠ .reset := by
  intro op hop
  simp only [List.mem_append, List.mem_cons, List.not_mem_nil, or_false] at hop
  rcases hop with (hop | rfl | rfl | rfl) | hop
  · exact hh op hop
  · exact chooses_legal hch hpre
  · exact ⟨⟨hch, hv⟩, by simp⟩
  · exact ⟨⟨hch, hp, hc.1, hc.2, hw⟩, by simp⟩
  · exact ⟨(hm op hop).1, (hm op hop).2.2.1⟩

private theorem onChan_loaded (s : St) (n : Nat) (f : Chan → Option Out) :
    (onChan s n f).userLoaded = s.userLoaded := by
  unfold onChan; split
  · split <;> rfl
  · rfl

private theorem run_notLoaded {env : Env} (ops : List Op) : ∀ {s : St}, s.userLoaded = false →
    (∀ op ∈ ops, ∀ e, op ≠ .loadEnvelope e) → (Psg.run env s ops).userLoaded = false := by
  induction ops with
  | nil => intro s h _; exact h
  | cons op ops ih =>
    intro s h hops
    refine ih ?_ fun o ho => hops o (by simp [ho])
    have h1 := hops op (by simp)
    cases op with
    | loadEnvelope e => exact absurd rfl (h1 e)
    | noteOn n p c v =>
      simp only [Psg.step, Psg.noteOn]; split
      · exact h
      · rw [onChan_loaded]; exact h
    | tick => simp [Psg.step, Psg.tick, List.range, List.range.loop, onChan_loaded, h]
    | reset => simp [Psg.step, Psg.reset, List.range, List.range.loop, onChan_loaded]
    | _ => exact (onChan_loaded _ _ _).trans h

private theorem volume_sets {env : Env} {s : St} (hg : Good env s) {ch v : Nat} (hch : ch < 4)
    (hv : v < 128) :
    ((Psg.step env s (.volume ch v)).ch ch).volume = v ∧
    ((Psg.step env s (.volume ch v)).ch ch).envelope = (s.ch ch).envelope := by
  have hgc := hg.chans ch hch
  obtain ⟨b, hd⟩ := hgc.step.deref
  have ha := effectiveAttenuation_eq { s.ch ch with volume := v } b hv hgc.vel
  by_cases hon : (s.ch ch).noteOn = true
  · by_cases h2 : combine (v * (s.ch ch).velocity / 127) b = (s.ch ch).attenuation <;>
      simp_all [Psg.step, Psg.volume, onChan, volumeChan, applyAttenuation, upd_same]
  · simp [Psg.step, Psg.volume, onChan, volumeChan, hch, hon, upd_same]

private theorem start_held {env : Env} (he : env.Legal) {hist : List Op}
    (hh : ∀ op ∈ hist, op.Legal ∧ op ≠ .reset)
    {ch p v w : Nat} {c : Int} {pre : Op} {A L T : List Nat} (ok : EefOk A L T)
    (hpre : Chooses env hist ch pre (eef A L T)) (hch : ch < 4)
    (hp : 45 ≤ p) (hc : 0 ≤ c ∧ c < 100) (hp' : p < 256) (hv : v < 128) (hw : w < 128) :
    ∃ src,
      let s' := Psg.run env (Psg.run env (Psg.init env) hist) [pre, .volume ch v, .noteOn ch p c w]
      Good env s' ∧ Holds env s'.userBuf src (eef A L T) ∧
      HeldAt env src A L p c v w 0 (s'.ch ch) := by
  have hg := good_at he (ops := hist) fun op hop => (hh op hop).1
  have hul0 : (∀ op ∈ hist, ∀ e, op ≠ .loadEnvelope e) →
      (Psg.run env (Psg.init env) hist).userLoaded = false :=
    run_notLoaded hist (init_eq he).2.1
  generalize Psg.run env (Psg.init env) hist = s at *
  have g1 := step_good he hg pre (chooses_legal hch hpre).1
  have key : ∃ src, Holds env (Psg.step env s pre).userBuf src (eef A L T) ∧
      ∀ c0 : Chan, c0.envelope = ((Psg.step env s pre).ch ch).envelope →
        initEnvelope env (Psg.step env s pre).userLoaded c0 =
          some { c0 with step := ⟨src, 0⟩, loopStart := none } := by
    rcases hpre with ⟨rfl, hsz⟩ | ⟨n, rfl, hn, hE, hno⟩
    · obtain ⟨buf, e1, hb⟩ := load_holds (env := env) ok hsz s
      have hs1 : Psg.step env s (.loadEnvelope (eef A L T)) =
          { s with userBuf := buf, userLoaded := true } := by
        simp [Psg.step, loadEnvelope, e1]
      rw [hs1]
      exact ⟨.user, hb, fun c0 _ => by simp [initEnvelope]⟩
    · refine ⟨.builtin n, builtin_holds hE, fun c0 h0 => ?_⟩
      have hcn : c0.envelope = n := by
        rw [h0]; simp [Psg.step, Psg.program, onChan, hch, upd_same]
      have hlen : n < env.envelopes.length := by rw [he.count]; exact hn
      rw [show (Psg.step env s (.program ch n)).userLoaded = false from
        (onChan_loaded _ _ _).trans (hul0 hno)]
      simp [initEnvelope, hcn, hlen]
  obtain ⟨src, hold, hinit⟩ := key
  have hvs := volume_sets g1 hch hv
  have g2 := step_good he g1 (.volume ch v) ⟨hch, hv⟩
  have hb2 : (Psg.step env (Psg.step env s pre) (.volume ch v)).userBuf =
      (Psg.step env s pre).userBuf := step_buf (by simp)
  have hul : (Psg.step env (Psg.step env s pre) (.volume ch v)).userLoaded =
      (Psg.step env s pre).userLoaded := onChan_loaded _ _ _
  have g3 := step_good he g2 (.noteOn ch p c w) ⟨hch, hp', hc.1, hc.2, hw⟩
  have hb3 : (Psg.step env (Psg.step env (Psg.step env s pre) (.volume ch v))
      (.noteOn ch p c w)).userBuf = (Psg.step env s pre).userBuf := (step_buf (by simp)).trans hb2
  refine ⟨src, g3, ?_, ?_⟩
  · show Holds env (Psg.step env (Psg.step env (Psg.step env s pre) (.volume ch v))
      (.noteOn ch p c w)).userBuf src (eef A L T)
    rw [hb3]; exact hold
  · show HeldAt env src A L p c v w 0 ((Psg.step env (Psg.step env (Psg.step env s pre)
      (.volume ch v)) (.noteOn ch p c w)).ch ch)
    generalize Psg.step env s pre = s1 at *
    generalize Psg.step env s1 (.volume ch v) = s2 at *
    obtain ⟨o, e, hheld⟩ := held_start (n := ch) (env := env) ok hold hv hw (p := p) (c := c)
      (ch := { s2.ch ch with noteReleased := false, pitch := p, cents := c, velocity := w,
                             noteOn := true, step := ⟨src, 0⟩, loopStart := none })
      rfl rfl rfl hvs.1 rfl rfl rfl rfl
    have hx : (Psg.step env s2 (.noteOn ch p c w)).ch ch = o.1 := by
      simp only [Psg.step, Psg.noteOn]
      rw [if_neg (by omega)]
      refine onChan_same hch ?_
      simp only [noteOnChan, hul]
      rw [hinit { s2.ch ch with noteReleased := false, pitch := p, cents := c, velocity := w,
                                noteOn := true } hvs.2]
      simp only [Option.bind_some, hb2]
      exact e
    rw [hx]; exact hheld

/-- **C26** (shifts).  The upper nibble of an envelope byte shifts the pitch by its number of cents, modulo the 256
pitches. -/
theorem C26_envelope_shift (pal : Bool) (ch : Chan) (b : Nat) (hp : 5 ≤ ch.pitch ∧ ch.pitch < 256)
    (hc : 0 ≤ ch.cents ∧ ch.cents < 100) :
    ∃ q d : Nat, d < 100 ∧ 100 * (q : Int) + d = (100 * ch.pitch + ch.cents + shiftCents (b / 16)) % 25600 ∧
      envelopeTone pal ch b = toneFromPitchCents pal ⟨q, d⟩ := by
  have h1 := envelopeShift_total ⟨ch.pitch, ch.cents⟩ (b / 16) hp hc
  have h2 := envelopeShift_cents ⟨ch.pitch, ch.cents⟩ (b / 16) hc
  refine ⟨(envelopeShift ⟨ch.pitch, ch.cents⟩ (b / 16)).pitch,
    (envelopeShift ⟨ch.pitch, ch.cents⟩ (b / 16)).cents.toNat, by omega, ?_, ?_⟩
  · rw [← h1, Int.toNat_of_nonneg h2.1]
  · rw [Int.toNat_of_nonneg h2.1]; rfl

/-- **C26** (held course).  Choose an envelope made of attack, loop and tail, by loading it or by
selecting a program that has it, set a volume and start a note, after any legal reset-free history.  Whatever happens on the other channels, after `t` ticks the
chip holds exactly the level and tone of the `t`-th attack byte, and from then on those of the loop
bytes in turn, for ever. -/
theorem C26_held_note_course (env : Env) (he : env.Legal) (hist mid : List Op) (A L T : List Nat)
    (ok : EefOk A L T) (ch p v w : Nat) (c : Int) (pre : Op)
    (hpre : Chooses env hist ch pre (eef A L T)) (hch : ch < 4) (hp : 45 ≤ p ∧ p < 256)
    (hc : 0 ≤ c ∧ c < 100) (hv : v < 128) (hw : w < 128)
    (hh : ∀ op ∈ hist, op.Legal ∧ op ≠ .reset) (hm : Elsewhere ch mid) :
    let s := Psg.run env (Psg.init env)
      (hist ++ [pre, .volume ch v, .noteOn ch p c w] ++ mid)
    ∃ b, heldByte A L (ticks mid) = some b ∧ chipAtt s.out ch = heardAttenuation env v w b ∧
      ∃ q d : Nat, d < 100 ∧ 100 * (q : Int) + d = (100 * p + c + shiftCents (b / 16)) % 25600 ∧
        some (chipTone s.out ch) = toneFromPitchCents env.isPAL ⟨q, d⟩ := by
  intro s
  have hl := legal_parts (env := env) hpre hch hp.2 hc hv hw hh hm
  have hsync := run_synced (env := env) _ (init_synced he) (fun op hop => (hl op hop).2) ch hch
  obtain ⟨src, g, hold, hheld⟩ := start_held he hh ok hpre hch hp.1 hc hp.2 hv hw
  have hs : s = Psg.run env (Psg.run env (Psg.run env (Psg.init env) hist)
      [pre, .volume ch v, .noteOn ch p c w]) mid := by
    simp only [s, Psg.run, List.foldl_append]
  have hfin := (run_pred he hch (P := HeldAt env src A L p c v w)
    (fun t c' h => held_tick ok hold hv hw h) mid g rfl hheld hm).2
  rw [← hs, Nat.zero_add] at hfin
  obtain ⟨b, hb, hpl, _, _⟩ := hfin
  have hb253 : b < 0xFD := by
    unfold heldByte at hb
    split at hb
    · exact ok.attack b (List.mem_of_getElem? hb)
    · exact ok.loop b (List.mem_of_getElem? hb)
  refine ⟨b, hb, ?_, ?_⟩
  · rw [← hsync.2, hpl.att, heard_eq env he v w b hv hw (by omega)]
  · obtain ⟨q, d, h1, h2, h3⟩ := C26_envelope_shift env.isPAL { s.ch ch with pitch := p, cents := c } b
      ⟨by simp; omega, hp.2⟩ hc
    refine ⟨q, d, h1, h2, ?_⟩
    rw [← h3, ← hsync.1]; exact hpl.freq

/-- **C26** (release course).  Release such a note after the ticks of `mid`.  During the attack it is
silent at once.  Otherwise, after further ticks the chip holds exactly the levels of the rest of the
loop and then of the tail, and after those it is silent for ever. -/
theorem C26_released_note_course (env : Env) (he : env.Legal) (hist mid post : List Op)
    (A L T : List Nat) (ok : EefOk A L T) (ch p v w : Nat) (c : Int) (pre : Op)
    (hpre : Chooses env hist ch pre (eef A L T)) (hch : ch < 4)
    (hp : 45 ≤ p ∧ p < 256) (hc : 0 ≤ c ∧ c < 100) (hv : v < 128) (hw : w < 128)
    (hh : ∀ op ∈ hist, op.Legal ∧ op ≠ .reset) (hm : Elsewhere ch mid) (hpost : Elsewhere ch post) :
    let s := Psg.run env (Psg.init env)
      (hist ++ [pre, .volume ch v, .noteOn ch p c w] ++ mid ++
        [.noteOff ch] ++ post)
    chipAtt s.out ch =
      if ticks mid < A.length then 15
      else match (releaseBytes A L T (ticks mid))[ticks post]? with
        | none => 15
        | some b => heardAttenuation env v w b := by
  intro s
  have hl := legal_parts (env := env) hpre hch hp.2 hc hv hw hh hm
  have hl2 : ∀ op ∈ hist ++ [pre, .volume ch v, .noteOn ch p c w] ++ mid ++
        [.noteOff ch] ++ post, op.Legal ∧ op ≠ .reset := by
    intro op hop
    rw [List.mem_append, List.mem_append (s := _ ++ mid)] at hop
    rcases hop with (hop | hop) | hop
    · exact hl op hop
    · simp only [List.mem_singleton] at hop
      subst hop; exact ⟨hch, by simp⟩
    · exact ⟨(hpost op hop).1, (hpost op hop).2.2.1⟩
  have hsync := run_synced (env := env) _ (init_synced he) (fun op hop => (hl2 op hop).2) ch hch
  obtain ⟨src, g, hold, hheld⟩ := start_held he hh ok hpre hch hp.1 hc hp.2 hv hw
  have hLpos : 0 < L.length := List.length_pos_iff.2 ok.nonempty
  generalize hs1 : Psg.run env (Psg.run env (Psg.init env) hist)
      [pre, .volume ch v, .noteOn ch p c w] = s1 at *
  have hmid := run_pred he hch (P := HeldAt env src A L p c v w)
    (fun t c' h => held_tick ok hold hv hw h) mid g rfl hheld hm
  have gmid := run_good he mid g fun op hop => (hm op hop).1
  generalize hs2 : Psg.run env s1 mid = s2 at *
  have grel := step_good he gmid (.noteOff ch) hch
  have hs : s = Psg.run env (Psg.step env s2 (.noteOff ch)) post := by
    rw [← hs2, ← hs1]; simp [s, Psg.run, List.foldl_append]
  rw [Nat.zero_add] at hmid
  obtain ⟨hbuf, b, hb, hpl, hr, hloop⟩ := hmid
  have hrelbuf : (Psg.step env s2 (.noteOff ch)).userBuf = s1.userBuf :=
    (step_buf (by simp)).trans hbuf
  have hpost' : ∀ op ∈ post, op.Legal ∧ op.target ≠ some ch ∧ op ≠ .reset :=
    fun op hop => ⟨(hpost op hop).1, (hpost op hop).2.1, (hpost op hop).2.2.1⟩
  by_cases hA : ticks mid < A.length
  · rw [if_pos hA]
    rw [if_pos hA] at hloop
    refine chip_silent he (fun op hop => (hl2 op hop).2) hch ?_
    show (s.ch ch).noteOn = false
    rw [hs]
    refine off_stays he hch post grel ?_ hpost'
    rw [show Psg.step env s2 (.noteOff ch) = onChan s2 ch (releaseChan ch) from rfl,
      onChan_same hch (o := noteOffChan ch (s2.ch ch, [])) (by simp [releaseChan, hpl.on, hloop])]
    exact (noteOffChan_on _ _).1
  · rw [if_neg hA]
    rw [if_neg hA] at hloop
    have hmlt : (ticks mid - A.length) % L.length < L.length := Nat.mod_lt _ hLpos
    have hrelch : (Psg.step env s2 (.noteOff ch)).ch ch =
        { s2.ch ch with noteReleased := true } := by
      rw [show Psg.step env s2 (.noteOff ch) = onChan s2 ch (releaseChan ch) from rfl,
        onChan_same hch (o := ({ s2.ch ch with noteReleased := true }, []))
          (by simp [releaseChan, hpl.on, hloop])]
    have hbyte : (L ++ T)[(ticks mid - A.length) % L.length]? = some b := by
      rw [List.getElem?_append_left hmlt, ← hb, heldByte, if_neg hA]
    have hrel0 : RelAt env src A L T p c v w ((ticks mid - A.length) % L.length)
        ((Psg.step env s2 (.noteOff ch)).ch ch) := by
      unfold RelAt
      rw [hbyte, hrelch]
      simp only [hmlt, if_true]
      refine ⟨⟨hpl.on, hpl.pitch, hpl.cents, hpl.vol, hpl.vel, ?_, hpl.freq, hpl.att⟩, trivial, _, hloop⟩
      rw [hpl.step, heldOff, if_neg hA]
    have hfin := (run_pred he hch (P := RelAt env src A L T p c v w)
      (fun t c' h => rel_tick ok (hold) hv hw h) post grel hrelbuf hrel0 hpost).2
    rw [← hs] at hfin
    have hidx : (releaseBytes A L T (ticks mid))[ticks post]? =
        (L ++ T)[(ticks mid - A.length) % L.length + ticks post]? := by
      rw [releaseBytes]
      rw [← List.drop_append_of_le_length (by omega), List.getElem?_drop]
    rw [hidx]
    unfold RelAt at hfin
    cases hx : (L ++ T)[(ticks mid - A.length) % L.length + ticks post]? with
    | none =>
      rw [hx] at hfin
      exact chip_silent he (fun op hop => (hl2 op hop).2) hch hfin
    | some b' =>
      rw [hx] at hfin
      have hb253 : b' < 0xFD := by
        have := List.mem_of_getElem? hx
        rw [List.mem_append] at this
        rcases this with h | h
        · exact ok.loop b' h
        · exact ok.tail b' h
      simp only
      rw [← hsync.2, hfin.1.att, heard_eq env he v w b' hv hw (by omega)]

-- non-vacuity: attack [0, 1], loop [2, 0x13], tail [8, 12]
example : EefOk [0, 1] [2, 0x13] [8, 12] := by constructor <;> decide
-- all built-in envelopes have this form
example : envSquareLead = eef [0] [0] [1, 2, 3, 4, 5, 6, 7, 8, 9, 10, 11, 12, 13, 14, 15] ∧
    envelope0 = eef (0 :: 0 :: List.replicate 21 1) [1, 1, 0x11, 0x11, 1, 1, 0x81, 0x81]
      [1, 2, 3, 4, 5, 6, 7, 8, 9, 10, 11, 12, 13, 14, 15] := by decide
example : Chooses ⟨realEnvelopes, false⟩ [.noteOn 2 60 0 100] 1 (.program 1 80)
    (eef [0] [0] [1, 2, 3, 4, 5, 6, 7, 8, 9, 10, 11, 12, 13, 14, 15]) :=
  .inr ⟨80, rfl, by decide, by decide +kernel, by simp⟩
example : heldByte [0, 1] [2, 0x13] 5 = some 0x13 ∧ releaseBytes [0, 1] [2, 0x13] [8, 12] 5 =
    [0x13, 8, 12] := by decide
example :
    let s := Psg.run ⟨realEnvelopes, false⟩ (Psg.init ⟨realEnvelopes, false⟩)
      ([Op.noteOn 2 60 0 100] ++ [.loadEnvelope (eef [0, 1] [2, 0x13] [8, 12]), .volume 1 127,
        .noteOn 1 69 0 127] ++ [.tick, .tick, .noteOff 2, .tick, .tick, .tick]);
    chipAtt s.out 1 = 3 ∧ chipTone s.out 1 = 254 := by decide +kernel
example :
    let s := Psg.run ⟨realEnvelopes, false⟩ (Psg.init ⟨realEnvelopes, false⟩)
      ([] ++ [Op.loadEnvelope (eef [0, 1] [2, 0x13] [8, 12]), .volume 1 127, .noteOn 1 69 0 127] ++
        [.tick, .tick, .tick, .tick, .tick] ++ [.noteOff 1] ++ [.tick, .tick, .tick]);
    chipAtt s.out 1 = 15 := by decide +kernel

example : (List.range 16).map shiftCents = [0, 5, 10, 20, 50, 100, 200, 500, -5, -10, -20, -50, -100, -200, -500, 0] ∧
    envelopeTone false { Psg.zeroChan with pitch := 69, cents := 80 } 0x42 = toneFromPitchCents false ⟨70, 30⟩ := by
  decide +kernel

end Mdmi.Props
