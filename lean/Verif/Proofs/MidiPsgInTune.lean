import Verif.Proofs.MidiPsgView
import Verif.Proofs.MidiInTune
/-!
# Sounding PSG voices stay in tune

The PSG driver remembers a pitch per channel, and a channel that sounds has the tone of that pitch, shifted as its envelope
asks for (first part).  While a voice sounds, that pitch is the one its note, bend, bend range and fine tune ask for
(second part).
-/
namespace Mdmi.Psg

variable {env : Env}

/-- Pitch and cents of a channel. -/
def Chan.told (c : Chan) : Nat × Int := (c.pitch, c.cents)

theorem applyTone_told (n : Nat) (o : Out) (t : Nat) : (applyTone n o t).1.told = o.1.told := by
  unfold applyTone; split <;> rfl

theorem applyAttenuation_told (n : Nat) (o : Out) (t : Nat) : (applyAttenuation n o t).1.told = o.1.told := by
  unfold applyAttenuation; split <;> rfl

theorem noteOffChan_told (n : Nat) (o : Out) : (noteOffChan n o).1.told = o.1.told := applyAttenuation_told n o 15

theorem applyLevel_told {buf : Nat → Nat} {n : Nat} {o o' : Out} (h : applyLevel env buf n o = some o') :
    o'.1.told = o.1.told := by
  unfold applyLevel at h
  split at h
  · cases h
  split at h
  · cases h
  simp only at h
  split at h
  · cases h
  injection h with h
  subst h
  rw [applyAttenuation_told, applyTone_told]

theorem stepLoopStart_told {buf : Nat → Nat} {c c' : Chan} (h : stepLoopStart env buf c = some c') :
    c'.told = c.told := by
  unfold stepLoopStart at h
  split at h
  · cases h
  injection h with h
  subst h
  split <;> rfl

theorem stepLoopEnd_told {buf : Nat → Nat} {c c' : Chan} (h : stepLoopEnd env buf c = some c') :
    c'.told = c.told := by
  unfold stepLoopEnd at h
  split at h
  · cases h
  split at h
  · split at h
    · injection h with h
      subst h
      split <;> rfl
    · injection h with h
      rw [h]
  · injection h with h
    rw [h]

theorem applyEnvelopeStep_told {buf : Nat → Nat} {n : Nat} {c : Chan} {o : Out}
    (h : applyEnvelopeStep env buf n c = some o) : o.1.told = c.told := by
  unfold applyEnvelopeStep at h
  cases e1 : stepLoopStart env buf c with
  | none => rw [e1] at h; cases h
  | some c1 =>
    rw [e1] at h
    cases e2 : stepLoopEnd env buf c1 with
    | none => simp only [Option.bind_some, e2] at h; cases h
    | some c2 =>
      simp only [Option.bind_some, e2] at h
      rw [← stepLoopStart_told e1, ← stepLoopEnd_told e2]
      split at h
      · cases h
      split at h
      · split at h
        · exact applyLevel_told h
        · injection h with h
          rw [← h]; exact noteOffChan_told n _
      · exact applyLevel_told h

theorem initEnvelope_told {u : Bool} {c c' : Chan} (h : initEnvelope env u c = some c') : c'.told = c.told := by
  unfold initEnvelope at h
  split at h
  · injection h with h; rw [← h]; rfl
  split at h
  · injection h with h; rw [← h]; rfl
  · cases h

theorem onChan_told (s : St) (n m : Nat) (f : Chan → Option Out)
    (h : ∀ o, f (s.ch n) = some o → o.1.told = (s.ch n).told) : ((onChan s n f).ch m).told = (s.ch m).told := by
  by_cases e : m = n
  · subst e
    unfold onChan; split
    · cases e : f (s.ch m) with
      | none => rfl
      | some o => simp only [upd_same]; exact h o e
    · rfl
  · rw [onChan_other s n m f e]

theorem tickChan_told {buf : Nat → Nat} {n : Nat} {c : Chan} {o : Out} (h : tickChan env buf n c = some o) :
    o.1.told = c.told := by
  unfold tickChan at h
  split at h
  · cases e : deref env buf c.step with
    | none => rw [e] at h; cases h
    | some b =>
      rw [e] at h
      simp only [Option.bind_some] at h
      rw [applyEnvelopeStep_told h]
      split <;> rfl
  · injection h with h; rw [← h]

theorem tick_told (s : St) (m : Nat) : ((tick env s).ch m).told = (s.ch m).told ∧ (s.fault = true → (tick env s).fault = true) := by
  unfold tick
  exact List.foldlRecOn (motive := fun u : St => (u.ch m).told = (s.ch m).told ∧ (s.fault = true → u.fault = true))
    (List.range 4) _ ⟨rfl, id⟩ fun u hu n _ =>
      ⟨(onChan_told _ _ _ _ fun o h => tickChan_told h).trans hu.1, fun h => onChan_fault _ _ _ (hu.2 h)⟩

/-- From `x` to `y` the pitch of channel `m` stays the same, and faults stay. -/
structure Hold (m : Nat) (x y : St) : Prop where
  told : (y.ch m).told = (x.ch m).told
  fault : x.fault = true → y.fault = true

theorem Hold.refl {m : Nat} {x : St} : Hold m x x := ⟨rfl, id⟩

theorem Hold.trans {m : Nat} {x y z : St} (h : Hold m x y) (k : Hold m y z) : Hold m x z :=
  ⟨k.told.trans h.told, k.fault ∘ h.fault⟩

/-- Calls that may set the pitch of channel `m`. -/
def Op.sets (m : Nat) : Op → Prop
  | .noteOn n _ _ _ | .pitch n _ _ => n = m
  | .reset => True
  | _ => False

theorem step_hold {s : St} {op : Op} {m : Nat} (h : ¬op.sets m) : Hold m s (step env s op) := by
  cases op with
  | noteOn n p c v =>
    simp only [step, noteOn]
    split
    · exact .refl
    exact ⟨by rw [Chan.told, onChan_other _ _ _ _ (Ne.symm h)]; rfl, onChan_fault _ _ _⟩
  | noteOff n | allNotesOff n =>
    refine ⟨onChan_told _ _ _ _ fun o h => ?_, onChan_fault _ _ _⟩
    unfold releaseChan at h
    split at h
    · split at h
      · injection h with h; rw [← h]; rfl
      · injection h with h; rw [← h]; exact noteOffChan_told n _
    · injection h with h; rw [← h]
  | volume n v =>
    refine ⟨onChan_told _ _ _ _ fun o h => ?_, onChan_fault _ _ _⟩
    unfold volumeChan at h
    simp only at h
    split at h
    · cases e : deref env s.userBuf (s.ch n).step with
      | none => rw [e] at h; cases h
      | some b =>
        rw [e] at h
        simp only [Option.bind_some] at h
        cases e2 : effectiveAttenuation { (s.ch n) with volume := v } b with
        | none => rw [e2] at h; cases h
        | some a =>
          rw [e2] at h
          injection h with h
          rw [← h, applyAttenuation_told]; rfl
    · injection h with h; rw [← h]; rfl
  | program n v => exact ⟨onChan_told _ _ _ _ fun o h => by injection h with h; rw [← h]; rfl, onChan_fault _ _ _⟩
  | pitch n p c => exact ⟨by rw [Chan.told, step, pitch, onChan_other _ _ _ _ (Ne.symm h)]; rfl, onChan_fault _ _ _⟩
  | tick => exact ⟨(tick_told s m).1, (tick_told s m).2⟩
  | loadEnvelope e =>
    simp only [step, loadEnvelope]
    split
    · exact ⟨rfl, fun _ => rfl⟩
    · exact ⟨rfl, id⟩
  | reset => exact absurd trivial h

theorem step_fault {s : St} {op : Op} (h : s.fault = true) : (step env s op).fault = true := by
  cases op with
  | noteOn n p c v =>
    simp only [step, noteOn]
    split
    · exact h
    · exact onChan_fault _ _ _ h
  | tick => exact (tick_told s 0).2 h
  | loadEnvelope e =>
    simp only [step, loadEnvelope]
    split
    · rfl
    · exact h
  | reset =>
    simp only [step, reset]
    exact List.foldlRecOn (motive := fun u : St => u.fault = true) (List.range 4) _ h fun u hu n _ => onChan_fault _ _ _ hu
  | _ => exact onChan_fault _ _ _ h

theorem pitch_sets (s : St) (n p : Nat) (x : Int) :
    (step env s (.pitch n p x)).fault = true ∨ ((step env s (.pitch n p x)).ch n).told = (p, x) := by
  simp only [step, pitch, onChan]
  split
  · cases e : pitchChan env s n p x (s.ch n) with
    | none => exact .inl rfl
    | some o =>
      refine .inr ?_
      simp only [upd_same]
      unfold pitchChan at e
      simp only at e
      cases e1 : deref env s.userBuf (s.ch n).step with
      | none => rw [e1] at e; cases e
      | some b =>
        rw [e1] at e
        simp only [Option.bind_some] at e
        cases e2 : envelopeTone env.isPAL { (s.ch n) with pitch := p, cents := x } b with
        | none => rw [e2] at e; cases e
        | some t =>
          rw [e2] at e
          injection e with e
          rw [← e, applyTone_told]; rfl
  · exact .inl rfl

theorem noteOn_sets (s : St) (n : Nat) {p : Nat} (hp : 45 ≤ p) (x : Int) (v : Nat) :
    (step env s (.noteOn n p x v)).fault = true ∨ ((step env s (.noteOn n p x v)).ch n).told = (p, x) := by
  simp only [step, noteOn, onChan, if_neg (by omega : ¬p < 45)]
  split
  · cases e : noteOnChan env s n p x v (s.ch n) with
    | none => exact .inl rfl
    | some o =>
      refine .inr ?_
      simp only [upd_same]
      unfold noteOnChan at e
      simp only at e
      cases e1 : initEnvelope env s.userLoaded
          { (s.ch n) with noteReleased := false, pitch := p, cents := x, velocity := v, noteOn := true } with
      | none => rw [e1] at e; cases e
      | some c1 =>
        rw [e1] at e
        simp only [Option.bind_some] at e
        rw [applyEnvelopeStep_told e, initEnvelope_told e1]; rfl
  · exact .inl rfl

/-! ### The tone of a channel that sounds -/

/-- The tone of the channel is that of its pitch with the shift of the envelope byte it is at, its attenuation that of its
volume, its velocity and this byte. -/
def Voiced (env : Env) (buf : Nat → Nat) (c : Chan) : Prop :=
  ∃ b, deref env buf c.step = some b ∧ envelopeTone env.isPAL c b = some c.freq ∧ effectiveAttenuation c b = some c.attenuation

/-- Channel `n` has the tone of its pitch and the attenuation of its level while it sounds. -/
def ToneOf (env : Env) (n : Nat) (s : St) : Prop := (s.ch n).noteOn = true → Voiced env s.userBuf (s.ch n)

theorem envelopeTone_told {pal : Bool} {c d : Chan} (h : d.told = c.told) (b : Nat) : envelopeTone pal d b = envelopeTone pal c b := by
  have h1 : d.pitch = c.pitch := congrArg (·.1) h
  have h2 : d.cents = c.cents := congrArg (·.2) h
  unfold envelopeTone; rw [h1, h2]

theorem effectiveAttenuation_of {c d : Chan} (h1 : d.volume = c.volume) (h2 : d.velocity = c.velocity) (b : Nat) :
    effectiveAttenuation d b = effectiveAttenuation c b := by unfold effectiveAttenuation; rw [h1, h2]

theorem Voiced.of {buf : Nat → Nat} {c d : Chan} (h : Voiced env buf c) (h1 : d.told = c.told) (h2 : d.step = c.step)
    (h3 : d.freq = c.freq) (h4 : d.volume = c.volume) (h5 : d.velocity = c.velocity) (h6 : d.attenuation = c.attenuation) :
    Voiced env buf d := by
  obtain ⟨b, x, y, z⟩ := h
  exact ⟨b, by rw [h2]; exact x, by rw [envelopeTone_told h1, h3]; exact y, by rw [effectiveAttenuation_of h4 h5, h6]; exact z⟩

theorem applyAttenuation_attenuation (n : Nat) (o : Out) (a : Nat) : (applyAttenuation n o a).1.attenuation = a := by
  unfold applyAttenuation; split
  · rfl
  · rename_i h; exact (Decidable.not_not.1 h).symm

theorem applyAttenuation_levels (n : Nat) (o : Out) (a : Nat) :
    (applyAttenuation n o a).1.volume = o.1.volume ∧ (applyAttenuation n o a).1.velocity = o.1.velocity := by
  unfold applyAttenuation; split <;> exact ⟨rfl, rfl⟩

theorem applyTone_levels (n : Nat) (o : Out) (a : Nat) :
    (applyTone n o a).1.volume = o.1.volume ∧ (applyTone n o a).1.velocity = o.1.velocity ∧
      (applyTone n o a).1.attenuation = o.1.attenuation := by
  unfold applyTone; split <;> exact ⟨rfl, rfl, rfl⟩

theorem applyTone_freq (n : Nat) (o : Out) (t : Nat) : (applyTone n o t).1.freq = t := by
  unfold applyTone; split
  · rfl
  · rename_i h; exact (Decidable.not_not.1 h).symm

theorem applyAttenuation_freq (n : Nat) (o : Out) (t : Nat) : (applyAttenuation n o t).1.freq = o.1.freq := by
  unfold applyAttenuation; split <;> rfl

theorem applyLevel_voiced {buf : Nat → Nat} {n : Nat} {o o' : Out} (h : applyLevel env buf n o = some o') :
    Voiced env buf o'.1 := by
  have k1 := applyLevel_told h
  have k2 := (applyLevel_same h).step
  unfold applyLevel at h
  split at h
  · cases h
  rename_i b hb
  split at h
  · cases h
  rename_i t ht
  simp only at h
  split at h
  · cases h
  rename_i a ha
  injection h with h
  refine ⟨b, by rw [k2]; exact hb, ?_, ?_⟩
  · rw [envelopeTone_told k1, ht, ← h, applyAttenuation_freq, applyTone_freq]
  · rw [← h, applyAttenuation_attenuation, ← ha]
    exact effectiveAttenuation_of (applyAttenuation_levels n _ a).1 (applyAttenuation_levels n _ a).2 b

theorem applyEnvelopeStep_voiced {buf : Nat → Nat} {n : Nat} {c : Chan} {o : Out}
    (h : applyEnvelopeStep env buf n c = some o) (on : o.1.noteOn = true) : Voiced env buf o.1 := by
  unfold applyEnvelopeStep at h
  cases e1 : stepLoopStart env buf c with
  | none => rw [e1] at h; cases h
  | some c1 =>
    rw [e1] at h
    cases e2 : stepLoopEnd env buf c1 with
    | none => simp only [Option.bind_some, e2] at h; cases h
    | some c2 =>
      simp only [Option.bind_some, e2] at h
      split at h
      · cases h
      split at h
      · split at h
        · exact applyLevel_voiced h
        · injection h with h
          rw [← h, (noteOffChan_on n _).1] at on; cases on
      · exact applyLevel_voiced h

theorem onChan_toneOf {s : St} {m n : Nat} {f : Chan → Option Out}
    (h : m = n → ∀ o, f (s.ch n) = some o → o.1.noteOn = true → Voiced env s.userBuf o.1) (k : ToneOf env m s) :
    ToneOf env m (onChan s n f) := by
  unfold ToneOf
  rw [onChan_buf]
  by_cases e : m = n
  · subst e
    unfold onChan; split
    · cases e : f (s.ch m) with
      | none => exact k
      | some o => simp only [upd_same]; exact h rfl o e
    · exact k
  · rw [onChan_other s n m f e]; exact k

theorem tickChan_voiced {buf : Nat → Nat} {n : Nat} {c : Chan} {o : Out} (h : tickChan env buf n c = some o)
    (on : o.1.noteOn = true) : Voiced env buf o.1 := by
  unfold tickChan at h
  split at h
  · cases e1 : deref env buf c.step with
    | none => rw [e1] at h; cases h
    | some b =>
      rw [e1] at h
      exact applyEnvelopeStep_voiced h on
  · rename_i hn
    injection h with h; rw [← h] at on; exact absurd on hn

/-- A frame gives every channel that sounds the tone of its pitch, whatever it had. -/
theorem tick_voices {m : Nat} (hm : m < 4) (s : St) : (step env s .tick).fault = true ∨ ToneOf env m (step env s .tick) := by
  have keep : ∀ (l : List Nat) (s : St), s.fault = true ∨ ToneOf env m s →
      (l.foldl (fun s n => onChan s n (tickChan env s.userBuf n)) s).fault = true ∨
        ToneOf env m (l.foldl (fun s n => onChan s n (tickChan env s.userBuf n)) s) := by
    intro l
    induction l with
    | nil => intro s h; exact h
    | cons n l ih =>
      intro s h
      exact ih _ (h.imp (onChan_fault _ _ _) (onChan_toneOf fun _ o e on => tickChan_voiced e on))
  have key : ∀ (l : List Nat) (s : St), m ∈ l →
      (l.foldl (fun s n => onChan s n (tickChan env s.userBuf n)) s).fault = true ∨
        ToneOf env m (l.foldl (fun s n => onChan s n (tickChan env s.userBuf n)) s) := by
    intro l
    induction l with
    | nil => intro s h; cases h
    | cons n l ih =>
      intro s h
      by_cases e : m = n
      · subst e
        refine keep l _ ?_
        unfold ToneOf
        rw [onChan_buf]
        simp only [onChan, if_pos hm]
        cases e : tickChan env s.userBuf m (s.ch m) with
        | none => exact .inl rfl
        | some o => simp only [upd_same]; exact .inr fun on => tickChan_voiced e on
      · exact ih _ ((List.mem_cons.1 h).resolve_left e)
  exact key (List.range 4) s (List.mem_range.2 hm)

theorem step_toneOf {s : St} {op : Op} {m : Nat} (h : (∀ e, op ≠ .loadEnvelope e) ∨ (s.ch m).noteOn = false)
    (k : ToneOf env m s) : ToneOf env m (step env s op) := by
  cases op with
  | noteOn n p c v =>
    simp only [step, noteOn]
    split
    · exact k
    refine onChan_toneOf (fun _ o e on => ?_) k
    unfold noteOnChan at e
    simp only at e
    cases e1 : initEnvelope env s.userLoaded
        { (s.ch n) with noteReleased := false, pitch := p, cents := c, velocity := v, noteOn := true } with
    | none => rw [e1] at e; cases e
    | some c1 =>
      rw [e1] at e
      exact applyEnvelopeStep_voiced e on
  | noteOff n | allNotesOff n =>
    refine onChan_toneOf (fun em o e on => ?_) k
    subst em
    unfold releaseChan at e
    split at e
    · rename_i hn
      split at e
      · injection e with e; rw [← e]; exact (k hn).of rfl rfl rfl rfl rfl rfl
      · injection e with e; rw [← e, (noteOffChan_on _ _).1] at on; cases on
    · injection e with e; rw [← e] at on; rename_i hn; exact absurd on hn
  | volume n v =>
    refine onChan_toneOf (fun em o e on => ?_) k
    subst em
    unfold volumeChan at e
    simp only at e
    split at e
    · rename_i hn
      cases e1 : deref env s.userBuf (s.ch m).step with
      | none => rw [e1] at e; cases e
      | some b =>
        rw [e1] at e
        simp only [Option.bind_some] at e
        cases e2 : effectiveAttenuation { (s.ch m) with volume := v } b with
        | none => rw [e2] at e; cases e
        | some a =>
          rw [e2] at e
          injection e with e
          rw [← e]
          obtain ⟨b', x, y, -⟩ := k hn
          rw [e1] at x
          injection x with x
          subst x
          refine ⟨b, by rw [(applyAttenuation_same m _ a).step]; exact e1, ?_, ?_⟩
          · rw [envelopeTone_told (c := s.ch m) (by rw [applyAttenuation_told]; rfl), applyAttenuation_freq]; exact y
          · rw [effectiveAttenuation_of (applyAttenuation_levels m _ a).1 (applyAttenuation_levels m _ a).2, e2,
              applyAttenuation_attenuation]
    · rename_i hn; injection e with e; rw [← e] at on; exact absurd on hn
  | program n v =>
    refine onChan_toneOf (fun em o e on => ?_) k
    subst em
    injection e with e
    rw [← e] at on ⊢
    exact (k on).of rfl rfl rfl rfl rfl rfl
  | pitch n p c =>
    refine onChan_toneOf (fun em o e on => ?_) k
    subst em
    unfold pitchChan at e
    simp only at e
    cases e1 : deref env s.userBuf (s.ch m).step with
    | none => rw [e1] at e; cases e
    | some b =>
      rw [e1] at e
      simp only [Option.bind_some] at e
      cases e2 : envelopeTone env.isPAL { (s.ch m) with pitch := p, cents := c } b with
      | none => rw [e2] at e; cases e
      | some t =>
        rw [e2] at e
        injection e with e
        rw [← e]
        rw [← e, (applyTone_same _ _ t).on] at on
        obtain ⟨b', x, -, y⟩ := k on
        rw [e1] at x
        injection x with x
        subst x
        obtain ⟨l1, l2, l3⟩ := applyTone_levels m ({ (s.ch m) with pitch := p, cents := c }, []) t
        refine ⟨b, ?_, ?_, ?_⟩
        · rw [(applyTone_same m _ t).step]; exact e1
        · rw [envelopeTone_told (applyTone_told m _ t), e2, applyTone_freq]
        · rw [effectiveAttenuation_of l1 l2, l3]; exact y
  | tick =>
    simp only [step, tick]
    exact List.foldlRecOn (motive := fun u : St => ToneOf env m u) (List.range 4) _ k
      fun u hu n _ => onChan_toneOf (fun _ o e on => tickChan_voiced e on) hu
  | loadEnvelope e =>
    rcases h with h | h
    · exact absurd rfl (h e)
    · intro on
      have : ((step env s (.loadEnvelope e)).ch m).noteOn = (s.ch m).noteOn := by
        simp only [step, loadEnvelope]; split <;> rfl
      rw [this, h] at on; cases on
  | reset =>
    simp only [step, reset]
    refine List.foldlRecOn (motive := fun u : St => ToneOf env m u) (List.range 4) _ k fun u hu n _ =>
      onChan_toneOf (fun em o e on => ?_) hu
    unfold resetChan at e
    simp only [initEnvelope, Bool.false_eq_true, if_false] at e
    split at e
    · injection e with e; rw [← e] at on; cases on
    · cases e

theorem run_toneOf {m : Nat} (ops : List Op) : ∀ s : St, (∀ e, .loadEnvelope e ∉ ops) → ToneOf env m s →
    ToneOf env m (run env s ops) := by
  induction ops with
  | nil => intro s _ k; exact k
  | cons o l ih =>
    intro s h k
    exact ih _ (fun e he => h e (by simp [he])) (step_toneOf (.inl fun e he => h e (by simp [he])) k)

end Mdmi.Psg

namespace Mdmi.Midi.Sq
open Psg (Hold)

variable {env : Env} {i j c : Nat} {s t u : St}

/-- Nothing happens to the pitch of PSG voice `i`; it may stop. -/
structure Bide (i : Nat) (s t : St) : Prop where
  wired : PsgWired True i s → PsgWired True i t
  map : (t.dev i).midiChannel = (s.dev i).midiChannel
  on : (t.dev i).noteOn = true → (s.dev i).noteOn = true
  pc : (t.dev i).noteOn = true → (t.dev i).midiChannel < 16 → pcOf t i = pcOf s i
  hold : Hold (i - 6) s.psg t.psg

theorem Bide.refl : Bide i s s := ⟨id, rfl, id, fun _ _ => rfl, .refl⟩

theorem Bide.trans (h : Bide i s t) (k : Bide i t u) : Bide i s u :=
  ⟨fun x => k.wired (h.wired x), k.map.trans h.map, fun x => h.on (k.on x),
    fun x y => (k.pc x y).trans (h.pc (k.on x) (by rw [← k.map]; exact y)), h.hold.trans k.hold⟩

/-- Calls to the PSG driver that hold the pitch, and whatever else leaves the engine's tables. -/
theorem Bide.psg (h1 : t.dev = s.dev) (h2 : t.chan = s.chan) (h : Hold (i - 6) s.psg t.psg) : Bide i s t :=
  ⟨fun k => k.of fun l => by rw [h1], by rw [h1], fun x => by rw [h1] at x; exact x,
    fun _ _ => by unfold pcOf; rw [h1, h2], h⟩

/-- Stores to a device channel. -/
theorem Bide.upd {d : Dev} (h : t.dev = Mdmi.upd s.dev j d) (hn : d.num = (s.dev j).num) (ho : d.ops = (s.dev j).ops)
    (hm : d.midiChannel = (s.dev j).midiChannel ∨ j ≠ i)
    (hv : j = i → d.noteOn = true → (s.dev j).noteOn = true ∧ d.pitch = (s.dev j).pitch ∧ d.cents = (s.dev j).cents ∧
      d.pitchBend = (s.dev j).pitchBend)
    (h2 : t.chan = s.chan) (hf : Hold (i - 6) s.psg t.psg) : Bide i s t := by
  have own : t.dev j = d := by rw [h, Psg.upd_same]
  have oth : ∀ l, l ≠ j → t.dev l = s.dev l := fun l e => by rw [h, Psg.upd_other _ _ _ _ e]
  have map : (t.dev i).midiChannel = (s.dev i).midiChannel := by
    by_cases e : i = j
    · subst e
      rw [own]
      rcases hm with hm | hm
      · exact hm
      · exact absurd rfl hm
    · rw [oth i e]
  have val : (t.dev i).noteOn = true → (s.dev i).noteOn = true ∧ (t.dev i).pitch = (s.dev i).pitch ∧
      (t.dev i).cents = (s.dev i).cents ∧ (t.dev i).pitchBend = (s.dev i).pitchBend := by
    by_cases e : i = j
    · subst e; rw [own]; exact hv rfl
    · rw [oth i e]; exact fun x => ⟨x, rfl, rfl, rfl⟩
  have w : ∀ l, (t.dev l).ops = (s.dev l).ops ∧ (t.dev l).num = (s.dev l).num := fun l => by
    by_cases e : l = j
    · subst e; rw [own]; exact ⟨ho, hn⟩
    · rw [oth l e]; exact ⟨rfl, rfl⟩
  refine ⟨fun k => ⟨fun x => by rw [(w i).1, (w i).2]; exact k.own x, fun l => by rw [(w l).1, (w l).2]; exact k.only l⟩, map,
    fun x => (val x).1, fun x _ => ?_, hf⟩
  obtain ⟨-, a, b, c⟩ := val x
  unfold pcOf
  rw [a, b, c, map, h2]

/-- Stores to a MIDI channel. -/
theorem Bide.setChan {f : Chan → Chan}
    (h : (s.dev i).midiChannel = c → (s.dev i).noteOn = true →
      (f (s.chan c)).range = (s.chan c).range ∧ (f (s.chan c)).fineTune = (s.chan c).fineTune) :
    Bide i s (setChan s c f) := by
  refine ⟨fun k => k.of fun _ => rfl, rfl, id, fun x _ => ?_, .refl⟩
  unfold pcOf
  rw [setChan_dev, setChan_chan]
  by_cases e : (s.dev i).midiChannel = c
  · obtain ⟨a, b⟩ := h e x
    rw [e, Psg.upd_same, a, b]
  · rw [Psg.upd_other _ _ _ _ e]

/-! ### Calls through the vtable -/

theorem psgCall_hold {op : Psg.Op} (h : ¬op.sets (i - 6)) : Hold (i - 6) s.psg (psgCall env s op).psg := Psg.step_hold h

theorem devVolume_hold (v : Nat) : Hold (i - 6) s.psg (devVolume env s j v).psg := by
  unfold devVolume; split
  any_goals exact .refl
  exact psgCall_hold id

theorem devPan_hold (v : Nat) : Hold (i - 6) s.psg (devPan env s j v).psg := by
  unfold devPan; split <;> exact .refl

theorem devProgram_hold (v : Nat) : Hold (i - 6) s.psg (devProgram env s j v).psg := by
  unfold devProgram; split
  any_goals exact .refl
  exact psgCall_hold id

theorem devNoteOff_hold : Hold (i - 6) s.psg (devNoteOff env s j).psg := by
  unfold devNoteOff; split
  any_goals exact .refl
  exact psgCall_hold id

theorem devAllNotesOff_hold : Hold (i - 6) s.psg (devAllNotesOff env s j).psg := by
  unfold devAllNotesOff; split
  any_goals exact .refl
  exact psgCall_hold id

theorem devPitch_hold (k : PsgWired True i s) (h : j ≠ i) (p : Nat) (x : Int) : Hold (i - 6) s.psg (devPitch env s j p x).psg := by
  unfold devPitch; split
  any_goals exact .refl
  rename_i e
  exact psgCall_hold fun e' => h (k.only j e e')

theorem devNoteOn_hold (k : PsgWired True i s) (h : j ≠ i) (p : Nat) (x : Int) (v : Nat) :
    Hold (i - 6) s.psg (devNoteOn env s j p x v).psg := by
  unfold devNoteOn; split
  any_goals exact .refl
  rename_i e
  exact psgCall_hold fun e' => h (k.only j e e')

theorem setDownstreamPitch_bide (k : PsgWired True i s) (hne : j ≠ i) : Bide i s (setDownstreamPitch env s j) := by
  refine .psg (by simp) (by simp) ?_
  unfold setDownstreamPitch withPitch
  simp only
  split
  · exact devPitch_hold k hne _ _
  · exact .refl

theorem setDownstreamNoteOn_bide (k : PsgWired True i s) (hne : j ≠ i) (v : Nat) : Bide i s (setDownstreamNoteOn env s j v) := by
  refine .psg (by simp) (by simp) ?_
  unfold setDownstreamNoteOn withPitch
  simp only
  split
  · exact devNoteOn_hold k hne _ _ _
  · exact .refl

theorem updateVolume_bide : Bide i s (updateVolume env s c j) := by
  refine .upd (updateVolume_dev c j) rfl rfl (.inl rfl) (fun _ h => ⟨h, rfl, rfl, rfl⟩) (by simp) ?_
  unfold updateVolume; split
  · exact devVolume_hold _
  · exact .refl

theorem updatePan_bide : Bide i s (updatePan env s c j) := by
  refine .upd (updatePan_dev c j) rfl rfl (.inl rfl) (fun _ h => ⟨h, rfl, rfl, rfl⟩) (by simp) ?_
  unfold updatePan; split
  · exact devPan_hold _
  · exact .refl

theorem updateProgram_bide : Bide i s (updateProgram env s c j) := by
  refine .upd (updateProgram_dev c j) rfl rfl (.inl rfl) (fun _ h => ⟨h, rfl, rfl, rfl⟩) (by simp) ?_
  unfold updateProgram; split
  · exact devProgram_hold _
  · exact .refl

theorem setDev_bide {f : Dev → Dev} (hn : (f (s.dev j)).num = (s.dev j).num) (ho : (f (s.dev j)).ops = (s.dev j).ops)
    (hm : (f (s.dev j)).midiChannel = (s.dev j).midiChannel ∨ j ≠ i)
    (hv : j = i → (f (s.dev j)).noteOn = true → (s.dev j).noteOn = true ∧ (f (s.dev j)).pitch = (s.dev j).pitch ∧
      (f (s.dev j)).cents = (s.dev j).cents ∧ (f (s.dev j)).pitchBend = (s.dev j).pitchBend) :
    Bide i s (setDev s j f) := .upd rfl hn ho hm hv rfl .refl

theorem updatePitchBend_bide (k : PsgWired True i s) (hne : j ≠ i) : Bide i s (updatePitchBend env s c j) := by
  unfold updatePitchBend; split
  · have h := setDev_bide (s := s) (j := j) (i := i) (f := fun d => { d with pitchBend := (s.chan c).pitchBend }) rfl rfl
      (.inl rfl) fun e => absurd e hne
    exact h.trans (setDownstreamPitch_bide (h.wired k) hne)
  · exact .refl

theorem fmCall_bide {op : Fm.Op} : Bide i s (fmCall env s op) := .psg rfl rfl .refl

theorem say_bide (m : Msg) : Bide i s (say s m) := .psg rfl rfl .refl

theorem updateDev_bide (k : PsgWired True i s) (hne : j ≠ i) : Bide i s (updateDev env s j) := by
  unfold updateDev
  simp only
  split
  · have h1 : Bide i s (fmCall env s (.percussive (s.dev j).num ((s.dev j).midiChannel == 9))) := fmCall_bide
    have h2 := h1.trans (updateVolume_bide (c := (s.dev j).midiChannel) (j := j) (env := env))
    have h3 := h2.trans (updatePan_bide (c := (s.dev j).midiChannel) (j := j) (env := env))
    have h4 := h3.trans (updateProgram_bide (c := (s.dev j).midiChannel) (j := j) (env := env))
    exact h4.trans (updatePitchBend_bide (h4.wired k) hne)
  · exact .psg rfl rfl .refl

theorem startNote_bide (k : PsgWired True i s) (hne : j ≠ i) (p v : Nat) : Bide i s (startNote env s j c p v) := by
  unfold startNote
  extract_lets a b d
  have h1 : Bide i s a := by
    simp only [a]; split
    · exact .psg (by simp) (by simp) (devProgram_hold _)
    · exact .refl
  have h2 : Bide i a b := setDev_bide rfl rfl (.inr hne) fun e => absurd e hne
  clear_value a
  have h3 := h1.trans h2
  clear_value b
  have h4 : Bide i b d := updateDev_bide (h3.wired k) hne
  have h5 := h3.trans h4
  clear_value d
  exact h5.trans (setDownstreamNoteOn_bide (h5.wired k) hne v)

/-! ### The invariant -/

/-- While voice `i` sounds a note within the range of the chip, the PSG driver has its pitch. -/
structure Pitched (i : Nat) (s : St) : Prop where
  wired : PsgWired True i s
  right : (s.dev i).noteOn = true → (s.dev i).midiChannel < 16 → 45 ≤ (pcOf s i).pitch →
    s.psg.fault = true ∨ (s.psg.ch (i - 6)).told = ((pcOf s i).pitch, (pcOf s i).cents)

theorem Bide.pitched (h : Bide i s t) (k : Pitched i s) : Pitched i t :=
  ⟨h.wired k.wired, fun x y p => by
    rw [h.pc x y] at p ⊢
    exact (k.right (h.on x) (by rw [← h.map]; exact y) p).imp h.hold.fault fun e => h.hold.told.trans e⟩

/-- Steps that leave the engine's tables and the PSG driver. -/
theorem Pitched.plain (k : Pitched i s) (h1 : t.dev = s.dev) (h2 : t.chan = s.chan) (h4 : t.psg = s.psg) : Pitched i t :=
  (Bide.psg h1 h2 (by rw [h4]; exact .refl)).pitched k

/-- A voice that is off. -/
theorem silent (k : PsgWired True i s) (h : (s.dev i).noteOn = false) : Pitched i s :=
  ⟨k, fun x => by rw [h] at x; cases x⟩

theorem setDownstreamPitch_pitched (k : PsgWired True i s) : Pitched i (setDownstreamPitch env s i) := by
  refine ⟨k.of fun l => by simp, ?_⟩
  have hp : pcOf (setDownstreamPitch env s i) i = pcOf s i := by unfold pcOf; simp
  rw [hp]
  unfold setDownstreamPitch withPitch
  simp only
  split
  · simp only [devPitch, (k.own trivial).1, (k.own trivial).2]
    exact fun _ _ _ => Psg.pitch_sets s.psg (i - 6) (pcOf s i).pitch (pcOf s i).cents
  · rename_i h
    exact fun _ y => absurd y h

theorem setDownstreamNoteOn_pitched (k : PsgWired True i s) (v : Nat) : Pitched i (setDownstreamNoteOn env s i v) := by
  refine ⟨k.of fun l => by simp, ?_⟩
  have hp : pcOf (setDownstreamNoteOn env s i v) i = pcOf s i := by unfold pcOf; simp
  rw [hp]
  unfold setDownstreamNoteOn withPitch
  simp only
  split
  · simp only [devNoteOn, (k.own trivial).1, (k.own trivial).2]
    exact fun _ _ h => Psg.noteOn_sets s.psg (i - 6) h (pcOf s i).cents v
  · rename_i h
    exact fun _ y => absurd y h

theorem setDev_wired {f : Dev → Dev} (k : PsgWired True i s) (hn : (f (s.dev i)).num = (s.dev i).num)
    (ho : (f (s.dev i)).ops = (s.dev i).ops) : PsgWired True i (setDev s i f) := k.setDev' ho hn

theorem updatePitchBend_wired (k : PsgWired True i s) : PsgWired True i (updatePitchBend env s c j) := k.of updatePitchBend_sig

theorem updatePitchBend_pitched (k : Pitched i s) : Pitched i (updatePitchBend env s c j) := by
  by_cases e : j = i
  · subst e
    unfold updatePitchBend; split
    · exact setDownstreamPitch_pitched (setDev_wired k.wired rfl rfl)
    · exact k
  · exact (updatePitchBend_bide k.wired e).pitched k

theorem startNote_own (k : PsgWired True i s) (p v : Nat) : Pitched i (startNote env s i c p v) := by
  unfold startNote
  extract_lets a b d
  have ka : PsgWired True i a := by
    simp only [a]; split
    · exact k.of fun l => by simp
    · exact k
  clear_value a
  have kb : PsgWired True i b := setDev_wired ka rfl rfl
  clear_value b
  have kd : PsgWired True i d := by
    simp only [d, updateDev]
    split
    · have k1 : PsgWired True i (fmCall env b (.percussive (b.dev i).num ((b.dev i).midiChannel == 9))) := kb.of fun _ => rfl
      have k2 := (updateVolume_bide (c := (b.dev i).midiChannel) (j := i) (env := env)).wired k1
      have k3 := (updatePan_bide (c := (b.dev i).midiChannel) (j := i) (env := env)).wired k2
      have k4 := (updateProgram_bide (c := (b.dev i).midiChannel) (j := i) (env := env)).wired k3
      exact updatePitchBend_wired k4
    · exact kb.of fun _ => rfl
  exact setDownstreamNoteOn_pitched kd v

/-! ### Notes, bends, ticks -/

theorem fold_pitched {α : Type} {f : St → α → St} (l : List α)
    (h : ∀ s, ∀ a ∈ l, Pitched i s → Pitched i (f s a)) (s : St) (k : Pitched i s) : Pitched i (l.foldl f s) := by
  induction l generalizing s with
  | nil => exact k
  | cons a l ih => exact ih (fun s b hb => h s b (by simp [hb])) _ (h s a (by simp) k)

theorem foreach_pitched {body : St → Nat → St} (h : ∀ s j, Pitched i s → Pitched i (body s j)) (k : Pitched i s) :
    Pitched i (foreach s c body) := by
  refine fold_pitched _ (fun s j hj k => ?_) s k
  split
  · exact h s j k
  · exact k

theorem devChanNoteOn_pitched (k : Pitched i s) (p v : Nat) : Pitched i (devChanNoteOn env s j p v) := by
  unfold devChanNoteOn
  by_cases e : j = i
  · subst e
    exact setDownstreamNoteOn_pitched (setDev_wired k.wired rfl rfl) v
  · have h1 := setDev_bide (s := s) (j := j) (i := i) (f := fun d => { d with noteOn := true, cents := 0, pitch := p }) rfl rfl
      (.inl rfl) fun x => absurd x e
    exact (h1.trans (setDownstreamNoteOn_bide (h1.wired k.wired) e v)).pitched k

theorem devChanNoteOff_bide : Bide i s (devChanNoteOff env s j) :=
  (setDev_bide (s := s) (j := j) (f := fun d => { d with noteOn := false, pitch := 0 }) rfl rfl (.inl rfl)
    fun _ x => by cases x).trans (.psg (devNoteOff_dev j) (devNoteOff_chan j) devNoteOff_hold)

theorem noteOff_pitched (c p : Nat) (k : Pitched i s) : Pitched i (noteOff env s c p) := by
  unfold noteOff
  split
  · exact k.plain rfl rfl rfl
  split
  · exact k.plain rfl rfl rfl
  rename_i next st _
  have ka : Pitched i (setChan s c fun m => { m with stack := st }) := (Bide.setChan fun _ _ => ⟨rfl, rfl⟩).pitched k
  simp only
  generalize setChan s c _ = a at *
  generalize singleVoice a c true = single
  have h : ∀ (l : List Nat) (x : St × Bool), Pitched i x.1 → Pitched i (l.foldl (noteOffBody env c p next single) x).1 := by
    intro l
    induction l with
    | nil => intro x k; exact k
    | cons j l ih =>
      intro x k
      refine ih _ ?_
      obtain ⟨t, handled⟩ := x
      unfold noteOffBody
      simp only
      split
      · rename_i hp
        split
        · split
          · split
            · exact k.plain rfl rfl rfl
            · rename_i st _
              have h1 : Bide i t (setChan t c fun m => { m with stack := st }) := Bide.setChan fun _ _ => ⟨rfl, rfl⟩
              exact (h1.trans (setDev_bide (f := fun d => { d with glide := next }) rfl rfl (.inl rfl)
                fun _ x => ⟨x, rfl, rfl, rfl⟩)).pitched k
          · exact devChanNoteOn_pitched k _ _
        · exact devChanNoteOff_bide.pitched k
      · exact k
  exact h _ (a, false) ka

theorem startNote_pitched (k : Pitched i s) (p v : Nat) : Pitched i (startNote env s j c p v) := by
  by_cases e : j = i
  · subst e; exact startNote_own k.wired p v
  · exact (startNote_bide k.wired e p v).pitched k

theorem noteOn_pitched (c p v : Nat) (k : Pitched i s) : Pitched i (noteOn env s c p v) := by
  unfold noteOn
  split
  · exact noteOff_pitched c p k
  split
  · exact k
  split
  · exact k.plain rfl rfl rfl
  split
  · split
    · exact k.plain rfl rfl rfl
    split
    · exact k.plain rfl rfl rfl
    rename_i st _
    have ks : Pitched i (setChan s c fun m => { m with stack := st, lastVelocity := v }) :=
      (Bide.setChan fun _ _ => ⟨rfl, rfl⟩).pitched k
    simp only
    split
    · exact (setDev_bide rfl rfl (.inl rfl) fun _ x => ⟨x, rfl, rfl, rfl⟩).pitched ks
    · exact startNote_pitched ((setDev_bide rfl rfl (.inl rfl) fun _ x => ⟨x, rfl, rfl, rfl⟩).pitched ks) p v
  · exact startNote_pitched k p v

theorem pitchBend_pitched (c b : Nat) (k : Pitched i s) : Pitched i (pitchBend env s c b) := by
  unfold pitchBend
  refine foreach_pitched (fun t j k => ?_) ((Bide.setChan fun _ _ => ⟨rfl, rfl⟩).pitched k)
  split
  · exact updatePitchBend_pitched k
  · exact k

theorem program_pitched (c p : Nat) (k : Pitched i s) : Pitched i (program env s c p) := by
  unfold program
  extract_lets a b
  have ka : Pitched i a := (Bide.setChan fun _ _ => ⟨rfl, rfl⟩).pitched k
  have kb : Pitched i b := foreach_pitched (fun t j k => updateProgram_bide.pitched k) ka
  clear_value b
  exact kb.plain rfl rfl rfl

theorem allNotesOff_pitched (c : Nat) (k : Pitched i s) : Pitched i (allNotesOff env s c) :=
  foreach_pitched (fun t j k => Bide.pitched
    ((setDev_bide (s := t) (j := j) (f := fun d => { d with noteOn := false, pitch := 0 }) rfl rfl (.inl rfl)
      fun _ x => by cases x).trans (.psg (by simp) (by simp) devAllNotesOff_hold)) k) k

theorem tick_pitched (k : Pitched i s) : Pitched i (tick env s) := by
  unfold tick
  refine fold_pitched _ (fun t j hj k => ?_) s k
  split
  · exact k
  split
  · split
    · unfold processGlide
      split
      · exact k
      · rename_i g _
        by_cases e : j = i
        · subst e
          exact setDownstreamPitch_pitched (setDev_wired k.wired rfl rfl)
        · have h1 := setDev_bide (s := t) (j := j) (i := i)
            (f := fun d => { d with pitch := g.pitch, cents := g.cents, glide := g.target }) rfl rfl (.inl rfl)
            fun x => absurd x e
          exact (h1.trans (setDownstreamPitch_bide (h1.wired k.wired) e)).pitched k
    · exact k
  · exact k.plain rfl rfl rfl

theorem updatePbRange_pitched (hi : i < 13) (c v : Nat) (b : Bool) (k : Pitched i s) : Pitched i (updatePbRange env s c v b) := by
  unfold updatePbRange
  extract_lets a
  have ed : a.dev = s.dev := rfl
  have ef : a.psg = s.psg := rfl
  have ka : PsgWired True i a := k.wired.of fun _ => rfl
  have keep : ((s.dev i).midiChannel = c → (s.dev i).pitchBend = 0x2000) → pcOf a i = pcOf s i := by
    intro h
    unfold pcOf
    by_cases e : (s.dev i).midiChannel = c
    · simp only [a, setChan_dev, setChan_chan, e, Psg.upd_same, h e]
      exact pc_centred _ _ _ _ _
    · simp only [a, setChan_dev, setChan_chan, Psg.upd_other _ _ _ _ e]
  clear_value a
  have kp : ((s.dev i).midiChannel = c → (s.dev i).pitchBend = 0x2000) → Pitched i a := by
    intro h
    refine ⟨ka, ?_⟩
    rw [keep h, ed, ef]; exact k.right
  have sp := foreach_split (s := a) (I := PsgWired True i) (R := fun t u => Bide i t u ∧ u.dev i = t.dev i) (c := c) (i := i)
    (body := fun s i => if (s.dev i).pitchBend ≠ 0x2000 then setDownstreamPitch env s i else s)
    (fun _ => ⟨.refl, rfl⟩) (fun _ _ _ h k => ⟨h.1.trans k.1, k.2.trans h.2⟩)
    (fun t j ht hj _ => by
      show PsgWired True i (if (t.dev j).pitchBend ≠ 0x2000 then setDownstreamPitch env t j else t)
      split
      · exact ht.of fun l => by simp
      · exact ht)
    (fun t j ht hj hne _ => by
      show Bide i t (if (t.dev j).pitchBend ≠ 0x2000 then setDownstreamPitch env t j else t) ∧
        (if (t.dev j).pitchBend ≠ 0x2000 then setDownstreamPitch env t j else t).dev i = t.dev i
      split
      · exact ⟨setDownstreamPitch_bide ht hne, by rw [setDownstreamPitch_dev]⟩
      · exact ⟨.refl, rfl⟩)
    (fun t u h => h.1.map) hi ka
  generalize foreach a c (fun s i => if (s.dev i).pitchBend ≠ 0x2000 then setDownstreamPitch env s i else s) = w at *
  by_cases e : (s.dev i).midiChannel = c
  · rw [if_pos (by rw [ed]; exact e)] at sp
    obtain ⟨t, ht, r1, r2⟩ := sp
    by_cases h : (t.dev i).pitchBend = 0x2000
    · rw [if_neg (by simp [h])] at r2
      exact (r1.1.trans r2.1).pitched (kp fun _ => by rw [← ed, ← r1.2]; exact h)
    · rw [if_pos h] at r2
      exact r2.1.pitched (setDownstreamPitch_pitched ht)
  · rw [if_neg (by rw [ed]; exact e)] at sp
    exact sp.1.pitched (kp fun x => absurd x e)

theorem rpnDataEntry_pitched (hi : i < 13) (c v : Nat) (b : Bool) (k : Pitched i s) : Pitched i (rpnDataEntry env s c v b) := by
  unfold rpnDataEntry; split
  · exact updatePbRange_pitched hi c v b k
  · exact k.plain rfl rfl rfl

/-! ### Resets -/

theorem resetChannels_pitched (h6 : 6 ≤ i) (h9 : i ≤ 9) (k : Clear i s) : Pitched i (resetChannels env s) :=
  silent (resetChannels_mem h6 h9 k).wired (resetChannels_off i (by omega))

theorem generalMidiReset_pitched (h6 : 6 ≤ i) (h9 : i ≤ 9) (k : Memo i s) : Pitched i (generalMidiReset env s) := by
  refine silent (generalMidiReset_mem h6 h9 k).wired ?_
  unfold generalMidiReset
  exact resetChannels_off i (by omega)

theorem initDev_bide (h6 : 6 ≤ i) (k : PsgWired True i s) (hne : j ≠ i) : Bide i s (initDev env s j) := by
  unfold initDev
  extract_lets a
  have oth : ∀ l, l ≠ j → a.dev l = s.dev l := fun l e => by simp [a, Psg.upd_other _ _ _ _ e]
  have h1 : a.chan = s.chan ∧ a.psg = s.psg := ⟨rfl, rfl⟩
  have wa : PsgWired True i s → PsgWired True i a := fun k => k.setDev hne fun h1 h2 => by
    simp only at h1 h2
    split at h1
    · cases h1
    · rename_i h5
      rw [if_neg h5] at h2
      split at h1
      · rename_i h9
        rw [if_pos h9] at h2
        simp only at h2
        omega
      · cases h1
  clear_value a
  have oi := oth i (Ne.symm hne)
  have ba : Bide i s a := ⟨wa, by rw [oi], by rw [oi]; exact id, fun _ _ => by unfold pcOf; rw [oi, h1.1], by rw [h1.2]; exact .refl⟩
  exact ba.trans (updateDev_bide (ba.wired k) hne)

theorem resetAllControllers_pitched (h6 : 6 ≤ i) (h9 : i ≤ 9) {c : Nat} (sy : Synced s) (m : Memo i s) (k : Pitched i s) :
    Pitched i (resetAllControllers env s c) := by
  have tw : PsgWired True i (resetAllControllers env s c) := (resetAllControllers_mem h6 h9 c m).wired
  revert tw
  unfold resetAllControllers
  extract_lets a b
  intro tw
  have hd : b.dynamic = s.dynamic :=
    List.foldlRecOn (motive := fun (t : St) => t.dynamic = s.dynamic) _ _ rfl fun t h i _ => by
      split
      · rw [initDev_dynamic]; exact h
      · exact h
  have eb : foreach a c (initDev env) = b := rfl
  clear_value b
  have hb : s.dynamic = false → i ≠ c → Bide i s b := by
    intro hs hne
    have hm := sy.map hs
    have ba : Bide i s a := Bide.setChan fun e => by rw [hm i (by omega)] at e; exact absurd e hne
    have := foreach_done (s := a) (c := c) (body := initDev env)
      (I := fun t => Bide i s t ∧ ∀ j, j < 13 → (t.dev j).midiChannel = j) (Q := fun _ _ => True)
      (fun t j hj hjc h => by
        have e : j = c := (h.2 j hj).symm.trans hjc
        refine ⟨h.1.trans (initDev_bide h6 (h.1.wired k.wired) (by omega)), fun l hl => ?_⟩
        have d := initDev_dev env t (i := j) hj
        by_cases e' : l = j
        · subst e'; exact d.2.1
        · rw [d.1, Psg.upd_other _ _ _ _ e']; exact h.2 l hl)
      (fun t j l h hj hjc => by
        have d := initDev_dev env t (i := j) hj
        by_cases e' : l = j
        · subst e'; rw [d.2.1, h.2 l hj]
        · rw [d.1, Psg.upd_other _ _ _ _ e'])
      (fun _ _ _ _ _ => trivial) (fun _ _ _ _ _ _ _ _ _ => trivial) ⟨ba, hm⟩
    rw [eb] at this
    exact this.1.1
  have hc : s.dynamic = false → i = c → (b.dev i).noteOn = false := by
    intro hs hne
    have hm := sy.map hs
    have := foreach_done (s := a) (c := c) (body := initDev env)
      (I := fun t => ∀ j, j < 13 → (t.dev j).midiChannel = j) (Q := fun j t => (t.dev j).noteOn = false)
      (fun t j hj hjc h l hl => by
        have d := initDev_dev env t (i := j) hj
        by_cases e' : l = j
        · subst e'; exact d.2.1
        · rw [d.1, Psg.upd_other _ _ _ _ e']; exact h l hl)
      (fun t j l h hj hjc => by
        have d := initDev_dev env t (i := j) hj
        by_cases e' : l = j
        · subst e'; rw [d.2.1, h l hj]
        · rw [d.1, Psg.upd_other _ _ _ _ e'])
      (fun t j h hj hjc => initDev_off env t hj)
      (fun t j l h hj hl hjc e q => by
        rw [(initDev_dev env t (i := j) hj).1, Psg.upd_other _ _ _ _ e]; exact q) hm
    rw [eb] at this
    exact this.2.2 i (by omega) (by show (s.dev i).midiChannel = c; rw [hm i (by omega)]; exact hne)
  have ed : ∀ j, j < 13 → (setDynamicMode b (modeOf b.dynamic)).dev j =
      { b.dev j with midiChannel := if b.dynamic then 0x7F else j } := fun j hj => by
    cases h : b.dynamic <;> simp [setDynamicMode, modeOf, applyDynamicMode, hj]
  have efm : (setDynamicMode b (modeOf b.dynamic)).psg = b.psg ∧ (setDynamicMode b (modeOf b.dynamic)).chan = b.chan := by
    cases h : b.dynamic <;> simp [setDynamicMode, modeOf, applyDynamicMode]
  generalize setDynamicMode b (modeOf b.dynamic) = w at *
  cases hs : s.dynamic with
  | true =>
    have m : ¬ (w.dev i).midiChannel < 16 := by rw [ed i (by omega), hd, hs]; simp
    exact ⟨tw, fun _ y => absurd y m⟩
  | false =>
    by_cases e : i = c
    · have off : (w.dev i).noteOn = false := by rw [ed i (by omega)]; exact hc hs e
      exact silent tw off
    · have kb := (hb hs e).pitched k
      have own : w.dev i = b.dev i := by
        rw [ed i (by omega), hd, hs]
        have : (b.dev i).midiChannel = i := ((hb hs e).map).trans (sy.map hs i (by omega))
        cases hx : b.dev i
        rw [hx] at this
        simp only at this
        simp [this]
      refine ⟨tw, ?_⟩
      have : pcOf w i = pcOf b i := by unfold pcOf; rw [own, efm.2]
      rw [this, own, efm.1]; exact kb.right

/-! ### Controllers and system exclusive messages -/

theorem enableDac_pitched (h6 : 6 ≤ i) (e : Bool) (k : Pitched i s) : Pitched i (enableDac env s e) := by
  unfold enableDac
  have oth : ∀ l, l ≠ 5 → (setDev s 5 fun d => { d with ops := if e = true then .dac else .fm }).dev l = s.dev l :=
    fun l h => by simp [Psg.upd_other _ _ _ _ h]
  refine fmCall_bide.pitched (s := setDev s 5 fun d => { d with ops := if e = true then .dac else .fm }) ?_
  have hf : (setDev s 5 fun d => { d with ops := if e = true then .dac else .fm }).psg = s.psg := rfl
  have hc : (setDev s 5 fun d => { d with ops := if e = true then .dac else .fm }).chan = s.chan := rfl
  have w : PsgWired True i (setDev s 5 fun d => { d with ops := if e = true then .dac else .fm }) :=
    k.wired.setDev (by omega) fun h => by simp only at h; split at h <;> cases h
  generalize (setDev s 5 fun d => { d with ops := if e = true then .dac else .fm }) = t at *
  have oi := oth i (by omega)
  exact Bide.pitched ⟨fun _ => w, by rw [oi], by rw [oi]; exact id, fun _ _ => by unfold pcOf; rw [oi, hc], by rw [hf]; exact .refl⟩ k

theorem setFmParam_pitched (h6 : 6 ≤ i) {n v : Nat} (k : Pitched i s) : Pitched i (setFmParam env s j n v) := by
  unfold setFmParam
  split
  · split
    · exact k
    · exact fmCall_bide.pitched k
  · split
    · split
      · exact k
      · exact enableDac_pitched h6 _ k
    · exact k.plain rfl rfl rfl

theorem ccSwitch_pitched (h6 : 6 ≤ i) (h9 : i ≤ 9) {n v : Nat} (sy : Synced s) (m : Memo i s) (k : Pitched i s) (h84 : n ≠ 84)
    (h85 : n = 85 → (s.dev i).midiChannel = c → (s.dev i).noteOn = true → False) :
    Pitched i (ccSwitch env s c n v) := by
  have kc : ∀ {f : Chan → Chan}, (∀ m, (f m).range = m.range ∧ (f m).fineTune = m.fineTune) → Pitched i (setChan s c f) :=
    fun h => (Bide.setChan fun _ _ => h _).pitched k
  unfold ccSwitch
  split
  · split
    · exact kc fun _ => ⟨rfl, rfl⟩
    · exact k.plain rfl rfl rfl
  · exact foreach_pitched (fun t j k => updateVolume_bide.pitched k) (kc fun _ => ⟨rfl, rfl⟩)
  · exact foreach_pitched (fun t j k => updatePan_bide.pitched k) (kc fun _ => ⟨rfl, rfl⟩)
  · exact allNotesOff_pitched c k
  · exact allNotesOff_pitched c k
  · exact absurd rfl h84
  · exact fmCall_bide.pitched k
  · exact resetAllControllers_pitched h6 h9 sy m k
  · split
    · exact k
    · exact k.plain rfl rfl rfl
  · split
    · exact k
    · exact kc fun _ => ⟨rfl, rfl⟩
  · exact kc fun _ => ⟨rfl, rfl⟩
  · split
    · exact k
    · exact (Bide.setChan fun e on => (h85 rfl e on).elim).pitched k
  · exact rpnDataEntry_pitched (by omega) c v true k
  · exact rpnDataEntry_pitched (by omega) c v false k
  · exact kc fun _ => ⟨rfl, rfl⟩
  · exact kc fun _ => ⟨rfl, rfl⟩
  · exact k
  · exact k
  · exact k
  · exact k
  · unfold storeFromChannel; split
    · exact (say_bide _).pitched (fmCall_bide.pitched k)
    · exact k
  · exact foreach_pitched (fun t j k => setFmParam_pitched h6 k) k

theorem clearAll_bide (d : List Nat) : Bide i s (clearAll env s d) := by
  unfold clearAll
  split
  · have : ∀ (l : List Nat) (s : St), Bide i s (l.foldl (fun s n => fmCall env s (.clear n)) s) := by
      intro l
      induction l with
      | nil => intro s; exact .refl
      | cons n l ih => intro s; exact fmCall_bide.trans (ih _)
    exact (this _ s).trans (say_bide _)
  · exact .psg rfl rfl .refl

theorem handler_bide (c : Nat) (e : List Nat) (j : Nat) (h0 : c ≠ 0) (h3 : c ≠ 3) : Bide i s (handler env s c e j) := by
  unfold handler
  split
  · exact absurd rfl h0
  · exact .psg rfl rfl .refl
  · exact absurd rfl h3
  · exact .psg rfl rfl .refl
  · exact .psg rfl rfl .refl
  · unfold loadPsgEnvelope; split
    · exact .psg rfl rfl .refl
    · exact (Bide.psg (s := s) (t := psgCall env s (.loadEnvelope _)) rfl rfl (psgCall_hold id)).trans (say_bide _)
  · exact .psg rfl rfl .refl
  · exact fmCall_bide
  · exact fmCall_bide
  · unfold storeProgram; split
    · exact fmCall_bide.trans (say_bide _)
    · exact .psg rfl rfl .refl
  · unfold clearProgram; split
    · exact fmCall_bide.trans (say_bide _)
    · exact .psg rfl rfl .refl
  · exact clearAll_bide e
  · unfold dumpPreset; split
    · split <;> exact .psg rfl rfl .refl
    · exact .psg rfl rfl .refl
  · unfold dumpChannel; simp only; split
    · exact .psg rfl rfl .refl
    split
    · split
      · split <;> exact .psg rfl rfl .refl
      · exact .psg rfl rfl .refl
    · exact .psg rfl rfl .refl
  · exact .refl

theorem sysex_pitched (h6 : 6 ≤ i) (h9 : i ≤ 9) {d : List Nat} {l : Nat} (h : ¬(Op.sysex d l).rewires) (m : Memo i s)
    (k : Pitched i s) : Pitched i (sysex env s d l) := by
  unfold sysex
  split
  · exact k
  rename_i hlen
  split
  · exact generalMidiReset_pitched h6 h9 m
  split
  · exact k
  rename_i h3
  have h3 : d.take 3 = [0, 0x22, 0x77] := by simpa using h3
  have h4 : d.take 4 = [0, 0x22, 0x77, d.getD 3 0] := by
    rw [List.take_add_one, h3, List.getElem?_eq_getElem (by omega), List.getD_eq_getElem?_getD,
      List.getElem?_eq_getElem (by omega)]
    rfl
  have hh : Pitched i (handler env s (d.getD 3 0) (d.drop 4) l) := by
    refine (handler_bide _ _ _ ?_ ?_).pitched k <;> intro e <;> apply h <;> rw [e] at h4
    · exact .inl h4
    · exact .inr h4
  simp only
  split
  · exact k.plain rfl rfl rfl
  · split
    · exact k.plain rfl rfl rfl
    · exact hh
  · exact hh

theorem step_pitched (h6 : 6 ≤ i) (h9 : i ≤ 9) {op : Op} (hr : ¬op.rewires) (hn : op ≠ .reset) (sy : Synced s) (m : Memo i s)
    (h85 : ∀ c v, op = .cc c 85 v → (s.dev i).midiChannel = c → (s.dev i).noteOn = true → False)
    (k : Pitched i s) : Pitched i (step env s op) := by
  cases op with
  | noteOn c p v =>
    simp only [step]; split
    · exact noteOn_pitched c p v k
    · exact k.plain rfl rfl rfl
  | noteOff c p =>
    simp only [step]; split
    · exact noteOff_pitched c p k
    · exact k.plain rfl rfl rfl
  | bend c b =>
    simp only [step]; split
    · exact pitchBend_pitched c b k
    · exact k.plain rfl rfl rfl
  | program c p =>
    simp only [step]; split
    · exact program_pitched c p k
    · exact k.plain rfl rfl rfl
  | remap c l => exact absurd trivial hr
  | reset => exact absurd rfl hn
  | tick => simp only [step]; exact tick_pitched k
  | psgTick => simp only [step]; exact (Bide.psg (s := s) (t := psgCall env s .tick) rfl rfl (psgCall_hold id)).pitched k
  | sysex d l => simp only [step]; exact sysex_pitched h6 h9 hr m k
  | cc c n v =>
    simp only [step]; split
    · have := ccSwitch_pitched (env := env) (c := c) (v := v) h6 h9 sy m k hr
        fun e => h85 c v (by rw [e])
      unfold cc
      generalize ccSwitch env s c n v = t at *
      exact this.plain rfl rfl rfl
    · exact k.plain rfl rfl rfl

/-! ### Whole histories -/

/-- Messages that load an envelope into the PSG driver. -/
def _root_.Mdmi.Midi.Op.loadsEnvelope (op : Op) : Prop := ∃ d l, op = .sysex d l ∧ d.take 4 = [0x00, 0x22, 0x77, 0x06]

theorem PsgBy.toneOf {m : Nat} {P : Psg.Op → Prop} {f g : Psg.St} (a : PsgBy env P f g) (hP : ∀ e, ¬P (.loadEnvelope e))
    (h : Psg.ToneOf env.psg m f) : Psg.ToneOf env.psg m g := by
  obtain ⟨l, hl, rfl⟩ := a
  exact Psg.run_toneOf l f (fun e he => hP e (hl _ he).1) h

theorem load_toneOf {m : Nat} {d : List Nat} {l : Nat} (hd : d.take 4 = [0x00, 0x22, 0x77, 0x06])
    (h : (s.psg.ch m).noteOn = false) (k : Psg.ToneOf env.psg m s.psg) : Psg.ToneOf env.psg m (sysex env s d l).psg := by
  match d with
  | [] | [_] | [_, _] | [_, _, _] => simp at hd
  | a :: b :: c :: e :: r =>
    simp only [List.take_succ_cons, List.take_zero, List.cons.injEq, and_true] at hd
    obtain ⟨rfl, rfl, rfl, rfl⟩ := hd
    unfold sysex
    split
    · exact k
    split
    · rename_i e; simp at e
    split
    · exact k
    · simp only [List.getD_cons_succ, List.getD_cons_zero, List.drop_succ_cons, List.drop_zero]
      have hh : Psg.ToneOf env.psg m (handler env s 6 r l).psg := by
        simp only [handler, loadPsgEnvelope]
        split
        · exact k
        · exact Psg.step_toneOf (op := .loadEnvelope (envelopeBytes l r ++ [255])) (.inr h) k
      split
      · exact k
      · split
        · exact k
        · exact hh
      · exact hh

theorem step_toneOf {tame : Bool} {m : Nat} (he : env.Ok) (hs : Ok env tame s) {op : Op} (hw : op.Wf)
    (hd : tame = false → ¬op.enablesDac) (hb : tame = true → ¬op.detunes)
    (hl : op.loadsEnvelope → (s.psg.ch m).noteOn = false) (k : Psg.ToneOf env.psg m s.psg) :
    Psg.ToneOf env.psg m (step env s op).psg := by
  by_cases h : op.loadsEnvelope
  · have := hl h
    obtain ⟨d, l, rfl, e⟩ := h
    simp only [step]
    exact load_toneOf e this k
  · exact PsgBy.toneOf (step_psgBy he hs hw hd hb) (fun e ⟨d, l, x, y⟩ => h ⟨d, l, x, y⟩) k

/-- An envelope loaded into a channel that sounds takes effect with the next frame. -/
theorem run_toneOf {tame : Bool} {m : Nat} (hm : m < 4) (he : env.Ok) (ops : List Op) : ∀ s : St,
    (∀ op ∈ ops, op.Wf ∧ (tame = false → ¬op.enablesDac) ∧ (tame = true → ¬op.detunes)) →
    (∀ pre op post, ops = pre ++ op :: post → op.loadsEnvelope → ((run env s pre).psg.ch m).noteOn = false ∨ .psgTick ∈ post) →
    Ok env tame s → Psg.ToneOf env.psg m s.psg ∨ .psgTick ∈ ops → Psg.ToneOf env.psg m (run env s ops).psg := by
  induction ops with
  | nil => intro s _ _ _ k; exact k.resolve_right (by simp)
  | cons op ops ih =>
    intro s h hl ok k
    obtain ⟨a1, a2, a3⟩ := h op (by simp)
    have ok' := step_ok he ok a1 a2 a3
    refine ih (step env s op) (fun o ho => h o (by simp [ho])) (fun pre o post e => ?_) ok' ?_
    · exact hl (op :: pre) o post (by rw [e]; rfl)
    by_cases ht : op = .psgTick
    · subst ht
      refine .inl ((Psg.tick_voices hm s.psg).resolve_left fun x => ?_)
      have := ok'.psg.nofault
      rw [show (step env s .psgTick).psg = Psg.step env.psg s.psg .tick from rfl, x] at this
      cases this
    rcases k with k | k
    · by_cases hload : op.loadsEnvelope
      · rcases hl [] op ops rfl hload with x | x
        · exact .inl (step_toneOf he ok a1 a2 a3 (fun _ => x) k)
        · exact .inr x
      · exact .inl (step_toneOf he ok a1 a2 a3 (fun x => absurd x hload) k)
    · exact .inr ((List.mem_cons.1 k).resolve_left (Ne.symm ht))

/-- What holds of PSG voice `i` throughout a history. -/
structure Follows (env : Env) (tame : Bool) (i : Nat) (s : St) : Prop where
  ok : Ok env tame s
  synced : Synced s
  memo : Memo i s
  pitched : Pitched i s

theorem boot_clear (he : env.Ok) (h9 : i ≤ 9) (b : Bool) (m : Sram.Mem) : Pitched i (boot env b m) ∨ i < 6 := by
  by_cases h6 : 6 ≤ i
  · refine .inl (silent (boot_mem he h6 h9 b m).wired ?_)
    unfold boot reset
    exact resetChannels_off i (by omega)
  · exact .inr (by omega)

theorem boot_follows (he : env.Ok) {tame : Bool} (h6 : 6 ≤ i) (h9 : i ≤ 9) (b : Bool) (m : Sram.Mem) :
    Follows env tame i (boot env b m) :=
  ⟨boot_ok he b m, step_synced_reset (powerOn env b m), boot_mem he h6 h9 b m,
    (boot_clear he h9 b m).resolve_right (by omega)⟩

theorem boot_toneOf (he : env.Ok) {k : Nat} (hk : k < 4) (b : Bool) (m : Sram.Mem) :
    Psg.ToneOf env.psg k (boot env b m).psg := by
  refine PsgBy.toneOf (boot_psgBy (op := .tick) he b m) (fun e ⟨d, l, x, y⟩ => by cases x) fun on => ?_
  obtain ⟨-, -, -, h4⟩ := psgReset_eq he.psg (Psg.init_eq he.psg).1
  unfold psgBoot at on
  rw [h4 k hk] at on
  cases on

theorem step_follows (he : env.Ok) {tame : Bool} (h6 : 6 ≤ i) (h9 : i ≤ 9) {op : Op} (hw : op.Wf)
    (hd : tame = false → ¬op.enablesDac) (hb : tame = true → ¬op.detunes) (hr : ¬op.rewires) (hs : op ≠ .reset)
    (h85 : ∀ c v, op = .cc c 85 v → (s.dev i).midiChannel = c → (s.dev i).noteOn = true → False)
    (k : Follows env tame i s) : Follows env tame i (step env s op) :=
  ⟨step_ok he k.ok hw hd hb, step_synced hr k.synced, step_mem he h6 h9 k.ok.psg.nofault op hw k.memo,
    step_pitched h6 h9 hr hs k.synced k.memo h85 k.pitched⟩

theorem run_follows (he : env.Ok) {tame : Bool} (h6 : 6 ≤ i) (h9 : i ≤ 9) (ops : List Op) : ∀ s : St,
    (∀ op ∈ ops, op.Wf ∧ (tame = false → ¬op.enablesDac) ∧ (tame = true → ¬op.detunes) ∧ ¬op.rewires ∧ op ≠ .reset) →
    (∀ pre c v post, ops = pre ++ .cc c 85 v :: post →
      ((run env s pre).dev i).midiChannel = c → ((run env s pre).dev i).noteOn = true → False) →
    Follows env tame i s → Follows env tame i (run env s ops) := by
  induction ops with
  | nil => intro s _ _ k; exact k
  | cons op ops ih =>
    intro s h h85 k
    obtain ⟨a1, a2, a3, a4, a5⟩ := h op (by simp)
    refine ih (step env s op) (fun o ho => h o (by simp [ho])) (fun pre c v post e => ?_)
      (step_follows he h6 h9 a1 a2 a3 a4 a5 (fun c v e => h85 [] c v ops (by rw [e]; rfl)) k)
    exact h85 (op :: pre) c v post (by rw [e]; rfl)

end Mdmi.Midi.Sq
