import Verif.Proofs.MidiStep
import Verif.Proofs.MidiFmSm
import Verif.Proofs.PsgEnv
/-!
# What a call of the MIDI engine may change on the chips
-/
namespace Mdmi.Synth

/-- The events between two traces write only registers in `P`. -/
def Wrote (P : Nat → Nat → Nat → Prop) (a b : List Ev) : Prop :=
  ∃ evs, b = evs ++ a ∧ ∀ p r d, Ev.ym p r d ∈ evs → P p r d

variable {P Q : Nat → Nat → Nat → Prop} {a b c : List Ev}

theorem Wrote.refl : Wrote P a a := ⟨[], rfl, by simp⟩

theorem Wrote.trans (h : Wrote P a b) (k : Wrote P b c) : Wrote P a c := by
  obtain ⟨e, rfl, h⟩ := h
  obtain ⟨f, rfl, k⟩ := k
  refine ⟨f ++ e, by simp, fun p r d hm => ?_⟩
  rcases List.mem_append.1 hm with hm | hm
  · exact k p r d hm
  · exact h p r d hm

theorem Wrote.mono (h : Wrote P a b) (hP : ∀ p r d, P p r d → Q p r d) : Wrote Q a b := by
  obtain ⟨e, rfl, h⟩ := h
  exact ⟨e, rfl, fun p r d hm => hP p r d (h p r d hm)⟩

theorem Wrote.of_eq (h : b = a) : Wrote P a b := h ▸ Wrote.refl

theorem Wrote.other {e : Ev} (h : b = e :: a) (he : ∀ p r d, e ≠ .ym p r d) : Wrote P a b :=
  ⟨[e], by simp [h], fun p r d hm => absurd (List.mem_singleton.1 hm).symm (he p r d)⟩

theorem Reach.wrote {s t : St} (h : Reach P s t) : Wrote P s.out t.out := by
  obtain ⟨evs, e, k⟩ := h.evs
  refine ⟨evs, e, fun p r d hm => ?_⟩
  rcases k _ hm with ⟨p', r', d', e, hP⟩ | e | e | e
  · injection e with h1 h2 h3; subst h1 h2 h3; exact hP
  all_goals exact absurd e (by simp)

theorem Wrote.reg (h : Wrote P a b) {p r : Nat} (hn : ∀ d, ¬P p r d) : ymReg b p r = ymReg a p r := by
  obtain ⟨evs, rfl, h⟩ := h
  induction evs with
  | nil => rfl
  | cons e evs ih =>
    have ih := ih fun p r d hm => h p r d (List.mem_cons_of_mem _ hm)
    cases e with
    | ym p' r' d =>
      simp only [List.cons_append, ymReg]
      rw [if_neg, ih]
      rintro ⟨rfl, rfl⟩
      exact hn d (h _ _ d (by simp))
    | _ => simpa [ymReg] using ih

theorem Wrote.key (h : Wrote P a b) {n : Nat}
    (hn : ∀ d, P 0 0x28 d → d % 8 ≠ [0, 1, 2, 4, 5, 6].getD n 8) : keyed b n = keyed a n := by
  obtain ⟨evs, rfl, h⟩ := h
  induction evs with
  | nil => rfl
  | cons e evs ih =>
    have ih := ih fun p r d hm => h p r d (List.mem_cons_of_mem _ hm)
    cases e with
    | ym p' r' d =>
      simp only [List.cons_append, keyed]
      rw [if_neg, ih]
      rintro ⟨rfl, rfl, k⟩
      exact hn d (h _ _ d (by simp)) k
    | _ => simpa [keyed] using ih

/-- A key register write that names channel `n` belongs to channel `n`. -/
theorem owner_of_key {n d : Nat} (hn : n < 6) (h : d % 8 = [0, 1, 2, 4, 5, 6].getD n 8) : owner 0 0x28 d = some n := by
  have q : ∀ d8 : Fin 8, ∀ c : Fin 6, d8.val = [0, 1, 2, 4, 5, 6].getD c.val 8 → owner 0 0x28 d8.val = some c.val := by
    decide
  have e2 : owner 0 0x28 d = owner 0 0x28 (d % 8) := by simp [owner]
  rw [e2]
  exact q ⟨d % 8, by omega⟩ ⟨n, hn⟩ h

end Mdmi.Synth

namespace Mdmi.Fm
open Mdmi.Synth (Wrote owner)

/-- Registers a call may write. -/
def touches (op : Op) (p r d : Nat) : Prop :=
  match op with
  | .noteOn c _ _ _ | .noteOff c | .volume c _ | .program c _ | .allNotesOff c | .pan c _ | .pitch c _ _ =>
    owner p r d = some c
  | .smNoteOn o _ _ _ | .smPitch o _ _ => (p, r) ∈ smOwns o
  | .percussive _ _ | .store _ _ | .clear _ | .storeFrom _ _ | .smReset | .dacNoteOn _ | .dacNoteOff => False
  | .reset => True
  | .synth o =>
    match o with
    | .directWrite p' r' d' => p = p' ∧ r = r' ∧ d = d'
    | o => match o.chan with
      | some c => owner p r d = some c
      | none => p = 0 ∧ (r = 0x22 ∨ r = 0x27 ∨ r = 0x2B)

theorem call_wrote (s : St) {o : Synth.Op} {c : Nat} (h : o.chan = some c) (hc : c < 6) :
    Wrote (fun p r d => owner p r d = some c) s.synth.out (call s o).synth.out :=
  (Synth.step_owner s.synth h hc).wrote

theorem sramEnable_wrote {P : Nat → Nat → Nat → Prop} (s : St) : Wrote P s.synth.out (sramEnable s).synth.out :=
  .other rfl (by simp)

theorem sramDisable_wrote {P : Nat → Nat → Nat → Prop} (s : St) : Wrote P s.synth.out (sramDisable s).synth.out := by
  unfold sramDisable; split
  · exact .other rfl (by simp)
  · exact .refl

theorem sramSave_wrote {P : Nat → Nat → Nat → Prop} (env : Env) (s : St) (n : Nat) (x : Synth.FmPreset) :
    Wrote P s.synth.out (sramSave env s n x).synth.out := by
  unfold sramSave; split
  · exact .refl
  · exact (sramEnable_wrote s).trans (sramDisable_wrote _)

theorem sramClear_wrote {P : Nat → Nat → Nat → Prop} (env : Env) (s : St) (n : Nat) :
    Wrote P s.synth.out (sramClear env s n).synth.out := by
  unfold sramClear; split
  · exact .refl
  · exact (sramEnable_wrote s).trans (sramDisable_wrote _)

theorem smPitch_wrote (env : Env) (s : St) (o pitch : Nat) (cents : Int) (ho : o < 3) :
    Wrote (fun p r _ => (p, r) ∈ smOwns o) s.synth.out (smPitch env s o pitch cents).synth.out := by
  unfold smPitch
  rw [if_pos ho]
  simp only [call, Synth.step, Synth.specialModePitch]
  have h : Synth.Reach (fun p r _ => (p, r) ∈ smOwns o) s.synth s.synth := .refl
  exact ((h.write (by simp [smOwns, smRegs_of ho])).write (by simp [smOwns, smRegs_of ho])).wrote

theorem smVolume_wrote (s : Synth.St) (o v : Nat) :
    Wrote (fun p r _ => (p, r) ∈ smOwns o) s.out (Synth.specialModeVolume s o v).out := by
  have h : Synth.Reach (fun p r _ => (p, r) ∈ smOwns o) s s := .refl
  refine Synth.Reach.wrote ?_
  unfold Synth.specialModeVolume
  refine h.guardOp fun _ h4 => ?_
  split
  · exact h
  split
  · exact h.ub
  split
  · exact h.ub
  · exact h.oper (by omega) h4 (by simp [Synth.IsOpBase]) fun d => by simp [smOwns]; omega

/-- The start of a note writes the registers of its channel. -/
private theorem play_wrote (env : Env) {s : St} {c : Nat} (hc : c < 6) (p v : Nat) (x : Int) (P : St → St)
    (hP : Wrote (fun p r d => owner p r d = some c) s.synth.out (P s).synth.out) :
    Wrote (fun p r d => owner p r d = some c) s.synth.out
      (let s := P s
       let s := { s with ch := upd s.ch c { s.ch c with velocity := v } }
       let s := call s (.volume c (effectiveVolume (s.ch c)))
       let s := { s with ch := upd s.ch c { s.ch c with pitch := p, cents := x } }
       let s := setSynthPitch env s c
       call s (.noteOn c)).synth.out := by
  refine hP.trans ?_
  generalize P s = s
  simp only
  refine .trans ?_ (call_wrote _ rfl hc)
  refine .trans ?_ (call_wrote _ rfl hc)
  exact call_wrote ({ s with ch := upd s.ch c { s.ch c with velocity := v } } : St) rfl hc

theorem step_wrote (env : Env) (s : St) {op : Op} (hl : op.Legal) (h1 : op ≠ .reset) (h2 : ∀ p, op ≠ .synth (.init p)) :
    Wrote (touches op) s.synth.out (step env s op).synth.out := by
  cases op with
  | reset => exact absurd rfl h1
  | noteOn c p x v =>
    have hc := hl.1
    simp only [step, noteOn]
    split
    · exact .refl
    simp only [guardCh, hc, if_true]
    split
    · split
      · exact .refl
      · exact play_wrote env (s := s) hc _ v x (fun s => call s _) (call_wrote s rfl hc)
    · exact play_wrote env (s := s) hc p v x (fun s => s) .refl
  | noteOff c => exact call_wrote s rfl hl
  | allNotesOff c => exact call_wrote s rfl hl
  | volume c v =>
    simp only [step, channelVolume, guardCh, hl.1, if_true]
    exact call_wrote _ rfl hl.1
  | program c p =>
    simp only [step, program, hl.2, if_true]
    split
    · exact call_wrote _ rfl hl.1
    · split
      · exact call_wrote _ rfl hl.1
      · exact .refl
  | percussive c b =>
    simp only [step, percussive, guardCh]; split <;> exact .refl
  | pan c x =>
    have hc : c < 6 := hl
    simp only [step, pan, guardCh, hc, if_true]
    split
    · exact call_wrote _ rfl hc
    split
    · exact call_wrote _ rfl hc
    · exact call_wrote _ rfl hc
  | pitch c p x =>
    have hc : c < 6 := hl
    simp only [step, pitch, guardCh, hc, if_true]
    exact call_wrote _ rfl hc
  | store n x =>
    simp only [step, storePreset, hl.1, if_true]
    exact sramSave_wrote env _ n x
  | clear n =>
    have hn : n < 128 := hl
    simp only [step, clearPreset, hn, if_true]
    exact sramClear_wrote env _ n
  | storeFrom c n =>
    simp only [step, storePresetFromChannel, guardCh, hl.1, if_true, storePreset, hl.2]
    exact sramSave_wrote env _ n _
  | smNoteOn o p x v => exact (smPitch_wrote env s o p x hl.1).trans (smVolume_wrote _ o v)
  | smPitch o p x => exact smPitch_wrote env s o p x hl
  | smReset => exact .refl
  | dacNoteOn p =>
    have hp : p < 128 := hl
    simp only [step, dacNoteOn, hp, if_true]
    split
    · exact .other rfl (by simp)
    · exact .refl
  | dacNoteOff => exact .other rfl (by simp)
  | synth o =>
    by_cases hd : ∃ p r d, o = .directWrite p r d
    · obtain ⟨p, r, d, rfl⟩ := hd
      have h : Synth.Reach (touches (.synth (.directWrite p r d))) s.synth s.synth := .refl
      exact (h.write (by simp [touches])).wrote
    have hl : o.Legal := hl.resolve_right hd
    have ht : ∀ p r d, touches (.synth o) p r d ↔ match o.chan with
        | some c => owner p r d = some c
        | none => p = 0 ∧ (r = 0x22 ∨ r = 0x27 ∨ r = 0x2B) := by
      intro p r d
      cases o <;> simp_all [touches, Synth.Op.chan]
    cases e : o.chan with
    | some c => exact (call_wrote s e (hl.1 c e)).mono fun p r d h => (ht p r d).2 (by simpa [e] using h)
    | none =>
      refine Wrote.mono (P := fun p r _ => p = 0 ∧ (r = 0x22 ∨ r = 0x27 ∨ r = 0x2B)) ?_
        fun p r d h => (ht p r d).2 (by simpa [e] using h)
      by_cases hb : ∃ b, o = .enableDac b
      · obtain ⟨b, rfl⟩ := hb
        have w : ∀ t : Synth.St, Wrote (fun p r _ => p = 0 ∧ (r = 0x22 ∨ r = 0x27 ∨ r = 0x2B)) t.out
            (Synth.writeDacReg t).out := fun t =>
          ((Synth.Reach.refl (s := t)).write (d := if t.dacEnable then 0x80 else 0) (by simp)).wrote
        simp only [step, call, Synth.step, Synth.enableDac]
        refine .trans ?_ (w _)
        simp only
        split
        · exact .other rfl (by simp)
        split
        · exact .trans (b := .loadNull :: s.synth.out) (.other rfl (by simp)) (.other rfl (by simp))
        · exact .refl
      · refine (Synth.step_reach s.synth o (fun p h => h2 p (h ▸ rfl)) (fun b h => hb ⟨b, h⟩) ?_ ?_ ?_ ?_ ?_ ?_).wrote
        · simp [e]
        · rintro c o' f b d rfl; simp [Synth.Op.chan] at e
        · simp [e]
        · simp [e]
        · rintro r d - (h | h) <;> simp [h]
        · rintro p r d rfl; exact absurd ⟨p, r, d, rfl⟩ hd

end Mdmi.Fm

namespace Mdmi.Psg

/-- A call for channel `n` leaves tone and attenuation of the others alone. -/
theorem step_frame {env : Env} {s : St} {op : Op} {n m : Nat} (h : op.target = some n) (hm : m ≠ n) :
    chipTone (step env s op).out m = chipTone s.out m ∧ chipAtt (step env s op).out m = chipAtt s.out m := by
  have on : ∀ f : Chan → Option Out, (∀ o, f (s.ch n) = some o → OutRel n (s.ch n) o) →
      chipTone (onChan s n f).out m = chipTone s.out m ∧ chipAtt (onChan s n f).out m = chipAtt s.out m := by
    intro f hf
    unfold onChan
    split
    · split
      · exact ⟨rfl, rfl⟩
      · rename_i e
        exact (hf _ e).frame _ m hm
    · exact ⟨rfl, rfl⟩
  have rel : ∀ n c o, releaseChan n c = some o → OutRel n c o := by
    intro n c o e
    unfold releaseChan at e
    split at e
    · split at e
      · simp only [Option.some.injEq] at e; subst e; exact OutRel.refl rfl rfl
      · simp only [Option.some.injEq] at e; subst e; exact (OutRel.refl rfl rfl).off
    · simp only [Option.some.injEq] at e; subst e; exact OutRel.refl rfl rfl
  cases op with
  | noteOn k p c v =>
    obtain rfl : k = n := by simpa [Op.target] using h
    simp only [step, noteOn]
    split
    · exact ⟨rfl, rfl⟩
    · refine on _ fun o e => ?_
      simp only [noteOnChan, initEnvelope] at e
      split at e
      · exact applyEnvelopeStep_rel (c0 := s.ch k) (by rfl) (by rfl) ((Option.bind_some _ _) ▸ e)
      · split at e
        · exact applyEnvelopeStep_rel (c0 := s.ch k) (by rfl) (by rfl) ((Option.bind_some _ _) ▸ e)
        · simp at e
  | noteOff k => obtain rfl : k = n := by simpa [Op.target] using h
                 exact on _ fun o e => rel _ _ _ e
  | allNotesOff k => obtain rfl : k = n := by simpa [Op.target] using h
                     exact on _ fun o e => rel _ _ _ e
  | volume k v =>
    obtain rfl : k = n := by simpa [Op.target] using h
    refine on _ fun o e => ?_
    simp only [volumeChan] at e
    split at e
    · cases e1 : deref env s.userBuf (s.ch k).step with
      | none => simp [e1] at e
      | some b =>
        cases e2 : effectiveAttenuation { s.ch k with volume := v } b with
        | none => simp [e1, e2] at e
        | some a =>
          simp only [e1, e2, Option.bind_some, Option.some.injEq] at e
          subst e
          exact OutRel.att (OutRel.refl rfl rfl)
    · simp only [Option.some.injEq] at e; subst e; exact OutRel.refl rfl rfl
  | program k p =>
    obtain rfl : k = n := by simpa [Op.target] using h
    refine on (fun c => some ({ c with envelope := p }, [])) fun o e => ?_
    simp only [Option.some.injEq] at e; subst e; exact OutRel.refl rfl rfl
  | pitch k p c =>
    obtain rfl : k = n := by simpa [Op.target] using h
    refine on _ fun o e => ?_
    simp only [pitchChan] at e
    cases e1 : deref env s.userBuf (s.ch k).step with
    | none => simp [e1] at e
    | some b =>
      cases e2 : envelopeTone env.isPAL { s.ch k with pitch := p, cents := c } b with
      | none => simp [e1, e2] at e
      | some a =>
        simp only [e1, e2, Option.bind_some, Option.some.injEq] at e
        subst e
        exact OutRel.tone (OutRel.refl rfl rfl)
  | _ => simp [Op.target] at h

end Mdmi.Psg

namespace Mdmi.Midi
open Mdmi.Synth (Wrote)
variable {env : Env} {A C : Nat → Prop} {s t : St}

theorem voiceFm_touches {i : Nat} {o : Fm.Op} (h : voiceFm i o) {p r d : Nat} (ht : Fm.touches o p r d) :
    voiceReg i p r d := by
  cases o <;> simp only [voiceFm, Fm.touches] at h ht <;> unfold voiceReg
  all_goals first
    | exact False.elim h
    | exact False.elim ht
    | (obtain ⟨h1, rfl⟩ := h; first | (rw [if_pos h1]; exact ht) | (rw [if_neg (by omega)]; exact ⟨h1, ht⟩))

theorem run_psg_frame (l : List Psg.Op) (f : Psg.St) {n : Nat} (hn : ¬A (n + 6))
    (h : ∀ o ∈ l, (∃ i, A i ∧ voicePsg i o)) :
    Psg.chipTone (Psg.run env.psg f l).out n = Psg.chipTone f.out n ∧
    Psg.chipAtt (Psg.run env.psg f l).out n = Psg.chipAtt f.out n := by
  induction l generalizing f with
  | nil => exact ⟨rfl, rfl⟩
  | cons o l ih =>
    obtain ⟨i, h1, h2, h3, h4⟩ := h o (List.mem_cons_self)
    have hne : n ≠ i - 6 := by
      rintro rfl; exact hn (by rwa [show i - 6 + 6 = i by omega])
    have k := Psg.step_frame (env := env.psg) (s := f) h4 hne
    have := ih (Psg.step env.psg f o) fun o ho => h o (List.mem_cons_of_mem _ ho)
    exact ⟨this.1.trans k.1, this.2.trans k.2⟩

/-- FM calls that write only registers of the voices in `A`. -/
def Within (A : Nat → Prop) (o : Fm.Op) : Prop :=
  o ≠ .reset ∧ (∀ p, o ≠ .synth (.init p)) ∧
    ∀ p r d, Fm.touches o p r d → ∃ i, A i ∧ i < 13 ∧ voiceReg i p r d

theorem within_of_voice {i : Nat} {o : Fm.Op} (hA : A i) (hi : i < 13) (h : voiceFm i o) : Within A o :=
  ⟨by rintro rfl; exact h, by rintro p rfl; exact h, fun _ _ _ k => ⟨i, hA, hi, voiceFm_touches h k⟩⟩

theorem run_wrote_within (l : List Fm.Op) (f : Fm.St) (h : ∀ o ∈ l, Within A o ∧ o.Legal) :
    Wrote (fun p r d => ∃ i, A i ∧ i < 13 ∧ voiceReg i p r d) f.synth.out (Fm.run env.fm f l).synth.out := by
  induction l generalizing f with
  | nil => exact .refl
  | cons o l ih =>
    refine Wrote.trans ?_ (ih (Fm.step env.fm f o) fun o ho => h o (List.mem_cons_of_mem _ ho))
    obtain ⟨⟨h1, h2, h3⟩, h4⟩ := h o (List.mem_cons_self)
    exact (Fm.step_wrote env.fm f h4 h1 h2).mono h3

/-- The chips outside the voices a call may use. -/
theorem Frame.chip_within (h : Frame env A C (Within A) (fun _ => False) s t) : ChipFrame A s t := by
  obtain ⟨l, hl, e⟩ := h.fm
  have w := run_wrote_within (A := A) (env := env) l s.fm fun o ho => ⟨(hl o ho).1.elim
    (fun ⟨_, a, b, c⟩ => within_of_voice a b c) id, (hl o ho).2⟩
  rw [← e] at w
  obtain ⟨k, hk, e'⟩ := h.psg
  have q : ∀ n, ¬A (n + 6) → _ := fun n hn =>
    run_psg_frame (A := A) (env := env) k s.psg hn fun o ho => (hk o ho).1.resolve_right id
  refine ⟨fun p r hr => w.reg fun d ⟨i, h1, h2, h3⟩ => hr i h1 h2 d h3, fun n hn hA => w.key ?_, ?_, ?_⟩
  · rintro d ⟨i, h1, h2, h3⟩ hd
    have ho := Synth.owner_of_key hn hd
    unfold voiceReg at h3
    split at h3
    · rw [ho] at h3; injection h3 with h3; exact hA (h3 ▸ h1)
    · have := h3.2
      have r : ∀ o, o < 3 → (0, 0x28) ∉ Fm.smOwns o := by decide
      exact r _ (by omega) this
  · intro n _ hn; rw [e']; exact (q n hn).1
  · intro n _ hn; rw [e']; exact (q n hn).2

theorem Frame.chip (h : Frame env A C (fun _ => False) (fun _ => False) s t) : ChipFrame A s t := by
  obtain ⟨l, hl, e⟩ := h.fm
  exact Frame.chip_within (env := env) (C := C)
    { h with fm := ⟨l, fun o ho => ⟨(hl o ho).1.imp_right False.elim, (hl o ho).2⟩, e⟩ }

end Mdmi.Midi
