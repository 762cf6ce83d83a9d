import Verif.Proofs.MidiPolyKey
import Verif.Proofs.Midi
/-!
# Velocities of the keys of a chord
-/
namespace Mdmi.Fm

theorem noteOn_struck (env : Env) (he : env.Ok) (s : St) {c p v : Nat} {x : Int} (hc : c < 6) (h1 : 11 ≤ p) (h2 : p ≤ 106) :
    ((step env s (.noteOn c p x v)).ch c).velocity = v := by
  simp only [step, noteOn]
  rw [if_neg (by omega)]
  simp only [guardCh, hc, if_true]
  split
  · obtain ⟨pp, hp⟩ : ∃ pp, env.perc[p]? = some pp := ⟨_, List.getElem?_eq_getElem (by have := he.perc; omega)⟩
    rw [hp]
    simp [call, setSynthPitch]
  · simp [call, setSynthPitch]

end Mdmi.Fm

namespace Mdmi.Midi
open NotePriority (Rep)

variable {env : Env} {s t : St} {D : List (Nat × Nat)} {W W' : Nat → Nat → Nat} {L : Nat → Nat → Prop}

/-- Sounding voices have the velocities `W` of their keys; but on the PSG not for the keys in `L`. -/
def VelInv (W : Nat → Nat → Nat) (L : Nat → Nat → Prop) (s : St) : Prop := ∀ n, n < 10 → (s.dev n).noteOn = true →
  (n < 6 → (s.fm.ch n).velocity = W (s.dev n).midiChannel (s.dev n).pitch) ∧
  (6 ≤ n → L (s.dev n).midiChannel (s.dev n).pitch ∨ (s.psg.ch (n - 6)).velocity = W (s.dev n).midiChannel (s.dev n).pitch)

/-- No velocity changes. -/
def KeepsVel (s t : St) : Prop := (∀ n, (t.fm.ch n).velocity = (s.fm.ch n).velocity) ∧ ∀ n, (t.psg.ch n).velocity = (s.psg.ch n).velocity

theorem VelInv.of (k : VelInv W L s) (h : ∀ n, n < 10 → (t.dev n).noteOn = true → (s.dev n).noteOn = true ∧
    (t.dev n).midiChannel = (s.dev n).midiChannel ∧ (t.dev n).pitch = (s.dev n).pitch) (v : KeepsVel s t) : VelInv W L t := by
  intro n hn ho
  obtain ⟨h1, h2, h3⟩ := h n hn ho
  rw [h2, h3, v.1, v.2]
  exact k n hn h1

theorem Still.velInv (h : Still s t) (k : VelInv W L s) : VelInv W L t :=
  k.of (fun n _ ho => by
    have d := Dev.core_eq (h.dev n)
    exact ⟨d.2.2.1 ▸ ho, d.2.2.2.1, d.2.2.2.2.1⟩) ⟨h.vel, h.pvel⟩

theorem Idle.velInv (h : Idle s) : VelInv W L s := fun n hn ho => by
  rw [(h.off n (by omega)).1] at ho; cases ho

theorem devNoteOff_vel (i : Nat) : KeepsVel s (devNoteOff env s i) := by
  unfold devNoteOff
  split
  · exact ⟨fun n => by simp only [fmCall]; exact Fm.step_strikes _ _ rfl, fun _ => rfl⟩
  · exact ⟨fun _ => rfl, fun n => Psg.step_strikes _ _ rfl⟩
  · exact ⟨fun _ => rfl, fun _ => rfl⟩
  · exact ⟨fun n => by simp only [fmCall]; exact Fm.step_strikes _ _ rfl, fun _ => rfl⟩

theorem devChanNoteOff_velInv (i : Nat) (k : VelInv W L s) : VelInv W L (devChanNoteOff env s i) := by
  refine k.of (fun n _ ho => ?_) (devNoteOff_vel (s := setDev s i _) i)
  rw [devChanNoteOff_dev] at ho ⊢
  by_cases e : n = i
  · subst e; simp at ho
  · rw [Psg.upd_other _ _ _ _ e] at ho ⊢; exact ⟨ho, rfl, rfl⟩

theorem foldOff_velInv (l : List Nat) (k : VelInv W L s) : VelInv W L (l.foldl (devChanNoteOff env) s) := by
  induction l generalizing s with
  | nil => exact k
  | cons i l ih => exact ih (devChanNoteOff_velInv i k)

theorem noteOff_velInv {c p : Nat} (hc : c < 16) (h : PolyInv D s) (k : VelInv W L s) : VelInv W L (noteOff env s c p) := by
  obtain ⟨l, hl, -, -, -⟩ := h.stack hc
  obtain ⟨st, e, hr⟩ := hl.remove p
  obtain ⟨st', e', hr'⟩ := hr.pop
  generalize hq : l.filter (· ≠ p) = q at hr hr' e'
  simp only [noteOff, e, e']
  simp only [NoteStack.popNewest] at hr' ⊢
  generalize hs1 : setChan s c (fun m => { m with stack := st' }) = s1
  have d1 : s1.dev = s.dev := by rw [← hs1]; rfl
  have k1 : VelInv W L s1 := by rw [← hs1]; exact k
  have hh : ∀ i, Hit s1 c p i ↔ Hit s c p i := by intro i; unfold Hit; rw [d1]
  have v1 : singleVoice s1 c true = singleVoice s c true := by unfold singleVoice; rw [d1]
  rw [v1]
  by_cases hx : ∃ a, a < 13 ∧ Hit s c p a
  · obtain ⟨a, ha, hxa⟩ := hx
    have nr := h.released hl hc ha hxa (congrArg (·.getLastD 0) hq)
    rw [noteOff_releases (by
      rw [Bool.eq_false_iff]; intro x
      simp only [Bool.and_eq_true, bne_iff_ne] at x
      exact nr x) _ List.nodup_range]
    exact foldOff_velInv _ k1
  · rw [fold_miss _ _ fun i hi hm => hx ⟨i, by simpa using hi, (hh i).1 hm⟩]
    exact k1

private theorem chipNum_fm {n : Nat} (h : n < 6) : chipNum n = n := by unfold chipNum; rw [if_pos (by omega)]

private theorem chipNum_psg {n : Nat} (h : 6 ≤ n) (h' : n < 10) : chipNum n = n - 6 := by
  unfold chipNum; rw [if_neg (by omega), if_pos (by omega)]

theorem startNote_velInv (he : env.Ok) {i c p v : Nat} (hc : c < 16) (hi : i < 10) (w : KeyInv s) (k : VelInv W L s)
    (hr : i < 6 → FmRange s c p) (hf : (startNote env s i c p v).psg.fault = false)
    (hl : (effectivePitchCents p 0 (s.chan c).pitchBend (s.chan c).range (s.chan c).fineTune).pitch < 45 → L c p)
    (hW : W' c p = v) (ho : ∀ n, n < 10 → n ≠ i → (s.dev n).noteOn = true →
      W' (s.dev n).midiChannel (s.dev n).pitch = W (s.dev n).midiChannel (s.dev n).pitch) :
    VelInv W' L (startNote env s i c p v) := by
  have hdev := startNote_dev (env := env) (s := s) (i := i) (c := c) (p := p) (v := v) hc
  have hch := startNote_chan (env := env) (s := s) (i := i) (c := c) (p := p) (v := v)
  unfold startNote at hdev hch hf ⊢
  extract_lets a b d at hdev hch hf ⊢
  have ka : Still s a := by
    show Still s (if (s.dev i).midiChannel = 9 ∧ c ≠ 9 then devProgram env s i (s.chan c).program else s)
    split
    · exact devProgram_still i _
    · exact .refl
  have kd : Still b d := updateDev_still i
  have wb : KeyInv b := (ka.keyInv w).setDev rfl rfl fun _ => rfl
  have wd := kd.keyInv wb
  have vd : KeepsVel s d := ⟨fun n => (kd.vel n).trans (ka.vel n), fun n => (kd.pvel n).trans (ka.pvel n)⟩
  rw [setDownstreamNoteOn_dev] at hdev
  rw [setDownstreamNoteOn_chan] at hch
  have di : d.dev i = _ := congrFun hdev i
  rw [upd_self] at di
  have dm : (d.dev i).midiChannel = c := by rw [di]; simp [Dev.sync]
  have dp : (d.dev i).pitch = p := by rw [di]; simp [Dev.sync]
  have dc : (d.dev i).cents = 0 := by rw [di]; simp [Dev.sync]
  have db : (d.dev i).pitchBend = (s.chan c).pitchBend := by rw [di]; simp [Dev.sync]
  intro n hn hon
  rw [setDownstreamNoteOn_dev] at hon ⊢
  unfold setDownstreamNoteOn withPitch at hf ⊢
  simp only [dm, dp, dc, db, hc, if_true, hch] at hf ⊢
  unfold devNoteOn at hf ⊢
  have other : n ≠ i → (s.dev n).noteOn = true ∧ (d.dev n).midiChannel = (s.dev n).midiChannel ∧ (d.dev n).pitch = (s.dev n).pitch := by
    intro e
    rw [hdev, Psg.upd_other _ _ _ _ e] at hon ⊢
    exact ⟨hon, rfl, rfl⟩
  by_cases h6 : i < 6
  · rw [wd.wired.fm i h6]
    simp only [fmCall]
    rw [wd.wired.num i (by omega), chipNum_fm h6]
    by_cases e : n = i
    · subst e
      obtain ⟨r1, r2⟩ := hr h6
      refine ⟨fun _ => ?_, by omega⟩
      rw [dm, dp, hW]
      exact Fm.noteOn_struck env.fm he.fm _ h6 r1 r2
    · obtain ⟨o1, o2, o3⟩ := other e
      rw [o2, o3, ho n hn e o1, Fm.step_strikes _ _ (by simp [Fm.Op.strikes]; exact fun x => e x.symm), vd.1]
      change _ ∧ (_ → _ ∨ (d.psg.ch (n - 6)).velocity = _)
      rw [vd.2]
      exact k n hn o1
  · rw [wd.wired.square i (by omega) hi] at hf ⊢
    simp only [psgCall] at hf ⊢
    rw [wd.wired.num i (by omega), chipNum_psg (by omega) hi] at hf ⊢
    by_cases e : n = i
    · subst e
      refine ⟨by omega, fun _ => ?_⟩
      rw [dm, dp, hW]
      by_cases q : (effectivePitchCents p 0 (s.chan c).pitchBend (s.chan c).range (s.chan c).fineTune).pitch < 45
      · exact .inl (hl q)
      · exact .inr (Psg.noteOn_vel (by omega) (by omega) hf)
    · obtain ⟨o1, o2, o3⟩ := other e
      rw [o2, o3, ho n hn e o1]
      refine ⟨fun x => ?_, fun x => ?_⟩
      · exact (vd.1 n).trans ((k n hn o1).1 x)
      · rw [Psg.step_strikes _ _ (by simp [Psg.Op.strikes]; omega), vd.2]
        exact (k n hn o1).2 x

theorem noteOn_velInv (he : env.Ok) {c p v : Nat} (hc : c < 16) (hv : v ≠ 0) (h9 : c ≠ 9) (h : PolyInv D s) (hD : D.length ≤ 8)
    (hn : (c, p) ∉ D) (w : KeyInv s) (k : VelInv W L s) (hr : FmRange s c p) (hf : (noteOn env s c p v).psg.fault = false)
    (hl : (effectivePitchCents p 0 (s.chan c).pitchBend (s.chan c).range (s.chan c).fineTune).pitch < 45 → L c p)
    (hW : W' c p = v) (hW' : ∀ c' p', (c', p') ≠ (c, p) → W' c' p' = W c' p') : VelInv W' L (noteOn env s c p v) := by
  obtain ⟨i, hi, hi8, hoff⟩ := findFree_poly h.dynamic (h.sel c hc) h.stick h9 (h.exists_free hD)
  obtain ⟨l, hL, hnd, hq, hlen⟩ := h.stack hc
  have old : ∀ n, n < 10 → (s.dev n).noteOn = true → W' (s.dev n).midiChannel (s.dev n).pitch = W (s.dev n).midiChannel (s.dev n).pitch :=
    fun n hn' ho => hW' _ _ fun e => hn (e ▸ h.free.on n (by omega) ho)
  have h9' : tooManyPercussive s c = false := by simp [tooManyPercussive, h9]
  unfold noteOn at hf ⊢
  rw [if_neg hv, h9', hi] at hf ⊢
  simp only [Bool.false_eq_true, if_false] at hf ⊢
  by_cases hs : singleVoice s c false = true
  · obtain ⟨st, e, hr'⟩ := hL.push p
    have hfull : ¬NotePriority.isFull (s.chan c).stack = true := by rw [hL.isFull]; simp; omega
    rw [if_pos hs, if_neg hfull, e] at hf ⊢
    simp only [setChan_chan, upd_self, h.free.porta c hc, Bool.false_eq_true, false_and, if_false] at hf ⊢
    refine startNote_velInv he hc (by omega) ?_ (W := W) ?_ (fun _ => ?_) hf ?_ hW ?_
    · exact (KeyInv.same (t := setChan s c _) w rfl rfl).setDev rfl rfl fun x => x
    · refine k.of (fun n _ ho => ?_) ⟨fun _ => rfl, fun _ => rfl⟩
      rw [setDev_dev] at ho ⊢
      by_cases e : n = i
      · subst e; simpa using ho
      · simpa [Psg.upd_other _ _ _ _ e] using ho
    · simpa [FmRange] using hr
    · simpa using hl
    · intro n hn' e ho
      rw [setDev_dev, Psg.upd_other _ _ _ _ e] at ho ⊢
      exact old n hn' ho
  · rw [if_neg hs] at hf ⊢
    exact startNote_velInv he hc (by omega) w k (fun _ => hr) hf hl hW fun n hn' _ => old n hn'

end Mdmi.Midi
