import Verif.Proofs.MidiPoly
/-!
# A voice that sounds is keyed on
-/
namespace Mdmi.Fm
open Mdmi.Synth (keyed)

/-- A note in the range of the FM channels keys its channel. -/
theorem noteOn_keyed (env : Env) (he : env.Ok) (s : St) {c p v : Nat} {x : Int} (hc : c < 6) (h1 : 11 ≤ p) (h2 : p ≤ 106) :
    keyed (step env s (.noteOn c p x v)).synth.out c = true := by
  have k : ∀ t : St, keyed (call t (.noteOn c)).synth.out c = true := fun t => by
    simp only [call]; rw [Synth.step_noteOn_key _ hc hc, if_pos rfl]
  simp only [step, noteOn]
  rw [if_neg (by omega)]
  simp only [guardCh, hc, if_true]
  split
  · obtain ⟨pp, hp⟩ : ∃ pp, env.perc[p]? = some pp := ⟨_, List.getElem?_eq_getElem (by have := he.perc; omega)⟩
    rw [hp]
    exact k _
  · exact k _

end Mdmi.Fm

namespace Mdmi.Midi
open NotePriority (Rep)
open Mdmi.Synth (keyed)

variable {env : Env} {s t : St} {D : List (Nat × Nat)}

/-- FM channels of sounding voices are keyed on. -/
def KeysOn (s : St) : Prop := ∀ n, n < 6 → (s.dev n).noteOn = true → keyed s.fm.synth.out n = true

theorem Still.keysOn (h : Still s t) (k : KeysOn s) : KeysOn t := fun n hn ho => by
  rw [(Dev.core_eq (h.dev n)).2.2.1] at ho
  rw [h.key]; exact k n hn ho

theorem KeysOn.same (k : KeysOn s) (h1 : t.dev = s.dev) (h2 : t.fm = s.fm) : KeysOn t := fun n hn ho => by
  rw [h1] at ho; rw [h2]; exact k n hn ho

theorem Idle.keysOn (h : Idle s) : KeysOn s := fun n hn ho => by
  rw [(h.off n (by omega)).1] at ho; cases ho

theorem devChanNoteOff_keysOn {i : Nat} (hi : i < 13) (w : KeyInv s) (k : KeysOn s) : KeysOn (devChanNoteOff env s i) := by
  intro n hn ho
  rw [devChanNoteOff_dev] at ho
  by_cases e : n = i
  · subst e; simp at ho
  · rw [Psg.upd_other _ _ _ _ e] at ho
    unfold devChanNoteOff
    rw [devNoteOff_key hi (w.wired.of (fun j _ => ?_) (fun j _ => ?_)) hn, if_neg e]
    · exact k n hn ho
    all_goals
      rw [setDev_dev]
      by_cases e : j = i
      · subst e; simp
      · simp [Psg.upd_other _ _ _ _ e]

theorem foldOff_keysOn (l : List Nat) (hl : ∀ i ∈ l, i < 13) (w : KeyInv s) (k : KeysOn s) :
    KeysOn (l.foldl (devChanNoteOff env) s) := by
  induction l generalizing s with
  | nil => exact k
  | cons i l ih =>
    have hi := hl i (by simp)
    exact ih (fun j hj => hl j (by simp [hj])) (devChanNoteOff_keyInv hi w) (devChanNoteOff_keysOn hi w k)

theorem noteOff_keysOn {c p : Nat} (hc : c < 16) (h : PolyInv D s) (w : KeyInv s) (k : KeysOn s) :
    KeysOn (noteOff env s c p) := by
  obtain ⟨l, hl, -, -, -⟩ := h.stack hc
  obtain ⟨st, e, hr⟩ := hl.remove p
  obtain ⟨st', e', hr'⟩ := hr.pop
  generalize hq : l.filter (· ≠ p) = q at hr hr' e'
  simp only [noteOff, e, e']
  simp only [NoteStack.popNewest] at hr' ⊢
  generalize hs1 : setChan s c (fun m => { m with stack := st' }) = s1
  have d1 : s1.dev = s.dev := by rw [← hs1]; rfl
  have f1 : s1.fm = s.fm := by rw [← hs1]; rfl
  have hh : ∀ i, Hit s1 c p i ↔ Hit s c p i := by intro i; unfold Hit; rw [d1]
  have v1 : singleVoice s1 c true = singleVoice s c true := by unfold singleVoice; rw [d1]
  rw [v1]
  by_cases hx : ∃ a, a < 13 ∧ Hit s c p a
  · obtain ⟨a, ha, hxa⟩ := hx
    have nr := h.released hl hc ha hxa (congrArg (·.getLastD 0) hq)
    rw [noteOff_releases (by
      rw [Bool.eq_false_iff]; intro x
      simp only [Bool.and_eq_true, bne_iff_ne] at x
      exact nr x) _ List.nodup_range]
    refine foldOff_keysOn _ (fun i hi => ?_) (w.same d1 f1) (k.same d1 f1)
    simp only [List.mem_filter, List.mem_range] at hi
    exact hi.1
  · rw [fold_miss _ _ fun i hi hm => hx ⟨i, by simpa using hi, (hh i).1 hm⟩]
    exact k.same d1 f1

/-- The tuned pitch of a key of a MIDI channel is one the FM channels play. -/
def FmRange (s : St) (c p : Nat) : Prop :=
  let pc := effectivePitchCents p 0 (s.chan c).pitchBend (s.chan c).range (s.chan c).fineTune
  11 ≤ pc.pitch ∧ pc.pitch ≤ 106

private theorem chipNum_fm {n : Nat} (h : n < 6) : chipNum n = n := by unfold chipNum; rw [if_pos (by omega)]

theorem startNote_keysOn (he : env.Ok) {i c p v : Nat} (hc : c < 16) (hi : i < 13) (w : KeyInv s) (k : KeysOn s)
    (hr : i < 6 → FmRange s c p) : KeysOn (startNote env s i c p v) := by
  have hdev := startNote_dev (env := env) (s := s) (i := i) (c := c) (p := p) (v := v) hc
  have hch := startNote_chan (env := env) (s := s) (i := i) (c := c) (p := p) (v := v)
  unfold startNote at hdev hch ⊢
  extract_lets a b d at hdev hch ⊢
  have ka : Still s a := by
    show Still s (if (s.dev i).midiChannel = 9 ∧ c ≠ 9 then devProgram env s i (s.chan c).program else s)
    split
    · exact devProgram_still i _
    · exact .refl
  have kd : Still b d := updateDev_still i
  have wb : KeyInv b := (ka.keyInv w).setDev rfl rfl fun _ => rfl
  have wd := kd.keyInv wb
  have keyd : ∀ n, keyed d.fm.synth.out n = keyed s.fm.synth.out n := fun n => (kd.key n).trans (ka.key n)
  have ad : a.dev = s.dev := by
    show (if (s.dev i).midiChannel = 9 ∧ c ≠ 9 then devProgram env s i (s.chan c).program else s).dev = s.dev
    split <;> simp
  rw [setDownstreamNoteOn_dev] at hdev
  rw [setDownstreamNoteOn_chan] at hch
  have di : d.dev i = _ := congrFun hdev i
  rw [upd_self] at di
  have dm : (d.dev i).midiChannel = c := by rw [di]; simp [Dev.sync]
  have dp : (d.dev i).pitch = p := by rw [di]; simp [Dev.sync]
  have dc : (d.dev i).cents = 0 := by rw [di]; simp [Dev.sync]
  have db : (d.dev i).pitchBend = (s.chan c).pitchBend := by rw [di]; simp [Dev.sync]
  intro n hn ho
  rw [setDownstreamNoteOn_dev] at ho
  unfold setDownstreamNoteOn withPitch
  simp only [dm, dp, dc, db, hc, if_true, hch]
  unfold devNoteOn
  by_cases h6 : i < 6
  · rw [wd.wired.fm i h6]
    simp only [fmCall]
    rw [wd.wired.num i hi, chipNum_fm h6]
    by_cases e : i = n
    · subst e
      obtain ⟨r1, r2⟩ := hr h6
      exact Fm.noteOn_keyed env.fm he.fm _ h6 r1 r2
    · rw [Fm.noteOn_key env.fm _ h6 hn e, keyd]
      refine k n hn ?_
      rw [hdev, Psg.upd_other _ _ _ _ (Ne.symm e)] at ho
      exact ho
  · have e : n ≠ i := by omega
    have hon : (s.dev n).noteOn = true := by
      rw [hdev, Psg.upd_other _ _ _ _ e] at ho; exact ho
    rcases wd.wired.other i (by omega) hi with h | h <;> rw [h]
    · show keyed d.fm.synth.out n = true
      rw [keyd]; exact k n hn hon
    · simp only [fmCall]
      rw [Fm.step_keyless env.fm _ rfl, keyd]; exact k n hn hon

theorem noteOn_keysOn (he : env.Ok) {c p v : Nat} (hc : c < 16) (hv : v ≠ 0) (h : FreeInv H s) (w : KeyInv s) (k : KeysOn s)
    (hr : FmRange s c p) : KeysOn (noteOn env s c p v) := by
  unfold noteOn
  rw [if_neg hv]
  split
  · exact k
  split
  · exact k.same rfl rfl
  rename_i i hi
  have hi := findFree_lt hi
  split
  · split
    · exact k.same rfl rfl
    split
    · exact k.same rfl rfl
    rename_i st _
    extract_lets a
    have pa : (a.chan c).portamento = false := by simp [a, h.porta c hc]
    rw [pa]
    simp only [Bool.false_eq_true, false_and, if_false]
    have wa : KeyInv a := w.same rfl rfl
    have kb : KeysOn (setDev a i fun d => { d with glide := 0 }) := by
      intro n hn ho
      rw [setDev_dev] at ho
      refine k n hn ?_
      by_cases e : n = i
      · subst e; simpa [a] using ho
      · simpa [Psg.upd_other _ _ _ _ e, a] using ho
    refine startNote_keysOn he hc hi (wa.setDev rfl rfl fun x => x) kb fun _ => ?_
    simpa [FmRange, a] using hr
  · exact startNote_keysOn he hc hi w k fun _ => hr

end Mdmi.Midi
