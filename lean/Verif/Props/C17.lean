import Verif.Proofs.MidiEach
import Verif.Spec.Example
/-! C17: All Notes Off silences exactly its channel. -/
namespace Mdmi.Props
open Mdmi Mdmi.Midi

/-- Controllers that mean All Sound Off and All Notes Off. -/
def isNotesOff (k : Nat) : Prop := k = 120 ∨ k = 123

/-- Voice `i` has stopped: it does not count as sounding; an FM channel is keyed off, a PSG channel is silent or runs
out its release section. -/
structure Stopped (i : Nat) (t : St) : Prop where
  dev : (t.dev i).noteOn = false
  fm : i < 6 → (t.dev i).ops = .fm → Synth.keyed t.fm.synth.out i = false
  psg : 6 ≤ i → i < 10 → (t.psg.ch (i - 6)).noteOn = true → (t.psg.ch (i - 6)).noteReleased = true

/-- Voices drive the chip channel of their number. -/
private def Kinds (s : St) : Prop := ∀ i, i < 13 → (s.dev i).num = chipNum i ∧ KindOk i (s.dev i).ops

private def cut (s : St) (i : Nat) : St := setDev s i fun d => { d with noteOn := false, pitch := 0 }

private theorem cut_dev {s : St} {i j : Nat} : ((cut s i).dev j).num = (s.dev j).num ∧ ((cut s i).dev j).ops = (s.dev j).ops ∧
    ((cut s i).dev j).midiChannel = (s.dev j).midiChannel := by
  unfold cut
  rw [setDev_dev]
  by_cases e : j = i
  · subst e; simp
  · simp [Psg.upd_other _ _ _ _ e]

private theorem release_stops {s : Psg.St} {n : Nat} (hn : n < 4) :
    ((Psg.allNotesOff s n).ch n).noteOn = true → ((Psg.allNotesOff s n).ch n).noteReleased = true := by
  unfold Psg.allNotesOff Psg.noteOff
  cases ho : (s.ch n).noteOn with
  | true =>
    cases hl : (s.ch n).loopStart with
    | some x =>
      rw [Psg.onChan_same hn (o := ({ s.ch n with noteReleased := true }, [])) (by simp [Psg.releaseChan, ho, hl])]
      intro _; rfl
    | none =>
      rw [Psg.onChan_same hn (o := Psg.noteOffChan n (s.ch n, [])) (by simp [Psg.releaseChan, ho, hl])]
      intro h; cases h
  | false =>
    rw [Psg.onChan_same hn (o := (s.ch n, [])) (by simp [Psg.releaseChan, ho])]
    rw [ho]; intro h; cases h

private theorem kind_fm {s : St} {i : Nat} (h : KindOk i (s.dev i).ops) (h6 : i < 6) : (s.dev i).ops = .fm ∨ i = 5 ∧ (s.dev i).ops = .dac := by
  rcases h with h | h | h | h
  · exact .inl h.2
  · exact .inr h
  · omega
  · omega

private theorem off_key {env : Env} {t : St} {i j : Nat} (hk : KindOk i (t.dev i).ops) (hn : (t.dev i).num = chipNum i)
    (hj : j < 6) : Synth.keyed (devAllNotesOff env t i).fm.synth.out j =
      if i = j ∧ (t.dev i).ops = .fm then false else Synth.keyed t.fm.synth.out j := by
  unfold devAllNotesOff
  rcases hk with h | h | h | h
  · rw [h.2]
    have hc : chipNum i = i := by unfold chipNum; rw [if_pos (by omega)]
    simp only [fmCall]
    rw [hn, hc, Fm.allNotesOff_key env.fm t.fm h.1 hj]
    simp
  · rw [h.2]; simp
  · rw [h.2.2]; simp [psgCall]
  · rw [h.2.2]; simp

private theorem off_psg {env : Env} {t : St} {i n : Nat} (hk : KindOk i (t.dev i).ops) (hn : (t.dev i).num = chipNum i) :
    (n + 6 ≠ i → (devAllNotesOff env t i).psg.ch n = t.psg.ch n) ∧
    (n + 6 = i → n < 4 → ((devAllNotesOff env t i).psg.ch n).noteOn = true → ((devAllNotesOff env t i).psg.ch n).noteReleased = true) := by
  unfold devAllNotesOff
  rcases hk with h | h | h | h
  · rw [h.2]; exact ⟨fun _ => rfl, by omega⟩
  · rw [h.2]; exact ⟨fun _ => rfl, by omega⟩
  · rw [h.2.2]
    have hc : chipNum i = i - 6 := by unfold chipNum; rw [if_neg (by omega), if_pos (by omega)]
    simp only [psgCall, hn, hc]
    refine ⟨fun hne => ?_, fun e h4 => ?_⟩
    · exact Psg.onChan_other _ _ _ _ (by omega)
    · have : i - 6 = n := by omega
      rw [this]; exact release_stops h4
  · rw [h.2.2]; exact ⟨fun _ => rfl, by omega⟩

private theorem all_stopped {env : Env} {s : St} {c : Nat} (hs : Kinds s) :
    ∀ i, i < 13 → (s.dev i).midiChannel = c → Stopped i (allNotesOff env s c) := by
  have key : ∀ t i, i < 13 → Kinds t → KindOk i ((cut t i).dev i).ops ∧ ((cut t i).dev i).num = chipNum i := by
    intro t i hi ht
    rw [cut_dev.1, cut_dev.2.1]; exact ⟨(ht i hi).2, (ht i hi).1⟩
  have h := foreach_done (s := s) (c := c) (I := Kinds) (Q := Stopped)
    (body := fun s i => devAllNotesOff env (setDev s i fun d => { d with noteOn := false, pitch := 0 }) i) ?_ ?_ ?_ ?_ hs
  · exact h.2.2
  · intro t i _ _ ht j hj
    rw [devAllNotesOff_dev]
    show ((cut t i).dev j).num = _ ∧ KindOk j ((cut t i).dev j).ops
    rw [cut_dev.1, cut_dev.2.1]; exact ht j hj
  · intro t i j _ _ _
    rw [devAllNotesOff_dev]; exact cut_dev.2.2
  · intro t i ht hi _
    obtain ⟨k1, k2⟩ := key t i hi ht
    refine ⟨?_, fun h6 ho => ?_, fun h6 h10 => ?_⟩
    · rw [devAllNotesOff_dev]; simp
    · rw [devAllNotesOff_dev] at ho
      show Synth.keyed (devAllNotesOff env (cut t i) i).fm.synth.out i = false
      rw [off_key k1 k2 h6, if_pos ⟨rfl, ho⟩]
    · exact (off_psg (env := env) (n := i - 6) k1 k2).2 (by omega) (by omega)
  · intro t i j ht hi hj _ hne hq
    obtain ⟨k1, k2⟩ := key t i hi ht
    have hdj : (devAllNotesOff env (cut t i) i).dev j = t.dev j := by
      rw [devAllNotesOff_dev, cut, setDev_dev, Psg.upd_other _ _ _ _ hne]
    refine ⟨?_, fun h6 ho => ?_, fun h6 h10 => ?_⟩
    · show ((devAllNotesOff env (cut t i) i).dev j).noteOn = false
      rw [hdj]; exact hq.dev
    · have ho : ((devAllNotesOff env (cut t i) i).dev j).ops = .fm := ho
      rw [hdj] at ho
      show Synth.keyed (devAllNotesOff env (cut t i) i).fm.synth.out j = false
      rw [off_key k1 k2 h6, if_neg (fun e => hne e.1.symm)]
      exact hq.fm h6 ho
    · show ((devAllNotesOff env (cut t i) i).psg.ch (j - 6)).noteOn = true → ((devAllNotesOff env (cut t i) i).psg.ch (j - 6)).noteReleased = true
      rw [(off_psg (env := env) (n := j - 6) k1 k2).1 (by omega)]
      exact hq.psg h6 h10

/-- What All Notes Off does: every voice of `c` stops, nothing else changes. -/
structure NotesOff (c : Nat) (s t : St) : Prop where
  stopped : ∀ i, i < 13 → (s.dev i).midiChannel = c → Stopped i t
  dev : ∀ i, (s.dev i).midiChannel ≠ c → t.dev i = s.dev i
  chan : t.chan = s.chan
  cfg : t.cfg = s.cfg
  dynamic : t.dynamic = s.dynamic
  chip : ChipFrame (fun i => (s.dev i).midiChannel = c) s t

private theorem notesOff_emit {c : Nat} {s t : St} {e : Ev} (h : NotesOff c s t) : NotesOff c s (emit t e) :=
  ⟨fun i hi hm => ⟨(h.stopped i hi hm).dev, (h.stopped i hi hm).fm, (h.stopped i hi hm).psg⟩, h.dev, h.chan, h.cfg, h.dynamic,
    ⟨h.chip.reg, h.chip.key, h.chip.tone, h.chip.att⟩⟩

/-- **C17**, in every reachable state: every voice of the channel has stopped; no other voice, no MIDI channel, no
configuration and nothing of the chips beyond the channel's voices changes.  Full statement: also for a voice that
plays samples; false, the sample plays on (`C17_sample_plays_on`). -/
theorem C17_all_notes_off_partial (env : Env) (he : env.Ok) (s : St) (hs : Reached env s) (c k v : Nat) (hk : isNotesOff k)
    (hw : Op.Wf (.cc c k v)) : NotesOff c s (step env s (.cc c k v)) := by
  obtain ⟨tame, ho⟩ := hs.ok he
  have e : step env s (.cc c k v) = emit (allNotesOff env s c) (.changedCc c k v) := by
    simp only [step, hw.1, if_true, cc]
    rcases hk with rfl | rfl <;> rfl
  rw [e]
  have f : Frame env _ (fun _ => False) (fun _ => False) (fun _ => False) s (allNotesOff env s c) := (allNotesOff_path he ho).1.frame
  exact notesOff_emit ⟨all_stopped fun i hi => ⟨(ho.dev i hi).num, (ho.dev i hi).kind⟩, f.dev, allNotesOff_chan c, f.cfg,
    f.dynamic, f.chip⟩

/-- **C17** (negation).  Channel 6 plays samples; All Notes Off sends nothing to the chip or the sample player. -/
theorem C17_sample_plays_on :
    let s := Ex.after .static [.cc 5 78 127, .noteOn 5 60 100]
    let t := step (Ex.env .static) s (.cc 5 123 0)
    (s.dev 5).noteOn = true ∧ s.fm.synth.out.head? = some (.pcmStart 60) ∧ (t.dev 5).noteOn = false ∧
    t.fm.synth.out.length = s.fm.synth.out.length := by
  decide +kernel

/-! ### Examples -/

/-- Two FM voices and a PSG voice of channel 1 stop, channel 2 plays on. -/
example : let s := Ex.after .static [.remap 0 2, .remap 0 6, .noteOn 0 60 100, .noteOn 0 64 100, .noteOn 0 67 100, .noteOn 1 50 90]
    let t := step (Ex.env .static) s (.cc 0 123 0)
    Synth.keyed s.fm.synth.out 0 = true ∧ Synth.keyed s.fm.synth.out 2 = true ∧ (s.psg.ch 0).noteOn = true ∧
    Synth.keyed t.fm.synth.out 0 = false ∧ Synth.keyed t.fm.synth.out 2 = false ∧ Synth.keyed t.fm.synth.out 1 = true ∧
    ((t.psg.ch 0).noteOn && !(t.psg.ch 0).noteReleased) = false := by
  decide +kernel

end Mdmi.Props
