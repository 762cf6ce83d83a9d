import Verif.Proofs.MidiStep
import Verif.Spec.Example
/-! C07: the channel map is always valid. -/
namespace Mdmi.Props
open Mdmi Mdmi.Midi

/-- Every device channel is mapped to a MIDI channel 0 to 15 or unassigned. -/
def MapValid (s : St) : Prop := ∀ i, i < 13 → MapOk (s.dev i).midiChannel

private theorem same {s t : St} (hs : MapValid s) (h : SameMap s t) : MapValid t :=
  fun i hi => by rw [h i]; exact hs i hi

private theorem fold_same {α : Type} {f : St → α → St} (l : List α) (h : ∀ s a, SameMap s (f s a)) (s : St) :
    SameMap s (l.foldl f s) := by
  induction l generalizing s with
  | nil => exact SameMap.refl s
  | cons a l ih => exact (h s a).trans (ih _)

private theorem foreach_same {c : Nat} {body : St → Nat → St} (h : ∀ s i, SameMap s (body s i)) (s : St) :
    SameMap s (foreach s c body) := by
  refine fold_same _ (fun s i => ?_) s
  split
  · exact h s i
  · exact SameMap.refl s

private theorem updateDev_same (env : Env) (s : St) (i : Nat) : SameMap s (updateDev env s i) := by
  by_cases h : (s.dev i).midiChannel < 16
  · exact sameMap_upd (updateDev_dev h) rfl
  · refine sameMap_of_dev ?_
    simp [updateDev, h]

private theorem devChanNoteOn_same (env : Env) (s : St) (i p v : Nat) : SameMap s (devChanNoteOn env s i p v) :=
  sameMap_upd (devChanNoteOn_dev i p v) rfl

private theorem noteOffBody_same (env : Env) (c p next : Nat) (single : Bool) (x : St × Bool) (i : Nat) :
    SameMap x.1 (noteOffBody env c p next single x i).1 := by
  obtain ⟨s, handled⟩ := x
  unfold noteOffBody
  simp only
  split
  · split
    · split
      · split
        · exact sameMap_of_dev rfl
        · exact sameMap_upd (i := i) (d := { s.dev i with glide := next }) rfl rfl
      · exact devChanNoteOn_same env s i _ _
    · exact sameMap_upd (devChanNoteOff_dev i) rfl
  · exact SameMap.refl s

private theorem noteOff_same (env : Env) (s : St) (c p : Nat) : SameMap s (noteOff env s c p) := by
  unfold noteOff
  split
  · exact sameMap_of_dev rfl
  split
  · exact sameMap_of_dev rfl
  rename_i next st _
  have h1 : SameMap s (setChan s c fun m => { m with stack := st }) := sameMap_of_dev rfl
  refine h1.trans ?_
  simp only
  generalize setChan s c _ = t
  generalize singleVoice t c true = single
  have h : ∀ (l : List Nat) (x : St × Bool), SameMap x.1 (l.foldl (noteOffBody env c p next single) x).1 := by
    intro l
    induction l with
    | nil => intro x; exact SameMap.refl _
    | cons i l ih =>
      intro x
      exact SameMap.trans (noteOffBody_same env c p next single x i) (ih _)
  exact h _ (t, false)
private theorem setDev_valid {s : St} (hs : MapValid s) {i : Nat} {f : Dev → Dev} (h : i < 13 → MapOk (f (s.dev i)).midiChannel) :
    MapValid (setDev s i f) := by
  intro j hj
  by_cases e : j = i
  · subst e; simpa using h hj
  · simpa [Psg.upd_other _ _ _ _ e] using hs j hj

private theorem startNote_valid {env : Env} {s : St} (hs : MapValid s) {i c p v : Nat} (hc : c < 16) :
    MapValid (startNote env s i c p v) := by
  intro j hj
  rw [startNote_dev hc]
  by_cases e : j = i
  · subst e; simp [Dev.sync]; exact .inl hc
  · simpa [Psg.upd_other _ _ _ _ e] using hs j hj

private theorem noteOn_valid {env : Env} {s : St} (hs : MapValid s) {c p v : Nat} (hc : c < 16) :
    MapValid (noteOn env s c p v) := by
  unfold noteOn
  split
  · exact same hs (noteOff_same env s c p)
  split
  · exact hs
  split
  · exact hs
  split
  · split
    · exact hs
    split
    · exact hs
    · rename_i i _ _ _ st _
      have h1 : MapValid (setChan s c fun m => { m with stack := st, lastVelocity := v }) := hs
      simp only
      revert h1
      generalize setChan s c _ = t
      intro h1
      split
      · exact setDev_valid (f := fun d => { d with glide := p }) h1 (fun h => h1 _ h)
      · exact startNote_valid (setDev_valid (f := fun d => { d with glide := 0 }) h1 (fun h => h1 _ h)) hc
  · exact startNote_valid hs hc

private theorem applyDynamicMode_valid (s : St) : MapValid (applyDynamicMode s) := by
  intro i hi
  simp only [applyDynamicMode, if_pos hi]
  split
  · exact .inr rfl
  · exact .inl (by omega)

private theorem setDynamicMode_valid {s : St} (hs : MapValid s) (m : Mode) : MapValid (setDynamicMode s m) := by
  unfold setDynamicMode
  cases m
  · exact applyDynamicMode_valid _
  · exact applyDynamicMode_valid _
  · exact hs

private theorem remap_valid {s : St} (hs : MapValid s) (c i : Nat) : MapValid (remap s c i) := by
  unfold remap
  split
  · exact hs
  rename_i h
  split
  · split
    · exact setDev_valid hs (fun _ => .inr rfl)
    · exact hs
  split
  · exact hs
  · refine setDev_valid hs (fun _ => ?_)
    unfold MapOk; simp only; omega

private theorem initDev_valid {env : Env} {s : St} (hs : MapValid s) (i : Nat) : MapValid (initDev env s i) := by
  refine same ?_ (updateDev_same env _ i)
  refine setDev_valid hs (fun h => .inl ?_)
  simp only; omega

private theorem setFmParam_same (env : Env) (s : St) (i k v : Nat) : SameMap s (setFmParam env s i k v) := by
  unfold setFmParam
  split
  · split <;> exact sameMap_of_dev rfl
  · split
    · split
      · exact sameMap_of_dev rfl
      · exact sameMap_upd (i := 5) (d := { s.dev 5 with ops := if (decide (v / 64 ≠ 0)) then .dac else .fm }) rfl rfl
    · exact sameMap_of_dev rfl

private theorem updatePbRange_same (env : Env) (s : St) (c v : Nat) (b : Bool) : SameMap s (updatePbRange env s c v b) := by
  unfold updatePbRange
  refine SameMap.trans (t := setChan s c _) (sameMap_of_dev rfl) (foreach_same (fun s i => ?_) _)
  split
  · exact sameMap_of_dev (by simp)
  · exact SameMap.refl s

private theorem ccSwitch_valid {env : Env} {s : St} (hs : MapValid s) (c k v : Nat) : MapValid (ccSwitch env s c k v) := by
  unfold ccSwitch
  split
  · split <;> exact hs
  · exact same (s := setChan s c _) hs (foreach_same (fun s i => sameMap_upd (updateVolume_dev c i) rfl) _)
  · exact same (s := setChan s c _) hs (foreach_same (fun s i => sameMap_upd (updatePan_dev c i) rfl) _)
  · exact same hs (foreach_same (fun s i => sameMap_upd (i := i) (d := { s.dev i with noteOn := false, pitch := 0 }) (by simp) rfl) _)
  · exact same hs (foreach_same (fun s i => sameMap_upd (i := i) (d := { s.dev i with noteOn := false, pitch := 0 }) (by simp) rfl) _)
  · unfold setPolyphonic
    simp only
    split
    · exact List.foldlRecOn (List.range 6) _ (setDynamicMode_valid hs _) (fun t ht i _ => remap_valid ht 0 i)
    · exact setDynamicMode_valid hs _
  · exact hs
  · unfold resetAllControllers
    refine setDynamicMode_valid ?_ _
    unfold foreach
    refine List.foldlRecOn (List.range 13) _ (show MapValid (setChan s c fun _ => freshChan) from hs) (fun t ht i _ => ?_)
    split
    · exact initDev_valid ht i
    · exact ht
  · split <;> exact hs
  · split <;> exact hs
  · exact hs
  · split <;> exact hs
  · unfold rpnDataEntry; split
    · exact same hs (updatePbRange_same env s c v true)
    · exact hs
  · unfold rpnDataEntry; split
    · exact same hs (updatePbRange_same env s c v false)
    · exact hs
  · exact hs
  · exact hs
  · exact hs
  · exact hs
  · exact hs
  · exact hs
  · unfold storeFromChannel; split <;> exact hs
  · exact same hs (foreach_same (fun s i => setFmParam_same env s i k v) _)

private theorem clearAll_same (env : Env) (s : St) (d : List Nat) : SameMap s (clearAll env s d) := by
  have h := fold_same (f := fun s n => fmCall env s (.clear n)) (List.range 128) (fun _ _ => sameMap_of_dev rfl) s
  unfold clearAll
  split
  · exact fun j => h j
  · exact sameMap_of_dev rfl

private theorem sysex_valid {env : Env} {s : St} (hs : MapValid s) (d : List Nat) (j : Nat) :
    MapValid (sysex env s d j) := by
  have hh : ∀ c e, MapValid (handler env s c e j) := by
    intro c e
    unfold handler
    split
    · exact remap_valid hs _ _
    · exact hs
    · exact setDynamicMode_valid hs _
    · exact hs
    · exact hs
    · unfold loadPsgEnvelope; split <;> exact hs
    · exact hs
    · exact hs
    · exact hs
    · unfold storeProgram; split <;> exact hs
    · unfold clearProgram; split <;> exact hs
    · exact same hs (clearAll_same env s e)
    · unfold dumpPreset; split
      · split <;> exact hs
      · exact hs
    · unfold dumpChannel; simp only; split
      · exact hs
      split
      · split
        · split <;> exact hs
        · exact hs
      · exact hs
    · exact hs
  unfold sysex
  split
  · exact hs
  split
  · unfold generalMidiReset resetChannels; exact applyDynamicMode_valid _
  split
  · exact hs
  simp only
  split
  · exact hs
  · split
    · exact hs
    · exact hh _ _
  · exact hh _ _

private theorem program_same (env : Env) (s : St) (c p : Nat) : SameMap s (program env s c p) := by
  have h := foreach_same (c := c) (body := fun s i => updateProgram env s c i)
    (fun s i => sameMap_upd (updateProgram_dev c i) rfl) (setChan s c fun m => { m with program := p })
  intro j
  simp only [program, emit_dev]
  exact (h j).trans (by simp)

private theorem pitchBend_same (env : Env) (s : St) (c b : Nat) : SameMap s (pitchBend env s c b) := by
  have h := foreach_same (c := c) (body := fun s i => if (s.dev i).noteOn then updatePitchBend env s c i else s)
    (fun s i => by
      split
      · exact sameMap_upd (updatePitchBend_dev c i) rfl
      · exact SameMap.refl s) (setChan s c fun m => { m with pitchBend := b })
  intro j
  simp only [pitchBend]
  exact (h j).trans (by simp)

private theorem tick_same (env : Env) (s : St) : SameMap s (tick env s) := by
  unfold tick
  refine fold_same _ (fun s i => ?_) s
  split
  · exact SameMap.refl s
  split
  · split
    · unfold processGlide
      split
      · exact SameMap.refl s
      · rename_i g _
        exact sameMap_upd (i := i) (d := { s.dev i with pitch := g.pitch, cents := g.cents, glide := g.target }) (by simp) rfl
    · exact SameMap.refl s
  · exact sameMap_of_dev rfl

/-- **C07**.  One call of any kind, with any arguments, keeps the channel map valid. -/
theorem C07_step (env : Env) (s : St) (op : Op) (hs : MapValid s) : MapValid (step env s op) := by
  cases op <;> simp only [step]
  · split
    · exact noteOn_valid hs (by assumption)
    · exact hs
  · split
    · exact same hs (noteOff_same _ _ _ _)
    · exact hs
  · split
    · exact same hs (pitchBend_same env s _ _)
    · exact hs
  · split
    · exact ccSwitch_valid hs _ _ _
    · exact hs
  · split
    · exact same hs (program_same env s _ _)
    · exact hs
  · exact sysex_valid hs _ _
  · exact remap_valid hs _ _
  · unfold reset resetChannels; exact applyDynamicMode_valid _
  · exact same hs (tick_same env s)
  · exact hs

/-- **C07**.  From start-up, after any history of calls (system exclusive messages and remaps with arbitrary bytes,
valid or not), every device channel is mapped to a MIDI channel 0 to 15 or to the marker 0x7F. -/
theorem C07_map_always_valid (env : Env) (b : Bool) (m : Sram.Mem) (ops : List Op) :
    ∀ i, i < 13 → ((run env (boot env b m) ops).dev i).midiChannel < 16 ∨
      ((run env (boot env b m) ops).dev i).midiChannel = 0x7F :=
  List.foldlRecOn (motive := MapValid) ops _
    (by unfold boot reset resetChannels; exact applyDynamicMode_valid _) (fun s hs op _ => C07_step env s op hs)

/-- Remaps change the map, invalid ones are rejected, and dynamic mode unassigns what it does not use. -/
example :
    let s := Ex.after .static [.sysex [0, 0x22, 0x77, 0, 3, 7] 0, .sysex [0, 0x22, 0x77, 0, 16, 8] 0,
      .sysex [0, 0x22, 0x77, 0, 200, 8] 0, .sysex [0, 0x22, 0x77, 0, 3, 13] 0]
    let t := Ex.after .dynamic [.noteOn 4 60 100]
    (s.dev 7).midiChannel = 3 ∧ (s.dev 8).midiChannel = 8 ∧ s.log.length = 3 ∧
      (t.dev 0).midiChannel = 4 ∧ (t.dev 1).midiChannel = 0x7F := by decide +kernel

end Mdmi.Props
