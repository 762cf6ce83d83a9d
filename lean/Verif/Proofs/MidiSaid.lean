import Verif.Proofs.MidiStep
import Verif.Proofs.LogText
/-! What the engine model puts into the log: the arguments of its messages have the ranges of their C types. -/
namespace Mdmi.Midi
open LogText (MsgOk)

/-- Messages logged, parameter numbers of the channels, chip channels of the voices. -/
structure Side where
  log : List Msg
  rpn : Nat → Nat
  num : Nat → Nat

def side (s : St) : Side := ⟨s.log, fun c => (s.chan c).rpn, fun i => (s.dev i).num⟩

variable {env : Env} {s : St}

theorem setDev_side (i : Nat) (f : Dev → Dev) (h : (f (s.dev i)).num = (s.dev i).num) :
    side (setDev s i f) = side s := by
  simp only [side, setDev, Side.mk.injEq, true_and]
  funext j; simp only [upd]; split
  · subst_vars; exact h
  · rfl
theorem setChan_side (c : Nat) (f : Chan → Chan) (h : (f (s.chan c)).rpn = (s.chan c).rpn) :
    side (setChan s c f) = side s := by
  simp only [side, setChan, Side.mk.injEq, true_and, and_true]
  funext j; simp only [upd]; split
  · subst_vars; exact h
  · rfl
theorem fmCall_side (op : Fm.Op) : side (fmCall env s op) = side s := rfl
theorem psgCall_side (op : Psg.Op) : side (psgCall env s op) = side s := rfl
theorem ub_side : side (ub s) = side s := rfl

theorem foldl_side {α : Type} (f : St → α → St) (l : List α) (h : ∀ s a, side (f s a) = side s) (s : St) :
    side (l.foldl f s) = side s := by
  induction l generalizing s with
  | nil => rfl
  | cons a l ih => exact (ih _).trans (h s a)

theorem foreach_side (c : Nat) (f : St → Nat → St) (h : ∀ s i, side (f s i) = side s) :
    side (foreach s c f) = side s := by
  unfold foreach
  refine foldl_side _ _ (fun s i => ?_) s
  split
  · exact h s i
  · rfl

theorem devNoteOn_side (i p : Nat) (x : Int) (v : Nat) : side (devNoteOn env s i p x v) = side s := by
  unfold devNoteOn; split <;> rfl
theorem devNoteOff_side (i : Nat) : side (devNoteOff env s i) = side s := by unfold devNoteOff; split <;> rfl
theorem devVolume_side (i v : Nat) : side (devVolume env s i v) = side s := by unfold devVolume; split <;> rfl
theorem devProgram_side (i v : Nat) : side (devProgram env s i v) = side s := by unfold devProgram; split <;> rfl
theorem devAllNotesOff_side (i : Nat) : side (devAllNotesOff env s i) = side s := by
  unfold devAllNotesOff; split <;> rfl
theorem devPan_side (i v : Nat) : side (devPan env s i v) = side s := by unfold devPan; split <;> rfl
theorem devPitch_side (i p : Nat) (x : Int) : side (devPitch env s i p x) = side s := by unfold devPitch; split <;> rfl

theorem setDownstreamPitch_side (i : Nat) : side (setDownstreamPitch env s i) = side s := by
  unfold setDownstreamPitch withPitch
  simp only
  split
  · exact devPitch_side _ _ _
  · rfl
theorem setDownstreamNoteOn_side (i v : Nat) : side (setDownstreamNoteOn env s i v) = side s := by
  unfold setDownstreamNoteOn withPitch
  simp only
  split
  · exact devNoteOn_side _ _ _ _
  · rfl
theorem updateVolume_side (c i : Nat) : side (updateVolume env s c i) = side s := by
  unfold updateVolume
  split
  · exact (setDev_side i _ rfl).trans (devVolume_side _ _)
  · rfl
theorem updatePan_side (c i : Nat) : side (updatePan env s c i) = side s := by
  unfold updatePan
  split
  · exact (setDev_side i _ rfl).trans (devPan_side _ _)
  · rfl
theorem updateProgram_side (c i : Nat) : side (updateProgram env s c i) = side s := by
  unfold updateProgram
  split
  · exact (setDev_side i _ rfl).trans (devProgram_side _ _)
  · rfl
theorem updatePitchBend_side (c i : Nat) : side (updatePitchBend env s c i) = side s := by
  unfold updatePitchBend
  split
  · exact (setDownstreamPitch_side _).trans (setDev_side i _ rfl)
  · rfl
theorem updateDev_side (i : Nat) : side (updateDev env s i) = side s := by
  unfold updateDev
  simp only
  split
  · exact (updatePitchBend_side _ _).trans ((updateProgram_side _ _).trans ((updatePan_side _ _).trans
      (updateVolume_side _ _)))
  · rfl

theorem pitchBend_side (c b : Nat) : side (pitchBend env s c b) = side s := by
  unfold pitchBend
  refine (foreach_side _ _ fun s i => ?_).trans (setChan_side _ _ rfl)
  split
  · exact updatePitchBend_side _ _
  · rfl

theorem applyDynamicMode_side : side (applyDynamicMode s) = side s := by
  simp only [side, applyDynamicMode, Side.mk.injEq, true_and]
  funext j; split <;> rfl
theorem setDynamicMode_side (m : Mode) : side (setDynamicMode s m) = side s := by
  unfold setDynamicMode
  simp only
  split
  · exact applyDynamicMode_side
  · exact applyDynamicMode_side
  · rfl
theorem updatePbRange_side (c v : Nat) (m : Bool) : side (updatePbRange env s c v m) = side s := by
  unfold updatePbRange
  refine (foreach_side _ _ fun s i => ?_).trans (setChan_side _ _ rfl)
  split
  · exact setDownstreamPitch_side _
  · rfl

theorem emit_side (e : Ev) : side (emit s e) = side s := rfl
theorem setNote_side (i : Nat) (f : Dev → Dev) (h : (f (s.dev i)).num = (s.dev i).num) :
    side (setDev s i f) = side s := setDev_side i f h
theorem devChanNoteOn_side (i p v : Nat) : side (devChanNoteOn env s i p v) = side s := by
  unfold devChanNoteOn; exact (setDownstreamNoteOn_side i v).trans (setDev_side i _ rfl)
theorem devChanNoteOff_side (i : Nat) : side (devChanNoteOff env s i) = side s := by
  unfold devChanNoteOff; exact (devNoteOff_side i).trans (setDev_side i _ rfl)
theorem startNote_side (i c p v : Nat) : side (startNote env s i c p v) = side s := by
  unfold startNote
  extract_lets s1 s2 s3
  have h1 : side s1 = side s := by
    show side (ite _ _ _) = _
    split
    · exact devProgram_side _ _
    · rfl
  exact (setDownstreamNoteOn_side (s := s3) i v).trans ((updateDev_side (s := s2) i).trans
    ((setDev_side i _ rfl).trans h1))
theorem noteOffBody_side (c p next : Nat) (single : Bool) (x : St × Bool) (i : Nat) :
    side (noteOffBody env c p next single x i).1 = side x.1 := by
  obtain ⟨s, handled⟩ := x
  unfold noteOffBody
  simp only
  split
  · split
    · split
      · split
        · rfl
        · exact (setDev_side i _ rfl).trans (setChan_side c _ rfl)
      · exact devChanNoteOn_side _ _ _
    · exact devChanNoteOff_side _
  · rfl
theorem noteOff_side (c p : Nat) : side (noteOff env s c p) = side s := by
  unfold noteOff
  split
  · rfl
  · split
    · rfl
    · rename_i next st e
      have key : ∀ (sg : Bool) (l' : List Nat) (x : St × Bool),
          side (l'.foldl (noteOffBody env c p next sg) x).1 = side x.1 := by
        intro sg l'
        induction l' with
        | nil => exact fun x => rfl
        | cons a l' ih => exact fun x => (ih _).trans (noteOffBody_side _ _ _ _ x a)
      exact (key _ _ _).trans (setChan_side c _ rfl)
theorem allNotesOff_side (c : Nat) : side (allNotesOff env s c) = side s := by
  unfold allNotesOff
  exact foreach_side c _ fun s i => (devAllNotesOff_side i).trans (setDev_side i _ rfl)
theorem processGlide_side (i iv : Nat) : side (processGlide env s i iv) = side s := by
  unfold processGlide
  split
  · rfl
  · exact (setDownstreamPitch_side i).trans (setDev_side i _ rfl)
theorem tick_side : side (tick env s) = side s := by
  unfold tick
  refine foldl_side _ _ (fun s i => ?_) s
  split
  · rfl
  · split
    · split
      · exact processGlide_side _ _
      · rfl
    · rfl

/-! ### Ranges -/

/-- Every message in the log has arguments in range; so have the parameter numbers and chip channels. -/
structure Said (s : St) : Prop where
  log : ∀ m ∈ s.log, MsgOk m
  rpn : ∀ c, (s.chan c).rpn < 65536
  num : ∀ i, (s.dev i).num < 256

theorem Said.of {t : St} (h : Said s) (e : side t = side s) : Said t := by
  have e1 : t.log = s.log := congrArg Side.log e
  have e2 : ∀ c, (t.chan c).rpn = (s.chan c).rpn := congrFun (congrArg Side.rpn e)
  have e3 : ∀ i, (t.dev i).num = (s.dev i).num := congrFun (congrArg Side.num e)
  exact ⟨e1 ▸ h.log, fun c => by rw [e2]; exact h.rpn c, fun i => by rw [e3]; exact h.num i⟩
theorem Said.say (h : Said s) {m : Msg} (hm : MsgOk m) : Said (say s m) :=
  ⟨fun x hx => by
    rcases List.mem_cons.1 hx with rfl | hx
    · exact hm
    · exact h.log x hx, h.rpn, h.num⟩
theorem Said.fmCall (h : Said s) (op : Fm.Op) : Said (fmCall env s op) := h.of rfl
theorem Said.psgCall (h : Said s) (op : Psg.Op) : Said (psgCall env s op) := h.of rfl
theorem Said.emit (h : Said s) (e : Ev) : Said (emit s e) := h.of rfl
theorem Said.setRpn (h : Said s) (c : Nat) (f : Chan → Chan) (hf : (f (s.chan c)).rpn < 65536) :
    Said (setChan s c f) := by
  refine ⟨h.log, fun c' => ?_, h.num⟩
  simp only [setChan, upd]
  split
  · exact hf
  · exact h.rpn c'
theorem Said.setNum (h : Said s) (i : Nat) (f : Dev → Dev) (hf : (f (s.dev i)).num < 256) : Said (setDev s i f) := by
  refine ⟨h.log, h.rpn, fun i' => ?_⟩
  simp only [setDev, upd]
  split
  · exact hf
  · exact h.num i'
theorem Said.foreach (h : Said s) (c : Nat) (f : St → Nat → St)
    (hf : ∀ s i, (s.dev i).midiChannel = c → Said s → Said (f s i)) : Said (foreach s c f) := by
  unfold Midi.foreach
  refine List.foldlRecOn (motive := Said) _ _ h fun t ht i _ => ?_
  split
  · exact hf t i (by assumption) ht
  · exact ht

theorem noteOn_said (h : Said s) {c p v : Nat} (hc : c < 16) (hp : p < 256) : Said (noteOn env s c p v) := by
  unfold noteOn
  split
  · exact h.of (noteOff_side _ _)
  split
  · exact h
  split
  · exact h.say ⟨by omega, by omega⟩
  split
  · split
    · exact h.say (show c < 256 by omega)
    · split
      · exact h.of rfl
      · simp only
        split
        · exact h.of ((setDev_side _ _ rfl).trans (setChan_side c _ rfl))
        · exact h.of ((startNote_side _ _ _ _).trans ((setDev_side _ _ rfl).trans (setChan_side c _ rfl)))
  · exact h.of (startNote_side _ _ _ _)

theorem initDev_said (h : Said s) {i : Nat} (hi : i < 13) : Said (initDev env s i) := by
  unfold initDev
  refine Said.of (h.setNum i _ ?_) (updateDev_side i)
  simp only
  repeat' split
  all_goals simp only
  all_goals omega
theorem initAll_said (h : Said s) : Said ((List.range 13).foldl (initDev env) s) :=
  List.foldlRecOn (motive := Said) _ _ h fun _ ht _ hi => initDev_said ht (List.mem_range.1 hi)
theorem resetChannels_said (h : Said s) : Said (resetChannels env s) := by
  unfold resetChannels
  refine Said.of ?_ applyDynamicMode_side
  refine initAll_said ?_
  refine Said.mk h.log (fun c => ?_) h.num
  show Chan.rpn (ite _ _ _) < 65536
  split
  · decide
  · exact h.rpn c
theorem reset_said (h : Said s) : Said (reset env s) := by
  unfold reset
  exact resetChannels_said ⟨h.log, h.rpn, h.num⟩
theorem generalMidiReset_said (h : Said s) : Said (generalMidiReset env s) := by
  unfold generalMidiReset
  refine resetChannels_said ?_
  have k : side ((List.range 16).foldl (allNotesOff env) s) = side s := foldl_side _ _ (fun s c => allNotesOff_side c) s
  have k := h.of k
  revert k
  generalize (List.range 16).foldl (allNotesOff env) s = u
  intro k
  split
  · exact ⟨k.log, k.rpn, k.num⟩
  · exact k
theorem resetAllControllers_said (h : Said s) {c : Nat} : Said (resetAllControllers env s c) := by
  unfold resetAllControllers
  refine Said.of ?_ (setDynamicMode_side _)
  have h' := h.setRpn c (fun _ => freshChan) (by decide)
  revert h'
  generalize setChan s c _ = u
  intro h'
  unfold Midi.foreach
  refine List.foldlRecOn (motive := Said) _ _ h' fun t ht i hi => ?_
  split
  · exact initDev_said ht (List.mem_range.1 hi)
  · exact ht
theorem remap_said (h : Said s) {c i : Nat} (hc : c < 256) (hi : i < 256) : Said (remap s c i) := by
  unfold remap
  split
  · exact h.say hc
  · split
    · split
      · exact h.of (setDev_side _ _ rfl)
      · exact h
    · split
      · exact h.say hi
      · exact h.of (setDev_side _ _ rfl)
theorem setPolyphonic_said (h : Said s) (b : Bool) : Said (setPolyphonic s b) := by
  unfold setPolyphonic
  simp only
  split
  · refine List.foldlRecOn (motive := Said) _ _ (h.of (setDynamicMode_side _)) fun t ht i hi => ?_
    have := List.mem_range.1 hi
    exact remap_said ht (by omega) (by omega)
  · exact h.of (setDynamicMode_side _)
theorem setFmParam_said (h : Said s) {i k v : Nat} (hc : (s.dev i).midiChannel < 16) (hk : k < 256) (hv : v < 256) :
    Said (setFmParam env s i k v) := by
  unfold setFmParam
  split
  · split
    · exact h
    · exact h.of rfl
  · split
    · split
      · exact h
      · unfold enableDac; exact h.of ((fmCall_side _).trans (setDev_side 5 _ rfl))
    · exact h.say ⟨by omega, by omega, by omega⟩
theorem rpnDataEntry_said (h : Said s) {c v : Nat} {m : Bool} (hc : c < 16) (hv : v < 256) :
    Said (rpnDataEntry env s c v m) := by
  unfold rpnDataEntry
  split
  · exact h.of (updatePbRange_side _ _ _)
  · exact h.say ⟨by omega, h.rpn c, by omega⟩
theorem updateRpn_said (h : Said s) {c v : Nat} {m : Bool} : Said (updateRpn s c v m) := by
  unfold updateRpn
  refine h.setRpn c _ ?_
  have := h.rpn c
  show (if m then _ else _) < 65536
  split
  · omega
  · omega
theorem storeFromChannel_said (h : Said s) {c p : Nat} (hp : p < 256) : Said (storeFromChannel env s c p) := by
  unfold storeFromChannel
  split
  · exact Said.say (m := .presetStored p) (h.fmCall _) (show p < 256 by omega)
  · exact h

theorem ccSwitch_said (h : Said s) {c k v : Nat} (hc : c < 16) (hk : k < 256) (hv : v < 256) :
    Said (ccSwitch env s c k v) := by
  unfold ccSwitch
  split
  · split
    · exact h.of (setChan_side c _ rfl)
    · exact h.of rfl
  · exact (h.of (setChan_side c _ rfl)).of (foreach_side c _ fun s i => updateVolume_side c i)
  · exact (h.of (setChan_side c _ rfl)).of (foreach_side c _ fun s i => updatePan_side c i)
  · exact h.of (allNotesOff_side _)
  · exact h.of (allNotesOff_side _)
  · exact setPolyphonic_said h _
  · exact h.of rfl
  · exact resetAllControllers_said h
  · split
    · exact h
    · exact h.of rfl
  · split
    · exact h
    · exact h.of (setChan_side c _ rfl)
  · exact h.of (setChan_side c _ rfl)
  · split
    · exact h
    · exact h.of (setChan_side c _ rfl)
  · exact rpnDataEntry_said h hc hv
  · exact rpnDataEntry_said h hc hv
  · exact updateRpn_said h
  · exact updateRpn_said h
  · exact h
  · exact h
  · exact h
  · exact h
  · exact storeFromChannel_said h hv
  · exact h.foreach c _ fun s i e h => setFmParam_said h (e ▸ hc) hk hv

theorem handler_said (h : Said s) {k : Nat} {d : List Nat} {j : Nat} (hd : ∀ b ∈ d, b < 256) :
    Said (handler env s k d j) := by
  have g : ∀ i, d.getD i 0 < 256 := getD_lt hd (by decide)
  unfold handler
  split
  · exact remap_said h (g 0) (g 1)
  · exact h.of rfl
  · exact h.of (setDynamicMode_side _)
  · exact h.of rfl
  · exact h.of rfl
  · unfold loadPsgEnvelope
    split
    · exact h.of rfl
    · exact Said.say (m := .envelopeLoaded) (h.psgCall _) trivial
  · exact h.of rfl
  · exact h.of rfl
  · exact h.of rfl
  · unfold storeProgram
    split
    · exact Said.say (m := .presetStored _) (h.fmCall _) (g 1)
    · exact h.say (g 0)
  · unfold clearProgram
    split
    · exact Said.say (m := .presetCleared _) (h.fmCall _) (g 1)
    · exact h.say (g 0)
  · unfold clearAll
    split
    · exact Said.say (h.of (foldl_side (fun s n => fmCall env s (.clear n)) _ (fun s n => rfl) s)) trivial
    · exact h.say (g 0)
  · unfold dumpPreset
    split
    · split
      · exact Said.say (m := .presetDumped _) (h.emit _) (g 1)
      · exact h.say (g 1)
    · exact h.say (g 0)
  · unfold dumpChannel
    simp only
    split
    · exact h.say (g 1)
    · split
      · split
        · split
          · exact Said.say (m := .chanDumped _ _) (h.emit _) ⟨g 1, h.num _⟩
          · exact h.say (g 1)
        · exact h.say (g 1)
      · exact h.say (g 0)
  · exact h

theorem sysex_said (h : Said s) {d : List Nat} {j : Nat} (hd : ∀ b ∈ d, b < 256) (hl : d.length ≤ 256) :
    Said (sysex env s d j) := by
  have hd' : ∀ b ∈ d.drop 4, b < 256 := fun b hb => hd b (List.mem_of_mem_drop hb)
  unfold sysex
  split
  · exact h
  · split
    · exact generalMidiReset_said h
    · split
      · exact h
      · simp only
        split
        · exact h.say (getD_lt hd (by decide) 3)
        · split
          · exact h.say ⟨getD_lt hd (by decide) 3, by simp only [List.length_drop]; omega⟩
          · exact handler_said h hd'
        · exact handler_said h hd'

theorem step_said (h : Said s) {op : Op} (ho : LogText.OpTyped op) : Said (step env s op) := by
  cases op with
  | noteOn c p v => simp only [step, if_pos ho.1]; exact noteOn_said h ho.1 ho.2
  | noteOff c p =>
    simp only [step]
    split
    · exact h.of (noteOff_side _ _)
    · exact h.of rfl
  | bend c v =>
    simp only [step]
    split
    · exact h.of (pitchBend_side _ _)
    · exact h.of rfl
  | cc c k v => simp only [step, if_pos ho.1]; exact (ccSwitch_said h ho.1 ho.2.1 ho.2.2).of (emit_side _)
  | program c p =>
    simp only [step, program]
    split
    · have k := (h.of (setChan_side c (fun m => { m with program := p }) rfl)).of
        (foreach_side c _ fun s i => updateProgram_side (env := env) c i)
      exact k.of (emit_side _)
    · exact h.of rfl
  | sysex d j => exact sysex_said h ho.1 ho.2
  | remap c i => exact remap_said h ho.1 ho.2
  | reset => exact reset_said h
  | tick => exact h.of tick_side
  | psgTick => exact h.of rfl

theorem boot_said (env : Env) (b : Bool) (m : Sram.Mem) : Said (boot env b m) := by
  refine reset_said ⟨?_, ?_, ?_⟩
  · exact fun m hm => absurd hm (List.not_mem_nil (a := m))
  · exact fun c => by show (0 : Nat) < 65536; decide
  · exact fun c => by show (0 : Nat) < 256; decide

theorem run_said (ops : List Op) (h : Said s) (hw : ∀ op ∈ ops, LogText.OpTyped op) : Said (run env s ops) := by
  unfold run
  exact List.foldlRecOn (motive := Said) _ _ h fun t ht op ho => step_said ht (hw op ho)

end Mdmi.Midi
