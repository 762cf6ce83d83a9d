import Verif.Proofs.Ui
import Verif.Proofs.MidiBare
/-! The display over whole histories: no undefined behaviour, and what each column shows. -/
namespace Mdmi.Ui
open Mdmi.Midi (Dev)
open Mdmi.UiSpec (Reads row)

/-! ### No undefined behaviour -/

theorem dec_len {n k : Nat} (hk : 0 < k) (h : n < 10 ^ k) : (dec n).length ≤ k :=
  (Nat.length_toDigits_le_iff (by omega) hk).2 h
theorem decLeft_le {w n : Nat} (hk : 0 < w) (h : n < 10 ^ w) : (decLeft w n).length = w := by
  have := dec_len hk h
  simp only [decLeft, List.length_append, List.length_replicate]; omega
theorem decRight_le {w n : Nat} (hk : 0 < w) (h : n < 10 ^ w) : (decRight w n).length = w := by
  have := dec_len hk h
  simp only [decRight, List.length_append, List.length_replicate]; omega

theorem foldl_fault {α : Type} (f : St → α → St) (l : List α) (P : St → Prop) (s : St) (hs : P s)
    (h : ∀ s, ∀ a ∈ l, P s → P (f s a) ∧ (f s a).fault = s.fault) : (l.foldl f s).fault = s.fault := by
  induction l generalizing s with
  | nil => rfl
  | cons a l ih =>
    have k := h s a (by simp) hs
    exact (ih _ k.1 fun s b hb => h s b (by simp [hb])).trans k.2

theorem showPitch_fault (s : St) (i : Nat) {p : Nat} (hp : p < 128) : (showPitch s i p).fault = s.fault := by
  unfold showPitch
  split
  · rfl
  · simp only
    split
    · rfl
    · split
      · split
        · rfl
        · rename_i e
          have : p - 21 < pitchNames.length := by
            have : pitchNames.length = 107 := by decide +kernel
            omega
          rw [List.getElem?_eq_none_iff] at e; omega
      · rfl

theorem updateKeyOnOff_fault (dev : Nat → Dev) (s : St) (h : ∀ i, i < 10 → (dev i).pitch < 128) :
    (updateKeyOnOff dev s).fault = s.fault := by
  unfold updateKeyOnOff
  refine foldl_fault _ _ (fun _ => True) s trivial fun s i hi _ => ⟨trivial, showPitch_fault s i ?_⟩
  split
  · exact h i (by simpa using hi)
  · omega

theorem printChanges_fault {s : St} (h : Bytes s) : (printChanges s).fault = s.fault := by
  unfold printChanges
  refine foldl_fault _ _ Bytes s h fun s i _ hs => ⟨printChange_bytes i hs, ?_⟩
  rw [printChange_eq (hs i)]

theorem printMappings_fault (dev : Nat → Dev) (s : St) (h : ∀ i, i < 10 → Midi.MapOk (dev i).midiChannel) :
    (printMappings dev s).fault = s.fault := by
  unfold printMappings
  split
  · rfl
  · refine foldl_fault _ _ (fun _ => True) s trivial fun s i hi _ => ⟨trivial, ?_⟩
    have hm := h i (by simpa using hi)
    unfold showMapping
    split
    · rfl
    · split
      · rfl
      · rename_i hne e
        rw [List.getElem?_eq_none_iff] at e
        have : midiChText.length = 16 := by decide
        unfold Midi.MapOk at hm
        omega

theorem activity_fault (env : Env) (m : Midi.St) (s : St) (f : Frame)
    (h : ∀ i, i < 10 → Midi.MapOk (m.dev i).midiChannel) (ht : f.ticks < 65536) :
    (activity env m s f).fault = s.fault := by
  unfold activity
  extract_lets s1 s2 s3 s4 s5
  have h1 : s1.fault = s.fault := printMappings_fault _ _ h
  have h2 : s2.fault = s1.fault := by
    show (printCommMode s1 f.mode).fault = _
    unfold printCommMode
    split
    · rfl
    · split
      · rfl
      · extract_lets inited s'
        split <;> rfl
  have h3 : s3.fault = s2.fault := by
    show (printLog s2 f.log).fault = _
    unfold printLog
    split
    · rfl
    · extract_lets s'
      show s'.fault = _
      show St.fault (ite _ _ _) = _
      split <;> rfl
  have h4 : s4.fault = s3.fault := by
    show (printRouting s3 m.dynamic).fault = _
    unfold printRouting
    split <;> rfl
  have h5 : s5.fault = s4.fault := by
    show St.fault (ite _ _ _) = _
    split
    · show (printTicks s4 f.ticks).fault = _
      unfold printTicks
      rw [print_ok (by rw [decLeft_le (by omega) (by omega)]; omega)]
    · rfl
  refine Eq.trans ?_ (h5.trans (h4.trans (h3.trans (h2.trans h1))))
  unfold printMark
  split
  · rfl
  · split <;> rfl

theorem updateField_fault (s : St) {f v : Nat} (h : (fmText f v).isSome) : (updateField s f v).fault = s.fault := by
  unfold updateField
  split
  · split
    · rfl
    · rename_i e; rw [e] at h; simp at h
  · rfl

theorem updateOp_fault (s : St) {f o v : Nat} (h : v < 1000) : (updateOp s f o v).fault = s.fault := by
  unfold updateOp
  split
  · rw [print_ok (by rw [decRight_le (by omega) (by omega)]; omega)]
  · rfl

theorem fmText_some {f a b : Nat} {c : Synth.FmChannel} {e q : Nat} (hf : f < 8) (ha : a < 16) (hb : b < 6) (hc : c.Ok)
    (hq : q < 8) : (fmText f (fmValue f a b c e q)).isSome := by
  have fit3 : ∀ t : Text, t.length ≤ 2 → (fit 3 t).isSome := fun t ht => by
    unfold fit; rw [if_pos (by omega)]; rfl
  obtain ⟨h1, h2, h3, h4, h5, _, _, _⟩ := hc
  have : f = 0 ∨ f = 1 ∨ f = 2 ∨ f = 3 ∨ f = 4 ∨ f = 5 ∨ f = 6 ∨ f = 7 := by omega
  rcases this with e | e | e | e | e | e | e | e <;> subst e <;> simp only [fmText, fmValue]
  · exact fit3 _ (Nat.le_of_eq (decLeft_le (by omega) (by omega)))
  · exact fit3 _ (Nat.le_of_eq (decLeft_le (by omega) (by omega)))
  · exact fit3 _ (dec_len (by omega) (by omega))
  · exact fit3 _ (dec_len (by omega) (by omega))
  · rfl
  · rw [List.getElem?_eq_getElem (by have : lfoTexts.length = 9 := rfl; split <;> omega)]; rfl
  · rw [List.getElem?_eq_getElem (by have : fmsTexts.length = 8 := rfl; omega)]; rfl
  · rw [List.getElem?_eq_getElem (by have : amsTexts.length = 4 := rfl; omega)]; rfl

theorem opValue_lt {f : Nat} {o : Synth.Operator} (h : o.Ok) : opValue f o < 128 := by
  obtain ⟨h1, h2, h3, h4, h5, h6, h7, h8, h9, h10, h11⟩ := h
  unfold opValue
  split <;> omega

theorem updateField_who (s : St) (f v : Nat) :
    (updateField s f v).panelMidi = s.panelMidi ∧ (updateField s f v).panelFm = s.panelFm := by
  unfold updateField
  split
  · split <;> exact ⟨rfl, rfl⟩
  · exact ⟨rfl, rfl⟩

theorem calm_fault (s : St) : St.fault { s with force := false } = s.fault := rfl

theorem updateValues_fault (sy : Synth.St) (s : St) (hs : Synth.Safe sy) (hm : s.panelMidi < 16) (hf : s.panelFm < 6) :
    (updateValues sy s).fault = s.fault := by
  unfold updateValues
  rw [if_pos hf]
  extract_lets c s1 s2 s3
  have hc : c.Ok := hs.ok _ hf
  have h1 : s1.fault = s.fault := by
    show (updateFields sy s c).fault = _
    unfold updateFields
    refine foldl_fault _ _ (fun s => s.panelMidi < 16 ∧ s.panelFm < 6) s ⟨hm, hf⟩ fun s f hf hs' => ?_
    obtain ⟨w1, w2⟩ := updateField_who s f (fmValue f s.panelMidi s.panelFm c sy.lfoEnable sy.lfoFrequency)
    exact ⟨by rw [w1, w2]; exact hs', updateField_fault s (fmText_some (by simpa using hf) hs'.1 hs'.2 hc hs.lfo.2)⟩
  have h2 : s2.fault = s1.fault := by
    show (updateDiagram s1 c.algorithm).fault = _
    unfold updateDiagram
    rw [if_pos hc.algorithm]
    split <;> rfl
  have h3 : s3.fault = s2.fault := by
    show (updateOps s2 c.ops).fault = _
    unfold updateOps
    have ho : ∀ k, (c.ops.get k).Ok := fun k => by
      obtain ⟨a, b, d, e⟩ := hc.ops
      unfold Synth.Ops4.get
      split <;> assumption
    refine foldl_fault _ _ (fun _ => True) s2 trivial fun s f _ _ => ⟨trivial, ?_⟩
    refine foldl_fault _ _ (fun _ => True) s trivial fun s o _ _ => ⟨trivial, updateOp_fault s ?_⟩
    have := opValue_lt (f := f) (ho o)
    omega
  exact (calm_fault s3).trans (h3.trans (h2.trans h1))

/-- Which channels the panel shows. -/
def St.who (s : St) : Nat × Nat := (s.panelMidi, s.panelFm)

theorem updateFields_who (sy : Synth.St) (s : St) (c : Synth.FmChannel) : (updateFields sy s c).who = s.who := by
  unfold updateFields
  exact foldl_keeps St.who _ _ _ fun s f => by
    have := updateField_who s f (fmValue f s.panelMidi s.panelFm c sy.lfoEnable sy.lfoFrequency)
    exact Prod.ext this.1 this.2
theorem updateDiagram_who (s : St) (a : Nat) : (updateDiagram s a).who = s.who := by
  unfold updateDiagram
  split
  · split <;> rfl
  · rfl
theorem updateOps_who (s : St) (o : Synth.Ops4) : (updateOps s o).who = s.who := by
  unfold updateOps
  refine foldl_keeps St.who _ _ _ fun s f => foldl_keeps St.who _ _ _ fun s o => ?_
  unfold updateOp
  split
  · unfold print; split <;> rfl
  · rfl
theorem calm_who (s : St) : St.who { s with force := false } = s.who := rfl

theorem updateValues_who (sy : Synth.St) (s : St) : (updateValues sy s).who = s.who := by
  unfold updateValues
  split
  · extract_lets c s1 s2 s3
    have h1 : s1.who = s.who := updateFields_who _ _ _
    have h2 : s2.who = s1.who := updateDiagram_who _ _
    have h3 : s3.who = s2.who := updateOps_who _ _
    exact (calm_who s3).trans (h3.trans (h2.trans h1))
  · rfl

theorem fmChanFor_lt {dev : Nat → Dev} (h : ∀ i, i < 6 → (dev i).num < 6) {c k : Nat} (e : fmChanFor dev c = some k) :
    k < 6 := by
  unfold fmChanFor at e
  rw [Option.map_eq_some_iff] at e
  obtain ⟨i, hi, rfl⟩ := e
  exact h i (by simpa using List.mem_of_find?_eq_some hi)

theorem updatePanel_fault (dev : Nat → Dev) (sy : Synth.St) (s : St) (hd : ∀ i, i < 6 → (dev i).num < 6)
    (hs : Synth.Safe sy) (hm : s.panelMidi < 16) (hf : s.panelFm < 6) :
    (updatePanel dev sy s).fault = s.fault ∧ (updatePanel dev sy s).panelMidi < 16 ∧
      (updatePanel dev sy s).panelFm < 6 := by
  unfold updatePanel
  split
  · exact ⟨rfl, hm, hf⟩
  · split
    · exact ⟨rfl, hm, hf⟩
    · rename_i k e
      extract_lets s'
      have h' : s'.fault = s.fault ∧ s'.panelMidi < 16 ∧ s'.panelFm < 6 := by
        show St.fault (ite _ _ _) = _ ∧ St.panelMidi (ite _ _ _) < 16 ∧ St.panelFm (ite _ _ _) < 6
        split
        · exact ⟨rfl, hm, fmChanFor_lt hd e⟩
        · exact ⟨rfl, hm, hf⟩
      split
      · have w := updateValues_who sy s'
        simp only [St.who, Prod.mk.injEq] at w
        refine ⟨(updateValues_fault sy s' hs h'.2.1 h'.2.2).trans h'.1, ?_, ?_⟩
        · show (updateValues sy s').panelMidi < 16
          rw [w.1]; exact h'.2.1
        · show (updateValues sy s').panelFm < 6
          rw [w.2]; exact h'.2.2
      · exact h'

/-- The stages of a frame. -/
theorem update_split (env : Env) (m : Midi.St) (s : St) (f : Frame) :
    ∃ s2 s3 s4, s2 = printChanges (updateKeyOnOff m.dev s) ∧
      s3 = { s2 with activityFrame := (s.activityFrame + f.delta) % 65536 } ∧
      s4 = (if 5 ≤ (s.activityFrame + f.delta) % 65536 then activity env m { s3 with activityFrame := 0 } f else s3) ∧
      update env m s f = updatePanel m.dev m.fm.synth s4 := by
  have e : (printChanges (updateKeyOnOff m.dev s)).activityFrame = s.activityFrame :=
    (printChanges_rest _).2.2.2.trans (updateKeyOnOff_rest m.dev s).2.2.2
  refine ⟨_, _, _, rfl, rfl, rfl, ?_⟩
  unfold update
  simp only
  rw [e]

/-- What a frame needs of the engine. -/
structure Fit (m : Midi.St) : Prop where
  pitch : ∀ i, i < 10 → (m.dev i).pitch < 128
  map : ∀ i, i < 10 → Midi.MapOk (m.dev i).midiChannel
  num : ∀ i, i < 6 → (m.dev i).num < 6
  synth : Synth.Safe m.fm.synth

/-- What the display keeps true of itself. -/
structure Tidy (s : St) : Prop where
  fault : s.fault = false
  bytes : Bytes s
  midi : s.panelMidi < 16
  fm : s.panelFm < 6
  frame : s.activityFrame < 5
  shown : ∀ i, i < 10 → PitchShown s i

/-- Cells a frame draws after notes and changes. -/
def TailArea (x y : Nat) : Prop := SlowArea x y ∨ (19 ≤ x ∧ y < 22)

theorem update_tail (env : Env) (m : Midi.St) (s : St) (f : Frame) :
    Eff TailArea (printChanges (updateKeyOnOff m.dev s)) (update env m s f) ∧
    (update env m s f).lastPitches = (updateKeyOnOff m.dev s).lastPitches ∧
    (update env m s f).change = (printChanges (updateKeyOnOff m.dev s)).change := by
  obtain ⟨s2, s3, s4, e2, e3, e4, e⟩ := update_split env m s f
  rw [← (printChanges_rest (updateKeyOnOff m.dev s)).1, ← e2]
  have k3 : Eff TailArea s2 s3 := by rw [e3]; exact ⟨id, fun _ _ _ => rfl⟩
  have r3 : s3.lastPitches = s2.lastPitches ∧ s3.change = s2.change := by rw [e3]; exact ⟨rfl, rfl⟩
  have k4 : Eff TailArea s3 s4 ∧ s4.lastPitches = s3.lastPitches ∧ s4.change = s3.change := by
    rw [e4]
    split
    · have h := activity_eff env m { s3 with activityFrame := 0 } f
      have r := activity_rest env m { s3 with activityFrame := 0 } f
      simp only [St.rest, Prod.mk.injEq] at r
      exact ⟨Eff.mono ⟨h.fault, h.scr⟩ fun x y h => .inl h, r.1, r.2.1⟩
    · exact ⟨.refl _, rfl, rfl⟩
  have k5 := updatePanel_eff m.dev m.fm.synth s4
  have r5 := updatePanel_left m.dev m.fm.synth s4
  simp only [St.left, Prod.mk.injEq] at r5
  rw [e]
  refine ⟨(k3.trans k4.1).trans (k5.mono fun x y h => .inr h), ?_, ?_⟩
  · rw [r5.1, k4.2.1, r3.1]
  · rw [r5.2.1, k4.2.2, r3.2]

theorem pitch_not_change {i x y : Nat} (h : PitchCell i x y) : ¬ ChangeArea x y := by
  rintro ⟨j, _, k⟩; unfold PitchCell at h; unfold ChangeCell at k; omega
theorem pitch_not_tail {i x y : Nat} (hi : i < 10) (h : PitchCell i x y) : ¬ TailArea x y := by
  unfold PitchCell row at h
  rintro ((⟨j, _, k⟩ | k | k | k) | k)
  · unfold MapCell at k; omega
  all_goals omega

theorem update_tidy {env : Env} {m : Midi.St} {s : St} {f : Frame} (hm : Fit m) (hs : Tidy s) (ht : f.ticks < 65536) :
    Tidy (update env m s f) ∧ ∀ i, i < 10 → (update env m s f).lastPitches i = soundingPitch (m.dev i) := by
  have f1 : (updateKeyOnOff m.dev s).fault = s.fault := updateKeyOnOff_fault m.dev s hm.pitch
  have b1 : Bytes (updateKeyOnOff m.dev s) := by
    unfold Bytes; rw [(updateKeyOnOff_rest m.dev s).1]; exact hs.bytes
  have f2 := printChanges_fault b1
  have b2 := printChanges_bytes b1
  have p1 := updateKeyOnOff_shown m.dev s hs.shown (f1.trans hs.fault)
  obtain ⟨t1, t2, t3⟩ := update_tail env m s f
  have cells : ∀ i, i < 10 → PitchShown (update env m s f) i := fun i hi =>
    (p1 i hi).1.other (by rw [t2]) fun x y hc =>
      (t1.scr x y (pitch_not_tail hi hc)).trans ((printChanges_eff b1).scr x y (pitch_not_change hc))
  obtain ⟨s2, s3, s4, e2, e3, e4, e⟩ := update_split env m s f
  rw [← e2] at f2
  have q1 : s3.panelMidi < 16 ∧ s3.panelFm < 6 ∧ s3.fault = false := by
    have a := (printChanges_rest (updateKeyOnOff m.dev s)).2.1.trans (updateKeyOnOff_rest m.dev s).2.1
    rw [← e2] at a
    simp only [St.panel, Prod.mk.injEq] at a
    rw [e3]
    refine ⟨?_, ?_, f2.trans (f1.trans hs.fault)⟩
    · show s2.panelMidi < 16
      rw [a.2.2.1]; exact hs.midi
    · show s2.panelFm < 6
      rw [a.2.2.2.1]; exact hs.fm
  have q2 : s4.panelMidi < 16 ∧ s4.panelFm < 6 ∧ s4.fault = false ∧ s4.activityFrame < 5 := by
    rw [e4]
    split
    · have r := activity_rest env m { s3 with activityFrame := 0 } f
      have ff := activity_fault env m { s3 with activityFrame := 0 } f hm.map ht
      simp only [St.rest, St.panel, Prod.mk.injEq] at r
      refine ⟨?_, ?_, ff.trans q1.2.2, ?_⟩
      · rw [r.2.2.2.2.2.1]; exact q1.1
      · rw [r.2.2.2.2.2.2.1]; exact q1.2.1
      · rw [r.2.2.1]; omega
    · refine ⟨q1.1, q1.2.1, q1.2.2, ?_⟩
      rw [e3]
      show (s.activityFrame + f.delta) % 65536 < 5
      omega
  have q3 := updatePanel_fault m.dev m.fm.synth s4 hm.num hm.synth q2.1 q2.2.1
  have r5 := updatePanel_left m.dev m.fm.synth s4
  simp only [St.left, Prod.mk.injEq] at r5
  refine ⟨⟨?_, ?_, ?_, ?_, ?_, cells⟩, fun i hi => by rw [t2]; exact (p1 i hi).2⟩
  · rw [e, q3.1]; exact q2.2.2.1
  · unfold Bytes; rw [t3]; exact b2
  · rw [e]; exact q3.2.1
  · rw [e]; exact q3.2.2
  · rw [e, r5.2.2.1]; exact q2.2.2.2

/-! ### Engine calls -/

theorem added_append (l before : List Midi.Ev) : added before (l ++ before) = l.reverse := by
  unfold added
  rw [List.length_append, Nat.add_sub_cancel, List.take_left]

theorem noted_tidy {s : St} (n : Nat × Note) (h : Tidy s) : Tidy (noted s n) := by
  unfold noted
  split
  · exact ⟨h.fault, h.bytes, h.midi, h.fm, h.frame, h.shown⟩
  · exact h

theorem notes_tidy (l : List (Nat × Note)) {s : St} (h : Tidy s) : Tidy (l.foldl noted s) :=
  List.foldlRecOn (motive := Tidy) l _ h fun _ hs n _ => noted_tidy n hs

theorem midiChange_bytes {dev : Nat → Dev} {s : St} {c : Nat} {k : Kind} {a v : Nat} (h : Bytes s) :
    Bytes (midiChange dev s c k a v) := by
  intro i
  simp only [midiChange]
  split
  · exact Nat.mod_lt _ (by omega)
  · exact h i

theorem setVisibility_tidy {s : St} {c : Nat} {v : Bool} (hc : c < 16) (h : Tidy s) : Tidy (setVisibility s c v) := by
  have e := setVisibility_eff s c v
  have l := setVisibility_left s c v
  simp only [St.left, Prod.mk.injEq] at l
  have w : (setVisibility s c v).panelMidi = c ∧ (setVisibility s c v).panelFm = s.panelFm ∧
      (setVisibility s c v).fault = s.fault := by
    unfold setVisibility
    extract_lets s1 s2
    show s2.panelMidi = c ∧ s2.panelFm = s.panelFm ∧ s2.fault = s.fault
    show St.panelMidi (ite _ _ _) = c ∧ St.panelFm (ite _ _ _) = s.panelFm ∧ St.fault (ite _ _ _) = s.fault
    split <;> exact ⟨rfl, rfl, rfl⟩
  refine ⟨w.2.2.trans h.fault, ?_, by rw [w.1]; exact hc, by rw [w.2.1]; exact h.fm, by rw [l.2.2.1]; exact h.frame, ?_⟩
  · unfold Bytes; rw [l.2.1]; exact h.bytes
  · intro i hi
    refine (h.shown i hi).other (by rw [l.1]) fun x y hc => e.scr x y ?_
    unfold PitchCell at hc; omega

theorem heed_tidy {dev : Nat → Dev} {s : St} {e : Midi.Ev} (he : ∀ c v, e = .showParams c v → c < 16) (h : Tidy s) :
    Tidy (heed dev s e) := by
  cases e with
  | tx b => exact h
  | changedProgram c p => exact ⟨h.fault, midiChange_bytes h.bytes, h.midi, h.fm, h.frame, h.shown⟩
  | changedCc c k v => exact ⟨h.fault, midiChange_bytes h.bytes, h.midi, h.fm, h.frame, h.shown⟩
  | showParams c v => exact setVisibility_tidy (he c v rfl) h

theorem sends_chan {m : Midi.St} {op : Midi.Op} {l : List Midi.Ev} (hw : op.Wf) (h : Midi.Sends m op l) :
    ∀ e ∈ l, ∀ c v, e = .showParams c v → c < 16 := by
  intro e he c v ee
  subst ee
  cases op with
  | cc c' k' v' =>
    simp only [Midi.Sends] at h
    subst h
    rcases List.mem_cons.1 he with h | h
    · exact absurd h (by simp)
    · split at h
      · simp only [List.mem_singleton, Midi.Ev.showParams.injEq] at h
        rw [h.1]; exact hw.1
      · exact absurd h (by simp)
  | program c' p' => simp only [Midi.Sends] at h; subst h; simp at he
  | sysex d j => obtain ⟨b, hb⟩ := h _ he; exact absurd hb (by simp)
  | noteOn _ _ _ => simp only [Midi.Sends] at h; subst h; simp at he
  | noteOff _ _ => simp only [Midi.Sends] at h; subst h; simp at he
  | bend _ _ => simp only [Midi.Sends] at h; subst h; simp at he
  | remap _ _ => simp only [Midi.Sends] at h; subst h; simp at he
  | reset => simp only [Midi.Sends] at h; subst h; simp at he
  | tick => simp only [Midi.Sends] at h; subst h; simp at he
  | psgTick => simp only [Midi.Sends] at h; subst h; simp at he

/-- An engine call on the display: what it sends is heeded in turn. -/
theorem step_midi (env : Env) (s : Sys) (op : Midi.Op) (notes : List (Nat × Note)) (hw : op.Wf) :
    ∃ l, Midi.Sends s.m op l ∧ step env s (.midi op notes) =
      ⟨Midi.step env.midi s.m op, l.reverse.foldl (heed (Midi.step env.midi s.m op).dev) (notes.foldl noted s.ui)⟩ := by
  obtain ⟨l, e, h⟩ := Midi.step_out (env := env.midi) s.m hw
  refine ⟨l, h, ?_⟩
  show Sys.mk _ _ = _
  rw [e, added_append]

/-! ### Histories -/

/-- An event of the histories considered: MIDI messages are well formed; `tame` and `b` as for the engine. -/
def Ev.Fits (b tame : Bool) : Ev → Prop
  | .midi op _ => op.Wf ∧ op.Ranged b ∧ (tame = false → ¬op.enablesDac) ∧ (tame = true → ¬op.detunes)
  | .frame f => f.ticks < 65536

structure Fine (env : Env) (b tame : Bool) (s : Sys) : Prop where
  ok : Midi.Ok env.midi tame s.m
  range : Midi.Range b (Midi.bare s.m)
  ui : Tidy s.ui

theorem Fine.fit {env : Env} {b tame : Bool} {s : Sys} (h : Fine env b tame s) : Fit s.m where
  pitch i _ := (h.range.note i).pitch
  map i hi := (h.ok.dev i (by omega)).map
  num i hi := by
    rw [(h.ok.dev i (by omega)).num]
    unfold Midi.chipNum
    split <;> omega
  synth := h.ok.fm.synth

theorem step_fine {env : Env} {b tame : Bool} {s : Sys} {e : Ev} (he : env.midi.Ok) (h : Fine env b tame s)
    (hf : e.Fits b tame) : Fine env b tame (step env s e) := by
  cases e with
  | midi op notes =>
    obtain ⟨hw, hr, hd, ht⟩ := hf
    obtain ⟨l, hl, e⟩ := step_midi env s op notes hw
    rw [e]
    refine ⟨Midi.step_ok he h.ok hw hd ht, Midi.step_range h.range hr, ?_⟩
    refine List.foldlRecOn (motive := Tidy) _ _ (notes_tidy notes h.ui) fun t hs e he => heed_tidy ?_ hs
    exact sends_chan hw hl e (by simpa using he)
  | frame f => exact ⟨h.ok, h.range, (update_tidy h.fit h.ui hf).1⟩

theorem run_fine {env : Env} {b tame : Bool} (he : env.midi.Ok) (evs : List Ev) {s : Sys} (h : Fine env b tame s)
    (hf : ∀ e ∈ evs, e.Fits b tame) : Fine env b tame (run env s evs) := by
  induction evs generalizing s with
  | nil => exact h
  | cons e evs ih => exact ih (step_fine he h (hf e (by simp))) fun e' h' => hf e' (by simp [h'])

/-- The screen `ui_init` starts from, before the mapping is drawn. -/
theorem init_parts (env : Env) (m : Midi.St) : ∃ s,
    (∀ x y, y ≠ 1 → y ≠ 26 → x ≠ 2 ∨ 22 ≤ y → s.scr x y = ' ') ∧ s.vars = powerOn.vars ∧ s.fault = false ∧
    init env m = (let s := printMappings m.dev (printCommMode s .discovery)
      let s := { s with routing := m.dynamic }
      if env.everdrivePro then { s with waiting := some 1 } else if env.everdrive then { s with waiting := some 0 }
      else s) := by
  refine ⟨_, ?_, ?_, ?_, rfl⟩
  · intro x y y1 y2 hx
    show draw _ ['%'] 0 25 x y = ' '
    rw [draw_out (by simp only [List.length_singleton]; omega)]
    have key : ∀ (l : List Nat) (s : St), (∀ k ∈ l, k < 10) → s.scr x y = ' ' →
        (l.foldl (fun s i => { s with scr := draw s.scr (devChText.getD i []) 1 (2 + i * 2) }) s).scr x y = ' ' := by
      intro l
      induction l with
      | nil => exact fun s _ h => h
      | cons a l ih =>
        intro s hl h
        refine ih _ (fun k hk => hl k (by simp [hk])) ?_
        show draw _ _ _ _ _ _ = ' '
        have len : ∀ a, a < 10 → (devChText.getD a []).length = 1 := by decide
        rw [draw_out (by rw [len a (hl a (by simp))]; have := hl a (by simp); omega)]
        exact h
    refine key _ _ (by simp) ?_
    show draw (draw _ _ _ _) _ _ _ x y = ' '
    rw [draw_out (by omega), draw_out (by omega)]
    rfl
  · show St.vars { (List.foldl _ _ _ : St) with scr := _ } = _
    exact (foldl_keeps St.vars (fun (s : St) i => { s with scr := draw s.scr (devChText.getD i []) 1 (2 + i * 2) })
      (List.range 10) _ fun _ _ => rfl)
  · exact (foldl_keeps St.fault (fun (s : St) i => { s with scr := draw s.scr (devChText.getD i []) 1 (2 + i * 2) })
      (List.range 10) _ fun _ _ => rfl)

theorem printCommMode_fault (s : St) (m : CommMode) : (printCommMode s m).fault = s.fault := by
  unfold printCommMode
  split
  · rfl
  · split
    · rfl
    · extract_lets inited s'
      split <;> rfl

/-- The freshly drawn display: the rows of the voices are blank but for the mapping and the voice numbers. -/
theorem init_state {env : Env} {m : Midi.St} (hm : ∀ i, i < 10 → Midi.MapOk (m.dev i).midiChannel) :
    (init env m).rest = powerOn.rest ∧ (init env m).fault = false ∧
    (∀ i x y, i < 10 → y = row i → 6 ≤ x → (init env m).scr x y = ' ') ∧
    ∃ s, (init env m).scr = (printMappings m.dev s).scr := by
  obtain ⟨s, h1, h2, h3, e⟩ := init_parts env m
  have k : (init env m).rest = (printMappings m.dev (printCommMode s .discovery)).rest ∧
      (init env m).fault = (printMappings m.dev (printCommMode s .discovery)).fault ∧
      (init env m).scr = (printMappings m.dev (printCommMode s .discovery)).scr := by
    rw [e]
    simp only
    split
    · exact ⟨rfl, rfl, rfl⟩
    · split <;> exact ⟨rfl, rfl, rfl⟩
  have c1 := printCommMode_rest s .discovery
  have c2 := printCommMode_eff s .discovery
  have c3 := printCommMode_fault s .discovery
  revert k c1 c2 c3
  generalize printCommMode s .discovery = t
  intro k c1 c2 c3
  have p1 := printMappings_vars m.dev t
  have p2 := printMappings_eff m.dev t
  have p3 := printMappings_fault m.dev t hm
  refine ⟨?_, ?_, ?_, ⟨t, k.2.2⟩⟩
  · refine k.1.trans (Eq.trans ?_ (c1.trans ?_))
    · simp only [St.vars, St.rest, Prod.mk.injEq] at *
      exact ⟨p1.1, p1.2.1, p1.2.2.1, p1.2.2.2.1⟩
    · simp only [St.vars, St.rest, Prod.mk.injEq] at *
      exact ⟨h2.1, h2.2.1, h2.2.2.1, h2.2.2.2.1⟩
  · rw [k.2.1, p3, c3]; exact h3
  · intro i x y hi hy hx
    rw [k.2.2, p2.scr x y ?_, c2.scr x y ?_]
    · have hy' : y = 3 + 2 * i := hy
      exact h1 x y (by omega) (by omega) (by omega)
    · unfold row at hy; omega
    · rintro ⟨j, _, hj⟩; unfold MapCell at hj; omega

theorem init_tidy {env : Env} {m : Midi.St} (hm : ∀ i, i < 10 → Midi.MapOk (m.dev i).midiChannel) :
    Tidy (init env m) := by
  obtain ⟨h1, h2, h3, _⟩ := init_state (env := env) hm
  simp only [St.rest, St.panel, Prod.mk.injEq] at h1
  refine ⟨h2, ?_, ?_, ?_, ?_, ?_⟩
  · unfold Bytes; rw [h1.2.1]; intro i; show 0 < 256; omega
  · rw [h1.2.2.2.2.2.1]; show 0 < 16; omega
  · rw [h1.2.2.2.2.2.2.1]; show 0 < 6; omega
  · rw [h1.2.2.1]; show 0 < 5; omega
  · intro i hi
    unfold PitchShown
    rw [h1.1]
    intro k hk
    rw [pitchText_len] at hk
    rw [h3 i _ _ hi rfl (by omega)]
    show ' ' = (pitchText 0).getD k ' '
    rcases k with _ | _ | _ | k <;> first | rfl | omega

theorem boot_fine {env : Env} (he : env.midi.Ok) (b tame t : Bool) (mem : Sram.Mem) :
    Fine env b tame (boot env t mem) := by
  have ok := Midi.boot_ok (tame := tame) he t mem
  exact ⟨ok, Midi.boot_range b _ _ _, init_tidy fun i hi => (ok.dev i (by omega)).map⟩

end Mdmi.Ui
