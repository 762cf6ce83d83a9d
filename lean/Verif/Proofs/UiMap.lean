import Verif.Proofs.UiRun
/-! The column of MIDI channels. -/
namespace Mdmi.Ui
open Mdmi.Midi (Dev)
open Mdmi.UiSpec (Reads row channelName)

/-- The two cells for a mapping. -/
def mapText (c : Nat) : Text := if c = 0x7F then [' ', '-'] else channelName c

theorem mapText_len (c : Nat) : (mapText c).length = 2 := by
  unfold mapText channelName
  split
  · rfl
  · split <;> rfl

theorem midiChText_eq : ∀ c : Fin 16, midiChText[c.val]? = some (channelName c.val) := by decide +kernel

/-- Voice `i` shows mapping `c`. -/
def MapShown (s : St) (i c : Nat) : Prop := Reads s.scr 4 (row i) (mapText c)

theorem MapShown.other {s t : St} {i c : Nat} (h : MapShown s i c)
    (e : ∀ x y, MapCell i x y → t.scr x y = s.scr x y) : MapShown t i c := by
  unfold MapShown at *
  refine Reads.congr h fun k hk => e _ _ ?_
  rw [mapText_len] at hk
  exact ⟨rfl, by omega, by omega⟩

theorem showMapping_shown {dev : Nat → Dev} {s : St} {i : Nat} (h : Midi.MapOk (dev i).midiChannel) :
    MapShown (showMapping dev s i) i (dev i).midiChannel := by
  have e1 : row i = 1 + (2 + i * 2) := by unfold row; omega
  unfold MapShown showMapping
  rw [e1]
  split
  · rename_i e
    rw [e]; exact draw_reads s.scr [' ', '-'] 3 (2 + i * 2)
  · rename_i hne
    have hlt : (dev i).midiChannel < 16 := h.resolve_right hne
    rw [midiChText_eq ⟨_, hlt⟩]
    unfold mapText
    rw [if_neg hne]
    exact draw_reads s.scr (channelName (dev i).midiChannel) 3 (2 + i * 2)

theorem mapCell_ne {i j x y : Nat} (h : i ≠ j) (k : MapCell i x y) : ¬ MapCell j x y := by
  unfold MapCell row at *; omega

/-- All ten voices mapped to the first MIDI channel. -/
def AllFirst (dev : Nat → Dev) : Prop := ∀ i, i < 10 → (dev i).midiChannel = 0

theorem printMappings_shown {dev : Nat → Dev} {s : St} (h : ∀ i, i < 10 → Midi.MapOk (dev i).midiChannel)
    (hz : ¬ AllFirst dev) {i : Nat} (hi : i < 10) : MapShown (printMappings dev s) i (dev i).midiChannel := by
  unfold printMappings
  rw [if_neg (by
    intro k
    apply hz
    intro i hi
    have := List.all_eq_true.1 k i (by simpa using hi)
    simpa using this)]
  obtain ⟨u, _, h2, _⟩ := fold_at (fun i s t => ∀ x y, MapCell i x y → t.scr x y = s.scr x y)
    (fun _ _ _ _ _ => rfl) (fun _ _ _ _ a b x y k => (b x y k).trans (a x y k)) (showMapping dev)
    (fun s j => (showMapping_eff dev s j).fault) 10 s
    (fun s j i _ hij x y k => (showMapping_eff dev s j).scr x y (mapCell_ne hij k)) hi
  exact (showMapping_shown (h i hi)).other h2

/-- Cells the rest of the slow part touches. -/
def StatusArea (x y : Nat) : Prop := 22 ≤ y ∨ y = 2 ∨ (x = 3 ∧ y = 7)

theorem activity_tail (env : Env) (m : Midi.St) (s : St) (f : Frame) :
    Eff StatusArea (printMappings m.dev s) (activity env m s f) := by
  unfold activity
  extract_lets s1 s2 s3 s4 s5
  have h2 : Eff StatusArea s1 s2 := (printCommMode_eff s1 f.mode).mono fun x y h => .inl (by omega)
  have h3 : Eff StatusArea s2 s3 := (printLog_eff s2 f.log).mono fun x y h => .inl h
  have h4 : Eff StatusArea s3 s4 := printRouting_eff _ s3 m.dynamic
  have h5 : Eff StatusArea s4 s5 := by
    show Eff _ s4 (ite _ _ _)
    split
    · exact (printTicks_eff s4 f.ticks).mono fun x y h => .inr (.inl h)
    · exact .refl _
  exact (((h2.trans h3).trans h4).trans h5).trans ((printMark_eff s5 _).mono fun x y h => .inr (.inr h))

theorem map_not_pitch {i x y : Nat} (h : MapCell i x y) : ¬ PitchArea x y := by
  rintro ⟨j, _, k⟩; unfold PitchCell at k; unfold MapCell at h; omega
theorem map_not_change {i x y : Nat} (h : MapCell i x y) : ¬ ChangeArea x y := by
  rintro ⟨j, _, k⟩; unfold ChangeCell at k; unfold MapCell at h; omega
theorem map_not_status {i x y : Nat} (hi : i < 10) (h : MapCell i x y) : ¬ StatusArea x y := by
  unfold MapCell row at h
  rintro (k | k | k) <;> omega

/-- A frame redraws the mapping or leaves it alone. -/
theorem update_map {env : Env} {m : Midi.St} {s : St} {f : Frame} (hm : Fit m) (hs : Tidy s) {i : Nat} (hi : i < 10) :
    if 5 ≤ (s.activityFrame + f.delta) % 65536 then
      ¬ AllFirst m.dev → MapShown (update env m s f) i (m.dev i).midiChannel
    else (∀ x y, MapCell i x y → (update env m s f).scr x y = s.scr x y) ∧
      (update env m s f).activityFrame = (s.activityFrame + f.delta) % 65536 := by
  have b1 : Bytes (updateKeyOnOff m.dev s) := by
    unfold Bytes; rw [(updateKeyOnOff_rest m.dev s).1]; exact hs.bytes
  have keep : ∀ x y, MapCell i x y → (printChanges (updateKeyOnOff m.dev s)).scr x y = s.scr x y := fun x y k =>
    ((printChanges_eff b1).scr x y (map_not_change k)).trans ((updateKeyOnOff_eff m.dev s).scr x y (map_not_pitch k))
  obtain ⟨s2, s3, s4, e2, e3, e4, e⟩ := update_split env m s f
  rw [← e2] at keep
  have k3 : ∀ x y, MapCell i x y → s3.scr x y = s.scr x y := by rw [e3]; exact keep
  have k5 : ∀ x y, MapCell i x y → (update env m s f).scr x y = s4.scr x y := fun x y k => by
    rw [e]
    refine (updatePanel_eff m.dev m.fm.synth s4).scr x y ?_
    unfold MapCell at k; omega
  have r5 := updatePanel_left m.dev m.fm.synth s4
  simp only [St.left, Prod.mk.injEq] at r5
  split
  · rename_i hc
    rw [if_pos hc] at e4
    intro hz
    have a := activity_tail env m { s3 with activityFrame := 0 } f
    have p := printMappings_shown (s := { s3 with activityFrame := 0 }) hm.map hz hi
    refine (p.other fun x y k => a.scr x y (map_not_status hi k)).other fun x y k => ?_
    rw [k5 x y k, e4]
  · rename_i hc
    rw [if_neg hc] at e4
    refine ⟨fun x y k => by rw [k5 x y k, e4, k3 x y k], ?_⟩
    rw [e, r5.2.2.1, e4, e3]

/-- Engine calls leave the mapping column alone, and the frame counter. -/
theorem heed_map {dev : Nat → Dev} {s : St} {e : Midi.Ev} :
    (∀ x y, x < 18 → (heed dev s e).scr x y = s.scr x y) ∧ (heed dev s e).activityFrame = s.activityFrame := by
  cases e with
  | tx b => exact ⟨fun _ _ _ => rfl, rfl⟩
  | changedProgram c p => exact ⟨fun _ _ _ => rfl, rfl⟩
  | changedCc c k v => exact ⟨fun _ _ _ => rfl, rfl⟩
  | showParams c v =>
    have l := setVisibility_left s c (v ≠ 0)
    simp only [St.left, Prod.mk.injEq] at l
    exact ⟨fun x y hx => (setVisibility_eff s c _).scr x y (by omega), l.2.2.1⟩

theorem step_midi_map {env : Env} {s : Sys} {op : Midi.Op} {notes : List (Nat × Note)} (hw : op.Wf) :
    (∀ x y, x < 18 → (step env s (.midi op notes)).ui.scr x y = s.ui.scr x y) ∧
      (step env s (.midi op notes)).ui.activityFrame = s.ui.activityFrame := by
  obtain ⟨l, _, e⟩ := step_midi env s op notes hw
  rw [e]
  simp only
  have n : (notes.foldl noted s.ui).scr = s.ui.scr ∧ (notes.foldl noted s.ui).activityFrame = s.ui.activityFrame :=
    ⟨foldl_keeps St.scr _ _ _ fun s n => (noted_left s n).2.1, foldl_keeps St.activityFrame _ _ _ fun s n => by
      have := (noted_left s n).1
      simp only [St.left, Prod.mk.injEq] at this
      exact this.2.2.1⟩
  refine List.foldlRecOn (motive := fun (t : St) => (∀ x y, x < 18 → t.scr x y = s.ui.scr x y) ∧
    t.activityFrame = s.ui.activityFrame) _ _ ⟨fun x y _ => by rw [n.1], n.2⟩ fun t ht e _ => ?_
  have h := heed_map (dev := (Midi.step env.midi s.m op).dev) (s := t) (e := e)
  exact ⟨fun x y hx => (h.1 x y hx).trans (ht.1 x y hx), h.2.trans ht.2⟩

end Mdmi.Ui
