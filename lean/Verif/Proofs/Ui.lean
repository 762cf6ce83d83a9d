import Verif.Spec.Ui
import Verif.Proofs.Psg
/-! The display: which cells and which variables each function touches. -/
namespace Mdmi.Ui
open Mdmi.Midi (Dev)
open Mdmi.UiSpec (Reads row)

/-- Variables of the parameter panel. -/
def St.panel (s : St) : Bool × Bool × Nat × Nat × Nat × Bool × (Nat → Nat) × (Nat → Nat → Nat) × Option Nat :=
  (s.dirty, s.shown, s.panelMidi, s.panelFm, s.lastAlgorithm, s.force, s.fmLast, s.opLast, s.diagram)
/-- Variables of the status line. -/
def St.status (s : St) : Bool × CommMode × Bool × Bool × Nat × Option Nat × Option Nat × Bool × Bool :=
  (s.commInited, s.lastComm, s.lastMark, s.lastDynamic, s.logY, s.waiting, s.source, s.routing, s.mark)

/-- Only cells in `C` are touched, and undefined behaviour is not forgotten. -/
structure Eff (C : Nat → Nat → Prop) (s t : St) : Prop where
  fault : t.fault = false → s.fault = false
  scr : ∀ x y, ¬ C x y → t.scr x y = s.scr x y

theorem Eff.refl {C} (s : St) : Eff C s s := ⟨id, fun _ _ _ => rfl⟩
theorem Eff.trans {C} {s t u : St} (h : Eff C s t) (k : Eff C t u) : Eff C s u :=
  ⟨fun f => h.fault (k.fault f), fun x y n => (k.scr x y n).trans (h.scr x y n)⟩
theorem Eff.mono {C D : Nat → Nat → Prop} {s t : St} (h : Eff C s t) (hs : ∀ x y, C x y → D x y) : Eff D s t :=
  ⟨h.fault, fun x y n => h.scr x y fun k => n (hs x y k)⟩
theorem Eff.foldl {α : Type} {C} (f : St → α → St) (l : List α) (s : St) (h : ∀ s, ∀ a ∈ l, Eff C s (f s a)) :
    Eff C s (l.foldl f s) := by
  induction l generalizing s with
  | nil => exact .refl _
  | cons a l ih =>
    exact (h s a (by simp)).trans (ih _ fun s b hb => h s b (by simp [hb]))

/-- A projection every step of a fold keeps. -/
theorem foldl_keeps {α β σ : Type} (g : σ → β) (f : σ → α → σ) (l : List α) (s : σ) (h : ∀ s a, g (f s a) = g s) :
    g (l.foldl f s) = g s := by
  induction l generalizing s with
  | nil => rfl
  | cons a l ih => exact (ih _).trans (h s a)

/-! ### Drawing -/

theorem drawText_out {scr : Screen} {t : Text} {x y x' y' : Nat} (h : ¬(y' = y ∧ x ≤ x' ∧ x' < x + t.length)) :
    drawText scr t x y x' y' = scr x' y' := by simp only [drawText, if_neg h]

theorem draw_out {scr : Screen} {t : Text} {x y x' y' : Nat}
    (h : ¬(y' = 1 + y ∧ 1 + x ≤ x' ∧ x' < 1 + x + t.length)) : draw scr t x y x' y' = scr x' y' := drawText_out h

theorem draw_reads (scr : Screen) (t : Text) (x y : Nat) : Reads (draw scr t x y) (1 + x) (1 + y) t := by
  intro k hk
  unfold draw drawText
  rw [if_pos ⟨rfl, by omega, by omega⟩, Nat.add_sub_cancel_left]

theorem clear_out {scr : Screen} {x y w h x' y' : Nat}
    (n : ¬(x ≤ x' ∧ x' < x + w ∧ y ≤ y' ∧ y' < y + h)) : clearArea scr x y w h x' y' = scr x' y' := by
  simp only [clearArea, if_neg n]

theorem clear_in {scr : Screen} {x y w h x' y' : Nat}
    (n : x ≤ x' ∧ x' < x + w ∧ y ≤ y' ∧ y' < y + h) : clearArea scr x y w h x' y' = ' ' := by
  simp only [clearArea, if_pos n]

/-! ### Sounding notes -/

/-- Cells of the note of voice `i`. -/
def PitchCell (i x y : Nat) : Prop := y = row i ∧ 7 ≤ x ∧ x < 10

theorem pitchNames_len : ∀ (k : Nat) (t : Text), pitchNames[k]? = some t → t.length = 3 := by
  have h : ∀ t ∈ pitchNames, t.length = 3 := by decide +kernel
  intro k t e
  exact h t (List.mem_of_getElem? e)

/-- The three cells as they should read when the remembered pitch is `p`. -/
def pitchText (p : Nat) : Text :=
  if p = 0 then [' ', ' ', ' '] else if p > 21 then pitchNames.getD (p - 21) [' ', ' ', ' '] else ['?', '?', '?']

theorem showPitch_rest (s : St) (i p : Nat) :
    (showPitch s i p).change = s.change ∧ (showPitch s i p).panel = s.panel ∧ (showPitch s i p).status = s.status ∧
    (showPitch s i p).activityFrame = s.activityFrame ∧
    (showPitch s i p).lastPitches = upd s.lastPitches i p := by
  unfold showPitch
  split
  · rename_i h; subst h
    exact ⟨rfl, rfl, rfl, rfl, by funext j; simp only [upd]; split <;> simp_all⟩
  · extract_lets s'
    have k : s'.change = s.change ∧ s'.panel = s.panel ∧ s'.status = s.status ∧ s'.activityFrame = s.activityFrame := by
      show St.change (ite _ _ _) = _ ∧ St.panel (ite _ _ _) = _ ∧ St.status (ite _ _ _) = _ ∧
        St.activityFrame (ite _ _ _) = _
      split
      · exact ⟨rfl, rfl, rfl, rfl⟩
      · split
        · split <;> exact ⟨rfl, rfl, rfl, rfl⟩
        · exact ⟨rfl, rfl, rfl, rfl⟩
    exact ⟨k.1, k.2.1, k.2.2.1, k.2.2.2, rfl⟩

theorem showPitch_eff (s : St) (i p : Nat) : Eff (PitchCell i) s (showPitch s i p) := by
  have dr : ∀ t : Text, t.length = 3 → ∀ x y, ¬ PitchCell i x y → draw s.scr t 6 (2 + i * 2) x y = s.scr x y := by
    intro t ht x y n
    apply draw_out
    rw [ht]; unfold PitchCell row at n; omega
  unfold showPitch
  split
  · exact .refl _
  · simp only
    split
    · refine ⟨id, fun x y n => clear_out ?_⟩
      unfold PitchCell row at n; omega
    · split
      · split
        · rename_i t e
          exact ⟨id, dr t (pitchNames_len _ _ e)⟩
        · exact ⟨by simp [ub], fun x y n => rfl⟩
      · exact ⟨id, dr _ rfl⟩

/-- The cells of voice `i` agree with what is remembered for it. -/
def PitchShown (s : St) (i : Nat) : Prop := Reads s.scr 7 (row i) (pitchText (s.lastPitches i))

theorem Reads.congr {a b : Screen} {x y : Nat} {t : Text} (h : Reads a x y t)
    (e : ∀ k, k < t.length → b (x + k) y = a (x + k) y) : Reads b x y t := fun k hk => (e k hk).trans (h k hk)

theorem pitchText_len (p : Nat) : (pitchText p).length = 3 := by
  unfold pitchText
  split
  · rfl
  · split
    · cases e : pitchNames[p - 21]? with
      | none => rw [List.getD_eq_getElem?_getD, e]; rfl
      | some t => rw [List.getD_eq_getElem?_getD, e]; exact pitchNames_len _ _ e
    · rfl

theorem PitchShown.other {s t : St} {i : Nat} (h : PitchShown s i) (hl : t.lastPitches i = s.lastPitches i)
    (e : ∀ x y, PitchCell i x y → t.scr x y = s.scr x y) : PitchShown t i := by
  unfold PitchShown at *
  rw [hl]
  refine Reads.congr h fun k hk => e _ _ ?_
  rw [pitchText_len] at hk
  exact ⟨rfl, by omega, by omega⟩

theorem showPitch_shown {s : St} {i p : Nat} (hs : PitchShown s i) (h : (showPitch s i p).fault = false) :
    PitchShown (showPitch s i p) i := by
  revert h
  unfold showPitch
  split
  · exact fun _ => hs
  · rename_i hp
    extract_lets s'
    intro hf
    have e1 : row i = 1 + (2 + i * 2) := by unfold row; omega
    show Reads s'.scr 7 (row i) (pitchText (upd s.lastPitches i p i))
    rw [Psg.upd_same]
    have hf : s'.fault = false := hf
    suffices h : ∀ s' : St, s' = (if p = 0 then { s with scr := clearArea s.scr (6 + 1) (2 + i * 2 + 1) 3 1 }
        else if p > 21 then
          match pitchNames[p - 21]? with
          | some t => { s with scr := draw s.scr t 6 (2 + i * 2) }
          | none => ub s
        else { s with scr := draw s.scr ['?', '?', '?'] 6 (2 + i * 2) }) → s'.fault = false →
        Reads s'.scr 7 (row i) (pitchText p) by
      exact h s' rfl hf
    intro s' es hf
    by_cases h0 : p = 0
    · subst h0
      rw [if_pos rfl] at es
      subst es
      intro k hk
      rw [pitchText_len] at hk
      show clearArea s.scr (6 + 1) (2 + i * 2 + 1) 3 1 _ _ = _
      rw [clear_in (by unfold row; omega)]
      simp only [pitchText, if_true]
      rcases k with _ | _ | _ | k <;> first | rfl | omega
    · rw [if_neg h0] at es
      by_cases hg : p > 21
      · rw [if_pos hg] at es
        cases et : pitchNames[p - 21]? with
        | none => rw [et] at es; subst es; simp [ub] at hf
        | some t =>
          rw [et] at es
          subst es
          have ep : pitchText p = t := by
            unfold pitchText
            rw [if_neg h0, if_pos hg, List.getD_eq_getElem?_getD, et]; rfl
          rw [ep, e1]; exact draw_reads s.scr t 6 (2 + i * 2)
      · rw [if_neg hg] at es
        subst es
        have ep : pitchText p = ['?', '?', '?'] := by unfold pitchText; rw [if_neg h0, if_neg hg]
        rw [ep, e1]; exact draw_reads s.scr ['?', '?', '?'] 6 (2 + i * 2)

theorem pitchCell_ne {i j x y : Nat} (h : i ≠ j) (k : PitchCell i x y) : ¬ PitchCell j x y := by
  unfold PitchCell row at *; omega

/-- The pitch the display takes from a voice. -/
def soundingPitch (d : Dev) : Nat := if d.noteOn then d.pitch else 0

theorem updateKeyOnOff_rest (dev : Nat → Dev) (s : St) :
    (updateKeyOnOff dev s).change = s.change ∧ (updateKeyOnOff dev s).panel = s.panel ∧
    (updateKeyOnOff dev s).status = s.status ∧ (updateKeyOnOff dev s).activityFrame = s.activityFrame :=
  ⟨foldl_keeps St.change _ _ _ fun s i => (showPitch_rest s i _).1,
   foldl_keeps St.panel _ _ _ fun s i => (showPitch_rest s i _).2.1,
   foldl_keeps St.status _ _ _ fun s i => (showPitch_rest s i _).2.2.1,
   foldl_keeps St.activityFrame _ _ _ fun s i => (showPitch_rest s i _).2.2.2.1⟩

/-- Cells of the note column. -/
def PitchArea (x y : Nat) : Prop := ∃ i, i < 10 ∧ PitchCell i x y

theorem updateKeyOnOff_eff (dev : Nat → Dev) (s : St) : Eff PitchArea s (updateKeyOnOff dev s) :=
  Eff.foldl _ _ _ fun s i hi => (showPitch_eff s i _).mono fun x y h => ⟨i, by simpa using hi, h⟩

theorem updateKeyOnOff_shown (dev : Nat → Dev) (s : St) (hs : ∀ i, i < 10 → PitchShown s i)
    (h : (updateKeyOnOff dev s).fault = false) :
    ∀ i, i < 10 → PitchShown (updateKeyOnOff dev s) i ∧
      (updateKeyOnOff dev s).lastPitches i = soundingPitch (dev i) := by
  have key : ∀ n, n ≤ 10 →
      let t := (List.range n).foldl (fun s i => showPitch s i (if (dev i).noteOn then (dev i).pitch else 0)) s
      t.fault = false → (∀ i, i < 10 → PitchShown t i) ∧ ∀ i, i < n → t.lastPitches i = soundingPitch (dev i) := by
    intro n
    induction n with
    | zero => intro _ _ _; exact ⟨hs, fun i hi => absurd hi (by omega)⟩
    | succ n ih =>
      intro hn
      simp only [List.range_succ, List.foldl_append, List.foldl_cons, List.foldl_nil]
      generalize ht : (List.range n).foldl (fun s i => showPitch s i (if (dev i).noteOn then (dev i).pitch else 0)) s = t
      intro hf
      have e := showPitch_eff t n (if (dev n).noteOn then (dev n).pitch else 0)
      have k := ih (by omega)
      simp only [ht] at k
      obtain ⟨k1, k2⟩ := k (e.fault hf)
      have r := (showPitch_rest t n (if (dev n).noteOn then (dev n).pitch else 0)).2.2.2.2
      refine ⟨fun i hi => ?_, fun i hi => ?_⟩
      · by_cases hin : i = n
        · subst hin; exact showPitch_shown (k1 i hi) hf
        · refine (k1 i hi).other ?_ fun x y c => e.scr x y (pitchCell_ne hin c)
          rw [r, Psg.upd_other _ _ _ _ hin]
      · by_cases hin : i = n
        · subst hin; rw [r, Psg.upd_same]; rfl
        · rw [r, Psg.upd_other _ _ _ _ hin]; exact k2 i (by omega)
  have := key 10 (by omega) h
  exact fun i hi => ⟨this.1 i hi, this.2 i hi⟩


/-! ### Loops over the voices -/

/-- In a loop over the voices where turn `j` leaves alone what belongs to voice `i ≠ j`, the outcome for voice `i` is
that of its own turn. -/
theorem fold_at (Agree : Nat → St → St → Prop) (hr : ∀ i s, Agree i s s)
    (ht : ∀ i s t u, Agree i s t → Agree i t u → Agree i s u) (f : St → Nat → St)
    (hf : ∀ s j, (f s j).fault = false → s.fault = false) (n : Nat) (s : St)
    (h : ∀ s j i, j < n → i ≠ j → Agree i s (f s j)) {i : Nat} (hi : i < n) :
    ∃ u, Agree i s u ∧ Agree i (f u i) ((List.range n).foldl f s) ∧
      (((List.range n).foldl f s).fault = false → (f u i).fault = false ∧ u.fault = false) := by
  induction n with
  | zero => omega
  | succ n ih =>
    rw [List.range_succ, List.foldl_append, List.foldl_cons, List.foldl_nil]
    generalize hu : (List.range n).foldl f s = t at *
    by_cases hin : i = n
    · subst hin
      refine ⟨t, ?_, hr _ _, fun k => ⟨k, hf _ _ k⟩⟩
      rw [← hu]
      have : ∀ (l : List Nat), (∀ j ∈ l, j < i) → ∀ s, Agree i s (l.foldl f s) := by
        intro l hl
        induction l with
        | nil => exact fun s => hr _ _
        | cons a l ih' =>
          intro s
          exact ht _ _ _ _ (h s a i (by have := hl a (by simp); omega) (by have := hl a (by simp); omega))
            (ih' (fun j hj => hl j (by simp [hj])) _)
      exact this _ (fun j hj => by simpa using hj) s
    · obtain ⟨u, h1, h2, h3⟩ := ih (fun s j i hj hij => h s j i (by omega) hij) (by omega)
      exact ⟨u, h1, ht _ _ _ _ h2 (h t n i (by omega) hin), fun k => h3 (hf _ _ k)⟩

/-! ### Changes -/

/-- Cells of the last change of voice `i`. -/
def ChangeCell (i x y : Nat) : Prop := y = row i ∧ 11 ≤ x ∧ x < 18

/-- Remembered changes are bytes. -/
def Bytes (s : St) : Prop := ∀ i, (s.change i).value < 256

theorem decLeft_len : ∀ v < 256, (decLeft 3 v).length = 3 := by decide +kernel

/-- Text of a change. -/
def changeText (c : Change) : Text :=
  match c.kind with
  | .program => ['P', '='] ++ decLeft 3 c.value
  | .cc => ['C', 'C'] ++ hex2 c.key ++ ['='] ++ hex2 c.value
  | .none => []

theorem changeText_len {c : Change} (h : c.value < 256) : (changeText c).length ≤ 7 := by
  unfold changeText
  split
  · simp [decLeft_len _ h]
  · simp [hex2]
  · simp

theorem print_eff {s : St} {size : Nat} {t : Text} {x y : Nat} :
    Eff (fun x' y' => y' = 1 + y ∧ 1 + x ≤ x' ∧ x' < 1 + x + t.length) s (print s size t x y) := by
  unfold print
  split
  · exact ⟨id, fun x' y' n => draw_out n⟩
  · exact ⟨by simp [ub], fun _ _ _ => rfl⟩

theorem print_ok {s : St} {size : Nat} {t : Text} {x y : Nat} (h : t.length + 1 ≤ size) :
    print s size t x y = { s with scr := draw s.scr t x y } := by
  unfold print; rw [if_pos h]

/-- One turn of `print_midi_changes`, as one record update. -/
theorem printChange_eq {s : St} {i : Nat} (h : (s.change i).value < 256) :
    printChange s i = { s with
      change := upd s.change i (if (s.change i).kind = .none then s.change i
        else if (s.change i).ttl = 0 then { s.change i with kind := .none }
        else { s.change i with ttl := (s.change i).ttl - 1 })
      scr := if (s.change i).kind = .none then s.scr
        else if (s.change i).ttl = 0 then clearArea s.scr 11 (row i) 7 1
        else if (s.change i).ttl = 150 then draw s.scr (changeText (s.change i)) 10 (2 + i * 2) else s.scr } := by
  have er : 1 + 2 + i * 2 = row i := by unfold row; omega
  have self : ∀ (f : Nat → Change), upd f i (f i) = f := fun f => by funext j; simp only [upd]; split <;> simp_all
  unfold printChange
  simp only [er]
  by_cases h0 : (s.change i).kind = .none
  · simp only [if_pos h0, self]
  · simp only [if_neg h0]
    by_cases h1 : (s.change i).ttl = 0
    · simp only [if_pos h1]
    · simp only [if_neg h1]
      by_cases h2 : (s.change i).ttl = 150
      · simp only [if_pos h2, changeText]
        cases hk : (s.change i).kind with
        | none => exact absurd hk h0
        | program =>
          simp only
          rw [print_ok (by simp [decLeft_len _ h])]
        | cc =>
          simp only
          rw [print_ok (by simp [hex2])]
      · simp only [if_neg h2]

theorem printChange_eff {s : St} {i : Nat} (h : (s.change i).value < 256) :
    Eff (ChangeCell i) s (printChange s i) := by
  rw [printChange_eq h]
  refine ⟨id, fun x y n => ?_⟩
  simp only
  split
  · rfl
  · split
    · apply clear_out; unfold ChangeCell at n; omega
    · split
      · apply draw_out
        have := changeText_len h
        unfold ChangeCell row at n; omega
      · rfl

theorem printChange_rest (s : St) (i : Nat) :
    (printChange s i).lastPitches = s.lastPitches ∧ (printChange s i).panel = s.panel ∧
    (printChange s i).status = s.status ∧ (printChange s i).activityFrame = s.activityFrame := by
  unfold printChange
  extract_lets c s'
  split
  · exact ⟨rfl, rfl, rfl, rfl⟩
  · split
    · exact ⟨rfl, rfl, rfl, rfl⟩
    · have k : s'.lastPitches = s.lastPitches ∧ s'.panel = s.panel ∧ s'.status = s.status ∧
          s'.activityFrame = s.activityFrame := by
        show St.lastPitches (ite _ _ _) = _ ∧ St.panel (ite _ _ _) = _ ∧ St.status (ite _ _ _) = _ ∧
          St.activityFrame (ite _ _ _) = _
        have pr : ∀ size t x y, (print s size t x y).lastPitches = s.lastPitches ∧ (print s size t x y).panel = s.panel ∧
            (print s size t x y).status = s.status ∧ (print s size t x y).activityFrame = s.activityFrame := by
          intro size t x y
          unfold print
          split <;> exact ⟨rfl, rfl, rfl, rfl⟩
        split
        · split
          · exact pr _ _ _ _
          · exact pr _ _ _ _
          · exact ⟨rfl, rfl, rfl, rfl⟩
        · exact ⟨rfl, rfl, rfl, rfl⟩
      exact k

theorem printChange_bytes {s : St} (i : Nat) (h : Bytes s) : Bytes (printChange s i) := by
  rw [printChange_eq (h i)]
  intro j
  simp only [upd]
  split
  · split
    · exact h i
    · split <;> exact h i
  · exact h j

theorem printChanges_rest (s : St) :
    (printChanges s).lastPitches = s.lastPitches ∧ (printChanges s).panel = s.panel ∧
    (printChanges s).status = s.status ∧ (printChanges s).activityFrame = s.activityFrame :=
  ⟨foldl_keeps St.lastPitches _ _ _ fun s i => (printChange_rest s i).1,
   foldl_keeps St.panel _ _ _ fun s i => (printChange_rest s i).2.1,
   foldl_keeps St.status _ _ _ fun s i => (printChange_rest s i).2.2.1,
   foldl_keeps St.activityFrame _ _ _ fun s i => (printChange_rest s i).2.2.2⟩

theorem printChanges_bytes {s : St} (h : Bytes s) : Bytes (printChanges s) := by
  unfold printChanges
  exact List.foldlRecOn (motive := Bytes) (List.range 10) _ h fun s hs i _ => printChange_bytes i hs

/-- Cells of the column of changes. -/
def ChangeArea (x y : Nat) : Prop := ∃ i, i < 10 ∧ ChangeCell i x y

theorem printChanges_eff {s : St} (h : Bytes s) : Eff ChangeArea s (printChanges s) := by
  unfold printChanges
  refine (List.foldlRecOn (motive := fun t => Bytes t ∧ Eff ChangeArea s t) (List.range 10) _ ⟨h, .refl _⟩ ?_).2
  intro t ht i hi
  exact ⟨printChange_bytes i ht.1,
    ht.2.trans ((printChange_eff (ht.1 i)).mono fun x y k => ⟨i, by simpa using hi, k⟩)⟩

/-! ### Mappings -/

/-- Cells of the MIDI channel of voice `i`. -/
def MapCell (i x y : Nat) : Prop := y = row i ∧ 4 ≤ x ∧ x < 6
def MapArea (x y : Nat) : Prop := ∃ i, i < 10 ∧ MapCell i x y

theorem midiChText_len : ∀ (k : Nat) (t : Text), midiChText[k]? = some t → t.length = 2 := by
  have h : ∀ t ∈ midiChText, t.length = 2 := by decide +kernel
  exact fun k t e => h t (List.mem_of_getElem? e)

/-- Everything but the screen and the fault flag. -/
def St.vars (s : St) := (s.lastPitches, s.change, s.activityFrame, s.panel, s.status)

theorem showMapping_eff (dev : Nat → Dev) (s : St) (i : Nat) : Eff (MapCell i) s (showMapping dev s i) := by
  have dr : ∀ t : Text, t.length = 2 → ∀ x y, ¬ MapCell i x y → draw s.scr t 3 (2 + i * 2) x y = s.scr x y := by
    intro t ht x y n
    apply draw_out
    rw [ht]; unfold MapCell row at n; omega
  unfold showMapping
  split
  · exact ⟨id, dr _ rfl⟩
  · split
    · rename_i t e; exact ⟨id, dr t (midiChText_len _ _ e)⟩
    · exact ⟨by simp [ub], fun _ _ _ => rfl⟩

theorem showMapping_vars (dev : Nat → Dev) (s : St) (i : Nat) : (showMapping dev s i).vars = s.vars := by
  unfold showMapping
  split
  · rfl
  · split <;> rfl

theorem printMappings_eff (dev : Nat → Dev) (s : St) : Eff MapArea s (printMappings dev s) := by
  unfold printMappings
  split
  · exact .refl _
  · exact Eff.foldl _ _ _ fun s i hi => (showMapping_eff dev s i).mono fun x y h => ⟨i, by simpa using hi, h⟩

theorem printMappings_vars (dev : Nat → Dev) (s : St) : (printMappings dev s).vars = s.vars := by
  unfold printMappings
  split
  · rfl
  · exact foldl_keeps St.vars _ _ _ fun s i => showMapping_vars dev s i

/-! ### Status line and log -/

/-- Variables other than those of the status line. -/
def St.rest (s : St) := (s.lastPitches, s.change, s.activityFrame, s.panel)

theorem printCommMode_eff (s : St) (m : CommMode) : Eff (fun _ y => y = 26) s (printCommMode s m) := by
  unfold printCommMode
  split
  · exact .refl _
  · split
    · exact .refl _
    · extract_lets inited s'
      have h' : Eff (fun _ y => y = 26) s s' := ⟨id, fun x y n => clear_out (by omega)⟩
      split
      · exact h'.trans ⟨id, fun x y n => clear_out (by omega)⟩
      · exact h'

theorem printCommMode_rest (s : St) (m : CommMode) : (printCommMode s m).rest = s.rest := by
  unfold printCommMode
  split
  · rfl
  · split
    · rfl
    · extract_lets inited s'
      split <;> rfl

theorem printLog_eff (s : St) (t : Option Text) : Eff (fun _ y => 22 ≤ y) s (printLog s t) := by
  unfold printLog
  split
  · exact .refl _
  · extract_lets s'
    have h' : Eff (fun _ y => 22 ≤ y) s s' := by
      show Eff _ s (ite _ _ _)
      split
      · exact ⟨id, fun x y n => clear_out (by omega)⟩
      · exact .refl _
    exact h'.trans ⟨id, fun x y n => draw_out (by omega)⟩

theorem printLog_rest (s : St) (t : Option Text) : (printLog s t).rest = s.rest := by
  unfold printLog
  split
  · rfl
  · extract_lets s'
    have h' : s'.rest = s.rest := by
      show St.rest (ite _ _ _) = _
      split <;> rfl
    exact h'

theorem printRouting_eff (C) (s : St) (d : Bool) : Eff C s (printRouting s d) := by
  unfold printRouting
  split <;> exact ⟨id, fun _ _ _ => rfl⟩
theorem printRouting_rest (s : St) (d : Bool) : (printRouting s d).rest = s.rest := by
  unfold printRouting
  split <;> rfl

theorem printTicks_eff (s : St) (n : Nat) : Eff (fun _ y => y = 2) s (printTicks s n) :=
  print_eff.mono fun _ _ h => h.1
theorem printTicks_rest (s : St) (n : Nat) : (printTicks s n).rest = s.rest ∧ (printTicks s n).status = s.status := by
  unfold printTicks print
  split <;> exact ⟨rfl, rfl⟩

theorem printMark_eff (s : St) (b : Bool) : Eff (fun x y => x = 3 ∧ y = 7) s (printMark s b) := by
  unfold printMark
  split
  · exact .refl _
  · split
    · exact ⟨id, fun _ _ _ => rfl⟩
    · exact ⟨id, fun x y n => clear_out (by omega)⟩
theorem printMark_rest (s : St) (b : Bool) : (printMark s b).rest = s.rest := by
  unfold printMark
  split
  · rfl
  · split <;> rfl

/-- Cells the slow part of a frame may touch. -/
def SlowArea (x y : Nat) : Prop := MapArea x y ∨ 22 ≤ y ∨ y = 2 ∨ (x = 3 ∧ y = 7)

theorem activity_eff (env : Env) (m : Midi.St) (s : St) (f : Frame) : Eff SlowArea s (activity env m s f) := by
  unfold activity
  extract_lets s1 s2 s3 s4 s5
  have h1 : Eff SlowArea s s1 := (printMappings_eff m.dev s).mono fun x y h => .inl h
  have h2 : Eff SlowArea s1 s2 := (printCommMode_eff s1 f.mode).mono fun x y h => .inr (.inl (by omega))
  have h3 : Eff SlowArea s2 s3 := (printLog_eff s2 f.log).mono fun x y h => .inr (.inl h)
  have h4 : Eff SlowArea s3 s4 := printRouting_eff _ s3 m.dynamic
  have h5 : Eff SlowArea s4 s5 := by
    show Eff _ s4 (ite _ _ _)
    split
    · exact (printTicks_eff s4 f.ticks).mono fun x y h => .inr (.inr (.inl h))
    · exact .refl _
  exact (((((h1.trans h2).trans h3).trans h4).trans h5)).trans
    ((printMark_eff s5 _).mono fun x y h => .inr (.inr (.inr h)))

theorem activity_rest (env : Env) (m : Midi.St) (s : St) (f : Frame) : (activity env m s f).rest = s.rest := by
  unfold activity
  extract_lets s1 s2 s3 s4 s5
  have h1 : s1.rest = s.rest := by
    have := printMappings_vars m.dev s
    simp only [St.vars, Prod.mk.injEq] at this
    simp only [St.rest, Prod.mk.injEq]
    exact ⟨this.1, this.2.1, this.2.2.1, this.2.2.2.1⟩
  have h2 : s2.rest = s1.rest := printCommMode_rest s1 f.mode
  have h3 : s3.rest = s2.rest := printLog_rest s2 f.log
  have h4 : s4.rest = s3.rest := printRouting_rest s3 m.dynamic
  have h5 : s5.rest = s4.rest := by
    show St.rest (ite _ _ _) = _
    split
    · exact (printTicks_rest s4 f.ticks).1
    · rfl
  exact (printMark_rest s5 _).trans (h5.trans (h4.trans (h3.trans (h2.trans h1))))

/-! ### Panel -/

/-- Variables that do not belong to the panel. -/
def St.left (s : St) := (s.lastPitches, s.change, s.activityFrame, s.status)

theorem fmPos_row (f : Nat) : (fmPos f).2 ≤ 5 := by unfold fmPos; split <;> simp

theorem updateField_eff (s : St) (f v : Nat) : Eff (fun x y => 19 ≤ x ∧ y < 22) s (updateField s f v) := by
  unfold updateField
  split
  · split
    · refine ⟨id, fun x y n => draw_out ?_⟩
      have := fmPos_row f
      omega
    · exact ⟨by simp [ub], fun _ _ _ => rfl⟩
  · exact .refl _
theorem updateField_left (s : St) (f v : Nat) : (updateField s f v).left = s.left := by
  unfold updateField
  split
  · split <;> rfl
  · rfl

theorem updateOp_eff (s : St) (f o v : Nat) (hf : f < 11) : Eff (fun x y => 19 ≤ x ∧ y < 22) s (updateOp s f o v) := by
  unfold updateOp
  split
  · have h : Eff (fun x y => 19 ≤ x ∧ y < 22) s (print s 4 (decRight 3 v) (22 + o * 4) (9 + f + 1)) :=
      print_eff.mono fun x y h => by omega
    exact ⟨h.fault, h.scr⟩
  · exact .refl _
theorem updateOp_left (s : St) (f o v : Nat) : (updateOp s f o v).left = s.left := by
  unfold updateOp
  split
  · unfold print
    split <;> rfl
  · rfl

theorem updateDiagram_eff (C) (s : St) (a : Nat) : Eff C s (updateDiagram s a) := by
  unfold updateDiagram
  split
  · split
    · exact ⟨id, fun _ _ _ => rfl⟩
    · exact ⟨by simp [ub], fun _ _ _ => rfl⟩
  · exact .refl _
theorem updateDiagram_left (s : St) (a : Nat) : (updateDiagram s a).left = s.left := by
  unfold updateDiagram
  split
  · split <;> rfl
  · rfl

theorem updateOps_eff (s : St) (o : Synth.Ops4) : Eff (fun x y => 19 ≤ x ∧ y < 22) s (updateOps s o) := by
  unfold updateOps
  exact Eff.foldl _ _ _ fun s f hf => Eff.foldl _ _ _ fun s o _ => updateOp_eff s f o _ (by simpa using hf)
theorem updateOps_left (s : St) (o : Synth.Ops4) : (updateOps s o).left = s.left := by
  unfold updateOps
  exact foldl_keeps St.left _ _ _ fun s f => foldl_keeps St.left _ _ _ fun s o => updateOp_left s f o _

theorem updateFields_eff (sy : Synth.St) (s : St) (c : Synth.FmChannel) :
    Eff (fun x y => 19 ≤ x ∧ y < 22) s (updateFields sy s c) := by
  unfold updateFields
  exact Eff.foldl _ _ _ fun s f _ => updateField_eff s f _
theorem updateFields_left (sy : Synth.St) (s : St) (c : Synth.FmChannel) : (updateFields sy s c).left = s.left := by
  unfold updateFields
  exact foldl_keeps St.left _ _ _ fun s f => updateField_left s f _

theorem Eff.calm {C} {s t : St} (h : Eff C s t) : Eff C s { t with force := false } := ⟨h.fault, h.scr⟩
theorem calm_left (s : St) : St.left { s with force := false } = s.left := rfl

theorem updateValues_eff (sy : Synth.St) (s : St) : Eff (fun x y => 19 ≤ x ∧ y < 22) s (updateValues sy s) := by
  unfold updateValues
  split
  · extract_lets c s1 s2 s3
    have h1 : Eff (fun x y => 19 ≤ x ∧ y < 22) s s1 := updateFields_eff sy s _
    have h2 : Eff (fun x y => 19 ≤ x ∧ y < 22) s1 s2 := updateDiagram_eff _ s1 _
    have h3 : Eff (fun x y => 19 ≤ x ∧ y < 22) s2 s3 := updateOps_eff s2 _
    have h := (h1.trans h2).trans h3
    exact h.calm
  · exact ⟨by simp [ub], fun _ _ _ => rfl⟩

theorem updateValues_left (sy : Synth.St) (s : St) : (updateValues sy s).left = s.left := by
  unfold updateValues
  split
  · extract_lets c s1 s2 s3
    have h1 : s1.left = s.left := updateFields_left sy s _
    have h2 : s2.left = s1.left := updateDiagram_left s1 _
    have h3 : s3.left = s2.left := updateOps_left s2 _
    exact (calm_left s3).trans (h3.trans (h2.trans h1))
  · rfl

theorem updatePanel_eff (dev : Nat → Dev) (sy : Synth.St) (s : St) :
    Eff (fun x y => 19 ≤ x ∧ y < 22) s (updatePanel dev sy s) := by
  unfold updatePanel
  split
  · exact .refl _
  · split
    · exact .refl _
    · extract_lets s'
      have h' : Eff (fun x y => 19 ≤ x ∧ y < 22) s s' := by
        show Eff _ s (ite _ _ _)
        split
        · exact ⟨id, fun _ _ _ => rfl⟩
        · exact .refl _
      split
      · have h := updateValues_eff sy s'
        exact h'.trans ⟨h.fault, h.scr⟩
      · exact h'

theorem updatePanel_left (dev : Nat → Dev) (sy : Synth.St) (s : St) : (updatePanel dev sy s).left = s.left := by
  unfold updatePanel
  split
  · rfl
  · split
    · rfl
    · extract_lets s'
      have h' : s'.left = s.left := by
        show St.left (ite _ _ _) = _
        split <;> rfl
      split
      · exact (updateValues_left sy s').trans h'
      · exact h'

theorem headings_eff (scr : Screen) : ∀ x y, ¬(19 ≤ x ∧ y < 22) →
    headings.foldl (fun scr h => draw scr h.1 h.2.1 h.2.2) scr x y = scr x y := by
  intro x y n
  have hh : ∀ h ∈ headings, 18 ≤ h.2.1 ∧ h.2.2 ≤ 20 := by decide +kernel
  revert hh
  generalize headings = l
  intro hh
  induction l generalizing scr with
  | nil => rfl
  | cons a l ih =>
    rw [List.foldl_cons, ih _ fun h k => hh h (by simp [k])]
    have := hh a (by simp)
    exact draw_out (by omega)

theorem setVisibility_eff (s : St) (c : Nat) (v : Bool) :
    Eff (fun x y => 18 ≤ x ∧ y < 23) s (setVisibility s c v) := by
  unfold setVisibility
  extract_lets s1 s2
  have h : Eff (fun x y => 18 ≤ x ∧ y < 23) s s2 := by
    show Eff _ s (ite _ _ _)
    split
    · exact ⟨id, fun x y n => headings_eff _ x y (by omega)⟩
    · exact ⟨id, fun x y n => clear_out (by omega)⟩
  exact ⟨h.fault, h.scr⟩
theorem setVisibility_left (s : St) (c : Nat) (v : Bool) : (setVisibility s c v).left = s.left := by
  unfold setVisibility
  extract_lets s1 s2
  have h : s2.left = s.left := by
    show St.left (ite _ _ _) = _
    split <;> rfl
  exact h

theorem noted_left (s : St) (n : Nat × Note) :
    (noted s n).left = s.left ∧ (noted s n).scr = s.scr ∧ (noted s n).fault = s.fault := by
  unfold noted
  split <;> exact ⟨rfl, rfl, rfl⟩

end Mdmi.Ui
