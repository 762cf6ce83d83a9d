import Verif.Proofs.UiMap
/-! The column of controller and program changes. -/
namespace Mdmi.Ui
open Mdmi.Midi (Dev)
open Mdmi.UiSpec (Reads row blank)

/-- Same pending change and same cells of voice `i`. -/
def SameChange (i : Nat) (s t : St) : Prop :=
  t.change i = s.change i ∧ ∀ x y, ChangeCell i x y → t.scr x y = s.scr x y

theorem SameChange.refl (i : Nat) (s : St) : SameChange i s s := ⟨rfl, fun _ _ _ => rfl⟩
theorem SameChange.trans {i : Nat} {s t u : St} (h : SameChange i s t) (k : SameChange i t u) : SameChange i s u :=
  ⟨k.1.trans h.1, fun x y c => (k.2 x y c).trans (h.2 x y c)⟩
theorem SameChange.symm {i : Nat} {s t : St} (h : SameChange i s t) : SameChange i t s :=
  ⟨h.1.symm, fun x y c => (h.2 x y c).symm⟩

theorem print_row {s : St} {size : Nat} {t : Text} {x y : Nat} {x' y' : Nat} (h : y' ≠ 1 + y) :
    (print s size t x y).scr x' y' = s.scr x' y' := print_eff.scr x' y' (fun k => h k.1)

theorem print_change {s : St} {size : Nat} {t : Text} {x y : Nat} : (print s size t x y).change = s.change := by
  unfold print; split <;> rfl

theorem printChange_other (s : St) {i j : Nat} (h : i ≠ j) : SameChange i s (printChange s j) := by
  have er : ∀ {x y}, ChangeCell i x y → y ≠ 1 + (2 + j * 2) := by
    intro x y k; unfold ChangeCell row at k; omega
  unfold printChange
  extract_lets c s'
  split
  · exact .refl _ _
  · split
    · refine ⟨Psg.upd_other _ _ _ _ h, fun x y k => clear_out ?_⟩
      have := er k; omega
    · have k : SameChange i s s' := by
        show SameChange i s (ite _ _ _)
        split
        · split
          · exact ⟨by rw [print_change], fun x y k => print_row (er k)⟩
          · exact ⟨by rw [print_change], fun x y k => print_row (er k)⟩
          · exact .refl _ _
        · exact .refl _ _
      exact ⟨Psg.upd_other _ _ _ _ h, k.2⟩

theorem printChange_fault (s : St) (j : Nat) : (printChange s j).fault = false → s.fault = false := by
  unfold printChange
  extract_lets c s'
  split
  · exact id
  · split
    · exact id
    · have k : s'.fault = false → s.fault = false := by
        show St.fault (ite _ _ _) = false → _
        split
        · split
          · exact print_eff.fault
          · exact print_eff.fault
          · exact id
        · exact id
      exact k

theorem printChanges_at (s : St) {i : Nat} (hi : i < 10) :
    ∃ u, SameChange i s u ∧ SameChange i (printChange u i) (printChanges s) := by
  obtain ⟨u, h1, h2, _⟩ := fold_at SameChange SameChange.refl (fun _ _ _ _ a b => a.trans b) printChange printChange_fault 10 s
    (fun s j i _ hij => printChange_other s hij) hi
  exact ⟨u, h1, h2⟩

theorem change_not_pitch {i x y : Nat} (h : ChangeCell i x y) : ¬ PitchArea x y := by
  rintro ⟨j, _, k⟩; unfold PitchCell at k; unfold ChangeCell at h; omega
theorem change_not_slow {i x y : Nat} (hi : i < 10) (h : ChangeCell i x y) : ¬ SlowArea x y := by
  unfold ChangeCell row at h
  rintro (⟨j, _, k⟩ | k | k | k)
  · unfold MapCell at k; omega
  all_goals omega

/-- What a frame does to the change of a voice. -/
theorem update_change {env : Env} {m : Midi.St} {s : St} {f : Frame} {i : Nat} (hi : i < 10) :
    ∃ u, SameChange i s u ∧ SameChange i (printChange u i) (update env m s f) := by
  obtain ⟨s2, s3, s4, e2, e3, e4, e⟩ := update_split env m s f
  have k0 : SameChange i s (updateKeyOnOff m.dev s) :=
    ⟨by rw [(updateKeyOnOff_rest m.dev s).1], fun x y k => (updateKeyOnOff_eff m.dev s).scr x y (change_not_pitch k)⟩
  obtain ⟨u, h1, h2⟩ := printChanges_at (updateKeyOnOff m.dev s) hi
  refine ⟨u, k0.trans h1, h2.trans ?_⟩
  rw [← e2]
  have k3 : SameChange i s2 s3 := by rw [e3]; exact ⟨rfl, fun _ _ _ => rfl⟩
  have k4 : SameChange i s3 s4 := by
    rw [e4]
    split
    · have r := activity_rest env m { s3 with activityFrame := 0 } f
      simp only [St.rest, Prod.mk.injEq] at r
      exact ⟨by rw [r.2.1], fun x y k => (activity_eff env m _ f).scr x y (change_not_slow hi k)⟩
    · exact .refl _ _
  have k5 : SameChange i s4 (update env m s f) := by
    have r := updatePanel_left m.dev m.fm.synth s4
    simp only [St.left, Prod.mk.injEq] at r
    rw [e]
    refine ⟨by rw [r.2.1], fun x y k => (updatePanel_eff m.dev m.fm.synth s4).scr x y ?_⟩
    unfold ChangeCell at k; omega
  exact (k3.trans k4).trans k5

/-! ### Messages -/

/-- A message shows on voice `i`: a controller or program change of the channel the voice then plays. -/
def Touches (dev : Nat → Dev) (i : Nat) : Midi.Op → Prop
  | .cc c _ _ => (dev i).midiChannel = c
  | .program c _ => (dev i).midiChannel = c
  | _ => False

/-- What a message leaves to be shown. -/
def changeOf : Midi.Op → Change
  | .cc _ k v => ⟨.cc, k % 256, v % 256, 150⟩
  | .program _ p => ⟨.program, 0, p % 256, 150⟩
  | _ => ⟨.none, 0, 0, 0⟩

theorem notes_same (i : Nat) (notes : List (Nat × Note)) (s : St) : SameChange i s (notes.foldl noted s) := by
  refine List.foldlRecOn (motive := fun t => SameChange i s t) _ _ (.refl _ _) fun t ht n _ => ht.trans ?_
  have := noted_left t n
  have l := this.1
  simp only [St.left, Prod.mk.injEq] at l
  exact ⟨by rw [l.2.1], fun x y _ => by rw [this.2.1]⟩

theorem visibility_same (i : Nat) (s : St) (c : Nat) (v : Bool) : SameChange i s (setVisibility s c v) := by
  have l := setVisibility_left s c v
  simp only [St.left, Prod.mk.injEq] at l
  refine ⟨by rw [l.2.1], fun x y k => (setVisibility_eff s c v).scr x y ?_⟩
  unfold ChangeCell at k; omega

/-- The cells of voice `i` stay, and its pending change is the one given. -/
def Pend (i : Nat) (c : Change) (s t : St) : Prop :=
  t.change i = c ∧ ∀ x y, ChangeCell i x y → t.scr x y = s.scr x y

theorem midiChange_pend {dev : Nat → Dev} {s : St} {ch : Nat} {kind : Kind} {key value i : Nat} (hi : i < 10) :
    ((dev i).midiChannel = ch → Pend i ⟨kind, key % 256, value % 256, 150⟩ s (midiChange dev s ch kind key value)) ∧
    ((dev i).midiChannel ≠ ch → SameChange i s (midiChange dev s ch kind key value)) := by
  unfold midiChange
  refine ⟨fun h => ⟨?_, fun _ _ _ => rfl⟩, fun h => ⟨?_, fun _ _ _ => rfl⟩⟩
  · simp only [if_pos (And.intro hi h)]
  · simp only [if_neg (fun k : i < 10 ∧ (dev i).midiChannel = ch => h k.2)]

theorem step_change {env : Env} {s : Sys} {op : Midi.Op} {notes : List (Nat × Note)} (hw : op.Wf) {i : Nat} (hi : i < 10) :
    (Touches (Midi.step env.midi s.m op).dev i op → Pend i (changeOf op) s.ui (step env s (.midi op notes)).ui) ∧
    (¬ Touches (Midi.step env.midi s.m op).dev i op → SameChange i s.ui (step env s (.midi op notes)).ui) := by
  obtain ⟨l, hl, e⟩ := step_midi env s op notes hw
  rw [e]
  simp only
  generalize Midi.step env.midi s.m op = m at *
  have n := notes_same i notes s.ui
  generalize notes.foldl noted s.ui = t at *
  have quiet : l = [] → SameChange i s.ui (l.reverse.foldl (heed m.dev) t) := by rintro rfl; exact n
  cases op with
  | noteOn c p v => exact ⟨fun h => h.elim, fun _ => quiet hl⟩
  | noteOff c p => exact ⟨fun h => h.elim, fun _ => quiet hl⟩
  | bend c v => exact ⟨fun h => h.elim, fun _ => quiet hl⟩
  | remap c v => exact ⟨fun h => h.elim, fun _ => quiet hl⟩
  | reset => exact ⟨fun h => h.elim, fun _ => quiet hl⟩
  | tick => exact ⟨fun h => h.elim, fun _ => quiet hl⟩
  | psgTick => exact ⟨fun h => h.elim, fun _ => quiet hl⟩
  | sysex d j =>
    refine ⟨fun h => h.elim, fun _ => ?_⟩
    refine List.foldlRecOn (motive := fun t => SameChange i s.ui t) _ _ n fun u hu x hx => ?_
    obtain ⟨b, rfl⟩ := hl x (by simpa using hx)
    exact hu
  | program c p =>
    have hl : l = [.changedProgram c p] := hl
    subst hl
    simp only [List.reverse_cons, List.reverse_nil, List.nil_append, List.foldl_cons, List.foldl_nil, heed]
    obtain ⟨a, b⟩ := midiChange_pend (dev := m.dev) (s := t) (ch := c) (kind := .program) (key := 0) (value := p) hi
    exact ⟨fun h => ⟨(a h).1, fun x y k => ((a h).2 x y k).trans (n.2 x y k)⟩, fun h => n.trans (b h)⟩
  | cc c k v =>
    have hl : l = .changedCc c k v :: if k = 83 ∧ s.m.cfg.disableNonGm = false then [.showParams c (v / 64)] else [] := hl
    obtain ⟨t', ht, et⟩ : ∃ t', SameChange i s.ui t' ∧
        l.reverse.foldl (heed m.dev) t = midiChange m.dev t' c .cc k v := by
      rw [hl]
      split
      · exact ⟨_, n.trans (visibility_same i t c (v / 64 ≠ 0)), by
          simp only [List.reverse_cons, List.reverse_nil, List.nil_append, List.cons_append, List.foldl_cons,
            List.foldl_nil, heed]⟩
      · exact ⟨t, n, by simp only [List.reverse_cons, List.reverse_nil, List.nil_append, List.foldl_cons,
            List.foldl_nil, heed]⟩
    rw [et]
    obtain ⟨a, b⟩ := midiChange_pend (dev := m.dev) (s := t') (ch := c) (kind := .cc) (key := k) (value := v) hi
    exact ⟨fun h => ⟨(a h).1, fun x y k => ((a h).2 x y k).trans (ht.2 x y k)⟩, fun h => ht.trans (b h)⟩

/-! ### The life of a change -/

/-- `n` frames after change `c` came to voice `i`, whose cells read `w` then. -/
structure Stage (i : Nat) (c : Change) (w : Nat → Char) (n : Nat) (s : St) : Prop where
  pending : n ≤ 150 → s.change i = { c with ttl := 150 - n }
  text : 1 ≤ n → n ≤ 150 → Reads s.scr 11 (row i) (changeText c)
  tail : n ≤ 150 → ∀ k, (n = 0 ∨ (changeText c).length ≤ k) → k < 7 → s.scr (11 + k) (row i) = w k
  gone : 151 ≤ n → (s.change i).kind = .none ∧ Reads s.scr 11 (row i) (blank 7)

theorem changeCell_mk {i k : Nat} (h : k < 7) : ChangeCell i (11 + k) (row i) := ⟨rfl, by omega, by omega⟩

theorem Stage.same {i : Nat} {c : Change} {w : Nat → Char} {n : Nat} {s t : St} (hc : c.value < 256) (h : Stage i c w n s)
    (k : SameChange i s t) : Stage i c w n t where
  pending hn := by rw [k.1]; exact h.pending hn
  text h1 h2 j hj := by
    rw [k.2 _ _ (changeCell_mk (by have := changeText_len hc; omega))]; exact h.text h1 h2 j hj
  tail hn j h1 h2 := by rw [k.2 _ _ (changeCell_mk h2)]; exact h.tail hn j h1 h2
  gone hn := ⟨by rw [k.1]; exact (h.gone hn).1, fun j hj => by
    rw [k.2 _ _ (changeCell_mk (by simpa [blank] using hj))]; exact (h.gone hn).2 j hj⟩

theorem blank_at (n j : Nat) : (blank n).getD j ' ' = ' ' := by
  unfold blank
  rw [List.getD_eq_getElem?_getD, List.getElem?_replicate]
  by_cases h : j < n
  · rw [if_pos h]; rfl
  · rw [if_neg h]; rfl

theorem changeText_ttl (c : Change) (n : Nat) : changeText { c with ttl := n } = changeText c := rfl

theorem Stage.frame {i : Nat} {c : Change} {w : Nat → Char} {n : Nat} {s : St} (hk : c.kind ≠ .none) (hc : c.value < 256)
    (h : Stage i c w n s) : Stage i c w (n + 1) (printChange s i) := by
  have len := changeText_len hc
  rcases Nat.lt_or_ge n 151 with lt | ge
  · have p := h.pending (by omega)
    rw [printChange_eq (by rw [p]; exact hc), p]
    simp only [changeText_ttl, if_neg hk]
    by_cases last : n = 150
    · subst last
      refine ⟨by omega, by omega, by omega, fun _ => ⟨?_, fun j hj => ?_⟩⟩
      · simp only [Psg.upd_same, Nat.sub_self, if_true]
      · have hj : j < 7 := by simpa [blank] using hj
        simp only [Nat.sub_self, if_true]
        rw [clear_in (by omega)]
        exact (blank_at 7 j).symm
    · have e1 : ¬ 150 - n = 0 := by omega
      simp only [if_neg e1]
      refine ⟨fun _ => ?_, fun _ _ => ?_, fun _ k h1 h2 => ?_, by omega⟩
      · simp only [Psg.upd_same]; congr 1
      · by_cases first : n = 0
        · subst first
          simp only [if_true]
          have e2 : 11 = 1 + 10 := rfl
          have e3 : row i = 1 + (2 + i * 2) := by unfold row; omega
          rw [e2, e3]
          exact draw_reads _ _ _ _
        · have e4 : ¬ 150 - n = 150 := by omega
          simp only [if_neg e4]
          exact h.text (by omega) (by omega)
      · have h1 : (changeText c).length ≤ k := h1.resolve_left (by omega)
        by_cases first : n = 0
        · subst first
          simp only [if_true]
          rw [draw_out (by omega)]
          exact h.tail (by omega) k (.inl rfl) h2
        · have e4 : ¬ 150 - n = 150 := by omega
          simp only [if_neg e4]
          exact h.tail (by omega) k (.inr h1) h2
  · obtain ⟨g1, g2⟩ := h.gone ge
    have e : printChange s i = s := by unfold printChange; rw [if_pos g1]
    rw [e]
    exact ⟨by omega, by omega, by omega, fun _ => ⟨g1, g2⟩⟩

end Mdmi.Ui
