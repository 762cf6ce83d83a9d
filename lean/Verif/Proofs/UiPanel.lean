import Verif.Proofs.UiChange
import Verif.Proofs.Notify
/-! The parameter panel. -/
namespace Mdmi.Ui
open Mdmi.Midi (Dev)
open Mdmi.UiSpec (Reads row blank)

/-- Cells of field `f`. -/
def FieldCell (f x y : Nat) : Prop :=
  y = 3 + (fmPos f).2 ∧ 19 + (fmPos f).1 ≤ x ∧ x < 19 + (fmPos f).1 + (if f < 4 then 2 else if f = 5 then 5 else 4)
/-- Cells of field `f` of operator `o`. -/
def OpCell (f o x y : Nat) : Prop := y = 11 + f ∧ 23 + o * 4 ≤ x ∧ x < 26 + o * 4

theorem fieldCell_ne {f g x y : Nat} (hf : f < 8) (hg : g < 8) (h : f ≠ g) (k : FieldCell f x y) : ¬ FieldCell g x y := by
  unfold FieldCell at *
  match f, hf, g, hg with
  | 0, _, 0, _ | 1, _, 1, _ | 2, _, 2, _ | 3, _, 3, _ | 4, _, 4, _ | 5, _, 5, _ | 6, _, 6, _ | 7, _, 7, _ => exact absurd rfl h
  | 0, _, 1, _ | 0, _, 2, _ | 0, _, 3, _ | 0, _, 4, _ | 0, _, 5, _ | 0, _, 6, _ | 0, _, 7, _ => simp [fmPos] at *; omega
  | 1, _, 0, _ | 1, _, 2, _ | 1, _, 3, _ | 1, _, 4, _ | 1, _, 5, _ | 1, _, 6, _ | 1, _, 7, _ => simp [fmPos] at *; omega
  | 2, _, 0, _ | 2, _, 1, _ | 2, _, 3, _ | 2, _, 4, _ | 2, _, 5, _ | 2, _, 6, _ | 2, _, 7, _ => simp [fmPos] at *; omega
  | 3, _, 0, _ | 3, _, 1, _ | 3, _, 2, _ | 3, _, 4, _ | 3, _, 5, _ | 3, _, 6, _ | 3, _, 7, _ => simp [fmPos] at *; omega
  | 4, _, 0, _ | 4, _, 1, _ | 4, _, 2, _ | 4, _, 3, _ | 4, _, 5, _ | 4, _, 6, _ | 4, _, 7, _ => simp [fmPos] at *; omega
  | 5, _, 0, _ | 5, _, 1, _ | 5, _, 2, _ | 5, _, 3, _ | 5, _, 4, _ | 5, _, 6, _ | 5, _, 7, _ => simp [fmPos] at *; omega
  | 6, _, 0, _ | 6, _, 1, _ | 6, _, 2, _ | 6, _, 3, _ | 6, _, 4, _ | 6, _, 5, _ | 6, _, 7, _ => simp [fmPos] at *; omega
  | 7, _, 0, _ | 7, _, 1, _ | 7, _, 2, _ | 7, _, 3, _ | 7, _, 4, _ | 7, _, 5, _ | 7, _, 6, _ => simp [fmPos] at *; omega

theorem opCell_ne {f o g q x y : Nat} (ho : o < 4) (hq : q < 4) (h : f ≠ g ∨ o ≠ q) (k : OpCell f o x y) :
    ¬ OpCell g q x y := by
  unfold OpCell at *; omega

theorem opCell_not_field {f o g x y : Nat} (k : OpCell f o x y) : ¬ FieldCell g x y := by
  unfold OpCell at k; unfold FieldCell; have := fmPos_row g; omega

theorem fmText_len {f v : Nat} {t : Text} (h : fmText f v = some t) :
    t.length ≤ (if f < 4 then 2 else if f = 5 then 5 else 4) := by
  have fits : ∀ u : Text, fit 3 u = some t → t.length ≤ 2 := by
    intro u e
    unfold fit at e
    split at e
    · cases e; omega
    · simp at e
  unfold fmText at h
  split at h
  · exact fits _ h
  · exact fits _ h
  · exact fits _ h
  · exact fits _ h
  · cases h
    simp
    unfold stereoText
    split <;> simp
  · have : ∀ t ∈ lfoTexts, t.length ≤ 5 := by decide +kernel
    simpa using this t (List.mem_of_getElem? h)
  · have : ∀ t ∈ fmsTexts, t.length ≤ 4 := by decide +kernel
    simpa using this t (List.mem_of_getElem? h)
  · rename_i h0 h1 h2 h3 h4 h5 h6
    have : ∀ t ∈ amsTexts, t.length ≤ 4 := by decide +kernel
    have := this t (List.mem_of_getElem? h)
    split
    · rename_i h
      match f, h with
      | 0, _ => exact absurd rfl h0
      | 1, _ => exact absurd rfl h1
      | 2, _ => exact absurd rfl h2
      | 3, _ => exact absurd rfl h3
    · first
      | omega
      | (split <;> omega)

/-! ### Fields -/

/-- Field `f` on the screen is its remembered value. -/
def FieldDrawn (s : St) (f : Nat) : Prop :=
  ∃ t, fmText f (s.fmLast f) = some t ∧ Reads s.scr (19 + (fmPos f).1) (3 + (fmPos f).2) t
/-- Field `f` of operator `o` on the screen is its remembered value. -/
def OpDrawn (s : St) (f o : Nat) : Prop := Reads s.scr (23 + o * 4) (11 + f) (decRight 3 (s.opLast f o)) ∧ s.opLast f o < 1000

theorem FieldDrawn.other {s t : St} {f : Nat} (h : FieldDrawn s f) (e : t.fmLast f = s.fmLast f)
    (k : ∀ x y, FieldCell f x y → t.scr x y = s.scr x y) : FieldDrawn t f := by
  obtain ⟨u, h1, h2⟩ := h
  refine ⟨u, by rw [e]; exact h1, fun j hj => ?_⟩
  rw [k _ _ ⟨rfl, by omega, by have := fmText_len h1; omega⟩]
  exact h2 j hj

theorem OpDrawn.other {s t : St} {f o : Nat} (h : OpDrawn s f o) (e : t.opLast f o = s.opLast f o)
    (k : ∀ x y, OpCell f o x y → t.scr x y = s.scr x y) : OpDrawn t f o := by
  obtain ⟨h1, h2⟩ := h
  refine ⟨fun j hj => ?_, by rw [e]; exact h2⟩
  rw [e] at hj
  have : (decRight 3 (s.opLast f o)).length = 3 := by rw [decRight_le (by omega) (by omega)]
  rw [k _ _ ⟨rfl, by omega, by omega⟩, e]
  exact h1 j hj

/-- Agreement on field `f`. -/
def FieldSame (f : Nat) (s t : St) : Prop :=
  t.fmLast f = s.fmLast f ∧ t.force = s.force ∧ t.panelMidi = s.panelMidi ∧ t.panelFm = s.panelFm ∧
    ∀ x y, FieldCell f x y → t.scr x y = s.scr x y

theorem FieldSame.refl (f : Nat) (s : St) : FieldSame f s s := ⟨rfl, rfl, rfl, rfl, fun _ _ _ => rfl⟩
theorem FieldSame.trans {f : Nat} {s t u : St} (a : FieldSame f s t) (b : FieldSame f t u) : FieldSame f s u :=
  ⟨b.1.trans a.1, b.2.1.trans a.2.1, b.2.2.1.trans a.2.2.1, b.2.2.2.1.trans a.2.2.2.1,
    fun x y k => (b.2.2.2.2 x y k).trans (a.2.2.2.2 x y k)⟩

/-- What drawing a field touches. -/
theorem updateField_cells {s : St} {f v : Nat} : Eff (FieldCell f) s (updateField s f v) := by
  unfold updateField
  split
  · split
    · rename_i t e
      have := fmText_len e
      refine ⟨id, fun x y n => draw_out ?_⟩
      unfold FieldCell at n; omega
    · exact ⟨by simp [ub], fun _ _ _ => rfl⟩
  · exact .refl _

theorem updateField_keeps {s : St} {f v : Nat} : (updateField s f v).opLast = s.opLast ∧
    (updateField s f v).force = s.force ∧ (updateField s f v).panelMidi = s.panelMidi ∧
    (updateField s f v).panelFm = s.panelFm ∧ (updateField s f v).shown = s.shown ∧ (updateField s f v).dirty = s.dirty ∧
    (updateField s f v).diagram = s.diagram ∧ (updateField s f v).lastAlgorithm = s.lastAlgorithm ∧
    ∀ g, g ≠ f → (updateField s f v).fmLast g = s.fmLast g := by
  unfold updateField
  split
  · split
    · exact ⟨rfl, rfl, rfl, rfl, rfl, rfl, rfl, rfl, fun g h => Psg.upd_other _ _ _ _ h⟩
    · exact ⟨rfl, rfl, rfl, rfl, rfl, rfl, rfl, rfl, fun g h => rfl⟩
  · exact ⟨rfl, rfl, rfl, rfl, rfl, rfl, rfl, rfl, fun g h => rfl⟩

theorem updateField_drawn {s : St} {f v : Nat} (h : s.force = false → FieldDrawn s f) (ok : (updateField s f v).fault = false) :
    FieldDrawn (updateField s f v) f ∧ (updateField s f v).fmLast f = v := by
  unfold updateField at *
  split
  · rename_i c
    rw [if_pos c] at ok
    split
    · rename_i t e
      refine ⟨⟨t, (congrArg (fmText f) (Psg.upd_same s.fmLast f v)).trans e, ?_⟩, Psg.upd_same _ _ _⟩
      have e1 : 19 + (fmPos f).1 = 1 + (18 + (fmPos f).1) := by omega
      have e2 : 3 + (fmPos f).2 = 1 + (2 + (fmPos f).2) := by omega
      rw [e1, e2]
      exact draw_reads _ _ _ _
    · rename_i e
      rw [e] at ok
      simp [ub] at ok
  · rename_i c
    have c1 : s.fmLast f = v := Classical.byContradiction fun k => c (.inl k)
    have c2 : s.force = false := by
      cases q : s.force with
      | false => rfl
      | true => exact absurd (.inr q) c
    exact ⟨h c2, c1⟩

theorem updateFields_drawn {sy : Synth.St} {s : St} {c : Synth.FmChannel} {f : Nat} (hf : f < 8)
    (h : s.force = false → FieldDrawn s f) (ok : (updateFields sy s c).fault = false) :
    FieldDrawn (updateFields sy s c) f ∧
      (updateFields sy s c).fmLast f = fmValue f s.panelMidi s.panelFm c sy.lfoEnable sy.lfoFrequency := by
  unfold updateFields at *
  obtain ⟨u, h1, h2, h3⟩ := fold_at (fun i s t => i < 8 → FieldSame i s t) (fun i s _ => .refl i s)
    (fun _ _ _ _ a b hi => (a hi).trans (b hi))
    (fun s f => updateField s f (fmValue f s.panelMidi s.panelFm c sy.lfoEnable sy.lfoFrequency))
    (fun s j => (updateField_cells).fault) 8 s
    (fun s j i hj hij hi => ⟨updateField_keeps.2.2.2.2.2.2.2.2 i hij, updateField_keeps.2.1, updateField_keeps.2.2.1,
      updateField_keeps.2.2.2.1, fun x y k => updateField_cells.scr x y (fieldCell_ne hi hj hij k)⟩) (i := f) hf
  have h1 := h1 hf
  have h2 := h2 hf
  have k := updateField_drawn (s := u) (f := f)
    (v := fmValue f u.panelMidi u.panelFm c sy.lfoEnable sy.lfoFrequency) (fun q => by
      rw [h1.2.1] at q
      exact (h q).other h1.1 h1.2.2.2.2) (h3 ok).1
  refine ⟨k.1.other h2.1 h2.2.2.2.2, ?_⟩
  rw [h2.1, k.2, h1.2.2.1, h1.2.2.2.1]

/-- Everything of the panel but the eight remembered fields. -/
def St.ops (s : St) := (s.opLast, s.force, s.panelMidi, s.panelFm, s.shown, s.dirty, s.diagram, s.lastAlgorithm)

theorem updateFields_ops (sy : Synth.St) (s : St) (c : Synth.FmChannel) : (updateFields sy s c).ops = s.ops := by
  unfold updateFields
  refine foldl_keeps St.ops _ _ _ fun s f => ?_
  have k := updateField_keeps (s := s) (f := f) (v := fmValue f s.panelMidi s.panelFm c sy.lfoEnable sy.lfoFrequency)
  simp only [St.ops, Prod.mk.injEq]
  exact ⟨k.1, k.2.1, k.2.2.1, k.2.2.2.1, k.2.2.2.2.1, k.2.2.2.2.2.1, k.2.2.2.2.2.2.1, k.2.2.2.2.2.2.2.1⟩

theorem updateFields_cells (sy : Synth.St) (s : St) (c : Synth.FmChannel) :
    Eff (fun x y => ∃ f, FieldCell f x y) s (updateFields sy s c) := by
  unfold updateFields
  exact Eff.foldl _ _ _ fun s f _ => updateField_cells.mono fun x y k => ⟨f, k⟩

/-! ### Operators -/

theorem print_cells {s : St} {f o v : Nat} :
    Eff (OpCell f o) s (print s 4 (decRight 3 v) (22 + o * 4) (9 + f + 1)) := by
  unfold print
  split
  · rename_i h
    refine ⟨id, fun x y n => draw_out ?_⟩
    unfold OpCell at n; omega
  · exact ⟨by simp [ub], fun _ _ _ => rfl⟩

theorem updateOp_cells {s : St} {f o v : Nat} : Eff (OpCell f o) s (updateOp s f o v) := by
  unfold updateOp
  split
  · have h := print_cells (s := s) (f := f) (o := o) (v := v)
    exact ⟨h.fault, h.scr⟩
  · exact .refl _

/-- Everything of the panel but the operators' remembered values. -/
def St.fields (s : St) := (s.fmLast, s.force, s.panelMidi, s.panelFm, s.shown, s.dirty, s.diagram, s.lastAlgorithm)

theorem print_fields {s : St} {n : Nat} {t : Text} {x y : Nat} : (print s n t x y).fields = s.fields := by
  unfold print; split <;> rfl

theorem updateOp_keeps {s : St} {f o v : Nat} : (updateOp s f o v).fields = s.fields ∧
    ∀ g q, (g ≠ f ∨ q ≠ o) → (updateOp s f o v).opLast g q = s.opLast g q := by
  unfold updateOp
  split
  · refine ⟨print_fields, fun g q h => ?_⟩
    show upd s.opLast f (upd (s.opLast f) o v) g q = _
    by_cases e : g = f
    · subst e
      rw [Psg.upd_same, Psg.upd_other _ _ _ _ (h.resolve_left (fun k => k rfl))]
    · rw [Psg.upd_other _ _ _ _ e]
  · exact ⟨rfl, fun _ _ _ => rfl⟩

theorem updateOp_drawn {s : St} {f o v : Nat} (h : s.force = false → OpDrawn s f o) (hv : v < 1000) :
    OpDrawn (updateOp s f o v) f o ∧ (updateOp s f o v).opLast f o = v := by
  have len : (decRight 3 v).length = 3 := by rw [decRight_le (by omega) (by omega)]
  unfold updateOp
  split
  · have e : upd s.opLast f (upd (s.opLast f) o v) f o = v := by rw [Psg.upd_same, Psg.upd_same]
    refine ⟨⟨?_, ?_⟩, e⟩
    · show Reads _ _ _ (decRight 3 (upd s.opLast f (upd (s.opLast f) o v) f o))
      rw [e, print_ok (by omega)]
      have e1 : 23 + o * 4 = 1 + (22 + o * 4) := by omega
      have e2 : 11 + f = 1 + (9 + f + 1) := by omega
      rw [e1, e2]
      exact draw_reads _ _ _ _
    · show upd s.opLast f (upd (s.opLast f) o v) f o < 1000
      rw [e]; exact hv
  · rename_i c
    have c1 : s.opLast f o = v := Classical.byContradiction fun k => c (.inl k)
    have c2 : s.force = false := by
      cases q : s.force with
      | false => rfl
      | true => exact absurd (.inr q) c
    exact ⟨h c2, c1⟩

/-- Agreement on field `f` of operator `o`. -/
def OpSame (f o : Nat) (s t : St) : Prop :=
  t.opLast f o = s.opLast f o ∧ t.fields = s.fields ∧ ∀ x y, OpCell f o x y → t.scr x y = s.scr x y

theorem OpSame.refl (f o : Nat) (s : St) : OpSame f o s s := ⟨rfl, rfl, fun _ _ _ => rfl⟩
theorem OpSame.trans {f o : Nat} {s t u : St} (a : OpSame f o s t) (b : OpSame f o t u) : OpSame f o s u :=
  ⟨b.1.trans a.1, b.2.1.trans a.2.1, fun x y k => (b.2.2 x y k).trans (a.2.2 x y k)⟩

theorem fields_force {s t : St} (h : t.fields = s.fields) : t.force = s.force := by
  simp only [St.fields, Prod.mk.injEq] at h; exact h.2.1

/-- One line of `update_op_values`. -/
def updateLine (ops : Synth.Ops4) (s : St) (f : Nat) : St :=
  (List.range 4).foldl (fun s op => updateOp s f op (opValue f (ops.get op))) s

theorem updateOps_lines (s : St) (ops : Synth.Ops4) : updateOps s ops = (List.range 11).foldl (updateLine ops) s := rfl

theorem updateLine_cells (ops : Synth.Ops4) (s : St) (f : Nat) :
    Eff (fun x y => ∃ o, o < 4 ∧ OpCell f o x y) s (updateLine ops s f) := by
  unfold updateLine
  exact Eff.foldl _ _ _ fun s o ho => updateOp_cells.mono fun x y k => ⟨o, by simpa using ho, k⟩

theorem updateLine_other (ops : Synth.Ops4) (s : St) {f g o : Nat} (h : g ≠ f) (ho : o < 4) :
    OpSame g o s (updateLine ops s f) := by
  refine ⟨?_, ?_, fun x y k => (updateLine_cells ops s f).scr x y ?_⟩
  · unfold updateLine
    exact foldl_keeps (fun (s : St) => s.opLast g o) _ _ _ fun s q => updateOp_keeps.2 g o (.inl h)
  · unfold updateLine
    exact foldl_keeps St.fields _ _ _ fun s q => updateOp_keeps.1
  · rintro ⟨q, hq, k'⟩
    exact opCell_ne ho hq (.inl h) k k'

theorem updateLine_drawn {ops : Synth.Ops4} {s : St} {f o : Nat} (ho : o < 4) (hv : ∀ o, opValue f (ops.get o) < 1000)
    (h : s.force = false → OpDrawn s f o) :
    OpDrawn (updateLine ops s f) f o ∧ (updateLine ops s f).opLast f o = opValue f (ops.get o) := by
  unfold updateLine
  obtain ⟨u, h1, h2, _⟩ := fold_at (fun i s t => i < 4 → OpSame f i s t) (fun i s _ => .refl f i s)
    (fun _ _ _ _ a b hi => (a hi).trans (b hi))
    (fun s op => updateOp s f op (opValue f (ops.get op)))
    (fun s j => (updateOp_cells).fault) 4 s
    (fun s j i hj hij hi => ⟨updateOp_keeps.2 f i (.inr hij), updateOp_keeps.1,
      fun x y k => updateOp_cells.scr x y (opCell_ne hi hj (.inr hij) k)⟩) (i := o) ho
  have h1 := h1 ho
  have h2 := h2 ho
  have k := updateOp_drawn (s := u) (f := f) (o := o) (v := opValue f (ops.get o)) (fun q => by
    rw [fields_force h1.2.1] at q
    exact (h q).other h1.1 h1.2.2) (hv o)
  exact ⟨k.1.other h2.1 h2.2.2, by rw [h2.1, k.2]⟩

theorem updateOps_drawn {ops : Synth.Ops4} {s : St} {f o : Nat} (hf : f < 11) (ho : o < 4)
    (hv : ∀ f o, opValue f (ops.get o) < 1000) (h : s.force = false → OpDrawn s f o) :
    OpDrawn (updateOps s ops) f o ∧ (updateOps s ops).opLast f o = opValue f (ops.get o) := by
  rw [updateOps_lines]
  obtain ⟨u, h1, h2, _⟩ := fold_at (fun i s t => OpSame i o s t) (fun i s => .refl i o s)
    (fun _ _ _ _ a b => a.trans b) (updateLine ops) (fun s j => (updateLine_cells ops s j).fault) 11 s
    (fun s j i hj hij => updateLine_other ops s hij ho) (i := f) hf
  have k := updateLine_drawn (s := u) (f := f) (ops := ops) ho (hv f) (fun q => by
    rw [fields_force h1.2.1] at q
    exact (h q).other h1.1 h1.2.2)
  exact ⟨k.1.other h2.1 h2.2.2, by rw [h2.1, k.2]⟩

theorem updateOps_fields (s : St) (ops : Synth.Ops4) : (updateOps s ops).fields = s.fields := by
  unfold updateOps
  exact foldl_keeps St.fields _ _ _ fun s f => foldl_keeps St.fields _ _ _ fun s o => updateOp_keeps.1

theorem updateOps_cells (s : St) (ops : Synth.Ops4) : Eff (fun x y => ∃ f o, OpCell f o x y) s (updateOps s ops) := by
  rw [updateOps_lines]
  exact Eff.foldl _ _ _ fun s f _ => (updateLine_cells ops s f).mono fun x y ⟨o, _, k⟩ => ⟨f, o, k⟩

/-! ### The panel -/

/-- All values on the screen are the remembered ones. -/
structure Drawn (s : St) : Prop where
  field : ∀ f, f < 8 → FieldDrawn s f
  op : ∀ f, f < 11 → ∀ o, o < 4 → OpDrawn s f o
  diagram : s.diagram = some s.lastAlgorithm

/-- All remembered values are the synthesiser's. -/
structure Current (sy : Synth.St) (s : St) : Prop where
  field : ∀ f, f < 8 → s.fmLast f = fmValue f s.panelMidi s.panelFm (sy.ch s.panelFm) sy.lfoEnable sy.lfoFrequency
  op : ∀ f, f < 11 → ∀ o, o < 4 → s.opLast f o = opValue f ((sy.ch s.panelFm).ops.get o)
  diagram : s.lastAlgorithm = (sy.ch s.panelFm).algorithm

theorem updateDiagram_drawn {s : St} {a : Nat} (ha : a < 8) (h : s.force = false → s.diagram = some s.lastAlgorithm) :
    (updateDiagram s a).diagram = some a ∧ (updateDiagram s a).lastAlgorithm = a := by
  unfold updateDiagram
  split
  · exact ⟨rfl, rfl⟩
  · rename_i c
    have c1 : s.lastAlgorithm = a := Classical.byContradiction fun k => c (.inl k)
    have c2 : s.force = false := by
      cases q : s.force with
      | false => rfl
      | true => exact absurd (.inr q) c
    exact ⟨by rw [h c2, c1], c1⟩

/-- Everything of the panel but the diagram. -/
def St.texts (s : St) := (s.fmLast, s.opLast, s.force, s.panelMidi, s.panelFm, s.shown, s.dirty, s.scr)

theorem updateDiagram_texts (s : St) (a : Nat) : (updateDiagram s a).texts = s.texts := by
  unfold updateDiagram
  split
  · split <;> rfl
  · rfl

theorem ops_range {sy : Synth.St} (hs : Synth.Safe sy) {c : Nat} (hc : c < 6) (f o : Nat) :
    opValue f ((sy.ch c).ops.get o) < 1000 := by
  have ho : ((sy.ch c).ops.get o).Ok := by
    obtain ⟨a, b, d, e⟩ := (hs.ok c hc).ops
    unfold Synth.Ops4.get
    split <;> assumption
  have := opValue_lt (f := f) ho
  omega

theorem updateValues_parts {sy : Synth.St} {s : St} (hf : s.panelFm < 6) : ∃ s1 s2 s3,
    s1 = updateFields sy s (sy.ch s.panelFm) ∧ s2 = updateDiagram s1 (sy.ch s.panelFm).algorithm ∧
    s3 = updateOps s2 (sy.ch s.panelFm).ops ∧ updateValues sy s = { s3 with force := false } := by
  refine ⟨_, _, _, rfl, rfl, rfl, ?_⟩
  unfold updateValues
  rw [if_pos hf]

theorem updateValues_drawn {sy : Synth.St} {s : St} (hs : Synth.Safe sy) (hf : s.panelFm < 6)
    (h : s.force = false → Drawn s) (ok : (updateValues sy s).fault = false) :
    Drawn (updateValues sy s) ∧ Current sy (updateValues sy s) ∧ (updateValues sy s).force = false ∧
      (updateValues sy s).shown = s.shown ∧ (updateValues sy s).panelMidi = s.panelMidi ∧
      (updateValues sy s).panelFm = s.panelFm := by
  obtain ⟨s1, s2, s3, e1, e2, e3, e⟩ := updateValues_parts (sy := sy) hf
  have alg := (hs.ok _ hf).algorithm
  have rng := fun f o => ops_range hs hf f o
  revert e1 e2 e3 alg rng
  generalize hc : sy.ch s.panelFm = c
  intro e1 e2 e3 alg rng
  rw [e] at ok ⊢
  have ok3 : s3.fault = false := ok
  have w3 := updateOps_cells s2 c.ops
  have w2 := updateDiagram_eff (fun _ _ => True) s1 c.algorithm
  have w1 := updateFields_cells sy s c
  have a1 := updateFields_ops sy s c
  have a2 := updateDiagram_texts s1 c.algorithm
  have a3 := updateOps_fields s2 c.ops
  have q1 := fun f hf' => updateFields_drawn (sy := sy) (s := s) (c := c) (f := f) hf'
  have q2 := updateDiagram_drawn (s := s1) (a := c.algorithm) alg
  have q3 := fun f o hf' ho => updateOps_drawn (ops := c.ops) (s := s2) (f := f) (o := o) hf' ho rng
  rw [← e1] at w1 a1 q1
  rw [← e2] at w2 a2 q2
  rw [← e3] at w3 a3 q3
  have ok2 : s2.fault = false := w3.fault ok3
  have ok1 : s1.fault = false := w2.fault ok2
  simp only [St.ops, St.texts, St.fields, Prod.mk.injEq] at a1 a2 a3
  obtain ⟨o1, f1, m1, n1, v1, d1, g1, l1⟩ := a1
  obtain ⟨t2, o2, f2, m2, n2, v2, d2, x2⟩ := a2
  obtain ⟨t3, f3, m3, n3, v3, d3, g3, l3⟩ := a3
  have cells1 : ∀ f o, f < 11 → o < 4 → s.force = false → OpDrawn s1 f o := fun f o hf' ho k =>
    ((h k).op f hf' o ho).other (by rw [o1]) fun x y q => w1.scr x y
      fun ⟨g, hg⟩ => opCell_not_field q hg
  have dia := q2 (fun k => by
    rw [f1] at k
    rw [g1, l1]; exact (h k).diagram)
  have ff : ∀ f, f < 8 → FieldDrawn s3 f ∧ s3.fmLast f =
      fmValue f s.panelMidi s.panelFm c sy.lfoEnable sy.lfoFrequency := by
    intro f hf'
    have k := q1 f hf' (fun k => (h k).field f hf') ok1
    refine ⟨k.1.other (by rw [t3, t2]) fun x y q => ?_, by rw [t3, t2]; exact k.2⟩
    rw [w3.scr x y fun ⟨g, o, hg⟩ => opCell_not_field hg q, x2]
  have oo : ∀ f, f < 11 → ∀ o, o < 4 → OpDrawn s3 f o ∧ s3.opLast f o = opValue f (c.ops.get o) := by
    intro f hf' o ho
    refine q3 f o hf' ho (fun k => ?_)
    rw [f2, f1] at k
    exact (cells1 f o hf' ho k).other (by rw [o2]) fun x y _ => by rw [x2]
  have p1 : s3.panelMidi = s.panelMidi := m3.trans (m2.trans m1)
  have p2 : s3.panelFm = s.panelFm := n3.trans (n2.trans n1)
  refine ⟨⟨fun f hf' => (ff f hf').1, fun f hf' o ho => (oo f hf' o ho).1, ?_⟩,
    ⟨fun f hf' => ?_, fun f hf' o ho => ?_, ?_⟩, rfl, v3.trans (v2.trans v1), p1, p2⟩
  · show s3.diagram = some s3.lastAlgorithm
    rw [g3, l3, dia.1, dia.2]
  · show s3.fmLast f = fmValue f s3.panelMidi s3.panelFm (sy.ch s3.panelFm) _ _
    rw [p1, p2, hc]; exact (ff f hf').2
  · show s3.opLast f o = opValue f ((sy.ch s3.panelFm).ops.get o)
    rw [p2, hc]; exact (oo f hf' o ho).2
  · show s3.lastAlgorithm = (sy.ch s3.panelFm).algorithm
    rw [p2, hc, l3, dia.2]

/-- The panel is open on MIDI channel `c`; what it shows is current unless marked as not. -/
structure Panel (c : Nat) (sy : Synth.St) (s : St) : Prop where
  shown : s.shown = true
  midi : s.panelMidi = c
  calm : s.dirty = false → s.force = false
  drawn : s.force = false → Drawn s
  current : s.dirty = false → Current sy s

/-- A frame brings the panel up to date. -/
theorem updatePanel_panel {dev : Nat → Dev} {sy : Synth.St} {s : St} {c : Nat} (hd : ∀ i, i < 6 → (dev i).num < 6)
    (hs : Synth.Safe sy) (hf : s.panelFm < 6) (h : Panel c sy s) (ok : (updatePanel dev sy s).fault = false) :
    Panel c sy (updatePanel dev sy s) ∧ ∀ k, fmChanFor dev c = some k → (updatePanel dev sy s).panelFm = k ∧
      Drawn (updatePanel dev sy s) ∧ Current sy (updatePanel dev sy s) := by
  cases e : fmChanFor dev c with
  | none =>
    have q : updatePanel dev sy s = s := by
      unfold updatePanel
      rw [if_neg (by rw [h.shown]; simp), h.midi, e]
    rw [q]
    exact ⟨h, fun k hk => by cases hk⟩
  | some k =>
    have hk : k < 6 := fmChanFor_lt hd e
    have q : ∃ s', Panel c sy s' ∧ s'.panelFm = k ∧
        updatePanel dev sy s = if s'.dirty then { updateValues sy s' with dirty := false } else s' := by
      refine ⟨if s.panelFm ≠ k then { s with panelFm := k, dirty := true } else s, ?_, ?_, ?_⟩
      · split
        · exact ⟨h.shown, h.midi, by simp, fun q => ⟨(h.drawn q).field, (h.drawn q).op, (h.drawn q).diagram⟩, by simp⟩
        · exact h
      · split
        · rfl
        · rename_i n
          exact Classical.byContradiction n
      · unfold updatePanel
        rw [if_neg (by rw [h.shown]; simp), h.midi, e]
    obtain ⟨s', h', e', q⟩ := q
    rw [q] at ok ⊢
    split
    · rename_i dy
      rw [if_pos dy] at ok
      obtain ⟨a, b, c1, c2, c3, c4⟩ := updateValues_drawn hs (by rw [e']; exact hk) h'.drawn ok
      refine ⟨⟨c2.trans h'.shown, c3.trans h'.midi, fun _ => c1, fun _ => ⟨a.field, a.op, a.diagram⟩,
        fun _ => ⟨b.field, b.op, b.diagram⟩⟩, fun q hq => ⟨?_, ⟨a.field, a.op, a.diagram⟩, ⟨b.field, b.op, b.diagram⟩⟩⟩
      cases hq
      exact c4.trans e'
    · rename_i dy
      have dy : s'.dirty = false := by simpa using dy
      refine ⟨h', fun q hq => ⟨?_, h'.drawn (h'.calm dy), h'.current dy⟩⟩
      cases hq
      exact e'

/-- Nothing of the panel differs. -/
structure PanelSame (s t : St) : Prop where
  vars : t.panel = s.panel
  scr : ∀ x y, 19 ≤ x → 3 ≤ y → y < 22 → t.scr x y = s.scr x y

theorem PanelSame.refl (s : St) : PanelSame s s := ⟨rfl, fun _ _ _ _ _ => rfl⟩
theorem PanelSame.trans {s t u : St} (a : PanelSame s t) (b : PanelSame t u) : PanelSame s u :=
  ⟨b.vars.trans a.vars, fun x y h1 h2 h3 => (b.scr x y h1 h2 h3).trans (a.scr x y h1 h2 h3)⟩

theorem Drawn.same {s t : St} (h : Drawn s) (k : PanelSame s t) : Drawn t := by
  have v := k.vars
  simp only [St.panel, Prod.mk.injEq] at v
  obtain ⟨_, _, _, _, v5, _, v7, v8, v9⟩ := v
  refine ⟨fun f hf => (h.field f hf).other (by rw [v7]) fun x y c => ?_,
    fun f hf o ho => (h.op f hf o ho).other (by rw [v8]) fun x y c => ?_, by rw [v9, v5]; exact h.diagram⟩
  · have := fmPos_row f
    unfold FieldCell at c
    exact k.scr x y (by omega) (by omega) (by omega)
  · unfold OpCell at c
    exact k.scr x y (by omega) (by omega) (by omega)

theorem Panel.same {c : Nat} {sy : Synth.St} {s t : St} (h : Panel c sy s) (k : PanelSame s t) : Panel c sy t := by
  have v := k.vars
  simp only [St.panel, Prod.mk.injEq] at v
  obtain ⟨v1, v2, v3, v4, v5, v6, v7, v8, v9⟩ := v
  refine ⟨v2.trans h.shown, v3.trans h.midi, fun q => ?_, fun q => ?_, fun q => ?_⟩
  · rw [v6]; exact h.calm (v1.symm.trans q)
  · exact (h.drawn (v6.symm.trans q)).same k
  · have g := h.current (v1.symm.trans q)
    exact ⟨by rw [v7, v3, v4]; exact g.field, by rw [v8, v4]; exact g.op, by rw [v5, v4]; exact g.diagram⟩

/-- Before the panel's turn, a frame leaves it alone. -/
theorem update_panelSame {env : Env} {m : Midi.St} {s : St} {f : Frame} (hs : Tidy s) :
    ∃ u, PanelSame s u ∧ update env m s f = updatePanel m.dev m.fm.synth u := by
  obtain ⟨s2, s3, s4, e2, e3, e4, e⟩ := update_split env m s f
  refine ⟨s4, ?_, e⟩
  have b1 : Bytes (updateKeyOnOff m.dev s) := by
    unfold Bytes; rw [(updateKeyOnOff_rest m.dev s).1]; exact hs.bytes
  have k1 : PanelSame s (updateKeyOnOff m.dev s) :=
    ⟨(updateKeyOnOff_rest m.dev s).2.1, fun x y h1 _ _ => (updateKeyOnOff_eff m.dev s).scr x y (by
      rintro ⟨j, _, k⟩; unfold PitchCell at k; omega)⟩
  have k2 : PanelSame (updateKeyOnOff m.dev s) s2 := by
    rw [e2]
    exact ⟨(printChanges_rest _).2.1, fun x y h1 _ _ => (printChanges_eff b1).scr x y (by
      rintro ⟨j, _, k⟩; unfold ChangeCell at k; omega)⟩
  have k3 : PanelSame s2 s3 := by rw [e3]; exact ⟨rfl, fun _ _ _ _ _ => rfl⟩
  have k4 : PanelSame s3 s4 := by
    rw [e4]
    split
    · have r := activity_rest env m { s3 with activityFrame := 0 } f
      simp only [St.rest, Prod.mk.injEq] at r
      refine ⟨r.2.2.2, fun x y h1 h2 h3 => (activity_eff env m _ f).scr x y ?_⟩
      rintro (⟨j, _, k⟩ | k | k | k)
      · unfold MapCell at k; omega
      all_goals omega
    · exact .refl _
  exact ((k1.trans k2).trans k3).trans k4

/-- A frame brings the panel up to date. -/
theorem update_panel {env : Env} {m : Midi.St} {s : St} {f : Frame} {c : Nat} (hm : Fit m) (hs : Tidy s)
    (ht : f.ticks < 65536) (h : Panel c m.fm.synth s) :
    Panel c m.fm.synth (update env m s f) ∧ ∀ k, fmChanFor m.dev c = some k → (update env m s f).panelFm = k ∧
      Drawn (update env m s f) ∧ Current m.fm.synth (update env m s f) := by
  have ok := (update_tidy (env := env) hm hs ht).1.fault
  obtain ⟨u, hu, e⟩ := update_panelSame (env := env) (m := m) (f := f) hs
  rw [e] at ok ⊢
  refine updatePanel_panel hm.num hm.synth ?_ (h.same hu) ok
  have v := hu.vars
  simp only [St.panel, Prod.mk.injEq] at v
  rw [v.2.2.2.1]; exact hs.fm

/-! ### Engine calls -/

theorem noted_panel {s : St} (n : Nat × Note) :
    PanelSame { s with dirty := (noted s n).dirty } (noted s n) ∧ (noted s n).panelFm = s.panelFm ∧
    (s.dirty = true → (noted s n).dirty = true) ∧ ((n.1 = s.panelFm ∨ n.2 = .lfo) → (noted s n).dirty = true) := by
  unfold noted
  split
  · exact ⟨.refl _, rfl, fun _ => rfl, fun _ => rfl⟩
  · rename_i h
    exact ⟨.refl _, rfl, id, fun k => absurd k h⟩

theorem notes_panel (l : List (Nat × Note)) : ∀ s : St,
    PanelSame { s with dirty := (l.foldl noted s).dirty } (l.foldl noted s) ∧ (l.foldl noted s).panelFm = s.panelFm ∧
    (s.dirty = true → (l.foldl noted s).dirty = true) ∧ (Synth.Hit s.panelFm l → (l.foldl noted s).dirty = true) := by
  induction l with
  | nil => exact fun s => ⟨.refl _, rfl, id, fun ⟨n, hn, _⟩ => absurd hn (by simp)⟩
  | cons n l ih =>
    intro s
    obtain ⟨a1, a2, a3, a4⟩ := noted_panel (s := s) n
    obtain ⟨b1, b2, b3, b4⟩ := ih (noted s n)
    refine ⟨?_, b2.trans a2, fun h => b3 (a3 h), ?_⟩
    · refine PanelSame.trans ⟨?_, fun x y h1 h2 h3 => ?_⟩ b1
      · have v := a1.vars
        simp only [St.panel, Prod.mk.injEq] at v ⊢
        exact ⟨rfl, v.2⟩
      · exact a1.scr x y h1 h2 h3
    · rintro ⟨q, hq, h⟩
      rcases List.mem_cons.1 hq with e | hq
      · subst e; exact b3 (a4 h)
      · exact b4 ⟨q, hq, by rw [a2]; exact h⟩

theorem Current.still {sy sy' : Synth.St} {s : St} (h : Current sy s) (k : Synth.Still s.panelFm sy sy') :
    Current sy' s := by
  obtain ⟨k1, k2⟩ := k
  simp only [Synth.St.face, Synth.St.lfo, Prod.mk.injEq] at k1 k2
  obtain ⟨e1, e2, e3, e4, e5, e6⟩ := k1
  refine ⟨fun f hf => ?_, by rw [e6]; exact h.op, by rw [e1]; exact h.diagram⟩
  rw [h.field f hf]
  unfold fmValue
  rw [e1, e2, e3, e4, e5, k2.1, k2.2]

theorem notes_keep {c : Nat} {sy sy' : Synth.St} {s : St} {l : List (Nat × Note)} (h : Panel c sy s)
    (k : Synth.Hit s.panelFm l ∨ Synth.Still s.panelFm sy sy') : Panel c sy' (l.foldl noted s) := by
  obtain ⟨a1, a2, a3, a4⟩ := notes_panel l s
  have v := a1.vars
  simp only [St.panel, Prod.mk.injEq] at v
  obtain ⟨_, v2, v3, v4, v5, v6, v7, v8, v9⟩ := v
  have wake : (l.foldl noted s).dirty = false → s.dirty = false := fun q => by
    cases d : s.dirty with
    | false => rfl
    | true => rw [a3 d] at q; exact q
  refine ⟨v2.trans h.shown, v3.trans h.midi, fun q => v6.trans (h.calm (wake q)), fun q => ?_, fun q => ?_⟩
  · have d := h.drawn (v6.symm.trans q)
    exact (Drawn.mk d.field d.op d.diagram : Drawn { s with dirty := (l.foldl noted s).dirty }).same a1
  · have st : Synth.Still s.panelFm sy sy' := k.resolve_left fun n => by rw [a4 n] at q; exact absurd q (by simp)
    have g := (h.current (wake q)).still st
    exact ⟨by rw [v7, v3, v4]; exact g.field, by rw [v8, v4]; exact g.op, by rw [v5, v4]; exact g.diagram⟩

theorem heed_panelSame {dev : Nat → Dev} {s : St} {e : Midi.Ev} (he : ∀ c v, e ≠ .showParams c v) :
    PanelSame s (heed dev s e) := by
  cases e with
  | showParams c v => exact absurd rfl (he c v)
  | _ => exact ⟨rfl, fun _ _ _ _ _ => rfl⟩

/-- The notifications of an engine call are those of some sequence of calls it makes. -/
def Faithful (env : Env) (m : Midi.St) (op : Midi.Op) (notes : List (Nat × Note)) : Prop :=
  ∃ l : List Fm.Op, (∀ o ∈ l, op.makes o ∧ o.Legal) ∧ (Midi.step env.midi m op).fm = Fm.run env.midi.fm m.fm l ∧
    notes = Fm.told env.midi.fm m.fm l

/-- Opening or closing the panel. -/
def opens : Midi.Op → Prop
  | .cc _ k _ => k = 83
  | _ => False

theorem sends_none {m : Midi.St} {op : Midi.Op} {l : List Midi.Ev} (ho : ¬ opens op) (h : Midi.Sends m op l) :
    ∀ e ∈ l, ∀ c v, e ≠ .showParams c v := by
  intro e he c v ee
  subst ee
  cases op with
  | cc c' k' v' =>
    simp only [Midi.Sends] at h
    subst h
    rw [if_neg (fun q => ho q.1)] at he
    simp at he
  | program c' p' => simp only [Midi.Sends] at h; subst h; simp at he
  | sysex d j => obtain ⟨b, hb⟩ := h _ he; exact absurd hb (by simp)
  | _ => simp only [Midi.Sends] at h; subst h; simp at he

/-- An engine call keeps the panel, provided the display is told of it. -/
theorem step_panel {env : Env} {s : Sys} {op : Midi.Op} {notes : List (Nat × Note)} {c : Nat} (hw : op.Wf)
    (ho : ¬ opens op) (hr : op ≠ .reset) (hn : Faithful env s.m op notes) (h : Panel c s.m.fm.synth s.ui) :
    Panel c (step env s (.midi op notes)).m.fm.synth (step env s (.midi op notes)).ui := by
  obtain ⟨ev, hl, e⟩ := step_midi env s op notes hw
  obtain ⟨l, l1, l2, l3⟩ := hn
  have t := Fm.told_or_still env.midi.fm s.ui.panelFm l (fun o ho => Midi.makes_keeps hr (l1 o ho).1) s.m.fm
  rw [← l2, ← l3] at t
  rw [e]
  have k := notes_keep h t
  have no := sends_none ho hl
  show Panel c (Midi.step env.midi s.m op).fm.synth _
  refine List.foldlRecOn (motive := fun (u : St) => Panel c (Midi.step env.midi s.m op).fm.synth u) _ _ k
    fun u hu e he => hu.same (heed_panelSame (no e (by simpa using he)))

/-- Opening the panel. -/
theorem open_panel {env : Env} {s : Sys} {c v : Nat} {notes : List (Nat × Note)} (hw : (Midi.Op.cc c 83 v).Wf)
    (hv : 64 ≤ v) (hg : s.m.cfg.disableNonGm = false) :
    Panel c (step env s (.midi (.cc c 83 v) notes)).m.fm.synth (step env s (.midi (.cc c 83 v) notes)).ui := by
  obtain ⟨ev, hl, e⟩ := step_midi env s (.cc c 83 v) notes hw
  rw [e]
  have hl : ev = [.changedCc c 83 v, .showParams c (v / 64)] := by
    rw [Midi.Sends, if_pos ⟨rfl, hg⟩] at hl
    exact hl
  rw [hl]
  have hv : decide (v / 64 ≠ 0) = true := by simp only [decide_eq_true_eq]; omega
  show Panel c (Midi.step env.midi s.m (.cc c 83 v)).fm.synth
    (midiChange _ (setVisibility (notes.foldl noted s.ui) c (decide (v / 64 ≠ 0))) c .cc 83 v)
  rw [hv]
  exact ⟨rfl, rfl, fun q => absurd q (by simp [midiChange, setVisibility]),
    fun q => absurd q (by simp [midiChange, setVisibility]), fun q => absurd q (by simp [midiChange, setVisibility])⟩

end Mdmi.Ui
