import Verif.Proofs.UiStatus
/-! The log lines. -/
namespace Mdmi.Ui
open Mdmi.Midi (Dev)
open Mdmi.UiSpec (row)

/-- Same log lines. -/
structure LogSame (s t : St) : Prop where
  y : t.logY = s.logY
  scr : ∀ x y, y = 23 ∨ y = 24 → t.scr x y = s.scr x y

theorem LogSame.refl (s : St) : LogSame s s := ⟨rfl, fun _ _ _ => rfl⟩
theorem LogSame.trans {s t u : St} (h : LogSame s t) (k : LogSame t u) : LogSame s u :=
  ⟨k.y.trans h.y, fun x y n => (k.scr x y n).trans (h.scr x y n)⟩

theorem Eff.logs {C} {s t : St} (h : Eff C s t) (n : ∀ x y, y = 23 ∨ y = 24 → ¬ C x y) (k : t.logY = s.logY) : LogSame s t :=
  ⟨k, fun x y q => h.scr x y (n x y q)⟩

theorem draw_local {a b : Screen} {t : Text} {x y x' y' : Nat} (h : a x' y' = b x' y') : draw a t x y x' y' = draw b t x y x' y' := by
  unfold draw drawText
  split
  · rfl
  · exact h

theorem clear_local {a b : Screen} {w k x y x' y' : Nat} (h : a x' y' = b x' y') : clearArea a x y w k x' y' = clearArea b x y w k x' y' := by
  unfold clearArea
  split
  · rfl
  · exact h

theorem printLog_same {s t : St} (h : LogSame s t) (msg : Option Text) : LogSame (printLog s msg) (printLog t msg) := by
  unfold printLog
  cases msg with
  | none => exact h
  | some m =>
    simp only
    rw [h.y]
    by_cases q : 2 ≤ s.logY
    · rw [if_pos q, if_pos q]
      exact ⟨rfl, fun x y n => draw_local (clear_local (h.scr x y n))⟩
    · rw [if_neg q, if_neg q]
      rw [h.y]
      exact ⟨rfl, fun x y n => draw_local (h.scr x y n)⟩

theorem activity_log (env : Env) (m : Midi.St) (s : St) (f : Frame) : LogSame (printLog s f.log) (activity env m s f) := by
  unfold activity
  extract_lets s1 s2 s3 s4 s5
  have h1 : LogSame s s1 := (printMappings_eff m.dev s).logs (by
    rintro x y q ⟨i, hi, k⟩; unfold MapCell row at k; omega) (status_split (printMappings_status m.dev s)).2.2.2
  have h2 : LogSame s1 s2 := (printCommMode_eff s1 f.mode).logs (by intro x y q k; omega) (printCommMode_others s1 f.mode).2.2
  have h3 : LogSame (printLog s f.log) s3 := printLog_same (h1.trans h2) f.log
  have h4 : LogSame s3 s4 := (printRouting_eff (fun _ _ => False) s3 m.dynamic).logs (by intro x y q k; exact k)
    (printRouting_others s3 m.dynamic).2.2
  have h5 : LogSame s4 s5 := by
    show LogSame s4 (ite _ _ _)
    split
    · exact (printTicks_eff s4 f.ticks).logs (by intro x y q k; omega) (status_split (printTicks_rest s4 f.ticks).2).2.2.2
    · exact .refl _
  exact ((h3.trans h4).trans h5).trans ((printMark_eff s5 _).logs (by intro x y q k; omega) (printMark_others s5 _).2.2)

/-- A frame prints a log message or leaves the log lines alone. -/
theorem update_log {env : Env} {m : Midi.St} {s : St} {f : Frame} (hs : Tidy s) :
    if 5 ≤ (s.activityFrame + f.delta) % 65536 then LogSame (printLog s f.log) (update env m s f)
    else LogSame s (update env m s f) := by
  have b1 : Bytes (updateKeyOnOff m.dev s) := by
    unfold Bytes; rw [(updateKeyOnOff_rest m.dev s).1]; exact hs.bytes
  obtain ⟨s2, s3, s4, e2, e3, e4, e⟩ := update_split env m s f
  have k1 : LogSame s (updateKeyOnOff m.dev s) := (updateKeyOnOff_eff m.dev s).logs (by
    rintro x y q ⟨i, hi, k⟩; unfold PitchCell row at k; omega) (status_split (updateKeyOnOff_rest m.dev s).2.2.1).2.2.2
  have k2 : LogSame (updateKeyOnOff m.dev s) s2 := by
    rw [e2]
    exact (printChanges_eff b1).logs (by
      rintro x y q ⟨i, hi, k⟩; unfold ChangeCell row at k; omega) (status_split (printChanges_rest _).2.2.1).2.2.2
  have k3 : LogSame s s3 := by rw [e3]; exact ⟨(k1.trans k2).y, (k1.trans k2).scr⟩
  have r5 := updatePanel_left m.dev m.fm.synth s4
  simp only [St.left, Prod.mk.injEq] at r5
  have k5 : LogSame s4 (update env m s f) := by
    rw [e]
    exact (updatePanel_eff m.dev m.fm.synth s4).logs (by intro x y q k; omega) (status_split r5.2.2.2).2.2.2
  split
  · rename_i hc
    rw [if_pos hc] at e4
    have a := activity_log env m { s3 with activityFrame := 0 } f
    rw [← e4] at a
    have b : LogSame s { s3 with activityFrame := 0 } := ⟨k3.y, k3.scr⟩
    exact ((printLog_same b f.log).trans a).trans k5
  · rename_i hc
    rw [if_neg hc] at e4
    rw [e4] at k5
    exact k3.trans k5

/-- Engine calls leave the log lines alone. -/
theorem step_midi_log {env : Env} {s : Sys} {op : Midi.Op} {notes : List (Nat × Note)} :
    LogSame s.ui (step env s (.midi op notes)).ui := by
  refine ⟨(status_split (step_midi_status env s op notes).1).2.2.2, fun x y q => ?_⟩
  have n : ∀ n t, (noted t n).scr = t.scr := by intro n t; unfold noted; split <;> rfl
  show (List.foldl _ (notes.foldl noted s.ui) _).scr x y = _
  rw [foldl_keeps (fun s : St => s.scr x y) _ _ _ fun (t : St) e => ?_, foldl_keeps St.scr _ _ _ fun t e => n e t]
  cases e with
  | showParams c v => exact (setVisibility_eff t c _).scr x y (by omega)
  | _ => rfl

theorem init_log (env : Env) (m : Midi.St) : (init env m).logY = 0 ∧ ∀ x y, y = 23 ∨ y = 24 → (init env m).scr x y = ' ' := by
  obtain ⟨s, h1, h2, _, e⟩ := init_parts env m
  have c2 : LogSame s (printCommMode s .discovery) := (printCommMode_eff s .discovery).logs (by intro x y q k; omega)
    (printCommMode_others s _).2.2
  have p2 : LogSame s (printMappings m.dev (printCommMode s .discovery)) := c2.trans ((printMappings_eff m.dev _).logs (by
    rintro x y q ⟨i, hi, k⟩; unfold MapCell row at k; omega) (status_split (printMappings_status m.dev _)).2.2.2)
  have z : s.logY = 0 := by
    simp only [St.vars, St.status, Prod.mk.injEq] at h2
    exact h2.2.2.2.2.2.2.2.2.1
  rw [e]
  generalize printMappings m.dev (printCommMode s .discovery) = q at p2
  have w : LogSame s (if env.everdrivePro = true then { { q with routing := m.dynamic } with waiting := some 1 }
      else if env.everdrive = true then { { q with routing := m.dynamic } with waiting := some 0 }
      else { q with routing := m.dynamic }) := by
    split
    · exact ⟨p2.y, p2.scr⟩
    · split <;> exact ⟨p2.y, p2.scr⟩
  exact ⟨w.y.trans z, fun x y n => (w.scr x y n).trans (h1 x y (by omega) (by omega) (by omega))⟩

end Mdmi.Ui
