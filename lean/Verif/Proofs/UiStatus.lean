import Verif.Proofs.UiPanel
/-! The status line. -/
namespace Mdmi.Ui
open Mdmi.Midi (Dev)

/-- Variables of the source picture. -/
def St.comm (s : St) : Bool × CommMode × Option Nat × Option Nat := (s.commInited, s.lastComm, s.source, s.waiting)
/-- Variables of the routing tiles. -/
def St.route (s : St) : Bool × Bool := (s.lastDynamic, s.routing)
/-- Variables of the special mode mark. -/
def St.marks (s : St) : Bool × Bool := (s.lastMark, s.mark)

theorem printMappings_status (dev : Nat → Dev) (s : St) : (printMappings dev s).status = s.status := by
  have := printMappings_vars dev s
  simp only [St.vars, Prod.mk.injEq] at this
  exact this.2.2.2.2

theorem status_split {s t : St} (h : t.status = s.status) : t.comm = s.comm ∧ t.route = s.route ∧ t.marks = s.marks ∧
    t.logY = s.logY := by
  simp only [St.status, Prod.mk.injEq] at h
  obtain ⟨h1, h2, h3, h4, h5, h6, h7, h8, h9⟩ := h
  simp only [St.comm, St.route, St.marks, Prod.mk.injEq]
  exact ⟨⟨h1, h2, h7, h6⟩, ⟨h4, h8⟩, ⟨h3, h9⟩, h5⟩

theorem printCommMode_others (s : St) (m : CommMode) : (printCommMode s m).route = s.route ∧
    (printCommMode s m).marks = s.marks ∧ (printCommMode s m).logY = s.logY := by
  unfold printCommMode
  split
  · exact ⟨rfl, rfl, rfl⟩
  · split
    · exact ⟨rfl, rfl, rfl⟩
    · extract_lets inited s'
      split <;> exact ⟨rfl, rfl, rfl⟩

theorem printLog_others (s : St) (t : Option Text) : (printLog s t).comm = s.comm ∧ (printLog s t).route = s.route ∧
    (printLog s t).marks = s.marks := by
  unfold printLog
  split
  · exact ⟨rfl, rfl, rfl⟩
  · split <;> exact ⟨rfl, rfl, rfl⟩

theorem printRouting_others (s : St) (d : Bool) : (printRouting s d).comm = s.comm ∧
    (printRouting s d).marks = s.marks ∧ (printRouting s d).logY = s.logY := by
  unfold printRouting
  split <;> exact ⟨rfl, rfl, rfl⟩

theorem printMark_others (s : St) (b : Bool) : (printMark s b).comm = s.comm ∧ (printMark s b).route = s.route ∧
    (printMark s b).logY = s.logY := by
  unfold printMark
  split
  · exact ⟨rfl, rfl, rfl⟩
  · split <;> exact ⟨rfl, rfl, rfl⟩

theorem printComm_of {s t : St} (h : t.comm = s.comm) (m : CommMode) : (printCommMode t m).comm = (printCommMode s m).comm := by
  have h' := h
  simp only [St.comm, Prod.mk.injEq] at h'
  unfold printCommMode
  rw [h'.1, h'.2.1]
  split
  · exact h
  · split
    · exact h
    · extract_lets inited s1 s2
      split
      · rfl
      · simp only [St.comm, Prod.mk.injEq]
        exact ⟨rfl, rfl, rfl, h'.2.2.2⟩

theorem printRouting_of {s t : St} (h : t.route = s.route) (d : Bool) : (printRouting t d).route = (printRouting s d).route := by
  have h' := h
  simp only [St.route, Prod.mk.injEq] at h'
  unfold printRouting
  rw [h'.1]
  split
  · rfl
  · exact h

theorem printMark_of {s t : St} (h : t.marks = s.marks) (b : Bool) : (printMark t b).marks = (printMark s b).marks := by
  have h' := h
  simp only [St.marks, Prod.mk.injEq] at h'
  unfold printMark
  rw [h'.1]
  split
  · exact h
  · split <;> rfl

theorem activity_status (env : Env) (m : Midi.St) (s : St) (f : Frame) :
    (activity env m s f).comm = (printCommMode s f.mode).comm ∧
    (activity env m s f).route = (printRouting s m.dynamic).route ∧
    (activity env m s f).marks = (printMark s m.fm.synth.specialMode).marks := by
  unfold activity
  extract_lets s1 s2 s3 s4 s5
  have h1 : s1.status = s.status := printMappings_status m.dev s
  have h1 := status_split h1
  have h2 : s2.route = s1.route ∧ s2.marks = s1.marks ∧ s2.logY = s1.logY := printCommMode_others s1 f.mode
  have c2 : s2.comm = (printCommMode s f.mode).comm := printComm_of h1.1 f.mode
  have h3 : s3.comm = s2.comm ∧ s3.route = s2.route ∧ s3.marks = s2.marks := printLog_others s2 f.log
  have h4 : s4.comm = s3.comm ∧ s4.marks = s3.marks ∧ s4.logY = s3.logY := printRouting_others s3 m.dynamic
  have c4 : s4.route = (printRouting s m.dynamic).route :=
    printRouting_of (h3.2.1.trans (h2.1.trans h1.2.1)) m.dynamic
  have h5 : s5.comm = s4.comm ∧ s5.route = s4.route ∧ s5.marks = s4.marks := by
    have k : s5.status = s4.status := by
      show St.status (ite _ _ _) = _
      split
      · exact (printTicks_rest s4 f.ticks).2
      · rfl
    have k := status_split k
    exact ⟨k.1, k.2.1, k.2.2.1⟩
  have h6 := printMark_others s5 m.fm.synth.specialMode
  refine ⟨h6.1.trans (h5.1.trans (h4.1.trans (h3.1.trans c2))), h6.2.1.trans (h5.2.1.trans c4), ?_⟩
  exact printMark_of (h5.2.2.trans (h4.2.1.trans (h3.2.2.trans (h2.2.1.trans h1.2.2.1)))) _

/-- A frame attends to the status line or leaves it alone. -/
theorem update_status (env : Env) (m : Midi.St) (s : St) (f : Frame) :
    if 5 ≤ (s.activityFrame + f.delta) % 65536 then
      (update env m s f).comm = (printCommMode s f.mode).comm ∧
      (update env m s f).route = (printRouting s m.dynamic).route ∧
      (update env m s f).marks = (printMark s m.fm.synth.specialMode).marks ∧ (update env m s f).activityFrame = 0
    else (update env m s f).status = s.status ∧
      (update env m s f).activityFrame = (s.activityFrame + f.delta) % 65536 := by
  obtain ⟨s2, s3, s4, e2, e3, e4, e⟩ := update_split env m s f
  have k2 : s2.status = s.status := by
    rw [e2, (printChanges_rest _).2.2.1]; exact (updateKeyOnOff_rest m.dev s).2.2.1
  have k3 : s3.status = s.status := by rw [e3]; exact k2
  have r5 := updatePanel_left m.dev m.fm.synth s4
  simp only [St.left, Prod.mk.injEq] at r5
  rw [e]
  split
  · rename_i hc
    rw [if_pos hc] at e4
    have a := activity_status env m { s3 with activityFrame := 0 } f
    have r := activity_rest env m { s3 with activityFrame := 0 } f
    simp only [St.rest, Prod.mk.injEq] at r
    rw [← e4] at a r
    have z := status_split r5.2.2.2
    have y := status_split (s := s) (t := { s3 with activityFrame := 0 }) k3
    exact ⟨z.1.trans (a.1.trans (printComm_of y.1 _)), z.2.1.trans (a.2.1.trans (printRouting_of y.2.1 _)),
      z.2.2.1.trans (a.2.2.trans (printMark_of y.2.2.1 _)), r5.2.2.1.trans r.2.2.1⟩
  · rename_i hc
    rw [if_neg hc] at e4
    exact ⟨by rw [r5.2.2.2, e4, k3], by rw [r5.2.2.1, e4, e3]⟩

theorem heed_left {dev : Nat → Dev} {s : St} {e : Midi.Ev} :
    (heed dev s e).status = s.status ∧ (heed dev s e).activityFrame = s.activityFrame := by
  cases e with
  | showParams c v =>
    have l := setVisibility_left s c (v ≠ 0)
    simp only [St.left, Prod.mk.injEq] at l
    exact ⟨l.2.2.2, l.2.2.1⟩
  | _ => exact ⟨rfl, rfl⟩

/-- Engine calls leave the status line alone. -/
theorem step_midi_status (env : Env) (s : Sys) (op : Midi.Op) (notes : List (Nat × Note)) :
    (step env s (.midi op notes)).ui.status = s.ui.status ∧
    (step env s (.midi op notes)).ui.activityFrame = s.ui.activityFrame := by
  have n : ∀ n t, (noted t n).status = t.status ∧ (noted t n).activityFrame = t.activityFrame := by
    intro n t; unfold noted; split <;> exact ⟨rfl, rfl⟩
  show (List.foldl _ (notes.foldl noted s.ui) _).status = _ ∧ (List.foldl _ (notes.foldl noted s.ui) _).activityFrame = _
  rw [foldl_keeps St.status _ _ _ fun t e => heed_left.1, foldl_keeps St.activityFrame _ _ _ fun t e => heed_left.2,
    foldl_keeps St.status _ _ _ fun t e => (n e t).1, foldl_keeps St.activityFrame _ _ _ fun t e => (n e t).2]
  exact ⟨rfl, rfl⟩

/-- `t` follows `u` in a frame that attends to the status line. -/
def Attended (m : Midi.St) (f : Frame) (u t : St) : Prop :=
  t.comm = (printCommMode u f.mode).comm ∧ t.route = (printRouting u m.dynamic).route ∧
  t.marks = (printMark u m.fm.synth.specialMode).marks

/-- Every event attends to the status line or leaves it. -/
theorem step_status (env : Env) (s : Sys) (e : Ev) (ha : s.ui.activityFrame < 5) :
    (step env s e).ui.activityFrame < 5 ∧
    ((step env s e).ui.status = s.ui.status ∨ ∃ f, e = .frame f ∧ Attended s.m f s.ui (step env s e).ui) := by
  cases e with
  | midi op notes =>
    obtain ⟨h1, h2⟩ := step_midi_status env s op notes
    exact ⟨by rw [h2]; exact ha, .inl h1⟩
  | frame f =>
    have u := update_status env s.m s.ui f
    split at u
    · exact ⟨by show (update env s.m s.ui f).activityFrame < 5; rw [u.2.2.2]; omega, .inr ⟨f, rfl, u.1, u.2.1, u.2.2.1⟩⟩
    · rename_i q
      exact ⟨by show (update env s.m s.ui f).activityFrame < 5; rw [u.2]; omega, .inl u.1⟩

/-- Invariants of the status line. -/
theorem run_status {env : Env} {I : St → Prop} (same : ∀ s t : St, t.status = s.status → I s → I t) (evs : List Ev) :
    ∀ {s : Sys}, s.ui.activityFrame < 5 → I s.ui →
      (∀ f m u t, Ev.frame f ∈ evs → I u → Attended m f u t → I t) →
      (run env s evs).ui.activityFrame < 5 ∧ I (run env s evs).ui := by
  induction evs with
  | nil => intro s h1 h2 _; exact ⟨h1, h2⟩
  | cons e evs ih =>
    intro s h1 h2 h3
    obtain ⟨a, c⟩ := step_status env s e h1
    refine ih a ?_ fun f m u t hm => h3 f m u t (by simp [hm])
    rcases c with c | ⟨f, rfl, c⟩
    · exact same _ _ c h2
    · exact h3 f _ _ _ (by simp) h2 c

theorem init_status (env : Env) (m : Midi.St) :
    (init env m).activityFrame = 0 ∧ (init env m).comm = (false, .discovery, some 0,
      if env.everdrivePro then some 1 else if env.everdrive then some 0 else none) ∧
    (init env m).route = (false, m.dynamic) ∧ (init env m).marks = (false, false) := by
  obtain ⟨s, _, h2, _, e⟩ := init_parts env m
  have hp : (printCommMode s .discovery).comm = (false, .discovery, some 0, none) ∧
      (printCommMode s .discovery).route = (false, false) ∧ (printCommMode s .discovery).marks = (false, false) ∧
      (printCommMode s .discovery).activityFrame = 0 := by
    simp only [St.vars, St.status, Prod.mk.injEq] at h2
    obtain ⟨_, _, h3, _, h4, h5, h6, h7, h8, h9, h10, h11, h12⟩ := h2
    have o := printCommMode_others s .discovery
    refine ⟨?_, ?_, ?_, ?_⟩
    · have h : s.comm = powerOn.comm := by
        simp only [St.comm, Prod.mk.injEq]; exact ⟨h4, h5, h10, h9⟩
      exact (printComm_of h .discovery).trans (by decide)
    · rw [o.1]; simp only [St.route, Prod.mk.injEq]; exact ⟨h7, h11⟩
    · rw [o.2.1]; simp only [St.marks, Prod.mk.injEq]; exact ⟨h6, h12⟩
    · have : (printCommMode s .discovery).activityFrame = s.activityFrame := by
        unfold printCommMode
        split
        · rfl
        · split
          · rfl
          · extract_lets inited s'
            split <;> rfl
      rw [this]; exact h3
  have v := printMappings_vars m.dev (printCommMode s .discovery)
  rw [e]
  generalize printCommMode s .discovery = p at hp v
  have st := status_split (by simp only [St.vars, Prod.mk.injEq] at v; exact v.2.2.2.2 : (printMappings m.dev p).status = p.status)
  have fr : (printMappings m.dev p).activityFrame = p.activityFrame := by
    simp only [St.vars, Prod.mk.injEq] at v; exact v.2.2.1
  generalize printMappings m.dev p = q at st fr
  have q1 := st.1.trans hp.1
  have q2 := st.2.1.trans hp.2.1
  have q3 := st.2.2.1.trans hp.2.2.1
  have q4 := fr.trans hp.2.2.2
  simp only [St.comm, St.route, St.marks, Prod.mk.injEq] at q1 q2 q3
  simp only
  split
  · simp only [St.comm, St.route, St.marks, Prod.mk.injEq]
    exact ⟨q4, ⟨q1.1, q1.2.1, q1.2.2.1, trivial⟩, ⟨q2.1, trivial⟩, q3⟩
  · split
    · simp only [St.comm, St.route, St.marks, Prod.mk.injEq]
      exact ⟨q4, ⟨q1.1, q1.2.1, q1.2.2.1, trivial⟩, ⟨q2.1, trivial⟩, q3⟩
    · simp only [St.comm, St.route, St.marks, Prod.mk.injEq]
      exact ⟨q4, ⟨q1.1, q1.2.1, q1.2.2.1, q1.2.2.2⟩, ⟨q2.1, trivial⟩, q3⟩

end Mdmi.Ui
