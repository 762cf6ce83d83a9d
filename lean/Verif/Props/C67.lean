import Verif.Proofs.UiStatus
import Verif.Props.C64
/-! C67: the status line shows the source of the messages, the routing and the special mode. -/
namespace Mdmi.Props
open Mdmi Mdmi.Ui Mdmi.UiSpec

/-- Throughout a stretch of events the engine satisfies `P`. -/
def Throughout (env : Ui.Env) (P : Midi.St → Prop) (s : Ui.Sys) (evs : List Ui.Ev) : Prop :=
  ∀ pre suf, evs = pre ++ suf → P (Ui.run env s pre).m

/-- Specification: a source has been chosen. -/
def Definite (k : CommMode) : Prop := k ≠ .unknown ∧ k ≠ .discovery

/-- Specification: the pictures of the sources in the order of the image strip. -/
def strip : List CommMode := [.discovery, .everdrive, .everdrivePro, .serial, .megaWifi, .demo]

/-- Specification: the hint which cartridge is looked for; the newer one has priority. -/
def hint (env : Ui.Env) : Option Nat :=
  match env.everdrivePro, env.everdrive with
  | true, _ => some 1
  | false, true => some 0
  | false, false => none

/-- **C67**.  At most five frames after a change the status line shows the special mode of the third voice, the way
voices are assigned, and the source that was found. -/
def C67_statement : Prop :=
  ∀ (env : Ui.Env) (t : Bool) (mem : Sram.Mem) (evs tail : List Ui.Ev), Timely tail → 5 ≤ frames tail →
    let s := Ui.run env (Ui.boot env t mem) evs
    let r := (Ui.run env (Ui.boot env t mem) (evs ++ tail)).ui
    (∀ b, Throughout env (fun m => m.fm.synth.specialMode = b) s tail → r.mark = b) ∧
    (∀ d, Throughout env (fun m => m.dynamic = d) s tail → r.routing = d) ∧
    (∀ k, Definite k → (∀ f, Ui.Ev.frame f ∈ evs → f.mode = k ∨ ¬Definite f.mode) →
      (∀ f, Ui.Ev.frame f ∈ tail → f.mode = k) → ∃ p, r.source = some p ∧ strip[p]? = some k ∧ r.waiting = none)

/-- Five timely frames attend to the status line. -/
private theorem settle {env : Ui.Env} {I P : Ui.St → Prop} {Q : Midi.St → Prop} {F : Frame → Prop}
    (same : ∀ s t : Ui.St, t.status = s.status → (I s → I t) ∧ (P s → P t))
    (slow : ∀ m f u t, Q m → F f → I u → Attended m f u t → I t ∧ P t) (evs : List Ui.Ev) :
    ∀ (k : Nat) {s : Ui.Sys}, s.ui.activityFrame < 5 → Timely evs → Throughout env Q s evs →
      (∀ f, Ui.Ev.frame f ∈ evs → F f) → I s.ui → (P s.ui ∨ k ≤ s.ui.activityFrame) →
      (Ui.run env s evs).ui.activityFrame < 5 ∧
      (P (Ui.run env s evs).ui ∨ k + frames evs ≤ (Ui.run env s evs).ui.activityFrame) := by
  induction evs with
  | nil => intro k s ha _ _ _ _ h; exact ⟨ha, h⟩
  | cons e evs ih =>
    intro k s ha ht hq hf hi h
    have st : Throughout env Q (Ui.step env s e) evs := fun pre suf q => hq (e :: pre) suf (by rw [q]; rfl)
    have tl : Timely evs := fun f hm => ht f (by simp [hm])
    have fi : ∀ f, Ui.Ev.frame f ∈ evs → F f := fun f h => hf f (by simp [h])
    cases e with
    | midi op notes =>
      obtain ⟨a1, a2⟩ := step_midi_status env s op notes
      refine ih k (by rw [a2]; exact ha) tl st fi ((same _ _ a1).1 hi) ?_
      rw [a2]
      exact h.imp (same _ _ a1).2 id
    | frame f =>
      have q0 : Q s.m := hq [] _ rfl
      have f0 : F f := hf f (by simp)
      obtain ⟨d1, d2⟩ := ht f (by simp)
      have fr : k + frames (Ui.Ev.frame f :: evs) = k + 1 + frames evs := by simp only [frames]; omega
      rw [fr]
      have u := update_status env s.m s.ui f
      split at u
      · obtain ⟨x, y⟩ := slow s.m f s.ui (Ui.step env s (.frame f)).ui q0 f0 hi ⟨u.1, u.2.1, u.2.2.1⟩
        have z : (Ui.step env s (.frame f)).ui.activityFrame = 0 := u.2.2.2
        exact ih (k + 1) (by rw [z]; omega) tl st fi x (.inl y)
      · rename_i q
        have z : (Ui.step env s (.frame f)).ui.activityFrame = _ := u.2
        have w : (Ui.step env s (.frame f)).ui.status = s.ui.status := u.1
        refine ih (k + 1) (by rw [z]; omega) tl st fi ((same _ _ w).1 hi) ?_
        rcases h with h | h
        · exact .inl ((same _ _ w).2 h)
        · right; rw [z]; omega

private theorem settledFrom {env : Ui.Env} {I P : Ui.St → Prop} {Q : Midi.St → Prop} {E F : Frame → Prop} {s0 : Ui.Sys}
    (same : ∀ s t : Ui.St, t.status = s.status → (I s → I t) ∧ (P s → P t)) (h0 : s0.ui.activityFrame < 5)
    (start : I s0.ui)
    (keep : ∀ m f u t, E f → I u → Attended m f u t → I t)
    (slow : ∀ m f u t, Q m → F f → I u → Attended m f u t → I t ∧ P t) {evs tail : List Ui.Ev}
    (he : ∀ f, Ui.Ev.frame f ∈ evs → E f) (hf : ∀ f, Ui.Ev.frame f ∈ tail → F f) (ht : Timely tail) (hn : 5 ≤ frames tail)
    (hq : Throughout env Q (Ui.run env s0 evs) tail) :
    (Ui.run env s0 (evs ++ tail)).ui.activityFrame < 5 ∧ P (Ui.run env s0 (evs ++ tail)).ui := by
  have e : Ui.run env s0 (evs ++ tail) = Ui.run env (Ui.run env s0 evs) tail := by
    unfold Ui.run; rw [List.foldl_append]
  rw [e]
  obtain ⟨a, b⟩ := run_status (env := env) (I := I) (fun s t h => (same s t h).1) evs h0 start
    fun f m u t hm hu ha => keep m f u t (he f hm) hu ha
  obtain ⟨x, y⟩ := settle same slow tail 0 a ht hq hf b (.inr (by omega))
  rcases y with y | y
  · exact ⟨x, y⟩
  · omega

private theorem boot_frame (env : Ui.Env) (t : Bool) (mem : Sram.Mem) : (Ui.boot env t mem).ui.activityFrame < 5 := by
  have z : (Ui.boot env t mem).ui.activityFrame = 0 := (init_status env _).1
  rw [z]; omega

private theorem settled {env : Ui.Env} {I P : Ui.St → Prop} {Q : Midi.St → Prop} {E F : Frame → Prop} {t : Bool} {mem : Sram.Mem}
    (same : ∀ s t : Ui.St, t.status = s.status → (I s → I t) ∧ (P s → P t))
    (start : I (Ui.boot env t mem).ui)
    (keep : ∀ m f u t, E f → I u → Attended m f u t → I t)
    (slow : ∀ m f u t, Q m → F f → I u → Attended m f u t → I t ∧ P t) {evs tail : List Ui.Ev}
    (he : ∀ f, Ui.Ev.frame f ∈ evs → E f) (hf : ∀ f, Ui.Ev.frame f ∈ tail → F f) (ht : Timely tail) (hn : 5 ≤ frames tail)
    (hq : Throughout env Q (Ui.run env (Ui.boot env t mem) evs) tail) :
    P (Ui.run env (Ui.boot env t mem) (evs ++ tail)).ui :=
  (settledFrom same (boot_frame env t mem) start keep slow he hf ht hn hq).2

/-- **C67**, special mode: the mark is right at most five frames after a change. -/
theorem C67_mark_is_right {env : Ui.Env} {t : Bool} {mem : Sram.Mem} {evs tail : List Ui.Ev} (ht : Timely tail)
    (hn : 5 ≤ frames tail) {b : Bool}
    (hq : Throughout env (fun m => m.fm.synth.specialMode = b) (Ui.run env (Ui.boot env t mem) evs) tail) :
    (Ui.run env (Ui.boot env t mem) (evs ++ tail)).ui.mark = b := by
  have st := (init_status env (Ui.boot env t mem).m).2.2.2
  have nxt : ∀ (m : Midi.St) (f : Frame) (u t : Ui.St), u.lastMark = u.mark → Attended m f u t →
      t.lastMark = t.mark ∧ t.mark = m.fm.synth.specialMode := by
    intro m f u t hu ha
    have a := ha.2.2
    simp only [St.marks, printMark] at a
    generalize m.fm.synth.specialMode = z at a ⊢
    split at a
    · rename_i q
      simp only [Prod.mk.injEq] at a
      exact ⟨by rw [a.1, a.2, hu], by rw [a.2, ← hu, q]⟩
    · split at a
      · rename_i q; simp only [Prod.mk.injEq] at a; exact ⟨by rw [a.1, a.2], by rw [a.2, q]⟩
      · rename_i q
        simp only [Prod.mk.injEq] at a
        exact ⟨by rw [a.1, a.2], by rw [a.2]; simp at q; exact q.symm⟩
  refine settled (I := fun s => s.lastMark = s.mark) (P := fun s => s.mark = b) (E := fun _ => True) (F := fun _ => True)
    ?_ ?_ (fun m f u t _ hu ha => (nxt m f u t hu ha).1)
    (fun m f u t hq _ hu ha => ⟨(nxt m f u t hu ha).1, (nxt m f u t hu ha).2.trans hq⟩) (fun _ _ => trivial)
    (fun _ _ => trivial) ht hn hq
  · intro s t h
    simp only [St.status, Prod.mk.injEq] at h
    obtain ⟨_, _, h3, _, _, _, _, _, h9⟩ := h
    rw [h3, h9]; exact ⟨id, id⟩
  · simp only [St.marks, Prod.mk.injEq] at st
    exact st.1.trans st.2.symm

private theorem route_next {m : Midi.St} {f : Frame} {u t : Ui.St} (ha : Attended m f u t) :
    (t.lastDynamic = t.routing ∧ t.routing = m.dynamic) ∨
    (u.lastDynamic = m.dynamic ∧ t.lastDynamic = u.lastDynamic ∧ t.routing = u.routing) := by
  have a := ha.2.1
  simp only [St.route, printRouting] at a
  split at a
  · simp only [Prod.mk.injEq] at a; exact .inl ⟨by rw [a.1, a.2], a.2⟩
  · rename_i q
    simp only [Prod.mk.injEq] at a
    simp only [ne_eq, Decidable.not_not] at q
    exact .inr ⟨q, a.1, a.2⟩

private theorem route_same {c : Prop} (s t : Ui.St) (h : t.status = s.status) :
    ((s.lastDynamic = s.routing ∨ (c ∧ s.lastDynamic = false ∧ s.routing = true)) →
      (t.lastDynamic = t.routing ∨ (c ∧ t.lastDynamic = false ∧ t.routing = true))) ∧ t.routing = s.routing := by
  simp only [St.status, Prod.mk.injEq] at h
  obtain ⟨_, _, _, h4, _, _, _, h8, _⟩ := h
  rw [h4, h8]; exact ⟨id, rfl⟩

private theorem routing_from {env : Ui.Env} {s0 : Ui.Sys} {evs tail : List Ui.Ev} (h0 : s0.ui.activityFrame < 5) (ht : Timely tail)
    (hn : 5 ≤ frames tail) {d : Bool}
    (hi : s0.ui.lastDynamic = s0.ui.routing ∨ (d = true ∧ s0.ui.lastDynamic = false ∧ s0.ui.routing = true))
    (hq : Throughout env (fun m => m.dynamic = d) (Ui.run env s0 evs) tail) :
    (Ui.run env s0 (evs ++ tail)).ui.activityFrame < 5 ∧ (Ui.run env s0 (evs ++ tail)).ui.lastDynamic = d ∧
    (Ui.run env s0 (evs ++ tail)).ui.routing = d := by
  refine settledFrom (P := fun s => s.lastDynamic = d ∧ s.routing = d)
    (I := fun s => s.lastDynamic = s.routing ∨ (d = true ∧ s.lastDynamic = false ∧ s.routing = true)) (E := fun _ => True)
    (F := fun _ => True) ?_ h0 hi ?_ ?_ (fun _ _ => trivial) (fun _ _ => trivial) ht hn hq
  · intro s t h
    refine ⟨(route_same (c := d = true) s t h).1, ?_⟩
    simp only [St.status, Prod.mk.injEq] at h
    obtain ⟨_, _, _, h4, _, _, _, h8, _⟩ := h
    rw [h4, h8]; exact id
  · intro m f u t _ hu ha
    rcases route_next ha with ⟨a, _⟩ | ⟨_, b, c⟩
    · exact .inl a
    · rw [b, c]; exact hu
  · intro m f u t hq _ hu ha
    have hq : m.dynamic = d := hq
    rcases route_next ha with ⟨a, a'⟩ | ⟨a, b, c⟩
    · exact ⟨.inl a, a.trans (a'.trans hq), a'.trans hq⟩
    · refine ⟨by rw [b, c]; exact hu, b.trans (a.trans hq), ?_⟩
      rcases hu with hu | ⟨hu, hv, hw⟩
      · rw [c, ← hu, a, hq]
      · rw [c, hw, hu]

/-- **C67**, routing (partial): the tiles are right at most five frames after a change to dynamic assignment, and after
any change if the build does not start with dynamic assignment.  Missing: builds that do, when the first change to fixed
assignment comes before the first frame that attends to the status line. -/
theorem C67_routing_is_right_partial {env : Ui.Env} {t : Bool} {mem : Sram.Mem} {evs tail : List Ui.Ev} (ht : Timely tail)
    (hn : 5 ≤ frames tail) {d : Bool} (hd : d = true ∨ (Midi.boot env.midi t mem).dynamic = false)
    (hq : Throughout env (fun m => m.dynamic = d) (Ui.run env (Ui.boot env t mem) evs) tail) :
    (Ui.run env (Ui.boot env t mem) (evs ++ tail)).ui.routing = d := by
  have st := (init_status env (Ui.boot env t mem).m).2.2.1
  simp only [St.route, Prod.mk.injEq] at st
  refine (routing_from (boot_frame env t mem) ht hn ?_ hq).2.2
  rcases hd with hd | hd
  · cases h : (Midi.boot env.midi t mem).dynamic
    · exact .inl (st.1.trans (st.2.trans h).symm)
    · exact .inr ⟨hd, st.1, st.2.trans h⟩
  · exact .inl (st.1.trans (st.2.trans hd).symm)

/-- After five frames of dynamic assignment, at the start or later, the tiles follow every change. -/
theorem C67_routing_follows_once_seen {env : Ui.Env} {t : Bool} {mem : Sram.Mem} {evs seen more tail : List Ui.Ev}
    (hs : Timely seen) (hm : 5 ≤ frames seen)
    (hd : Throughout env (fun m => m.dynamic = true) (Ui.run env (Ui.boot env t mem) evs) seen) (ht : Timely tail)
    (hn : 5 ≤ frames tail) {d : Bool}
    (hq : Throughout env (fun m => m.dynamic = d) (Ui.run env (Ui.boot env t mem) (evs ++ seen ++ more)) tail) :
    (Ui.run env (Ui.boot env t mem) (evs ++ seen ++ more ++ tail)).ui.routing = d := by
  have st := (init_status env (Ui.boot env t mem).m).2.2.1
  simp only [St.route, Prod.mk.injEq] at st
  have r := routing_from (env := env) (evs := evs) (boot_frame env t mem) hs hm (by
    cases h : (Midi.boot env.midi t mem).dynamic
    · exact .inl (st.1.trans (st.2.trans h).symm)
    · exact .inr ⟨rfl, st.1, st.2.trans h⟩) hd
  have e : ∀ l, Ui.run env (Ui.boot env t mem) (evs ++ seen ++ l) = Ui.run env (Ui.run env (Ui.boot env t mem) (evs ++ seen)) l := by
    intro l; unfold Ui.run; rw [List.foldl_append]
  rw [e] at hq
  rw [List.append_assoc, e]
  exact (routing_from r.1 ht hn (.inl (r.2.1.trans r.2.2.symm)) hq).2.2

/-- No source chosen yet, or `k` is shown. -/
private def SourceOr (env : Ui.Env) (k : CommMode) (s : Ui.St) : Prop :=
  (s.commInited = false ∧ ¬Definite s.lastComm ∧ s.source = some 0 ∧ s.waiting = hint env) ∨
  (s.commInited = true ∧ s.source = some (sourceOf k) ∧ s.waiting = none)

private theorem source_same {env : Ui.Env} {k : CommMode} (s t : Ui.St) (h : t.status = s.status) :
    (SourceOr env k s → SourceOr env k t) ∧ t.commInited = s.commInited := by
  simp only [St.status, Prod.mk.injEq] at h
  obtain ⟨h1, h2, _, _, _, h6, h7, _, _⟩ := h
  unfold SourceOr
  rw [h1, h2, h6, h7]; exact ⟨id, rfl⟩

private theorem source_start (env : Ui.Env) (k : CommMode) (t : Bool) (mem : Sram.Mem) : SourceOr env k (Ui.boot env t mem).ui := by
  have st := (init_status env (Ui.boot env t mem).m).2.1
  simp only [St.comm, Prod.mk.injEq] at st
  refine .inl ⟨st.1, ?_, st.2.2.1, st.2.2.2.trans ?_⟩
  · rw [show (Ui.boot env t mem).ui.lastComm = .discovery from st.2.1]
    unfold Definite; simp
  · unfold hint
    cases env.everdrivePro <;> cases env.everdrive <;> rfl

private theorem source_next {env : Ui.Env} {k : CommMode} {m : Midi.St} {f : Frame} {u t : Ui.St} (hf : f.mode = k ∨ ¬Definite f.mode)
    (hu : SourceOr env k u) (ha : Attended m f u t) :
    SourceOr env k t ∧ (Definite f.mode → t.commInited = true) ∧ (u.commInited = true → t.commInited = true) ∧
      (¬Definite f.mode → u.commInited = false → t.commInited = false) := by
  have a := ha.1
  simp only [St.comm, printCommMode] at a
  split at a
  · rename_i q
    simp only [Prod.mk.injEq] at a
    obtain ⟨a1, a2, a3, a4⟩ := a
    refine ⟨?_, fun _ => a1.trans q, fun _ => a1.trans q, fun _ h => by rw [q] at h; exact absurd h (by simp)⟩
    unfold SourceOr at hu ⊢; rw [a1, a2, a3, a4]; exact hu
  · rename_i q
    have q : u.commInited = false := by simpa using q
    have w : ¬Definite u.lastComm ∧ u.source = some 0 ∧ u.waiting = hint env := by
      rcases hu with hu | hu
      · exact hu.2
      · rw [q] at hu; exact absurd hu.1 (by simp)
    split at a
    · rename_i q2
      simp only [Prod.mk.injEq] at a
      obtain ⟨a1, a2, a3, a4⟩ := a
      refine ⟨?_, fun h => absurd (q2 ▸ h) w.1, fun h => by rw [q] at h; exact absurd h (by simp), fun _ _ => a1.trans q⟩
      unfold SourceOr at hu ⊢; rw [a1, a2, a3, a4]; exact hu
    · by_cases hd : f.mode ≠ .unknown ∧ f.mode ≠ .discovery
      · rw [if_pos hd] at a
        simp only [Prod.mk.injEq] at a
        obtain ⟨a1, a2, a3, a4⟩ := a
        have a1 : t.commInited = true := a1.trans (decide_eq_true hd)
        rcases hf with hf | hf
        · exact ⟨.inr ⟨a1, by rw [a3, hf], a4⟩, fun _ => a1, fun _ => a1, fun h => absurd hd h⟩
        · exact absurd hd hf
      · rw [if_neg hd] at a
        simp only [Prod.mk.injEq] at a
        obtain ⟨a1, a2, a3, a4⟩ := a
        have a1 : t.commInited = false := a1.trans (decide_eq_false hd)
        refine ⟨.inl ⟨a1, by rw [a2]; exact hd, ?_, by rw [a4]; exact w.2.2⟩, fun h => absurd h hd,
          fun h => by rw [q] at h; exact absurd h (by simp), fun _ _ => a1⟩
        rw [a3]
        revert hd
        cases f.mode <;> simp [sourceOf]

/-- **C67**, source: five frames after a source was found its picture is shown and the hint is gone. -/
theorem C67_source_is_shown {env : Ui.Env} {t : Bool} {mem : Sram.Mem} {evs tail : List Ui.Ev} (ht : Timely tail)
    (hn : 5 ≤ frames tail) {k : CommMode} (hk : Definite k)
    (he : ∀ f, Ui.Ev.frame f ∈ evs → f.mode = k ∨ ¬Definite f.mode) (hf : ∀ f, Ui.Ev.frame f ∈ tail → f.mode = k) :
    ∃ p, (Ui.run env (Ui.boot env t mem) (evs ++ tail)).ui.source = some p ∧ strip[p]? = some k ∧
      (Ui.run env (Ui.boot env t mem) (evs ++ tail)).ui.waiting = none := by
  have r := settled (env := env) (I := SourceOr env k) (P := fun s => s.commInited = true ∧ SourceOr env k s)
    (Q := fun _ => True) (E := fun f => f.mode = k ∨ ¬Definite f.mode) (F := fun f => f.mode = k) (t := t) (mem := mem)
    (fun s t h => ⟨(source_same s t h).1, fun h' => ⟨(source_same (env := env) (k := k) s t h).2.trans h'.1, (source_same s t h).1 h'.2⟩⟩)
    (source_start env k t mem) (fun m f u t hf hu ha => (source_next hf hu ha).1)
    (fun m f u t _ hf hu ha => by
      have n := source_next (.inl hf) hu ha
      exact ⟨n.1, n.2.1 (by rw [hf]; exact hk), n.1⟩) he hf ht hn (fun _ _ _ => trivial)
  obtain ⟨r1, r2⟩ := r
  rcases r2 with r2 | r2
  · rw [r1] at r2; exact absurd r2.1 (by simp)
  · refine ⟨sourceOf k, r2.2.1, ?_, r2.2.2⟩
    revert hk
    cases k <;> simp [Definite, strip, sourceOf]

/-- Until a source is found the picture says so and the hint which cartridge is looked for stays. -/
theorem C67_waiting_until_found {env : Ui.Env} {t : Bool} {mem : Sram.Mem} {evs : List Ui.Ev}
    (he : ∀ f, Ui.Ev.frame f ∈ evs → ¬Definite f.mode) :
    (Ui.run env (Ui.boot env t mem) evs).ui.source = some 0 ∧ (Ui.run env (Ui.boot env t mem) evs).ui.waiting = hint env := by
  have z : (Ui.boot env t mem).ui.activityFrame = 0 := (init_status env _).1
  have b := (init_status env (Ui.boot env t mem).m).2.1
  simp only [St.comm, Prod.mk.injEq] at b
  have r := (run_status (env := env) (I := fun s => SourceOr env .serial s ∧ s.commInited = false)
    (fun s t h h' => ⟨(source_same s t h).1 h'.1, (source_same (env := env) (k := .serial) s t h).2.trans h'.2⟩) evs
    (s := Ui.boot env t mem) (by rw [z]; omega) ⟨source_start env _ t mem, b.1⟩
    fun f m u t hm hu ha => by
      have n := source_next (.inr (he f hm)) hu.1 ha
      exact ⟨n.1, n.2.2.2 (he f hm) hu.2⟩).2
  rcases r.1 with h | h
  · exact h.2.2
  · rw [r.2] at h; exact absurd h.1 (by simp)

/-- A shown source stays, whatever the later frames report. -/
theorem C67_source_stays {env : Ui.Env} {t : Bool} {mem : Sram.Mem} {evs more : List Ui.Ev} {p : Nat} (hp : p ≠ 0)
    (h : (Ui.run env (Ui.boot env t mem) evs).ui.source = some p) :
    (Ui.run env (Ui.boot env t mem) (evs ++ more)).ui.source = some p := by
  have e : Ui.run env (Ui.boot env t mem) (evs ++ more) = Ui.run env (Ui.run env (Ui.boot env t mem) evs) more := by
    unfold Ui.run; rw [List.foldl_append]
  rw [e]
  have z : (Ui.boot env t mem).ui.activityFrame = 0 := (init_status env _).1
  have b := (init_status env (Ui.boot env t mem).m).2.1
  simp only [St.comm, Prod.mk.injEq] at b
  have comm : ∀ (m : Midi.St) (f : Frame) (u t : Ui.St), Attended m f u t →
      (u.commInited = true → t.commInited = true ∧ t.source = u.source) ∧
      (u.commInited = false → u.source = some 0 → t.commInited = false → t.source = some 0) := by
    intro m f u t ha
    have a := ha.1
    simp only [St.comm, printCommMode] at a
    split at a
    · rename_i q
      simp only [Prod.mk.injEq] at a
      exact ⟨fun _ => ⟨a.1.trans q, a.2.2.1⟩, fun h => by rw [q] at h; exact absurd h (by simp)⟩
    · rename_i q
      refine ⟨fun h => absurd h q, fun _ h1 h2 => ?_⟩
      split at a
      · simp only [Prod.mk.injEq] at a; exact a.2.2.1.trans h1
      · by_cases hd : f.mode ≠ .unknown ∧ f.mode ≠ .discovery
        · rw [if_pos hd] at a
          simp only [Prod.mk.injEq] at a
          have := a.1.trans (decide_eq_true hd)
          rw [this] at h2; exact absurd h2 (by simp)
        · rw [if_neg hd] at a
          simp only [Prod.mk.injEq] at a
          rw [a.2.2.1]
          revert hd
          cases f.mode <;> simp [sourceOf]
  have r := run_status (env := env) (I := fun s => s.commInited = false → s.source = some 0)
    (fun s t h h' => by
      simp only [St.status, Prod.mk.injEq] at h
      obtain ⟨h1, _, _, _, _, _, h7, _, _⟩ := h
      rw [h1, h7]; exact h') evs (s := Ui.boot env t mem) (by rw [z]; omega) (fun _ => b.2.2.1)
    fun f m u t hm hu ha q => by
      cases hc : u.commInited
      · exact (comm m f u t ha).2 hc (hu hc) q
      · rw [((comm m f u t ha).1 hc).1] at q; exact absurd q (by simp)
  have ini : (Ui.run env (Ui.boot env t mem) evs).ui.commInited = true := by
    cases hc : (Ui.run env (Ui.boot env t mem) evs).ui.commInited
    · have := r.2 hc; rw [h] at this; simp at this; exact absurd this hp
    · rfl
  exact (run_status (env := env) (I := fun s => s.commInited = true ∧ s.source = some p)
    (fun s t h h' => by
      simp only [St.status, Prod.mk.injEq] at h
      obtain ⟨h1, _, _, _, _, _, h7, _, _⟩ := h
      rw [h1, h7]; exact h') more r.1 ⟨ini, h⟩
    fun f m u t hm hu ha => ⟨((comm m f u t ha).1 hu.1).1, ((comm m f u t ha).1 hu.1).2.trans hu.2⟩).2.2

/-- Controller 84 off: fixed assignment. -/
def toStatic : Ui.Ev := Ex.msg (.cc 0 84 0)

set_option maxRecDepth 20000 in
/-- A build that starts with dynamic assignment and is switched before the first attention to the status line shows
dynamic assignment from then on. -/
theorem C67_stale_routing : (Ex.shows .dynamic [toStatic]).m.dynamic = false ∧
    (Ex.shows .dynamic ([toStatic] ++ fiveFrames)).ui.routing = true := by
  decide +kernel

theorem frames_keep_engine (env : Ui.Env) : ∀ (pre : List Ui.Ev) (s : Ui.Sys), (∀ e ∈ pre, ∃ f, e = Ui.Ev.frame f) →
    (Ui.run env s pre).m = s.m := by
  intro pre
  induction pre with
  | nil => intro s _; rfl
  | cons x pre ih =>
    intro s hp
    obtain ⟨f, rfl⟩ := hp x (by simp)
    exact ih _ fun e he => hp e (by simp [he])

theorem C67_statement_violated : ¬C67_statement := by
  intro h
  have a := C67_stale_routing
  have k := (h (Ex.ui .dynamic) true Ex.mem [toStatic] fiveFrames (by
    intro f hf
    have e := List.eq_of_mem_replicate hf
    unfold Ex.frame at e
    rw [Ui.Ev.frame.injEq] at e
    subst e
    simp) (by decide)).2.1 false (by
    intro pre suf e
    rw [frames_keep_engine _ pre _ fun x hx => ⟨_, List.eq_of_mem_replicate (show x ∈ fiveFrames by rw [e]; simp [hx])⟩]
    exact a.1)
  have a2 := a.2
  unfold Ex.shows at a2
  revert k a2
  generalize Ui.run (Ex.ui .dynamic) (Ui.boot (Ex.ui .dynamic) true Ex.mem) ([toStatic] ++ fiveFrames) = s
  intro a2 k
  rw [a2] at k
  exact absurd k (by decide)

set_option maxRecDepth 20000 in
-- non-vacuity: special mode on and dynamic assignment are shown five frames later, and so is the serial port
example : let s := Ex.shows .static ([Ex.msg (.cc 0 80 127), Ex.msg (.cc 0 84 127)] ++ fiveFrames)
    s.m.fm.synth.specialMode = true ∧ s.m.dynamic = true ∧ s.ui.mark = true ∧ s.ui.routing = true ∧
    s.ui.source = some 3 ∧ strip[3]? = some .serial ∧ (Midi.boot (Ex.env .static) true Ex.mem).dynamic = false := by
  decide +kernel

-- non-vacuity: nothing found, both cartridges present
example : let e : Ui.Env := ⟨Ex.env .static, ['v', '1'], false, true, true⟩
    (Ui.boot e true Ex.mem).ui.waiting = some 1 ∧ hint e = some 1 := by
  decide +kernel

end Mdmi.Props
