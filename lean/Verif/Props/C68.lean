import Verif.Proofs.UiLog
import Verif.Props.C67
/-! C68: the log messages appear on the two log lines. -/
namespace Mdmi.Props
open Mdmi Mdmi.Ui Mdmi.UiSpec

/-- Specification: the frames that attend to the status line, every fifth vertical blank, when `a` blanks have passed. -/
def attended (a : Nat) : List Ui.Ev → List Frame
  | [] => []
  | .midi _ _ :: evs => attended a evs
  | .frame f :: evs => if 5 ≤ a + f.delta then f :: attended 0 evs else attended (a + f.delta) evs

/-- Specification: the messages handed to the display, oldest first. -/
def messages (evs : List Ui.Ev) : List Text := (attended 0 evs).filterMap (·.log)

/-- Specification: messages come in pages of two lines; the last page. -/
def page (ms : List Text) : List Text := ms.drop ((ms.length - 1) / 2 * 2)

/-- Specification: a cell of line `k`; the text begins in the fifth column. -/
def logCell (ms : List Text) (k x : Nat) : Char := if x < 4 then ' ' else ((page ms).getD k []).getD (x - 4) ' '

/-- **C68**.  The visible part of the two log lines shows the last page of messages and nothing else. -/
def C68_statement : Prop :=
  ∀ (env : Ui.Env) (t : Bool) (mem : Sram.Mem) (evs : List Ui.Ev), env.midi.Ok → Ordinary evs → Timely evs →
    (∀ m ∈ messages evs, m.length ≤ 39) →
    ∀ k x, k < 2 → x < 40 → (Ui.run env (Ui.boot env t mem) evs).ui.scr x (23 + k) = logCell (messages evs) k x

private theorem page_snoc (ms : List Text) (m : Text) :
    page (ms ++ [m]) = if (page ms).length = 2 then [m] else page ms ++ [m] := by
  unfold page
  simp only [List.length_append, List.length_singleton, List.length_drop]
  split
  · rename_i h
    have : (ms.length + 1 - 1) / 2 * 2 = ms.length := by omega
    rw [this, List.drop_append, List.drop_length]
    simp
  · rename_i h
    have e : (ms.length + 1 - 1) / 2 * 2 = (ms.length - 1) / 2 * 2 := by omega
    rw [e, List.drop_append_of_le_length (by omega)]

private theorem page_len (ms : List Text) : (page ms).length ≤ 2 := by
  unfold page
  rw [List.length_drop]
  omega

/-- The log lines show the messages, up to remnants of long ones. -/
private structure Lines (ms : List Text) (s : Ui.St) : Prop where
  y : s.logY = (page ms).length
  cell : ∀ k x, k < 2 → x < 38 ∨ x - 4 < ((page ms).getD k []).length ∨ (∀ m ∈ ms, m.length ≤ 34) →
    s.scr x (23 + k) = logCell ms k x

private theorem Lines.same {ms : List Text} {s t : Ui.St} (h : Lines ms s) (k : LogSame s t) : Lines ms t :=
  ⟨k.y.trans h.y, fun i x hi hx => (k.scr x _ (by omega)).trans (h.cell i x hi hx)⟩

private theorem drawn_cell (scr : Screen) (m : Text) (j k x : Nat) (hj : j < 2) (hk : k < 2) :
    draw scr m (1 + 2) (21 + 1 + j) x (23 + k) =
      if k = j ∧ 4 ≤ x ∧ x < 4 + m.length then m.getD (x - 4) ' ' else scr x (23 + k) := by
  unfold draw drawText
  by_cases q : k = j ∧ 4 ≤ x ∧ x < 4 + m.length
  · rw [if_pos q, if_pos (by omega)]
  · rw [if_neg q, if_neg (by omega)]

private theorem cleared_cell (scr : Screen) (k x : Nat) (hk : k < 2) :
    clearArea scr (1 + 2) (21 + 1) (37 - 2) (2 + 1) x (23 + k) = if 3 ≤ x ∧ x < 38 then ' ' else scr x (23 + k) := by
  unfold clearArea
  by_cases q : 3 ≤ x ∧ x < 38
  · rw [if_pos q, if_pos (by omega)]
  · rw [if_neg q, if_neg (by omega)]

private theorem getD_last (l : List Text) (m : Text) : (l ++ [m]).getD l.length [] = m := by
  rw [List.getD_eq_getElem?_getD, List.getElem?_append_right (Nat.le_refl _), Nat.sub_self]; rfl

private theorem getD_out {l : Text} {n : Nat} (h : l.length ≤ n) : l.getD n ' ' = ' ' := by
  rw [List.getD_eq_getElem?_getD, List.getElem?_eq_none h]; rfl

private theorem Lines.log {ms : List Text} {s : Ui.St} (h : Lines ms s) (m : Text) : Lines (ms ++ [m]) (printLog s (some m)) := by
  have l := page_len ms
  have ps := page_snoc ms m
  have mem : ∀ k, (∀ m ∈ ms, m.length ≤ 34) → ((page ms).getD k []).length ≤ 34 := by
    intro k hm
    rw [List.getD_eq_getElem?_getD]
    cases e : (page ms)[k]? with
    | none => simp
    | some v => exact hm v (List.mem_of_mem_drop (List.mem_of_getElem? e))
  unfold printLog
  simp only
  by_cases q : (page ms).length = 2
  · rw [if_pos q] at ps
    rw [if_pos (by rw [h.y]; omega)]
    refine ⟨by rw [ps]; rfl, fun k x hk hx => ?_⟩
    show draw (clearArea s.scr (1 + 2) (21 + 1) (37 - 2) (2 + 1)) m (1 + 2) (21 + 1 + 0) x (23 + k) = _
    rw [drawn_cell _ m 0 k x (by omega) hk, cleared_cell _ k x hk]
    rw [ps] at hx
    unfold logCell
    rw [ps]
    have old : ¬(3 ≤ x ∧ x < 38) → (∀ m ∈ ms, m.length ≤ 34) ∨ x < 3 → s.scr x (23 + k) = ' ' := by
      intro a b
      rcases b with b | b
      · rw [h.cell k x hk (.inr (.inr b))]
        unfold logCell
        split
        · rfl
        · exact getD_out (by have := mem k b; omega)
      · rw [h.cell k x hk (.inl (by omega))]
        unfold logCell
        rw [if_pos (by omega)]
    by_cases hk0 : k = 0
    · subst hk0
      simp only [List.getD_cons_zero] at hx ⊢
      by_cases w : 4 ≤ x ∧ x < 4 + m.length
      · rw [if_pos ⟨trivial, w⟩, if_neg (by omega)]
      · rw [if_neg (by omega)]
        have r : (if x < 4 then ' ' else m.getD (x - 4) ' ') = ' ' := by
          split
          · rfl
          · exact getD_out (by omega)
        rw [r]
        split
        · rfl
        · rename_i o
          refine old o ?_
          rcases hx with hx | hx | hx
          · right; omega
          · right; omega
          · left; intro v hv; exact hx v (by simp [hv])
    · have hk1 : k = 1 := by omega
      subst hk1
      have z : ([m] : List Text).getD 1 [] = [] := rfl
      rw [z] at hx ⊢
      rw [if_neg (by omega)]
      have r : (if x < 4 then ' ' else ([] : Text).getD (x - 4) ' ') = ' ' := by
        split
        · rfl
        · exact getD_out (by simp)
      rw [r]
      split
      · rfl
      · rename_i o
        refine old o ?_
        rcases hx with hx | hx | hx
        · right; omega
        · simp at hx
        · left; intro v hv; exact hx v (by simp [hv])
  · rw [if_neg q] at ps
    have yl : s.logY < 2 := by rw [h.y]; omega
    rw [if_neg (by omega)]
    refine ⟨?_, fun k x hk hx => ?_⟩
    · show (s.logY + 1) % 256 = _
      rw [ps, List.length_append, List.length_singleton, ← h.y]
      omega
    · show draw s.scr m (1 + 2) (21 + 1 + s.logY) x (23 + k) = _
      rw [drawn_cell _ m s.logY k x yl hk]
      rw [ps] at hx
      unfold logCell
      rw [ps]
      by_cases e : k = s.logY
      · have g : (page ms ++ [m]).getD k [] = m := by
          rw [e, h.y]; exact getD_last _ _
        have g' : (page ms).getD k [] = [] := by
          rw [List.getD_eq_getElem?_getD, List.getElem?_eq_none (by rw [e, h.y]; exact Nat.le_refl _)]; rfl
        rw [g] at hx ⊢
        by_cases w : 4 ≤ x ∧ x < 4 + m.length
        · rw [if_pos ⟨e, w⟩, if_neg (by omega)]
        · rw [if_neg (by omega)]
          have r : (if x < 4 then ' ' else m.getD (x - 4) ' ') = ' ' := by
            split
            · rfl
            · exact getD_out (by omega)
          rw [r, h.cell k x hk (by
            rcases hx with hx | hx | hx
            · exact .inl hx
            · left; omega
            · right; right; intro v hv; exact hx v (by simp [hv]))]
          unfold logCell
          rw [g']
          split
          · rfl
          · exact getD_out (by simp)
      · rw [if_neg (by omega)]
        have g : (page ms ++ [m]).getD k [] = (page ms).getD k [] := by
          by_cases c : k < (page ms).length
          · rw [List.getD_eq_getElem?_getD, List.getD_eq_getElem?_getD, List.getElem?_append_left c]
          · have hy := h.y
            have n1 : (page ms ++ [m])[k]? = none :=
              List.getElem?_eq_none (by rw [List.length_append, List.length_singleton]; omega)
            have n2 : (page ms)[k]? = none := List.getElem?_eq_none (by omega)
            rw [List.getD_eq_getElem?_getD, List.getD_eq_getElem?_getD, n1, n2]
        rw [g] at hx ⊢
        exact h.cell k x hk (by
            rcases hx with hx | hx | hx
            · exact .inl hx
            · exact .inr (.inl hx)
            · right; right; intro v hv; exact hx v (by simp [hv]))

private theorem lines_run {env : Ui.Env} {b tame : Bool} (he : env.midi.Ok) (evs : List Ui.Ev) :
    ∀ {s : Ui.Sys} {ms : List Text}, Fine env b tame s → (∀ e ∈ evs, e.Fits b tame) → Timely evs → Lines ms s.ui →
      Lines (ms ++ (attended s.ui.activityFrame evs).filterMap (·.log)) (Ui.run env s evs).ui := by
  induction evs with
  | nil => intro s ms _ _ _ h; simpa [attended, Ui.run] using h
  | cons e evs ih =>
    intro s ms hs hf ht h
    have hf' : e.Fits b tame := hf e (by simp)
    have tl : Timely evs := fun f hm => ht f (by simp [hm])
    have fi : ∀ e ∈ evs, e.Fits b tame := fun e h => hf e (by simp [h])
    have fn := step_fine he hs hf'
    cases e with
    | midi op notes =>
      have r := ih fn fi tl (h.same step_midi_log)
      rw [(step_midi_status env s op notes).2] at r
      exact r
    | frame f =>
      obtain ⟨d1, d2⟩ := ht f (by simp)
      have ul := update_log (env := env) (m := s.m) (f := f) hs.ui
      have us := update_status env s.m s.ui f
      have af := hs.ui.frame
      have md : (s.ui.activityFrame + f.delta) % 65536 = s.ui.activityFrame + f.delta := by omega
      rw [md] at ul us
      unfold attended
      split
      · rename_i q
        rw [if_pos q] at ul us
        have z : (Ui.step env s (.frame f)).ui.activityFrame = 0 := us.2.2.2
        have nx : Lines (ms ++ f.log.toList) (Ui.step env s (.frame f)).ui := by
          refine Lines.same ?_ ul
          cases f.log with
          | none => simpa [printLog] using h
          | some m => exact h.log m
        have r := ih fn fi tl nx
        rw [z] at r
        rw [List.append_assoc] at r
        have e : (f :: attended 0 evs).filterMap (·.log) = f.log.toList ++ (attended 0 evs).filterMap (·.log) := by
          rw [List.filterMap_cons]; cases f.log <;> rfl
        rw [e]; exact r
      · rename_i q
        rw [if_neg q] at ul us
        have z : (Ui.step env s (.frame f)).ui.activityFrame = _ := us.2
        have r := ih fn fi tl (h.same ul)
        rw [z] at r
        exact r

private theorem lines_boot {env : Ui.Env} (he : env.midi.Ok) {evs : List Ui.Ev} (h : Ordinary evs) (ht : Timely evs) (t : Bool)
    (mem : Sram.Mem) : Lines (messages evs) (Ui.run env (Ui.boot env t mem) evs).ui := by
  obtain ⟨b, tame, hf⟩ := fits_of_ordinary h
  obtain ⟨y0, c0⟩ := init_log env (Ui.boot env t mem).m
  have r := lines_run (ms := []) he evs (boot_fine he b tame t mem) hf ht ⟨y0, fun k x hk _ => by
    refine (c0 x _ (by omega)).trans ?_
    unfold logCell page
    split
    · rfl
    · simp⟩
  rw [show (Ui.boot env t mem).ui.activityFrame = 0 from (init_status env _).1] at r
  exact r

/-- **C68** (partial).  The last page of messages is on the log lines, each character in its cell, and the rest of the
line is blank up to the 38th column; if no message so far exceeded 34 characters, up to the end.  Missing: columns 39
and 40 after longer messages, which the clearing of the lines does not reach. -/
theorem C68_log_lines_show_the_page_partial {env : Ui.Env} (he : env.midi.Ok) {evs : List Ui.Ev} (h : Ordinary evs)
    (ht : Timely evs) (t : Bool) (mem : Sram.Mem) {k x : Nat} (hk : k < 2)
    (hx : x < 38 ∨ x < 4 + ((page (messages evs)).getD k []).length ∨ ∀ m ∈ messages evs, m.length ≤ 34) :
    (Ui.run env (Ui.boot env t mem) evs).ui.scr x (23 + k) = logCell (messages evs) k x :=
  (lines_boot he h ht t mem).cell k x hk (by
    rcases hx with hx | hx | hx
    · exact .inl hx
    · by_cases q : x < 38
      · exact .inl q
      · exact .inr (.inl (by omega))
    · exact .inr (.inr hx))

/-- The newest message is always on the screen in full. -/
theorem C68_newest_message_reads {env : Ui.Env} (he : env.midi.Ok) {evs : List Ui.Ev} (h : Ordinary evs)
    (ht : Timely evs) (t : Bool) (mem : Sram.Mem) {m : Text} (hm : (messages evs).getLast? = some m) :
    ∃ k, k < 2 ∧ Reads (Ui.run env (Ui.boot env t mem) evs).ui.scr 4 (23 + k) m := by
  have ln := lines_boot he h ht t mem
  generalize messages evs = ms at hm ln
  obtain ⟨l, rfl⟩ : ∃ l, ms = l ++ [m] := by
    obtain ⟨l, e⟩ := List.getLast?_eq_some_iff.mp hm
    exact ⟨l, e⟩
  have pl := page_len (l ++ [m])
  have key : ∃ k, k < 2 ∧ (page (l ++ [m])).getD k [] = m := by
    have l1 := page_len l
    rw [page_snoc]
    split
    · exact ⟨0, by omega, rfl⟩
    · refine ⟨(page l).length, by omega, ?_⟩
      exact getD_last _ _
  obtain ⟨k, hk, e⟩ := key
  refine ⟨k, hk, fun i hi => ?_⟩
  have c := ln.cell k (4 + i) hk (.inr (.inl (by rw [e]; omega)))
  rw [c]
  unfold logCell
  rw [if_neg (by omega), e]
  have : 4 + i - 4 = i := by omega
  rw [this]

/-- A slow frame with a message. -/
def logFrame (m : String) : Ui.Ev := .frame ⟨5, 0, .serial, some m.toList⟩

/-- A message of 35 characters the engine logs (midi.c:884), then two short ones. -/
def longThenShort : List Ui.Ev :=
  [logFrame "Sysex 01: Invalid length: 10 (!= 2)", logFrame "Reset all", logFrame "Reset all"]

set_option maxRecDepth 20000 in
/-- The last character of a message of 35 characters stays when the lines are cleared. -/
theorem C68_long_message_leaves_a_remnant :
    (Ex.shows .static longThenShort).ui.scr 38 23 = ')' ∧ logCell (messages longThenShort) 0 38 = ' ' ∧
    ∀ m ∈ messages longThenShort, m.length ≤ 39 := by
  decide +kernel

theorem C68_statement_violated : ¬C68_statement := by
  intro h
  have o : Ordinary longThenShort := by
    refine ⟨?_, .inl ?_, .inl ?_⟩
    · simp [EvWf, longThenShort, logFrame]
    · simp [calls, longThenShort, logFrame]
    · simp [calls, longThenShort, logFrame]
  obtain ⟨a, a2, a3⟩ := C68_long_message_leaves_a_remnant
  have k := h (Ex.ui .static) true Ex.mem longThenShort (Ex.ui_ok _) o (by
    intro f hf
    simp only [longThenShort, logFrame, List.mem_cons, Ui.Ev.frame.injEq, List.not_mem_nil, or_false] at hf
    rcases hf with rfl | rfl | rfl <;> simp) a3 0 38 (by omega) (by omega)
  rw [a2] at k
  unfold Ex.shows at a
  revert k a
  generalize Ui.run (Ex.ui .static) (Ui.boot (Ex.ui .static) true Ex.mem) longThenShort = s
  intro a k
  have k : s.ui.scr 38 23 = ' ' := k
  rw [a] at k
  exact absurd k (by decide)

set_option maxRecDepth 20000 in
-- non-vacuity: three short messages; the third is alone on the second page
example : let evs := [logFrame "Ch 1: Dropped note 60", logFrame "MW: Not found", Ex.frame, logFrame "Reset all"]
    messages evs = ["Ch 1: Dropped note 60".toList, "MW: Not found".toList, "Reset all".toList] ∧
    page (messages evs) = ["Reset all".toList] ∧
    (Ex.shows .static evs).ui.scr 4 23 = 'R' ∧ (Ex.shows .static evs).ui.scr 20 23 = ' ' ∧
    (Ex.shows .static (evs.take 2)).ui.scr 4 24 = 'M' ∧ (Ex.shows .static evs).ui.scr 4 24 = ' ' := by
  decide +kernel

end Mdmi.Props
