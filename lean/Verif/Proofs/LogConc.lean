import Verif.Spec.LogConc
import Verif.Proofs.Log
/-! The log under interrupts at safe points. -/
namespace Mdmi.LogConc
open Mdmi.Log

/-! ### Specification queue -/

/-- Queue after calls. -/
def after (q : List Entry) : List Log.Op → List Entry
  | [] => q
  | .log l m :: ops => after (LogSpec.newest 9 (q ++ [⟨l, m⟩])) ops
  | .dequeue :: ops => after q.tail ops

theorem after_append (q : List Entry) (a b : List Log.Op) : after q (a ++ b) = after (after q a) b := by
  induction a generalizing q with
  | nil => rfl
  | cons x a ih => cases x <;> exact ih _

theorem run_append (q : List Entry) (a b : List Log.Op) :
    LogSpec.run q (a ++ b) = LogSpec.run q a ++ LogSpec.run (after q a) b := by
  induction a generalizing q with
  | nil => rfl
  | cons x a ih =>
    cases x with
    | log l m => exact ih _
    | dequeue => simp only [List.cons_append, LogSpec.run, after]; rw [ih]

/-! ### Rest of a call -/

/-- Outcome of a call: log and what was fetched. -/
abbrev Fin := Option (Log.St × List (Option Entry))

def finPut (g : Log.St) (o : List (Option Entry)) (l : Level) (m : List Nat) (i : Nat) : Fin :=
  if i < g.logs.length ∧ m.length + 1 ≤ 40 then some ({ g with logs := g.logs.set i ⟨l, m⟩ }, o) else none
def finInc (g : Log.St) (o : List (Option Entry)) (l : Level) (m : List Nat) (i : Nat) : Fin :=
  finPut { g with count := (g.count + 1) % 65536 } o l m i
def finDropC (g : Log.St) (o : List (Option Entry)) (l : Level) (m : List Nat) (i : Nat) : Fin :=
  finInc { g with count := (g.count + 65535) % 65536 } o l m i
def finDropWrap (g : Log.St) (o : List (Option Entry)) (l : Level) (m : List Nat) (i : Nat) : Fin :=
  finDropC { g with readHead := if g.readHead = maxEntries then 0 else g.readHead } o l m i
def finDropR (g : Log.St) (o : List (Option Entry)) (l : Level) (m : List Nat) (i : Nat) : Fin :=
  finDropWrap { g with readHead := (g.readHead + 1) % 256 } o l m i
def finMeet (g : Log.St) (o : List (Option Entry)) (l : Level) (m : List Nat) (i : Nat) : Fin :=
  if g.writeHead = g.readHead then finDropR g o l m i else finInc g o l m i
def finWrap (g : Log.St) (o : List (Option Entry)) (l : Level) (m : List Nat) (i : Nat) : Fin :=
  finMeet { g with writeHead := if g.writeHead = maxEntries then 0 else g.writeHead } o l m i
def finW (g : Log.St) (o : List (Option Entry)) (l : Level) (m : List Nat) (i : Nat) : Fin :=
  finWrap { g with writeHead := (g.writeHead + 1) % 256 } o l m i
def finFetch (g : Log.St) (o : List (Option Entry)) (i : Nat) : Fin := g.logs[i]?.map fun e => (g, o ++ [some e])
def finDecC (g : Log.St) (o : List (Option Entry)) (i : Nat) : Fin :=
  finFetch { g with count := (g.count + 65535) % 65536 } o i
def finWrapR (g : Log.St) (o : List (Option Entry)) (i : Nat) : Fin :=
  finDecC { g with readHead := if g.readHead = maxEntries then 0 else g.readHead } o i
def finR (g : Log.St) (o : List (Option Entry)) (i : Nat) : Fin :=
  finWrapR { g with readHead := (g.readHead + 1) % 256 } o i

/-- What the call in progress leads to if nothing interrupts it; calls that have not taken effect do not count. -/
def fin (s : Sys) : Fin :=
  match s.pc with
  | .idle | .slot _ _ | .check | .front => some (s.log, s.out)
  | .incW l m i => finW s.log s.out l m i
  | .wrapW l m i => finWrap s.log s.out l m i
  | .meet l m i => finMeet s.log s.out l m i
  | .dropR l m i => finDropR s.log s.out l m i
  | .dropWrap l m i => finDropWrap s.log s.out l m i
  | .dropC l m i => finDropC s.log s.out l m i
  | .incC l m i => finInc s.log s.out l m i
  | .put l m i => finPut s.log s.out l m i
  | .incR i => finR s.log s.out i
  | .wrapR i => finWrapR s.log s.out i
  | .decC i => finDecC s.log s.out i
  | .fetch i => finFetch s.log s.out i

/-- An uninterrupted call is the atomic one. -/
theorem finW_log (g : Log.St) (o : List (Option Entry)) (l : Level) (m : List Nat) (hr : g.readHead < 10)
    (hw : g.writeHead < 10) : finW g o l m g.writeHead = (Log.log g l m).map fun g' => (g', o) := by
  have e1 : (g.writeHead + 1) % 256 = g.writeHead + 1 := by omega
  have e2 : (g.readHead + 1) % 256 = g.readHead + 1 := by omega
  unfold finW finWrap finMeet finDropR finDropWrap finDropC finInc finPut Log.log incrementWriteHead incrementReadHead
  simp only [e1, e2]
  split <;> split <;> simp_all

theorem finR_dequeue (g : Log.St) (o : List (Option Entry)) (hr : g.readHead < 10) (hc : g.count ≠ 0) :
    finR g o g.readHead = (Log.dequeue g).map fun x => (x.2, o ++ [x.1]) := by
  have e2 : (g.readHead + 1) % 256 = g.readHead + 1 := by omega
  unfold finR finWrapR finDecC finFetch Log.dequeue incrementReadHead
  simp only [e2, hc, if_false]
  cases g.logs[g.readHead]? <;> rfl

/-! ### Invariant -/

/-- Where the chosen entry lies. -/
def Local (s : Sys) : Prop :=
  match s.pc with
  | .front => s.log.count ≠ 0
  | .incW _ m i => i = s.log.writeHead ∧ i < 10 ∧ m.length ≤ 39
  | .wrapW _ m i => s.log.writeHead = i + 1 ∧ i < 10 ∧ m.length ≤ 39
  | .meet _ m i | .dropR _ m i | .dropWrap _ m i | .dropC _ m i | .incC _ m i =>
    s.log.writeHead = (i + 1) % 10 ∧ i < 10 ∧ m.length ≤ 39
  | .put _ m i => m.length ≤ 39 ∧ (s.cut = 0 → s.log.writeHead ≠ i)
  | .incR i | .wrapR i | .decC i => s.log.writeHead ≠ i
  | .fetch i => s.cut = 0 → s.log.writeHead ≠ i
  | .slot _ m => m.length ≤ 39
  | _ => True

/-- Calls `ops` have taken effect. -/
structure Inv (s : Sys) (ops : List Log.Op) : Prop where
  fin : ∃ g, fin s = some (g, LogSpec.run [] ops) ∧ Rep g (after [] ops)
  loc : Local s

theorem Inv.start : Inv start [] := ⟨⟨Log.init, rfl, Rep.init⟩, trivial⟩

/-- A statement that is not a taking effect keeps the outcome. -/
theorem Inv.same {s t : Sys} {ops : List Log.Op} (h : Inv s ops) (e : LogConc.fin t = LogConc.fin s) (k : Local t) :
    Inv t ops := ⟨e ▸ h.fin, k⟩

theorem Inv.call {s : Sys} {ops : List Log.Op} (h : Inv s ops) {op : Log.Op} (hp : s.pc = .idle)
    (hm : ∀ l m, op = .log l m → m.length ≤ 39) : Inv { s with pc := entry op, cut := 0 } ops := by
  refine h.same ?_ ?_
  · unfold LogConc.fin; rw [hp]; cases op <;> rfl
  · cases op with
    | log l m => exact hm l m rfl
    | dequeue => trivial

theorem Inv.main {s : Sys} {ops : List Log.Op} (h : Inv s ops) :
    ∃ t, mainStep s = some t ∧ Inv t (ops ++ effect s .main) := by
  obtain ⟨⟨g, hf, hr⟩, hl⟩ := h
  obtain ⟨q, pc, o, cut⟩ := s
  have same {t : Sys} (e : LogConc.fin t = LogConc.fin ⟨q, pc, o, cut⟩) (k : Local t)
      (he : effect ⟨q, pc, o, cut⟩ .main = []) : Inv t (ops ++ effect ⟨q, pc, o, cut⟩ .main) := by
    rw [he, List.append_nil]; exact ⟨⟨g, e.trans hf, hr⟩, k⟩
  cases pc with
  | idle => exact ⟨_, rfl, same rfl trivial rfl⟩
  | slot l m =>
    cases hf
    refine ⟨_, rfl, ?_, ?_⟩
    · have hw : q.writeHead < 10 := by rw [hr.wr]; omega
      obtain ⟨g', e, r⟩ := hr.logs l m hl
      refine ⟨g', ?_, ?_⟩
      · show finW q _ l m q.writeHead = _
        rw [finW_log _ _ _ _ hr.rd hw, e, run_append]
        simp [effect, LogSpec.run]
      · rw [after_append]; exact r
    · have hw : q.writeHead < 10 := by rw [hr.wr]; omega
      exact ⟨rfl, hw, hl⟩
  | incW l m i =>
    refine ⟨_, rfl, same rfl ?_ rfl⟩
    obtain ⟨h1, h2, h3⟩ := hl
    refine ⟨?_, h2, h3⟩
    show (q.writeHead + 1) % 256 = i + 1
    simp only at h1
    omega
  | wrapW l m i =>
    refine ⟨_, rfl, same rfl ?_ rfl⟩
    obtain ⟨h1, h2, h3⟩ := hl
    refine ⟨?_, h2, h3⟩
    show (if q.writeHead = 10 then 0 else q.writeHead) = (i + 1) % 10
    simp only at h1
    split <;> omega
  | meet l m i =>
    refine ⟨_, rfl, same ?_ ?_ rfl⟩
    · simp only [LogConc.fin, finMeet]
      by_cases c : q.writeHead = q.readHead <;> simp only [c, if_true, if_false]
    · simp only [Local]
      by_cases c : q.writeHead = q.readHead
      · simp only [c, if_true]; exact ⟨c ▸ hl.1, hl.2⟩
      · simp only [c, if_false]; exact hl
  | dropR l m i => exact ⟨_, rfl, same rfl hl rfl⟩
  | dropWrap l m i => exact ⟨_, rfl, same rfl hl rfl⟩
  | dropC l m i => exact ⟨_, rfl, same (by simp only [LogConc.fin, finDropC]) ⟨hl.1, hl.2⟩ rfl⟩
  | incC l m i =>
    refine ⟨_, rfl, same rfl ⟨hl.2.2, fun _ => ?_⟩ rfl⟩
    obtain ⟨h1, h2, h3⟩ := hl
    show q.writeHead ≠ i
    simp only at h1
    omega
  | put l m i =>
    simp only [LogConc.fin, finPut] at hf
    split at hf
    · rename_i c
      refine ⟨⟨_, .idle, o, 0⟩, by simp only [mainStep]; rw [if_pos c], same ?_ trivial rfl⟩
      simp only [LogConc.fin, finPut, if_pos c]
    · cases hf
  | check =>
    by_cases c : q.count = 0
    · have e : effect ⟨q, .check, o, cut⟩ .main = [.dequeue] := by simp [effect, c]
      cases hf
      have hn : after [] ops = [] := by
        have := hr.count; rw [c] at this; exact List.eq_nil_of_length_eq_zero this.symm
      refine ⟨⟨q, .idle, LogSpec.run [] ops ++ [none], 0⟩, by simp only [mainStep]; rw [if_pos c], ⟨q, ?_, ?_⟩, trivial⟩
      · rw [e, run_append, hn]; rfl
      · rw [e, after_append, hn]; rw [hn] at hr; exact hr
    · refine ⟨⟨q, .front, o, 0⟩, by simp only [mainStep]; rw [if_neg c], same rfl c ?_⟩
      simp [effect, c]
  | front =>
    cases hf
    refine ⟨_, rfl, ?_, ?_⟩
    · have hc : q.count ≠ 0 := hl
      cases hq : after [] ops with
      | nil => have := hr.count; rw [hq] at this; exact absurd this hc
      | cons x q' =>
        rw [hq] at hr
        obtain ⟨e, r⟩ := hr.deq
        refine ⟨⟨q.logs, (q.readHead + 1) % 10, q.writeHead, q.count - 1⟩, ?_, ?_⟩
        rotate_left
        · rw [after_append, hq]; exact r
        · show finR q _ q.readHead = _
          rw [finR_dequeue _ _ hr.rd hc, e, run_append, hq]
          rfl
    · have hc : q.count ≠ 0 := hl
      have h1 : q.count = _ := hr.count
      have h2 : q.writeHead = (q.readHead + (after [] ops).length) % 10 := hr.wr
      have h3 := hr.le
      have h4 : q.readHead < 10 := hr.rd
      show q.writeHead ≠ q.readHead
      omega
  | incR i => exact ⟨_, rfl, same rfl hl rfl⟩
  | wrapR i => exact ⟨_, rfl, same rfl hl rfl⟩
  | decC i => exact ⟨_, rfl, same (by simp only [LogConc.fin, finDecC]) (fun _ => hl) rfl⟩
  | fetch i =>
    simp only [LogConc.fin, finFetch] at hf
    cases e : q.logs[i]? with
    | none => rw [e] at hf; cases hf
    | some x =>
      refine ⟨⟨q, .idle, o ++ [some x], 0⟩, by simp only [mainStep]; rw [e], same ?_ trivial rfl⟩
      simp only [LogConc.fin, finFetch, e, Option.map_some]

theorem log_eq (g : Log.St) (l : Level) (m : List Nat) (hw : g.writeHead < g.logs.length) (hm : m.length ≤ 39) :
    Log.log g l m = some { incrementWriteHead g with logs := g.logs.set g.writeHead ⟨l, m⟩ } := by
  have e : (incrementWriteHead g).logs = g.logs := by
    unfold incrementWriteHead incrementReadHead; simp only; split <;> split <;> rfl
  unfold Log.log
  simp only [e]
  rw [if_pos ⟨hw, by omega⟩]

/-- The heads move alike whatever the entries hold. -/
theorem incW_logs (g : Log.St) (x : List Entry) :
    incrementWriteHead { g with logs := x } = { incrementWriteHead g with logs := x } := by
  unfold incrementWriteHead incrementReadHead; simp only; split <;> split <;> rfl

theorem Inv.irq {s : Sys} {ops : List Log.Op} (h : Inv s ops) (hs : Safe s) {m : List Nat} (hm : m.length ≤ 39) :
    ∃ t, step s (.irq m) = some t ∧ Inv t (ops ++ [.log .warn m]) := by
  obtain ⟨⟨g, hf, hr⟩, hl⟩ := h
  obtain ⟨q, pc, o, cut⟩ := s
  obtain ⟨g', e, r⟩ := hr.logs .warn m hm
  have eo : LogSpec.run [] (ops ++ [.log .warn m]) = LogSpec.run [] ops := by rw [run_append]; simp [LogSpec.run]
  have r : Rep g' (after [] (ops ++ [.log .warn m])) := by rw [after_append]; exact r
  have hw : g.writeHead < g.logs.length := by rw [hr.wr, hr.len]; omega
  have plain : LogConc.fin ⟨q, pc, o, cut⟩ = some (q, o) → (∀ g', LogConc.fin ⟨g', pc, o, cut + 1⟩ = some (g', o)) →
      (∀ g' : Log.St, g'.count ≠ 0 → Local ⟨g', pc, o, cut + 1⟩) →
      ∃ t, step ⟨q, pc, o, cut⟩ (.irq m) = some t ∧ Inv t (ops ++ [.log .warn m]) := by
    intro a b c
    rw [a] at hf
    simp only [Option.some.injEq, Prod.mk.injEq] at hf
    obtain ⟨rfl, rfl⟩ := hf
    refine ⟨⟨g', pc, _, cut + 1⟩, by simp only [step, e], ⟨g', ?_, r⟩, c g' ?_⟩
    · rw [b, eo]
    · rw [r.count, after_append]
      simp only [after, LogSpec.newest, List.length_drop, List.length_append, List.length_cons, List.length_nil]
      omega
  cases pc with
  | idle => exact plain rfl (fun _ => rfl) fun _ _ => trivial
  | slot l m => exact plain rfl (fun _ => rfl) fun _ _ => hl
  | check => exact plain rfl (fun _ => rfl) fun _ _ => trivial
  | front => exact plain rfl (fun _ => rfl) fun _ hc => hc
  | put l' m' i =>
    have hi : q.writeHead ≠ i := hl.2 hs
    simp only [LogConc.fin, finPut] at hf
    split at hf
    · rename_i c
      simp only [Option.some.injEq, Prod.mk.injEq] at hf
      obtain ⟨rfl, rfl⟩ := hf
      simp only [List.length_set] at hw
      have e1 := log_eq q .warn m hw hm
      rw [log_eq _ _ _ (by simpa using hw) hm, incW_logs] at e
      cases e
      refine ⟨_, by simp only [step, e1]; rfl, ⟨_, ?_, r⟩, ?_⟩
      rotate_left
      · exact ⟨hl.1, fun h => by simp at h⟩
      simp only [LogConc.fin, finPut, List.length_set, if_pos c, eo, Option.some.injEq, Prod.mk.injEq, and_true]
      rw [List.set_comm _ _ hi]
    · cases hf
  | fetch i =>
    have hi : q.writeHead ≠ i := hl hs
    simp only [LogConc.fin, finFetch] at hf
    cases e' : q.logs[i]? with
    | none => rw [e'] at hf; cases hf
    | some x =>
      rw [e'] at hf
      simp only [Option.map_some, Option.some.injEq, Prod.mk.injEq] at hf
      obtain ⟨rfl, hf⟩ := hf
      have e1 := log_eq q .warn m hw hm
      rw [e1] at e
      cases e
      refine ⟨_, by simp only [step, e1]; rfl, ⟨_, ?_, r⟩, by simp [Local]⟩
      simp only [LogConc.fin, finFetch, eo]
      rw [List.getElem?_set_ne hi, e', Option.map_some, hf]
  | _ => exact absurd hs id

theorem Inv.run (as : List Act) : ∀ (s : Sys) (ops : List Log.Op), Inv s ops → Calm true s as →
    ∃ t, run s as = some t ∧ Inv t (ops ++ history s as) := by
  induction as with
  | nil => intro s ops h _; exact ⟨s, rfl, by simpa [history] using h⟩
  | cons a as ih =>
    intro s ops h hc
    have key : ∃ t, step s a = some t ∧ Inv t (ops ++ effect s a) := by
      cases a with
      | main => exact h.main
      | irq m => exact h.irq (hc.1.2 rfl) hc.1.1
      | call op =>
        simp only [effect, List.append_nil]
        by_cases hp : s.pc = .idle
        · refine ⟨_, rfl, ?_⟩
          simp only [hp, if_true]
          have := h.call (op := op) hp fun l m e => by subst e; exact hc.1
          exact this
        · exact ⟨_, rfl, by simp only [hp, if_false]; exact h⟩
    obtain ⟨t, e, i⟩ := key
    obtain ⟨u, e', j⟩ := ih t _ i (hc.2 t e)
    refine ⟨u, by simp only [LogConc.run, e]; exact e', ?_⟩
    simp only [history, e]
    rw [← List.append_assoc]; exact j

/-! ### Every call takes effect once -/

/-- The call that has not taken effect. -/
def pending (s : Sys) : List Log.Op :=
  match s.pc with
  | .slot l m => [.log l m]
  | .check | .front => [.dequeue]
  | _ => []

theorem own_step {s t : Sys} {a : Act} (e : step s a = some t) :
    own s a ++ pending t = pending s ++ program s a := by
  cases a with
  | call op =>
    simp only [step, Option.some.injEq] at e
    subst e
    by_cases h : s.pc = .idle
    · simp only [own, program, h, if_true, pending, List.nil_append]; cases op <;> rfl
    · simp [own, effect, program, h]
  | irq m =>
    simp only [step] at e
    split at e
    · cases e
    · cases e; simp [own, program, pending]
  | main =>
    simp only [step] at e
    obtain ⟨q, pc, o, cut⟩ := s
    cases pc <;> simp only [mainStep] at e
    case meet l m i => cases e; by_cases c : q.writeHead = q.readHead <;> simp [own, effect, program, pending, c]
    case put l m i => split at e <;> cases e; simp [own, effect, program, pending]
    case check => split at e <;> rename_i c <;> cases e <;> simp [own, effect, program, pending, c]
    case fetch i => split at e <;> cases e; simp [own, effect, program, pending]
    all_goals cases e; simp [own, effect, program, pending]

theorem own_run (as : List Act) : ∀ {s t : Sys}, run s as = some t →
    owns s as ++ pending t = pending s ++ programs s as := by
  induction as with
  | nil => intro s t e; cases e; simp [owns, programs]
  | cons a as ih =>
    intro s t e
    simp only [LogConc.run] at e
    cases h : step s a with
    | none => rw [h] at e; cases e
    | some u =>
      rw [h] at e
      simp only [owns, programs, h]
      rw [List.append_assoc, ih e, ← List.append_assoc, own_step h, List.append_assoc]

end Mdmi.LogConc
