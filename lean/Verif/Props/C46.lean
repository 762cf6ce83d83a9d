import Verif.Proofs.Log
/-! C46: the log keeps the most recent messages in order. -/
namespace Mdmi.Props
open Mdmi

/-- **C46.** For every sequence of log and dequeue calls whose messages fit the 40-byte field
(39 characters), no access is out of bounds and the dequeue calls return what a first-in first-out
queue that keeps only its nine newest entries returns. -/
theorem C46_log_keeps_newest (ops : List Log.Op)
    (hfit : ∀ l m, Log.Op.log l m ∈ ops → m.length ≤ 39) :
    Log.run Log.init ops = some (LogSpec.run [] ops) :=
  Log.Rep.init.run ops hfit

private theorem run_logs (l : Log.Level) (msgs : List (List Nat)) (rest : List Log.Op) :
    ∀ q, q.length ≤ 9 → LogSpec.run q (msgs.map (Log.Op.log l) ++ rest) =
      LogSpec.run (LogSpec.newest 9 (q ++ msgs.map (⟨l, ·⟩))) rest := by
  induction msgs with
  | nil => intro q hq; simp [LogSpec.newest, show q.length - 9 = 0 by omega]
  | cons m msgs ih =>
    intro q hq
    simp only [List.map_cons, List.cons_append, LogSpec.run]
    rw [ih _ (by simp [LogSpec.newest]; omega)]
    congr 1
    simp only [LogSpec.newest, List.length_append, List.length_drop, List.length_map,
      List.length_cons, List.length_nil]
    by_cases h9 : q.length = 9
    · have hq0 : q ≠ [] := by intro e; simp [e] at h9
      obtain ⟨x, q', rfl⟩ := List.exists_cons_of_ne_nil hq0
      simp at h9
      simp [h9]
    · rw [show q.length + (0 + 1) - 9 = 0 by omega]
      simp only [List.drop_zero, List.append_assoc, List.cons_append, List.nil_append]
      congr 1
      omega

private theorem run_deqs (q : List Log.Entry) : ∀ n, q.length ≤ n →
    LogSpec.run q (List.replicate n Log.Op.dequeue) =
      q.map some ++ List.replicate (n - q.length) none := by
  induction q with
  | nil =>
    intro n _
    induction n with
    | zero => rfl
    | succ n ih => simpa [List.replicate_succ, LogSpec.run] using ih
  | cons e q ih =>
    intro n hn
    cases n with
    | zero => simp at hn
    | succ n =>
      simp at hn
      simp [List.replicate_succ, LogSpec.run, ih n hn]

/-- Corollary: log any number of messages without draining, then drain; exactly the nine newest come
out, in order, followed by "nothing left". -/
theorem C46_undrained_log_keeps_nine_newest (msgs : List (List Nat)) (l : Log.Level) (n : Nat)
    (hn : 9 ≤ n) (hfit : ∀ m ∈ msgs, m.length ≤ 39) :
    Log.run Log.init (msgs.map (Log.Op.log l) ++ List.replicate n Log.Op.dequeue) =
      some ((msgs.drop (msgs.length - 9)).map (fun m => some ⟨l, m⟩) ++
        List.replicate (n - min msgs.length 9) none) := by
  rw [C46_log_keeps_newest _ (by
    intro l' m h
    simp [List.mem_replicate] at h
    exact hfit m h.1)]
  rw [run_logs l msgs _ [] (by simp), run_deqs _ n (by simp [LogSpec.newest]; omega)]
  simp only [LogSpec.newest, List.nil_append, List.length_map, List.map_drop, List.map_map,
    List.length_drop]
  congr 3
  omega

/-- A longer message overruns its field. -/
theorem C46_long_message_is_undefined (m : List Nat) (h : 40 ≤ m.length) :
    Log.run Log.init [.log .warn m] = none := by
  have : ¬ (m.length + 1 ≤ 40) := by omega
  simp [Log.run, Log.log, this]

-- non-vacuity
example : Log.run Log.init [.log .info [72, 105], .log .warn [33], .dequeue, .dequeue, .dequeue] =
    some [some ⟨.info, [72, 105]⟩, some ⟨.warn, [33]⟩, none] := by decide

end Mdmi.Props
