import Verif.Props.C25
/-! C27: the PSG chip matches the driver's cache. -/
namespace Mdmi.Props
open Mdmi Mdmi.Psg

/-- **C27** (partial: histories without `reset` after the initial one).  For every history, each
channel's cached tone and attenuation are the values last written to the chip. -/
theorem C27_chip_matches_cache_partial (env : Env) (he : env.Legal) (ops : List Op)
    (hops : ∀ op ∈ ops, op ≠ .reset) (n : Nat) (hn : n < 4) :
    let s := Psg.run env (Psg.init env) ops
    (s.ch n).freq = chipTone s.out n ∧ (s.ch n).attenuation = chipAtt s.out n :=
  run_synced ops (init_synced he) hops n hn

private theorem tick_idle (env : Env) (s : Psg.St) (h : ∀ n < 4, (s.ch n).noteOn = false) :
    Psg.tick env s = s := by
  have one : ∀ n, n < 4 → onChan s n (tickChan env s.userBuf n) = s := by
    intro n hn
    simp only [onChan, hn, if_true, tickChan, h n hn, Bool.false_eq_true, if_false]
    obtain ⟨a, b, c, d, e⟩ := s
    simp only [List.nil_append, Psg.St.mk.injEq, true_and, and_true]
    funext j
    simp only [upd]; split
    · rename_i e; rw [e]
    · rfl
  simp only [Psg.tick, show List.range 4 = [0, 1, 2, 3] from rfl, List.foldl_cons, List.foldl_nil]
  rw [one 0 (by omega), one 1 (by omega), one 2 (by omega), one 3 (by omega)]

private theorem noteOff_idle (s : Psg.St) (n : Nat) (hn : n < 4) (h : (s.ch n).noteOn = false) :
    Psg.noteOff s n = s := by
  simp only [Psg.noteOff, onChan, releaseChan, h, hn, if_true, Bool.false_eq_true, if_false]
  obtain ⟨a, b, c, d, e⟩ := s
  simp only [List.nil_append, Psg.St.mk.injEq, true_and, and_true]
  funext j
  simp only [upd]; split
  · rename_i e; rw [e]
  · rfl

private theorem idle_run (env : Env) (s : Psg.St) (h : ∀ n < 4, (s.ch n).noteOn = false) (k : Nat) :
    Psg.run env s ((List.replicate k [Op.noteOff 0, Op.tick]).flatten) = s := by
  induction k with
  | zero => rfl
  | succ k ih =>
    rw [List.replicate_succ, List.flatten_cons]
    simp only [Psg.run, List.cons_append, List.nil_append, List.foldl_cons, Psg.step]
    rw [noteOff_idle s 0 (by omega) (h 0 (by omega)), tick_idle env s h]
    exact ih

private def real : Env := ⟨realEnvelopes, false⟩
private def afterReset : Psg.St := Psg.run real (Psg.init real) [.noteOn 0 60 0 127, .reset]

private theorem afterReset_facts : (∀ n : Fin 4, (afterReset.ch n.val).noteOn = false) ∧
    chipAtt afterReset.out 0 = 0 ∧ (afterReset.ch 0).attenuation = 15 := by decide +kernel

/-- The full statement is false: `reset` marks a sounding channel as silent without writing to the
chip.  The note keeps sounding at full volume through any number of note-offs and ticks. -/
theorem C27_reset_leaves_note_sounding (k : Nat) :
    let s := Psg.run real (Psg.init real) ([Op.noteOn 0 60 0 127, Op.reset] ++
      (List.replicate k [Op.noteOff 0, Op.tick]).flatten)
    chipAtt s.out 0 = 0 ∧ (s.ch 0).attenuation = 15 := by
  have e : Psg.run real (Psg.init real) ([Op.noteOn 0 60 0 127, Op.reset] ++
      (List.replicate k [Op.noteOff 0, Op.tick]).flatten) = afterReset := by
    have h : ∀ n < 4, (afterReset.ch n).noteOn = false := by
      intro n hn
      have := afterReset_facts.1 ⟨n, hn⟩
      simpa only using this
    have := idle_run real afterReset h k
    rw [Psg.run, List.foldl_append]
    exact this
  simp only [e]
  exact afterReset_facts.2

-- non-vacuity: a history with suppressed and performed writes
example : let ops : List Op := [.noteOn 0 60 0 127, .tick, .tick, .volume 0 64, .pitch 0 62 50,
      .noteOff 0]
    let s := Psg.run real (Psg.init real) ops
    (∀ op ∈ ops.map (fun o => match o with | .reset => true | _ => false), op = false) ∧
    chipTone s.out 0 = 370 ∧ chipAtt s.out 0 = 15 ∧ s.out.length = 6 := by decide +kernel

end Mdmi.Props
