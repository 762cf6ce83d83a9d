import Verif.Proofs.PsgSync
/-! C25: PSG envelope playback never leaves the envelope. -/
namespace Mdmi.Props
open Mdmi Mdmi.Psg

/-- **C25.** For every legal history of API calls, with any envelopes loaded before or during
playback, nothing is undefined, and every channel's cursor and loop start point to a byte of an
envelope that has an END byte at or after it. -/
theorem C25_envelope_memory_safe (env : Env) (he : env.Legal) (ops : List Op)
    (hops : ∀ op ∈ ops, op.Legal) :
    (Psg.run env (Psg.init env) ops).fault = false ∧
    ∀ n < 4, let s := Psg.run env (Psg.init env) ops
      (∃ k, deref env s.userBuf ⟨(s.ch n).step.src, (s.ch n).step.off + k⟩ = some 0xFF) ∧
      (∀ ls, (s.ch n).loopStart = some ls →
        ∃ k, deref env s.userBuf ⟨ls.src, ls.off + k⟩ = some 0xFF) := by
  have h := run_good he ops (init_good he) hops
  exact ⟨h.nofault, fun n hn => ⟨(h.chans n hn).step, (h.chans n hn).loop⟩⟩

/-- The END byte is a real precondition of loading: without one in the first 256 bytes the copy loop
leaves its buffers. -/
theorem C25_unterminated_envelope_is_undefined (s : Psg.St) (e : List Nat)
    (h : ∀ k < 256, e[k]? ≠ some 0xFF) : (Psg.loadEnvelope s e).fault = true := by
  suffices H : ∀ (e : List Nat) (i : Nat) (buf : Nat → Nat),
      (∀ k, i + k < 256 → e[k]? ≠ some 0xFF) → loadLoop e i buf = none by
    simp [loadEnvelope, H e 0 s.userBuf (fun k hk => h k (by omega))]
  intro e
  induction e with
  | nil => intros; rfl
  | cons b e ih =>
    intro i buf h
    simp only [loadLoop]
    split
    · rename_i hi
      have hb : b ≠ 0xFF := by have := h 0 (by omega); simpa using this
      rw [if_neg hb]
      exact ih _ _ fun k hk => by have := h (k + 1) (by omega); simpa using this
    · rfl

/-- The built-in envelopes (src/envelopes.c) are legal. -/
theorem C25_builtin_envelopes_legal (pal : Bool) : Env.Legal ⟨realEnvelopes, pal⟩ where
  count := by
    have h : realEnvelopes.length = 128 := by decide +kernel
    exact h
  ended := by
    have h : ∀ e ∈ realEnvelopes, 0xFF ∈ e := by decide +kernel
    exact h

-- non-vacuity: a shorter envelope is loaded while a note plays past its end
example : let ops : List Op := [.loadEnvelope [0, 1, 0xFE, 2, 3, 0xFD, 4, 0xFF], .noteOn 0 60 0 127,
      .tick, .tick, .tick, .loadEnvelope [5, 0xFF], .tick, .noteOff 0, .tick, .tick, .tick, .reset]
    (∀ op ∈ ops.take 1, op.Legal) ∧
    (Psg.run ⟨realEnvelopes, false⟩ (Psg.init ⟨realEnvelopes, false⟩) ops).fault = false := by
  refine ⟨?_, by decide +kernel⟩
  simp only [List.take, List.mem_singleton, forall_eq]
  exact ⟨7, by omega, rfl⟩

end Mdmi.Props
