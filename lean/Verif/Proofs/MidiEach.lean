import Verif.Proofs.MidiMono
/-!
# Loops over the voices of a MIDI channel
-/
namespace Mdmi.Midi

variable {env : Env} {s : St}

/-- What the loop body establishes for each voice holds after the loop. -/
theorem foreach_done {I : St → Prop} {Q : Nat → St → Prop} {c : Nat} {body : St → Nat → St}
    (hI : ∀ t i, i < 13 → (t.dev i).midiChannel = c → I t → I (body t i))
    (hm : ∀ t i j, I t → i < 13 → (t.dev i).midiChannel = c → ((body t i).dev j).midiChannel = (t.dev j).midiChannel)
    (hq : ∀ t i, I t → i < 13 → (t.dev i).midiChannel = c → Q i (body t i))
    (hk : ∀ t i j, I t → i < 13 → j < 13 → (t.dev i).midiChannel = c → j ≠ i → Q j t → Q j (body t i)) (hs : I s) :
    I (foreach s c body) ∧ (∀ j, ((foreach s c body).dev j).midiChannel = (s.dev j).midiChannel) ∧
      ∀ i, i < 13 → (s.dev i).midiChannel = c → Q i (foreach s c body) := by
  unfold foreach
  have : ∀ n, n ≤ 13 →
      let t := (List.range n).foldl (fun s i => if (s.dev i).midiChannel = c then body s i else s) s
      I t ∧ (∀ j, (t.dev j).midiChannel = (s.dev j).midiChannel) ∧ ∀ i, i < n → (s.dev i).midiChannel = c → Q i t := by
    intro n
    induction n with
    | zero => intro _; exact ⟨hs, fun _ => rfl, fun i hi => absurd hi (by omega)⟩
    | succ n ih =>
      intro hn
      obtain ⟨h1, h2, h3⟩ := ih (by omega)
      rw [List.range_succ, List.foldl_append]
      simp only [List.foldl_cons, List.foldl_nil]
      generalize (List.range n).foldl (fun s i => if (s.dev i).midiChannel = c then body s i else s) s = t at *
      split
      · rename_i hc
        refine ⟨hI t n (by omega) hc h1, fun j => (hm t n j h1 (by omega) hc).trans (h2 j), fun i hi hic => ?_⟩
        by_cases e : i = n
        · subst e; exact hq t i h1 (by omega) hc
        · exact hk t n i h1 (by omega) (by omega) hc e (h3 i (by omega) hic)
      · rename_i hc
        refine ⟨h1, h2, fun i hi hic => ?_⟩
        by_cases e : i = n
        · subst e; rw [h2 i] at hc; exact absurd hic hc
        · exact h3 i (by omega) hic
  exact this 13 (Nat.le_refl _)

end Mdmi.Midi
