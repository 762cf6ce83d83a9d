import Verif.Model.Utils
import Verif.Model.Midi
/-! C77: the program's own `memcmp`. -/
namespace Mdmi.Props
open Mdmi Mdmi.Utils

/-- Lexical order of two regions of the same size: they agree up to a place where the first has the smaller byte. -/
def LexLess (x y : List Nat) : Prop := ∃ p a b x' y', x = p ++ a :: x' ∧ y = p ++ b :: y' ∧ a < b

theorem memcmp_some {x y : List Nat} {n : Nat} (hx : n ≤ x.length) (hy : n ≤ y.length) :
    ∃ v, memcmp x y n = some v ∧ (v = 0 ∨ v = -1 ∨ v = 1) ∧ (v = 0 ↔ x.take n = y.take n) ∧
      (v = -1 ↔ LexLess (x.take n) (y.take n)) ∧ (v = 1 ↔ LexLess (y.take n) (x.take n)) := by
  have nil : ∀ l, ¬LexLess [] l := by
    rintro l ⟨p, a, b, x', y', e, -⟩
    cases p <;> cases e
  induction n generalizing x y with
  | zero => exact ⟨0, by cases x <;> cases y <;> rfl, .inl rfl, by simp, by simpa using nil [], by simpa using nil []⟩
  | succ n ih =>
    cases x with
    | nil => simp at hx
    | cons a x =>
      cases y with
      | nil => simp at hy
      | cons b y =>
        have head : ∀ {a b : Nat} {x y : List Nat}, LexLess (a :: x) (b :: y) → a < b ∨ (a = b ∧ LexLess x y) := by
          rintro a b x y ⟨p, c, d, x', y', e1, e2, h⟩
          cases p with
          | nil => cases e1; cases e2; exact .inl h
          | cons q p => cases e1; cases e2; exact .inr ⟨rfl, p, c, d, x', y', rfl, rfl, h⟩
        have lt : ∀ {a b : Nat} (x y : List Nat), a < b → LexLess (a :: x) (b :: y) :=
          fun x y h => ⟨[], _, _, x, y, rfl, rfl, h⟩
        have same : ∀ (a : Nat) {x y : List Nat}, LexLess x y → LexLess (a :: x) (a :: y) := by
          rintro a x y ⟨p, c, d, x', y', rfl, rfl, h⟩
          exact ⟨a :: p, c, d, x', y', rfl, rfl, h⟩
        simp only [List.take_succ_cons, memcmp]
        by_cases h : a = b
        · subst h
          obtain ⟨v, e, h1, h2, h3, h4⟩ := ih (x := x) (y := y) (by simpa using hx) (by simpa using hy)
          refine ⟨v, by simpa using e, h1, by simpa using h2, ?_, ?_⟩
          · rw [h3]; exact ⟨same a, fun k => (head k).elim (fun l => absurd l (Nat.lt_irrefl _)) (·.2)⟩
          · rw [h4]; exact ⟨same a, fun k => (head k).elim (fun l => absurd l (Nat.lt_irrefl _)) (·.2)⟩
        · have ne : a :: x.take n ≠ b :: y.take n := fun e => h (List.cons.inj e).1
          rw [if_pos h]
          by_cases l : a < b
          · rw [if_pos l]
            refine ⟨-1, rfl, by omega, by simp [ne], by simp [lt _ _ l], ?_⟩
            constructor
            · intro k; omega
            · intro k; rcases head k with k | k <;> omega
          · rw [if_neg l]
            refine ⟨1, rfl, by omega, by simp [ne], ?_, by simp [lt _ _ (show b < a by omega)]⟩
            constructor
            · intro k; omega
            · intro k; rcases head k with k | k <;> omega

/-- **C77**.  For regions of at least `count` bytes nothing undefined happens; the result is zero exactly if the first
`count` bytes agree, negative exactly if the first region is lexically less, positive exactly if the second is. -/
theorem C77_memcmp {x y : List Nat} {n : Nat} (hx : n ≤ x.length) (hy : n ≤ y.length) :
    ∃ v, memcmp x y n = some v ∧ (v = 0 ↔ x.take n = y.take n) ∧ (v < 0 ↔ LexLess (x.take n) (y.take n)) ∧
      (0 < v ↔ LexLess (y.take n) (x.take n)) := by
  obtain ⟨v, e, h1, h2, h3, h4⟩ := memcmp_some hx hy
  refine ⟨v, e, h2, ?_, ?_⟩
  · rw [← h3]; omega
  · rw [← h4]; omega

/-- **C77** (reads).  It reads no byte behind the first difference: regions that end with the differing byte are long enough,
whatever the count. -/
theorem C77_stops_at_difference (p x y : List Nat) {a b : Nat} (h : a ≠ b) (n : Nat) :
    memcmp (p ++ a :: x) (p ++ b :: y) (p.length + 1 + n) = memcmp (p ++ [a]) (p ++ [b]) (p.length + 1) := by
  induction p with
  | nil =>
    rw [show [].length + 1 + n = n + 1 by simp; omega]
    simp only [List.nil_append, List.length_nil, memcmp, if_pos h]
  | cons q p ih =>
    rw [show (q :: p).length + 1 + n = (p.length + 1 + n) + 1 by simp; omega, List.length_cons]
    simp only [List.cons_append, memcmp, ne_eq, not_true, if_false]
    exact ih

/-- **C77** (the other direction).  If the regions agree, all `count` bytes are read: a region that is shorter is undefined
behaviour. -/
theorem C77_reads_all (x : List Nat) (n : Nat) (h : x.length < n) : memcmp x x n = none := by
  induction x generalizing n with
  | nil => cases n with
    | zero => simp at h
    | succ n => rfl
  | cons a x ih =>
    cases n with
    | zero => simp at h
    | succ n => simpa only [memcmp, ne_eq, not_true, if_false] using ih n (by simpa using h)

/-- **C77** (use).  The two comparisons of `midi_sysex` (midi.c:859 and 865, after the length was checked) are what the engine's
model uses: nothing undefined, and zero exactly for the General MIDI reset and for the manufacturer's header. -/
theorem C77_sysex_heads (data : List Nat) (h : 4 ≤ data.length) :
    (∃ v, memcmp data [0x7E, 0x7F, 0x09, 0x01] 4 = some v ∧ (v = 0 ↔ data.take 4 = [0x7E, 0x7F, 0x09, 0x01])) ∧
    (∃ v, memcmp data [0x00, 0x22, 0x77] 3 = some v ∧ (v = 0 ↔ data.take 3 = [0x00, 0x22, 0x77])) := by
  obtain ⟨v, e, k, -⟩ := C77_memcmp (x := data) (y := [0x7E, 0x7F, 0x09, 0x01]) (n := 4) h (by simp)
  obtain ⟨w, f, l, -⟩ := C77_memcmp (x := data) (y := [0x00, 0x22, 0x77]) (n := 3) (by omega) (by simp)
  exact ⟨⟨v, e, k⟩, ⟨w, f, l⟩⟩

example : memcmp [1, 200, 7] [1, 100] 9 = some 1 ∧ memcmp [1, 2, 3] [1, 2, 4] 2 = some 0 ∧ memcmp [1, 2] [1, 2] 3 = none := by
  decide
example : LexLess [1, 100, 9] [1, 200, 3] := ⟨[1], 100, 200, [9], [3], rfl, rfl, by decide⟩

end Mdmi.Props
