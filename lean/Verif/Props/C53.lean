import Verif.Model.IpUtil
/-! C53: IP address formatting. -/
namespace Mdmi.Props
open Mdmi

/-- Specification: value of a decimal digit string, `none` if some character is not a digit or the
string is empty. -/
def decimalValue : List Nat → Option Nat
  | [] => none
  | cs => cs.foldlM (fun n c => if 48 ≤ c ∧ c ≤ 57 then some (10 * n + (c - 48)) else none) 0

/-- Specification: fields of a string separated by dots (character 46). -/
def dotFields : List Nat → List (List Nat)
  | [] => [[]]
  | c :: cs => match dotFields cs with
    | [] => [[c]]
    | f :: fs => if c = 46 then [] :: f :: fs else (c :: f) :: fs

/-- Octets the code prints correctly: the tens digit must not be a zero after a hundreds digit. -/
def goodOctet (n : Nat) : Prop := ¬ (100 ≤ n ∧ n / 10 % 10 = 0)

instance (n : Nat) : Decidable (goodOctet n) := inferInstanceAs (Decidable (¬ _))

private theorem octet_table : ∀ n : Fin 256,
    decimalValue (IpUtil.uint8ToStr n.val) =
      some (if goodOctet n.val then n.val else n.val / 100 * 10 + n.val % 10) ∧
    46 ∉ IpUtil.uint8ToStr n.val ∧ (IpUtil.uint8ToStr n.val).length ≤ 3 := by
  decide +kernel

private theorem dotFields_append (a b : List Nat) (ha : 46 ∉ a) :
    dotFields (a ++ 46 :: b) = a :: dotFields b := by
  have hne : ∀ l, dotFields l ≠ [] := by
    intro l
    cases l with
    | nil => simp [dotFields]
    | cons c l => simp only [dotFields]; split <;> (try split) <;> simp
  induction a with
  | nil =>
    simp only [List.nil_append, dotFields]
    cases h : dotFields b with
    | nil => exact absurd h (hne b)
    | cons f fs => simp
  | cons c a ih =>
    simp at ha
    simp only [List.cons_append, dotFields, ih ha.2]
    simp [Ne.symm ha.1]

private theorem dotFields_single (a : List Nat) (ha : 46 ∉ a) : dotFields a = [a] := by
  induction a with
  | nil => rfl
  | cons c a ih =>
    simp at ha
    simp [dotFields, ih ha.2, Ne.symm ha.1]

/-- **C53** (partial: octets 100–109 and 200–209 excluded).  For every 32-bit address, the text has
four fields separated by dots, and each field is the decimal value of its octet, most significant
first; the text always fits a 16-byte buffer with its terminator. -/
theorem C53_ip_text_partial (ip : Nat) (hip : ip < 2 ^ 32)
    (hgood : ∀ i < 4, goodOctet (ip / 256 ^ i % 256)) :
    (dotFields (IpUtil.uint32ToIpStr ip)).map decimalValue =
      [some (ip / 2 ^ 24), some (ip / 2 ^ 16 % 256), some (ip / 2 ^ 8 % 256), some (ip % 256)] ∧
    (IpUtil.uint32ToIpStr ip).length ≤ 15 := by
  have h0 := octet_table ⟨ip / 256 ^ 3 % 256, by omega⟩
  have h1 := octet_table ⟨ip / 256 ^ 2 % 256, by omega⟩
  have h2 := octet_table ⟨ip / 256 ^ 1 % 256, by omega⟩
  have h3 := octet_table ⟨ip / 256 ^ 0 % 256, by omega⟩
  simp only at h0 h1 h2 h3
  have g0 := h0.1
  rw [if_pos (hgood 3 (by omega))] at g0
  have g1 := h1.1
  rw [if_pos (hgood 2 (by omega))] at g1
  have g2 := h2.1
  rw [if_pos (hgood 1 (by omega))] at g2
  have g3 := h3.1
  rw [if_pos (hgood 0 (by omega))] at g3
  refine ⟨?_, ?_⟩
  · simp only [IpUtil.uint32ToIpStr, List.append_assoc, List.cons_append, List.nil_append]
    rw [dotFields_append _ _ h0.2.1, dotFields_append _ _ h1.2.1, dotFields_append _ _ h2.2.1,
      dotFields_single _ h3.2.1]
    simp only [List.map_cons, List.map_nil]
    rw [g0, g1, g2, g3]
    simp
    omega
  · have a := h0.2.2; have b := h1.2.2; have c := h2.2.2; have d := h3.2.2
    simp only [IpUtil.uint32ToIpStr, List.length_append, List.length_cons, List.length_nil]
    simp only [show 3 - 0 = 3 by rfl, show 3 - 1 = 2 by rfl, show 3 - 2 = 1 by rfl,
      show 3 - 3 = 0 by rfl] at *
    omega

/-- The excluded octets are all shown wrongly: without their zero in the middle. -/
theorem C53_bad_octets (n : Nat) (h : n < 256) (hb : ¬ goodOctet n) :
    decimalValue (IpUtil.uint8ToStr n) = some (n / 100 * 10 + n % 10) ∧ n / 100 * 10 + n % 10 ≠ n := by
  have t := (octet_table ⟨n, h⟩).1
  simp only [if_neg hb] at t
  refine ⟨t, ?_⟩
  unfold goodOctet at hb; omega

/-- The full statement is false: 192.168.1.101 and 192.168.1.11 are shown as the same text. -/
theorem C53_two_addresses_same_text :
    IpUtil.uint32ToIpStr 0xC0A80165 = IpUtil.uint32ToIpStr 0xC0A8010B := by decide

-- non-vacuity: 10.0.2.15
example : (∀ i < 4, goodOctet (0x0A00020F / 256 ^ i % 256)) ∧
    IpUtil.uint32ToIpStr 0x0A00020F = [49, 48, 46, 48, 46, 50, 46, 49, 53] := by decide

end Mdmi.Props
