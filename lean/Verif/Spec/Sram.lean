import Verif.Model.Sram
/-!
# Specification of preset memory faults
-/
namespace Mdmi.Sram

/-- Bit `j` of a list of bytes, most significant bit of the first byte first. -/
def bitAt (l : List (BitVec 8)) (j : Nat) : Bool := (l.getD (j / 8) 0).getLsbD (7 - j % 8)

/-- Number of set bits of a byte. -/
def popcount (v : BitVec 8) : Nat := (List.range 8).countP v.getLsbD

/-- Number of bits in which two lists of bytes differ. -/
def flips (l k : List (BitVec 8)) : Nat := (List.zipWith (fun a b => popcount (a ^^^ b)) l k).sum

/-- The bytes of the 36-byte area that belongs to a program (128 areas after a 32-byte header). -/
def area (program : Nat) (a : Nat) : Prop := 32 + 36 * program ≤ a ∧ a < 32 + 36 * program + 36

end Mdmi.Sram
