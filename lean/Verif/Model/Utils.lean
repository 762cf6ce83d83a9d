/-!
# Model of `memcmp`, src/utils.c:18-28

The program brings its own `memcmp`.  A region is the list of bytes from the pointer to the end of its object; a read beyond is
undefined (`none`).  `count` is a `size_t`; its decrement past 0 happens after the test and is not used.
-/
namespace Mdmi.Utils

/-- `memcmp`, utils.c:18-28: `*s1++ != *s2++`, then `s1[-1] < s2[-1] ? -1 : 1`. -/
def memcmp : (x y : List Nat) → (count : Nat) → Option Int
  | _, _, 0 => some 0
  | a :: x, b :: y, n + 1 => if a ≠ b then some (if a < b then -1 else 1) else memcmp x y n
  | _, _, _ + 1 => none

end Mdmi.Utils
