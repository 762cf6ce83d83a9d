/-!
# Model of `src/comm/ip_util.c`

Strings are lists of character codes without the terminating NUL; the destination buffers are large
enough at the call sites (src/comm/comm_megawifi.c: 16 bytes).
-/
namespace Mdmi.IpUtil

/-- `uint8_to_str`, src/comm/ip_util.c:3-27: the characters written (the result value is their
number). -/
def uint8ToStr (num : Nat) : List Nat :=
  let (hundreds, num) : List Nat × Nat :=
    if num > 199 then ([50], num - 200)
    else if num > 99 then ([49], num - 100)
    else ([], num)
  let tmp := num / 10
  hundreds ++ (if tmp ≠ 0 then [48 + tmp] else []) ++ [48 + num % 10]

/-- `uint32_to_ip_str`, src/comm/ip_util.c:30-44, for the four bytes of the address in memory order
(on the big-endian 68000, most significant first). -/
def uint32ToIpStr (ip : Nat) : List Nat :=
  let byte (i : Nat) : Nat := ip / 256 ^ (3 - i) % 256
  uint8ToStr (byte 0) ++ [46] ++ uint8ToStr (byte 1) ++ [46] ++ uint8ToStr (byte 2) ++ [46] ++
    uint8ToStr (byte 3)

end Mdmi.IpUtil
