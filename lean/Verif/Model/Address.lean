import Verif.Cpp.Num
import Verif.Model.HttpCodes

/-!
# Model of `src/cppnet/socket/address.cpp`, with glibc's `inet_addr` and `inet_ntoa`
-/

namespace Cppnet

/-- The value of a digit in bases up to 16 (used by address.cpp:24). -/
def digitVal (c : Byte) : Option Nat :=
  if 48 ≤ c ∧ c ≤ 57 then some (c.toNat - 48)
  else if 97 ≤ c ∧ c ≤ 102 then some (c.toNat - 87)
  else if 65 ≤ c ∧ c ≤ 70 then some (c.toNat - 55)
  else none

/-- Digits of base `base`, as far as they go: value and rest (used by address.cpp:24). -/
def numBase (base acc : Nat) : Str → Nat × Str
  | [] => (acc, [])
  | c :: s =>
    match digitVal c with
    | some v => if v < base then numBase base (acc * base + v) s else (acc, c :: s)
    | none => (acc, c :: s)

/-- `strtoul(s, &end, 0)` for a text that starts with a digit; the value is not cut off at `ULONG_MAX`
(the caller rejects everything above 2^32 - 1) (used by address.cpp:24). -/
def strtoul0 (s : Str) : Nat × Str :=
  match s with
  | 48 :: x :: h :: rest =>
    if (x = 120 ∨ x = 88) ∧ (digitVal h).isSome then numBase 16 0 (h :: rest) else numBase 8 0 s
  | 48 :: _ => numBase 8 0 s
  | _ => numBase 10 0 s

/-- glibc resolv/inet_addr.c, the loop of `inet_aton_end`: `parts` are the values before the dots read
so far; `fuel` bounds the number of parts (a fourth dot is rejected, so 4 is enough) (called at address.cpp:24). -/
def inetLoop : Nat → List Nat → Str → Option (List Nat × Nat)
  | 0, _, _ => none
  | _ + 1, _, [] => none
  | fuel + 1, parts, c :: s =>
    if isDigit c then
      match strtoul0 (c :: s) with
      | (val, rest) =>
        if 0xffffffff < val then none
        else match rest with
          | [] => some (parts, val)
          | 46 :: rest' => if 2 < parts.length ∨ 0xff < val then none else inetLoop fuel (parts ++ [val]) rest'
          | d :: _ => if isSpace d then some (parts, val) else none
    else none

/-- The four address bytes in memory order (network order) (address.hpp:58). -/
structure Ip where
  a : Nat
  b : Nat
  c : Nat
  d : Nat
  deriving DecidableEq, Repr

/-- `INADDR_NONE` (address.cpp:24). -/
def ipNone : Ip := ⟨255, 255, 255, 255⟩

/-- glibc `inet_addr`: `INADDR_NONE` for text it rejects; the last value fills the remaining bytes
(called at address.cpp:24, 40). -/
def inetAddr (s : Str) : Ip :=
  match inetLoop 4 [] (s.takeWhile (· != 0)) with
  | none => ipNone
  | some ([], v) => ⟨v / 2 ^ 24, v / 2 ^ 16 % 256, v / 2 ^ 8 % 256, v % 256⟩
  | some ([x], v) => if 0xffffff < v then ipNone else ⟨x, v / 2 ^ 16, v / 2 ^ 8 % 256, v % 256⟩
  | some ([x, y], v) => if 0xffff < v then ipNone else ⟨x, y, v / 2 ^ 8, v % 256⟩
  | some ([x, y, z], v) => if 0xff < v then ipNone else ⟨x, y, z, v⟩
  | some _ => ipNone

/-- `inet_ntoa`: `"%u.%u.%u.%u"` (called at address.cpp:45, 51). -/
def inetNtoa (i : Ip) : Str :=
  natToStr i.a ++ b!"." ++ natToStr i.b ++ b!"." ++ natToStr i.c ++ b!"." ++ natToStr i.d

/-- `htons` on a little-endian machine (swaps the bytes); `ntohs` is the same function
(called at address.cpp:23, 46, 49). -/
def htons (p : UInt16) : UInt16 := UInt16.ofNat (p.toNat % 256 * 256 + p.toNat / 256)

/-- address.hpp:58, the member `addr_` (family omitted: always `AF_INET`). -/
structure Address where
  port : UInt16 := htons 0
  ip : Ip := ⟨0, 0, 0, 0⟩
  deriving DecidableEq

/-- address.cpp:21-26, `Init`: object and result. -/
def addressInit (ip : Str) (port : UInt16) : Address × Int := ({ port := htons port, ip := inetAddr ip }, 0)

/-- address.cpp:28-42, `InitWithDomain`; `host` is what `gethostbyname` answers (`none`: failure; the code
assumes an IPv4 answer). -/
def addressInitDomain (old : Address) (port : UInt16) (host : Option Ip) : Address × Int :=
  match host with
  | none => ({ old with port := htons port }, -1)
  | some ip => ({ port := htons port, ip := inetAddr (inetNtoa ip) }, 0)

/-- address.cpp:49, `GetPort`. -/
def addressPort (a : Address) : UInt16 := htons a.port

/-- address.cpp:51, `GetIP`. -/
def addressIP (a : Address) : Str := inetNtoa a.ip

/-- address.cpp:53-58, `ToString`. -/
def addressToString (a : Address) : Str := addressIP a ++ b!":" ++ natToStr (addressPort a).toNat

end Cppnet
