import Verif.Cpp.Basic

/-!
# Model of `src/cppnet/utils/string.cpp` and `File::Suffix`
-/

namespace Cppnet

/-- string.cpp:12-19, the loop of `StringUtil::Split` from position `pos` with the pieces `arr`
already pushed.  `fuel` bounds the number of iterations; running out of it is `diverge`.
`found - pos` cannot wrap (`find` returns a position `≥ pos`). -/
def splitLoop (s d : Str) (keep : Bool) : Nat → Nat → List Str → Out (List Str)
  | 0, _, _ => .error .diverge
  | fuel + 1, pos, arr =>
    match find s d pos with
    | some found => do
      let piece ← if keep then substr s pos (found - pos + d.length) else substr s pos (found - pos)
      splitLoop s d keep fuel (found + d.length) (arr ++ [piece])
    | none => do
      let last ← substrFrom s pos
      .ok (arr ++ [last])

/-- string.cpp:7-20, `StringUtil::Split`.  `arr` is the previous content of the output vector.
The fuel is one more than the largest number of iterations a non-empty delimiter can need;
`Split_fuel` shows that more fuel changes nothing. -/
def Split (s d : Str) (arr : List Str) (keep : Bool) : Out (List Str) :=
  splitLoop s d keep (s.length + 2) 0 arr

/-- string.cpp:25-35, the lambda `FromHex`: letters beyond F are accepted, anything else is 0. -/
def fromHex (ch : Byte) : Byte :=
  if 65 ≤ ch ∧ ch ≤ 90 then ch - 65 + 10
  else if 97 ≤ ch ∧ ch ≤ 122 then ch - 97 + 10
  else if 48 ≤ ch ∧ ch ≤ 57 then ch - 48
  else 0

/-- string.cpp:36-49, the loop of `UrlDecode` on the rest of the string, `acc` is `strTemp`.
The bound check `i + 2 > length` (40) only catches a `%` that is the very last byte; a `%`
followed by one byte reads `src[length]`, which is the terminating NUL. -/
def urlDecodeLoop : Str → Str → Str
  | acc, [] => acc
  | acc, c :: s =>
    if c = 43 then urlDecodeLoop (acc ++ [32]) s
    else if c = 37 then
      match s with
      | [] => []
      | [h] => acc ++ [fromHex h * 16 + fromHex 0]
      | h :: l :: s' => urlDecodeLoop (acc ++ [fromHex h * 16 + fromHex l]) s'
    else urlDecodeLoop (acc ++ [c]) s
  termination_by structural _ s => s

/-- string.cpp:22-50, `StringUtil::UrlDecode`. -/
def UrlDecode (src : Str) : Str := urlDecodeLoop [] src

/-- string.cpp:55-60, the lambda `ToHex`. -/
def toHex (ch : Byte) : Byte := if ch < 10 then ch + 48 else ch - 10 + 65

/-- `isalnum` in the "C" locale (called at string.cpp:62). -/
def isAlnum (c : Byte) : Bool :=
  (48 ≤ c && c ≤ 57) || (65 ≤ c && c ≤ 90) || (97 ≤ c && c ≤ 122)

/-- string.cpp:62-64, the bytes `UrlEncode` copies unchanged. -/
def urlKeep (c : Byte) : Bool :=
  isAlnum c || c == 45 || c == 95 || c == 46 || c == 126 || c == 47 || c == 61 || c == 63 || c == 38

/-- string.cpp:62-72, one iteration of `UrlEncode`. -/
def urlEncodeByte (c : Byte) : Str :=
  if urlKeep c then [c] else if c = 32 then [43] else [37, toHex (c >>> 4), toHex (c % 16)]

/-- string.cpp:52-75, `StringUtil::UrlEncode`. -/
def UrlEncode : Str → Str
  | [] => []
  | c :: s => urlEncodeByte c ++ UrlEncode s

/-- string.cpp:83-89: row 0 of the table, columns `1..n` (stops at the first non-`*`). -/
def wildRow0 : Str → List Bool
  | [] => []
  | p :: ps => if p = 42 then true :: wildRow0 ps else List.replicate (ps.length + 1) false

/-- string.cpp:91-97: columns `1..n` of row `i` for source byte `c`; `left` is `dp[i][j-1]`,
`diag` is `dp[i-1][j-1]`, the third argument holds `dp[i-1][j..n]`. -/
def wildRow (c : Byte) : Bool → Bool → List Bool → Str → List Bool
  | left, diag, up :: ups, p :: ps =>
    let v := if p = 42 then left || up else if p = 63 ∨ c = p then diag else false
    v :: wildRow c v up ups ps
  | _, _, _, _ => []

/-- string.cpp:90-98: rows `1..m`; a row is (column 0, columns 1..n). -/
def wildRows (pat : Str) : Bool × List Bool → Str → Bool × List Bool
  | row, [] => row
  | row, c :: src => wildRows pat (false, wildRow c false row.1 row.2 pat) src

/-- string.cpp:77-100, `StringUtil::WildCardMatch`.  Sizes are `int`; for sizes of 2^31 or more
(`int` overflow, line 79-81) the model gives no meaning (`ub`). -/
def WildCardMatch (pattern source : Str) : Out Bool :=
  if source.length < 2 ^ 31 - 1 ∧ pattern.length < 2 ^ 31 - 1 then
    let row := wildRows pattern (true, wildRow0 pattern) source
    .ok ((row.1 :: row.2).getLastD false)
  else .error .ub

/-- file.cpp:37-48, `File::Suffix`. -/
def Suffix (path : Str) : Out Str := do
  let lastSlash := match findLast 47 path with
    | some i => i
    | none => 0
  let tmp ← substrFrom path lastSlash
  match findLast 46 tmp with
  | none => .ok []
  | some pos => substrFrom tmp (pos + 1)

end Cppnet
