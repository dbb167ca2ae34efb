import Verif.Cpp.Basic

/-!
# Specifications for the string utilities, independent of the model
-/

namespace Cppnet.Spec

/-- `d` occurs somewhere in `s`. -/
def Occurs (d s : Str) : Prop := ∃ u v, s = u ++ d ++ v

/-- The pieces separated by `d`. -/
def joinWith (d : Str) : List Str → Str
  | [] => []
  | [p] => p
  | p :: q :: ps => p ++ d ++ joinWith d (q :: ps)

/-- Every separator stands at the leftmost possible place: the first occurrence of `d` in
`p ++ d ++ rest` is the one right after `p`; and the last piece has no occurrence at all. -/
def LeftmostCuts (d : Str) : List Str → Prop
  | [] => False
  | [p] => ¬ Occurs d p
  | p :: q :: ps => ¬ Occurs d (p ++ d.dropLast) ∧ LeftmostCuts d (q :: ps)

/-- Every piece but the last gets the delimiter appended. -/
def withDelims (d : Str) : List Str → List Str
  | [] => []
  | [p] => [p]
  | p :: q :: ps => (p ++ d) :: withDelims d (q :: ps)

/-- The value of a hexadecimal digit (either letter case). -/
def hexDigit (c : Byte) : Option Nat :=
  if 48 ≤ c ∧ c ≤ 57 then some (c.toNat - 48)
  else if 65 ≤ c ∧ c ≤ 70 then some (c.toNat - 55)
  else if 97 ≤ c ∧ c ≤ 102 then some (c.toNat - 87)
  else none

/-- `Decodes s t`: `s` is well-formed percent-encoded text and `t` is what it denotes. -/
inductive Decodes : Str → Str → Prop
  | nil : Decodes [] []
  | plus {s t} : Decodes s t → Decodes (43 :: s) (32 :: t)
  | esc {h l s t a b} : hexDigit h = some a → hexDigit l = some b → Decodes s t →
      Decodes (37 :: h :: l :: s) (UInt8.ofNat (16 * a + b) :: t)
  | lit {c s t} : c ≠ 43 → c ≠ 37 → Decodes s t → Decodes (c :: s) (c :: t)

/-- Every `%` of the text has the two bytes that belong to it, whatever they are. -/
inductive WholeEscapes : Str → Prop
  | nil : WholeEscapes []
  | esc {h l s} : WholeEscapes s → WholeEscapes (37 :: h :: l :: s)
  | lit {c s} : c ≠ 37 → WholeEscapes s → WholeEscapes (c :: s)

/-- The ASCII letters and digits. -/
def Alnum (c : Byte) : Prop :=
  (48 ≤ c ∧ c ≤ 57) ∨ (65 ≤ c ∧ c ≤ 90) ∨ (97 ≤ c ∧ c ≤ 122)

/-- Bytes that stand for themselves in encoded text: letters, digits and `- _ . ~ / = ? &`. -/
def Plain (c : Byte) : Prop :=
  Alnum c ∨ c ∈ b!"-_.~/=?&"

/-- An upper-case hexadecimal digit. -/
def UpperHex (c : Byte) : Prop := (48 ≤ c ∧ c ≤ 57) ∨ (65 ≤ c ∧ c ≤ 70)

/-- Text made of plain bytes, `+`, and complete `%XX` escapes with upper-case digits. -/
inductive SafeText : Str → Prop
  | nil : SafeText []
  | plain {c s} : Plain c → SafeText s → SafeText (c :: s)
  | plus {s} : SafeText s → SafeText (43 :: s)
  | esc {h l s} : UpperHex h → UpperHex l → SafeText s → SafeText (37 :: h :: l :: s)

/-- `Glob p s`: `s` arises from `p` by replacing every `*` by some string and every `?` by some
byte. -/
inductive Glob : Str → Str → Prop
  | nil : Glob [] []
  | star (t : Str) {p s} : Glob p s → Glob (42 :: p) (t ++ s)
  | any (b : Byte) {p s} : Glob p s → Glob (63 :: p) (b :: s)
  | lit {c p s} : c ≠ 42 → c ≠ 63 → Glob p s → Glob (c :: p) (c :: s)

/-- `base` is the last component of `path`: what follows its last `/` (all of it if there is
none). -/
def LastComponent (path base : Str) : Prop :=
  47 ∉ base ∧ (path = base ∨ ∃ dir, path = dir ++ 47 :: base)

/-- `ext` is the extension of the component `base`: what follows its last dot, empty if there is
no dot. -/
def Extension (base ext : Str) : Prop :=
  (46 ∉ base ∧ ext = []) ∨ (46 ∉ ext ∧ ∃ stem, base = stem ++ 46 :: ext)

end Cppnet.Spec
