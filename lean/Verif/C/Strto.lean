import Verif.C.Float

/-!
# C strings, `strtol`, `strtoul`, `strtof`

A `const char *` into a NUL-terminated buffer is modelled by the bytes from the pointer to the end of the object
(terminator included): `p++` is `tail`, `p + n` is `drop n`, `*p` is the head and undefined on the empty list (one past
the end).  Since the NUL byte is neither white space, sign, digit nor letter, the conversion functions stop there.
-/

namespace Verif

/-- Pointer into a C string: the remaining bytes of the object. -/
abbrev Ptr := List UInt8

/-- `c_str()` of a `std::string`. -/
def cStr (s : List UInt8) : Ptr := s ++ [0]

/-- `*p` -/
def deref (p : Ptr) : C UInt8 :=
  match p with
  | [] => .error (.ub .oobRead)
  | b :: _ => .ok b

/-- `isspace` in the "C" locale. -/
def isSpace (b : UInt8) : Bool := b == 32 || (9 ≤ b && b ≤ 13)

def isDigit (b : UInt8) : Bool := 48 ≤ b && b ≤ 57

def isHexDigit (b : UInt8) : Bool := isDigit b || (65 ≤ b && b ≤ 70) || (97 ≤ b && b ≤ 102)

/-- Value of a (hexa)decimal digit. -/
def digitVal (b : UInt8) : Nat :=
  if isDigit b then b.toNat - 48 else if 65 ≤ b && b ≤ 70 then b.toNat - 55 else b.toNat - 87

/-- Positional value of a digit string. -/
def digitsVal (base : Nat) (ds : List UInt8) : Nat := ds.foldl (fun acc d => acc * base + digitVal d) 0

/-- Optional sign: is it negative, and the rest. -/
def takeSign (l : Ptr) : Bool × Ptr :=
  match l with
  | 45 :: r => (true, r)
  | 43 :: r => (false, r)
  | _ => (false, l)

/-- `0x`/`0X` prefix that is followed by a hexadecimal digit. -/
def skipHexPrefix (l : Ptr) : Ptr :=
  match l with
  | 48 :: x :: d :: r => if (x == 120 || x == 88) && isHexDigit d then d :: r else l
  | _ => l

/-- Common part of `strtol`/`strtoul` (C11 7.22.1.4) for base 10 and 16: sign, magnitude, end pointer. -/
def strtoInt (hex : Bool) (p : Ptr) : Bool × Nat × Ptr :=
  let l1 := p.dropWhile isSpace
  let (neg, l2) := takeSign l1
  let l3 := if hex then skipHexPrefix l2 else l2
  let isD := if hex then isHexDigit else isDigit
  let ds := l3.takeWhile isD
  if ds.isEmpty then (false, 0, p)
  else (neg, digitsVal (if hex then 16 else 10) ds, l3.dropWhile isD)

/-- `strtol(p, &end, base)`: the value saturates at `LONG_MIN`/`LONG_MAX`. -/
def strtol (P : Platform) (hex : Bool) (p : Ptr) : C (ℤ × Ptr) :=
  match p with
  | [] => .error (.ub .oobRead)
  | _ =>
    let (neg, v, e) := strtoInt hex p
    let z : ℤ := if neg then -(v : ℤ) else v
    let hi : ℤ := 2 ^ (P.word.bits - 1)
    .ok (if z < -hi then -hi else if hi ≤ z then hi - 1 else z, e)

/-- `strtoul(p, &end, base)`: a magnitude that does not fit saturates, otherwise a minus sign negates modulo `2^bits`. -/
def strtoul (P : Platform) (hex : Bool) (p : Ptr) : C (Nat × Ptr) :=
  match p with
  | [] => .error (.ub .oobRead)
  | _ =>
    let (neg, v, e) := strtoInt hex p
    let m := 2 ^ P.word.bits
    .ok (if m ≤ v then m - 1 else if neg then (m - v) % m else v, e)

/-- ASCII lower case. -/
def toLower (b : UInt8) : UInt8 := if 65 ≤ b && b ≤ 90 then b + 32 else b

/-- Result of parsing the longest prefix that is a floating constant. -/
inductive FloatParse where
  /-- nothing converted: value 0, end pointer = start pointer -/
  | none
  /-- `inf…` or `nan…` -/
  | special
  | num (q : ℚ) (rest : Ptr)
  deriving DecidableEq, Repr

/-- Fraction part: digits after a `.`, and the rest. -/
def takeFrac (isD : UInt8 → Bool) (l : Ptr) : List UInt8 × Ptr :=
  match l with
  | 46 :: r => (r.takeWhile isD, r.dropWhile isD)
  | _ => ([], l)

/-- Optional exponent introduced by `m` (lower case letter): exponent and rest. -/
def takeExp (m : UInt8) (l : Ptr) : ℤ × Ptr :=
  match l with
  | x :: r =>
    if toLower x == m then
      let (neg, r2) := takeSign r
      let ds := r2.takeWhile isDigit
      if ds.isEmpty then (0, l)
      else (if neg then -(digitsVal 10 ds : ℤ) else digitsVal 10 ds, r2.dropWhile isDigit)
    else (0, l)
  | [] => (0, l)

/-- Mantissa and exponent of a decimal (`base = 10`) or hexadecimal (`base = 16`) floating constant without sign.
`bexp` is the base of the exponent part. -/
def parseMant (hex : Bool) (l : Ptr) : FloatParse :=
  let isD := if hex then isHexDigit else isDigit
  let base := if hex then 16 else 10
  let bexp : ℚ := if hex then 2 else 10
  let ip := l.takeWhile isD
  let (fp, r2) := takeFrac isD (l.dropWhile isD)
  if ip.isEmpty && fp.isEmpty then .none
  else
    let (e, r3) := takeExp (if hex then 112 else 101) r2
    .num ((digitsVal base (ip ++ fp) : ℚ) / (base : ℚ) ^ fp.length * bexp ^ e) r3

/-- Unsigned part of the subject sequence of `strtof` (C11 7.22.1.3). -/
def parseUnsigned (l : Ptr) : FloatParse :=
  if (l.take 3).map toLower = [105, 110, 102] ∨ (l.take 3).map toLower = [110, 97, 110] then .special
  else match l with
    | 48 :: x :: r =>
      if toLower x == 120 then
        match parseMant true r with
        | .num q rest => .num q rest
        | _ => parseMant false l
      else parseMant false l
    | _ => parseMant false l

/-- `strtof(p, &end)` before rounding. -/
def parseFloat (p : Ptr) : FloatParse :=
  let (neg, l) := takeSign (p.dropWhile isSpace)
  match parseUnsigned l with
  | .num q rest => .num (if neg then -q else q) rest
  | r => r

/-- Decimal to `float`: glibc rounds once; newlib (the Arduino target) converts with `strtod` and then narrows. -/
def toFloat (P : Platform) (q : ℚ) : C ℚ :=
  if P.arduino then do
    let d ← fl b64 q
    fl b32 d
  else fl b32 q

/-- `strtof(p, &end)`; an infinity or NaN leaves the modelled domain. -/
def strtof (P : Platform) (p : Ptr) : C (ℚ × Ptr) :=
  match p with
  | [] => .error (.ub .oobRead)
  | _ =>
    match parseFloat p with
    | .none => .ok (0, p)
    | .special => .error .nonfinite
    | .num q rest => do
      let v ← toFloat P q
      return (v, rest)

/-- First index at which `pat` occurs. -/
def findSub (pat : List UInt8) : List UInt8 → Option Nat
  | [] => if pat.isEmpty then some 0 else none
  | b :: t => if pat.isPrefixOf (b :: t) then some 0 else (findSub pat t).map (· + 1)

/-- `std::string::find(pat, from)`; `none` is `npos`. -/
def findFrom (pat s : List UInt8) (start : Nat) : Option Nat :=
  if start ≤ s.length then (findSub pat (s.drop start)).map (· + start) else none

/-- The bytes of an ASCII string literal. -/
def ascii (s : String) : List UInt8 := s.toList.map (fun c => UInt8.ofNat c.toNat)

end Verif
