import Verif.C.Basic
import Mathlib.Data.Nat.Digits.Defs

/-!
# `printf` conversions used by `src/main.cpp`
-/

namespace Verif.Printf

/-- Decimal digits of a number, most significant first, at least one. -/
def dec (n : Nat) : List UInt8 := if n = 0 then [48] else (Nat.digits 10 n).reverse.map fun d => UInt8.ofNat (48 + d)

/-- Padded with zeros on the left to at least `w` characters. -/
def padded (w : Nat) (s : List UInt8) : List UInt8 := List.replicate (w - s.length) 48 ++ s

/-- `%i` (C11 7.21.6.1). -/
def fmtI (z : ℤ) : List UInt8 := (if z < 0 then [45] else []) ++ dec z.natAbs

/-- `%u`, `%0wu`; an `int` argument is reinterpreted as `unsigned`. -/
def fmtU (w : Nat) (z : ℤ) : List UInt8 := padded w (dec (z % 2 ^ 32).toNat)

section
variable {K : Type} [Field K] [LinearOrder K] [IsStrictOrderedRing K] [FloorRing K]

/-- Nearest integer, ties to even. -/
def roundEvenK (x : K) : ℤ :=
  let f := ⌊x⌋
  let d := x - f
  if d < 1 / 2 then f else if 1 / 2 < d then f + 1 else if f % 2 = 0 then f else f + 1

/-- `%.pf` for finite values: the exact value rounded to `p` decimals, ties to even; negative values keep their sign even if they are
rounded to zero.  Simplification: minus zero is printed as zero. -/
def fmtF (p : Nat) (x : K) : List UInt8 :=
  let n := (roundEvenK (|x| * 10 ^ p)).toNat
  (if x < 0 then [45] else []) ++ dec (n / 10 ^ p) ++ (if p = 0 then [] else 46 :: padded p (dec (n % 10 ^ p)))

end

/-- `snprintf(mem + off, size, …)` once the conversions produced the bytes `out`: at most `size - 1` bytes and a NUL are written, nothing
if `size` is 0; the result is the untruncated length. -/
def snprintfAt (mem : List UInt8) (off size : Nat) (out : List UInt8) : C (Nat × List UInt8) :=
  if size = 0 then .ok (out.length, mem)
  else do
    let mem' ← storeSeq mem off (out.take (size - 1) ++ [0])
    return (out.length, mem')

/-- The C string at the start of the memory; there must be a NUL. -/
def readCString : List UInt8 → C (List UInt8)
  | [] => .error (.ub .oobRead)
  | b :: t => if b = 0 then .ok [] else do
    let s ← readCString t
    return b :: s

/-- `len` bytes at the start of the memory. -/
def readBytes (mem : List UInt8) (len : Nat) : C (List UInt8) :=
  if len ≤ mem.length then .ok (mem.take len) else .error (.ub .oobRead)

end Verif.Printf
