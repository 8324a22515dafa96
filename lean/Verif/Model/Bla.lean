import Verif.C.Basic
import Mathlib.Logic.Function.Basic

/-!
# Model of `lib/linalg` for all matrix sizes

`linalg.h`, `ElementStorage.h`, `BasicLinearAlgebra.h`, `NotSoBasicLinearAlgebra.h` as written: every array is an object with a size, whose
elements are unreadable until written; reading outside it, or an element never written, or dividing by zero stops the execution.  Loops
run over the index ranges of the source.  The element type is an exact ordered field `K`; `int` indices do not overflow (an instantiated
matrix fits in memory).  `Model/Linalg.lean` is the 3×3 instance the alignment uses.
-/

namespace Verif.Bla

/-- An array object: `size` elements, `none` where nothing was written yet. -/
structure Arr (α : Type) where
  size : Nat
  cell : Nat → Option α

/-- An array on the stack without initialiser (`ElementStorage.h:9`, `NotSoBasicLinearAlgebra.h:48`). -/
def Arr.fresh (α : Type) (size : Nat) : Arr α := ⟨size, fun _ => none⟩

/-- `a[i]` as a value. -/
def Arr.rd {α : Type} (a : Arr α) (i : Nat) : C α :=
  if i < a.size then
    match a.cell i with
    | some x => .ok x
    | none => .error (.ub .uninit)
  else .error (.ub .oobRead)

/-- `a[i] = x`. -/
def Arr.wr {α : Type} (a : Arr α) (i : Nat) (x : α) : C (Arr α) :=
  if i < a.size then .ok { a with cell := Function.update a.cell i (some x) } else .error (.ub .oobWrite)

/-- `for (int i = lo; i < hi; ++i)`. -/
def loop {σ : Type} (lo hi : Nat) (f : Nat → σ → C σ) (s : σ) : C σ := (List.range' lo (hi - lo)).foldlM (fun s i => f i s) s

/-- `for (int i = hi - 1; i >= 0; --i)`. -/
def loopDown {σ : Type} (hi : Nat) (f : Nat → σ → C σ) (s : σ) : C σ := (List.range hi).reverse.foldlM (fun s i => f i s) s

/-- What can be read of a matrix: `operator()(row, col) const` of its storage class. -/
abbrev View (K : Type) := Nat → Nat → C K

section Storage
variable {K : Type}

/-- `ElementStorage.h:5-13` `Array<rows, cols>`: row major. -/
def array (cols : Nat) (a : Arr K) : View K := fun i j => a.rd (i * cols + j)

/-- `A(i, j) = x` for an `Array` (`ElementStorage.h:11`). -/
def setAt (cols : Nat) (a : Arr K) (i j : Nat) (x : K) : C (Arr K) := a.wr (i * cols + j) x

/-- `ElementStorage.h:15-43` `Reference`, `ConstReference`. -/
def reference (v : View K) (rowOffset colOffset : Nat) : View K := fun i j => v (i + rowOffset) (j + colOffset)

/-- `ElementStorage.h:45-51` `Eye`. -/
def eye [Zero K] [One K] : View K := fun i j => .ok (if i = j then 1 else 0)

/-- `ElementStorage.h:53-59` `Zero`. -/
def zeros [Zero K] : View K := fun _ _ => .ok 0

/-- `ElementStorage.h:121-131` `Trans`. -/
def trans (v : View K) : View K := fun i j => v j i

/-- `ElementStorage.h:133-143` `HorzCat`. -/
def horzCat (leftCols : Nat) (l r : View K) : View K := fun i j => if j < leftCols then l i j else r i (j - leftCols)

/-- `ElementStorage.h:145-155` `VertCat`. -/
def vertCat (topRows : Nat) (t b : View K) : View K := fun i j => if i < topRows then t i j else b (i - topRows) j

/-- `ElementStorage.h:157-165` `Permutation`. -/
def permutation [Zero K] [One K] (idx : Arr Nat) : View K := fun i j => do
  let p ← idx.rd j
  return if p = i then 1 else 0

/-- `ElementStorage.h:167-191` `LowerTriangleOnesDiagonal`. -/
def lowerOnes [Zero K] [One K] (v : View K) : View K := fun i j => if j < i then v i j else if i = j then .ok 1 else .ok 0

/-- `ElementStorage.h:193-214` `UpperTriangle`. -/
def upperTri [Zero K] (v : View K) : View K := fun i j => if i ≤ j then v i j else .ok 0

/-- The double loop over all elements (`BasicLinearAlgebra.h:39-40` and all element-wise operators). -/
def each (rows cols : Nat) (f : Nat → Nat → Arr K → C (Arr K)) (a : Arr K) : C (Arr K) :=
  loop 0 rows (fun i a => loop 0 cols (fun j a => f i j a) a) a

/-- `BasicLinearAlgebra.h:35-43` `operator=` for an `Array` matrix; the right-hand side may be a view of the matrix assigned to. -/
def assign (rows cols : Nat) (rhs : Arr K → View K) (a : Arr K) : C (Arr K) :=
  each rows cols (fun i j a => do setAt cols a i j (← rhs a i j)) a

/-- `BasicLinearAlgebra.h:28-33`: the copy constructor from any storage class. -/
def copy (rows cols : Nat) (v : View K) : C (Arr K) := assign rows cols (fun _ => v) (Arr.fresh K (rows * cols))

/-- `BasicLinearAlgebra.h:54-61` `Fill`. -/
def fill (rows cols : Nat) (val : K) (a : Arr K) : C (Arr K) := each rows cols (fun i j a => setAt cols a i j val) a

/-- `BasicLinearAlgebra.h:63-76` `FillRowMajor`: the arguments still to be stored, `rows * cols - sizeof...(TAIL) - 1` being the position
of the first of them counted from the end (so fewer arguments than elements fill the end of the matrix). -/
def fillRowMajor (rows cols : Nat) : List K → Arr K → C (Arr K)
  | [], a => .ok a
  | head :: tail, a => do
    let a ← setAt cols a ((rows * cols - tail.length - 1) / cols) ((rows * cols - tail.length - 1) % cols) head
    fillRowMajor rows cols tail a

/-- `BasicLinearAlgebra.h:156-169,183-196`: `op=` with a matrix, which may be a view of the matrix itself. -/
def updateWith (op : K → K → K) (rows cols : Nat) (rhs : Arr K → View K) (a : Arr K) : C (Arr K) :=
  each rows cols (fun i j a => do setAt cols a i j (op (← array cols a i j) (← rhs a i j))) a

/-- `BasicLinearAlgebra.h:146-154,173-181` `operator+`, `operator-`: a copy, updated. -/
def binary (op : K → K → K) (rows cols : Nat) (v w : View K) : C (Arr K) := do
  let a ← copy rows cols v
  updateWith op rows cols (fun _ => w) a

/-- `BasicLinearAlgebra.h:244-278`: `op=` with a scalar. -/
def updateScalar (op : K → K → C K) (rows cols : Nat) (k : K) (a : Arr K) : C (Arr K) :=
  each rows cols (fun i j a => do setAt cols a i j (← op (← array cols a i j) k)) a

/-- `BasicLinearAlgebra.h:280-314`: `operator op` with a scalar: a copy, updated. -/
def scalar (op : K → K → C K) (rows cols : Nat) (v : View K) (k : K) : C (Arr K) := do
  let a ← copy rows cols v
  updateScalar op rows cols k a

/-- `BasicLinearAlgebra.h:225-234` unary minus. -/
def neg [Neg K] (rows cols : Nat) (v : View K) : C (Arr K) :=
  each rows cols (fun i j a => do setAt cols a i j (-(← v i j))) (Arr.fresh K (rows * cols))

/-- `BasicLinearAlgebra.h:198-214` `operator*`. -/
def product [Mul K] [Add K] (rows cols operandCols : Nat) (v w : View K) : C (Arr K) :=
  each rows operandCols (fun i j a => do
    let a ← if 0 < cols then do setAt operandCols a i j ((← v i 0) * (← w 0 j)) else pure a
    loop 1 cols (fun k a => do setAt operandCols a i j ((← array operandCols a i j) + (← v i k) * (← w k j))) a)
    (Arr.fresh K (rows * operandCols))

/-- `BasicLinearAlgebra.h:216-223` `operator*=` (square operands). -/
def productInto [Mul K] [Add K] (n : Nat) (a : Arr K) (w : Arr K → View K) : C (Arr K) := do
  let tmp ← copy n n (array n a)
  let p ← product n n n (array n tmp) (w a)
  assign n n (fun _ => array n p) a

/-- `NotSoBasicLinearAlgebra.h:263-273` `Trace`. -/
def trace [Zero K] [Add K] (rows : Nat) (v : View K) : C K := loop 0 rows (fun i s => do return s + (← v i i)) 0

/-- `NotSoBasicLinearAlgebra.h:248-260` `Norm`, up to the square root of its last line: the loops over the elements. -/
def normSq [Zero K] [Add K] [Mul K] (rows cols : Nat) (v : View K) : C K :=
  loop 0 rows (fun i s => loop 0 cols (fun j s => do return s + (← v i j) * (← v i j)) s) 0

end Storage

section LU
variable {K : Type} [Field K] [LinearOrder K]

/-- Division; a zero divisor gives an infinity or a NaN in the program. -/
def divC (x y : K) : C K := if y = 0 then .error .nonfinite else .ok (x / y)

/-- `A(i, j)` in the row-scaling loop, whose bound `j <= dim` reads one element past the row: the first one of the next row, and for the
last row whatever lies behind the array, `stray` (strictly undefined behaviour). -/
def peek (n : Nat) (A : Arr K) (stray : K) (i j : Nat) : C K := if i * n + j = n * n then .ok stray else array n A i j

/-- `NotSoBasicLinearAlgebra.h:53-59`. -/
def largest (n : Nat) (A : Arr K) (stray : K) (i : Nat) : C K :=
  loop 0 (n + 1) (fun j l => do return max |← peek n A stray i j| l) 0

/-- `NotSoBasicLinearAlgebra.h:48-69`: the scaling of the rows; `none`: a row without non-zero element, `singular`. -/
def scales (n : Nat) (A : Arr K) (stray : K) : C (Option (Arr K)) :=
  loop 0 n (fun i s =>
    match s with
    | none => pure none
    | some sc => do
      let l ← largest n A stray i
      if l = 0 then pure none else do return some (← sc.wr i (← divC 1 l)))
    (some (Arr.fresh K n))

/-- `NotSoBasicLinearAlgebra.h:78-83,91-96`: the sum over `k < m`. -/
def sumTo (n : Nat) (A : Arr K) (i j m : Nat) : C K :=
  loop 0 m (fun k s => do return s + (← array n A i k) * (← array n A k j)) 0

/-- `NotSoBasicLinearAlgebra.h:75-86`: beta. -/
def betas (n j : Nat) (A : Arr K) : C (Arr K) :=
  loop 0 j (fun i A => do
    let s ← sumTo n A i j i
    setAt n A i j ((← array n A i j) - s)) A

/-- `NotSoBasicLinearAlgebra.h:88-99`: alpha. -/
def alphas (n j : Nat) (A : Arr K) : C (Arr K) :=
  loop j n (fun i A => do
    let s ← sumTo n A i j j
    setAt n A i j ((← array n A i j) - s)) A

/-- `NotSoBasicLinearAlgebra.h:101-114`: the pivot row. -/
def pivot (n j : Nat) (A : Arr K) (scale : Arr K) : C Nat := do
  let p ← loop j n (fun i (p : K × Nat) => do
    let e := (← scale.rd i) * |← array n A i j|
    return if p.1 ≤ e then (e, i) else p) (0, j)
  return p.2

/-- `NotSoBasicLinearAlgebra.h:117-120`: exchange rows `p` and `j`. -/
def swapRows (n j p : Nat) (A : Arr K) : C (Arr K) :=
  loop 0 n (fun k A => do
    let tmp ← array n A p k
    let A ← setAt n A p k (← array n A j k)
    setAt n A j k tmp) A

/-- `NotSoBasicLinearAlgebra.h:133-142`: divide the column below the pivot. -/
def scaleColumn (n j : Nat) (A : Arr K) : C (Arr K) := do
  let inv ← divC 1 (← array n A j j)
  loop (j + 1) n (fun i A => do setAt n A i j ((← array n A i j) * inv)) A

/-- `NotSoBasicLinearAlgebra.h:13-33` `LUDecomposition` (the matrix decomposed in place included), and `row_scale`. -/
structure Decomp (K : Type) where
  singular : Bool
  parity : K
  idx : Arr Nat
  A : Arr K

/-- `NotSoBasicLinearAlgebra.h:115-126`: exchange the rows if the pivot is not in row `j`; `row_scale[argmax] = row_scale[j]` is no
exchange. -/
def exchange (n j p : Nat) (s : Decomp K × Arr K) : C (Decomp K × Arr K) :=
  if j ≠ p then do
    let A ← swapRows n j p s.1.A
    let tmp ← s.1.idx.rd j
    let idx ← s.1.idx.wr j (← s.1.idx.rd p)
    let idx ← idx.wr p tmp
    let scale ← s.2.wr p (← s.2.rd j)
    return ({ s.1 with parity := -s.1.parity, idx := idx, A := A }, scale)
  else return s

/-- `NotSoBasicLinearAlgebra.h:128-131`: a zero pivot is replaced by `1.0e-20`. -/
def fixPivot (n j : Nat) (A : Arr K) : C (Arr K) := do
  if (← array n A j j) = 0 then setAt n A j j (1 / 10 ^ 20) else return A

/-- `NotSoBasicLinearAlgebra.h:72-144`: one column of Crout's method. -/
def column (n j : Nat) (s : Decomp K × Arr K) : C (Decomp K × Arr K) := do
  let A ← betas n j s.1.A
  let A ← alphas n j A
  let p ← pivot n j A s.2
  let s ← exchange n j p ({ s.1 with A := A }, s.2)
  let A ← fixPivot n j s.1.A
  let A ← scaleColumn n j A
  return ({ s.1 with A := A }, s.2)

/-- `NotSoBasicLinearAlgebra.h:36-148` `LUDecompose`. -/
def luDecompose (n : Nat) (A : Arr K) (stray : K) : C (Decomp K) := do
  let idx ← loop 0 n (fun i idx => idx.wr i i) (Arr.fresh Nat n)
  match ← scales n A stray with
  | none => return ⟨true, 1, idx, A⟩
  | some scale =>
    let s ← loop 0 n (column n) (⟨false, 1, idx, A⟩, scale)
    return s.1

/-- `NotSoBasicLinearAlgebra.h:159-170`: forward substitution. -/
def forward (n : Nat) (d : Decomp K) (b : View K) : C (Arr K) :=
  loop 0 n (fun i tmp => do
    let s ← loop 0 i (fun j s => do return s + (← array n d.A i j) * (← tmp.rd (← d.idx.rd j))) 0
    tmp.wr (← d.idx.rd i) ((← b (← d.idx.rd i) 0) - s)) (Arr.fresh K n)

/-- `NotSoBasicLinearAlgebra.h:172-183`: backward substitution. -/
def backward (n : Nat) (d : Decomp K) (tmp : Arr K) : C (Arr K) :=
  loopDown n (fun i tmp => do
    let s ← loop (i + 1) n (fun j s => do return s + (← array n d.A i j) * (← tmp.rd (← d.idx.rd j))) 0
    tmp.wr (← d.idx.rd i) (← divC ((← tmp.rd (← d.idx.rd i)) - s) (← array n d.A i i))) tmp

/-- `NotSoBasicLinearAlgebra.h:149-192` `LUSolve`. -/
def luSolve (n : Nat) (d : Decomp K) (b : View K) : C (Arr K) := do
  let tmp ← forward n d b
  let tmp ← backward n d tmp
  loop 0 n (fun i x => do x.wr i (← tmp.rd (← d.idx.rd i))) (Arr.fresh K n)

/-- `NotSoBasicLinearAlgebra.h:194-216` `Invert(A, out)`: the return value and `out`. -/
def invert (n : Nat) (A : View K) (out : Arr K) (stray : K) : C (Bool × Arr K) := do
  let a ← copy n n A
  let d ← luDecompose n a stray
  if d.singular then return (false, out)
  let b ← copy n 1 zeros
  let r ← loop 0 n (fun j (s : Arr K × Arr K) => do
    let b ← setAt 1 s.1 j 0 1
    let x ← luSolve n d (array 1 b)
    let out ← loop 0 n (fun i out => do setAt n out i j (← array 1 x i 0)) s.2
    let b ← setAt 1 b j 0 0
    return (b, out)) (b, out)
  return (true, r.2)

/-- `NotSoBasicLinearAlgebra.h:218-222` `Invert(A)`: in place. -/
def invertInPlace (n : Nat) (A : Arr K) (stray : K) : C (Bool × Arr K) := invert n (array n A) A stray

/-- `NotSoBasicLinearAlgebra.h:232-247` `Determinant`.  (The copy has `float` elements in the source whatever the argument.) -/
def determinant (n : Nat) (A : View K) (stray : K) : C K := do
  let a ← copy n n A
  let d ← luDecompose n a stray
  loop 0 n (fun i det => do return det * (← upperTri (array n d.A) i i)) d.parity

end LU

end Verif.Bla
