import Verif.C.Basic
import Mathlib.Logic.Function.Basic
import Mathlib.Algebra.Field.Defs

/-!
# Model of the sparse storage class (`lib/linalg`)

`ElementStorage.h:62-120` as written: a hash table with open addressing.  `static elem_t outOfMemory` is declared but defined nowhere in
the repository, so a program that uses a sparse matrix has to define it; its value is part of the state.  There is no `const` access, so a
sparse matrix can be used by its elements only.  `int` does not overflow.
-/

namespace Verif.Sparse

/-- `ElementStorage.h:70-77`: the items of the table; a value is unreadable until it is assigned.  The last component is `outOfMemory`. -/
structure Table (K : Type) where
  size : Nat
  key : Nat → Int
  val : Nat → Option K
  oom : K

/-- `ElementStorage.h:75`: the constructor of the items sets the keys. -/
def fresh {K : Type} (size : Nat) (oom : K) : Table K := ⟨size, fun _ => -1, fun _ => none, oom⟩

/-- What `operator()` returns: a reference to the value of an item, or to `outOfMemory`. -/
inductive Ref where
  | item (p : Nat)
  | oom
  deriving DecidableEq

variable {K : Type} [Field K] [DecidableEq K]

/-- `ElementStorage.h:98` `item->key == -1 || item->val == 0` -/
def unused (t : Table K) (p : Nat) : C Bool :=
  if t.key p = -1 then .ok true
  else match t.val p with
    | some v => .ok (decide (v = 0))
    | none => .error (.ub .uninit)

/-- `ElementStorage.h:91-109`: the loop, `k` iterations remain, `last` is what `item` points to. -/
def probe (key hash : Int) (t : Table K) : (k i : Nat) → (last : Option Nat) → C (Table K × Option Nat)
  | 0, _, last => .ok (t, last)
  | k + 1, i, _ => do
    let q := (hash + i).tmod t.size
    if 0 ≤ q ∧ q < t.size then do
      let p := q.toNat
      if ← unused t p then
        return ({ t with key := Function.update t.key p key, val := Function.update t.val p (some 0) }, some p)
      else if t.key p = key then return (t, some p)
      else probe key hash t k (i + 1) (some p)
    else .error (.ub .oobRead)

/-- `ElementStorage.h:79-119` `operator()(row, col)`; `cols` is a template parameter. -/
def access (cols : Nat) (t : Table K) (row col : Int) : C (Table K × Ref) := do
  let key := row * cols + col
  let hash := key.tmod t.size
  let (t, item) ← probe key hash t t.size 0 none
  match item with
  | none => .error (.ub .uninit)
  | some p => if t.key p = key then return (t, .item p) else return (t, .oom)

/-- Reading through the reference. -/
def load (t : Table K) : Ref → C K
  | .item p => match t.val p with
    | some v => .ok v
    | none => .error (.ub .uninit)
  | .oom => .ok t.oom

/-- Writing through the reference. -/
def store (t : Table K) (v : K) : Ref → Table K
  | .item p => { t with val := Function.update t.val p (some v) }
  | .oom => { t with oom := v }

/-- `x = A(row, col)` -/
def read (cols : Nat) (t : Table K) (row col : Int) : C (Table K × K) := do
  let (t, r) ← access cols t row col
  let v ← load t r
  return (t, v)

/-- `A(row, col) = x` -/
def write (cols : Nat) (t : Table K) (row col : Int) (v : K) : C (Table K) := do
  let (t, r) ← access cols t row col
  return store t v r

/-- What is done with a matrix. -/
inductive Op (K : Type) where
  | read (row col : Nat)
  | write (row col : Nat) (v : K)

/-- A history. -/
def run (cols : Nat) : List (Op K) → Table K → C (Table K)
  | [], t => .ok t
  | .read r c :: h, t => do
    let (t, _) ← read cols t r c
    run cols h t
  | .write r c v :: h, t => do
    let t ← write cols t r c v
    run cols h t

end Verif.Sparse
