import Verif.Model.Shared
import Verif.C.Float

/-!
# The telescope object under concurrency, word by word

The ESP32 has 32-bit registers: a `double` is loaded and stored as two words, and the other task can run between the two.  Here the
programs of `Model/Shared.lean` are executed with two separate accesses per `double`; an `int` is still one access.  Which of the two words is
accessed first is left to the schedule (the compiler may choose either order for each access).

A `double` member is described by the number whose high word it holds and the number whose low word it holds; `mix u w` is the number
with the high word of `u` and the low word of `w`.
-/

namespace Verif.Shared

variable {K α : Type}

/-- The members of type `double` (`alignment.h:20-35`, `linalg.h`, `telescope.h:13-29`). -/
def Loc.wide : Loc → Bool
  | .numV => false
  | .numT => false
  | .tri _ _ => false
  | .vert _ _ => true
  | .mat _ _ _ => true
  | .az => true
  | .alt => true

/-- The number composed of two halves; an `int` has one word only. -/
def Loc.join (mix : K → K → K) : (l : Loc) → l.Ty K → l.Ty K → l.Ty K
  | .numV, a, _ => a
  | .numT, a, _ => a
  | .tri _ _, a, _ => a
  | .vert _ _, a, b => mix a b
  | .mat _ _ _, a, b => mix a b
  | .az, a, b => mix a b
  | .alt, a, b => mix a b

/-- The words of the object: `up l` is the number whose high word the member holds, `low l` the one whose low word it holds.  A member of one
word has the same entry in both. -/
structure Words (K : Type) where
  up : Mem K
  low : Mem K

/-- A task: between two members, or between the two words of one. -/
inductive Pend (K α : Type) where
  | run (p : Prog K α)
  /-- the high word was loaded -/
  | gotUp (l : Loc) (u : l.Ty K) (k : l.Ty K → Prog K α)
  /-- the low word was loaded -/
  | gotLow (l : Loc) (w : l.Ty K) (k : l.Ty K → Prog K α)
  /-- the high word was stored -/
  | putUp (l : Loc) (v : l.Ty K) (k : Prog K α)
  /-- the low word was stored -/
  | putLow (l : Loc) (v : l.Ty K) (k : Prog K α)

/-- Load one word. -/
def load {β : Type} (m : Mem K) (l : Loc) (f : l.Ty K → β) : C β :=
  match m l with
  | some v => .ok (f v)
  | none => .error (.ub .uninit)

/-- Store one word. -/
def Words.storeUp (m : Words K) (l : Loc) (v : l.Ty K) : Words K := ⟨Function.update m.up l (some v), m.low⟩

/-- Store one word. -/
def Words.storeLow (m : Words K) (l : Loc) (v : l.Ty K) : Words K := ⟨m.up, Function.update m.low l (some v)⟩

/-- The first access to a member: the whole of an `int`, the high (`highFirst`) or the low word of a `double`. -/
def startGet (highFirst : Bool) (l : Loc) (k : l.Ty K → Prog K α) (m : Words K) : C (Pend K α × Words K) :=
  match l.wide, highFirst with
  | false, _ => load m.up l fun v => (.run (k v), m)
  | true, true => load m.up l fun u => (.gotUp l u k, m)
  | true, false => load m.low l fun w => (.gotLow l w k, m)

/-- The first access of an assignment. -/
def startPut (highFirst : Bool) (l : Loc) (v : l.Ty K) (k : Prog K α) (m : Words K) : Pend K α × Words K :=
  match l.wide, highFirst with
  | false, _ => (.run k, (m.storeUp l v).storeLow l v)
  | true, true => (.putUp l v k, m.storeUp l v)
  | true, false => (.putLow l v k, m.storeLow l v)

/-- One access to one word. -/
def wstep (mix : K → K → K) (highFirst : Bool) : Pend K α → Words K → C (Pend K α × Words K)
  | .run (.ret a), m => .ok (.run (.ret a), m)
  | .run .spin, m => .ok (.run .spin, m)
  | .run (.fail e), _ => .error e
  | .run (.get l k), m => if l.valid then startGet highFirst l k m else .error (.ub .oobRead)
  | .run (.put l v k), m => if l.valid then .ok (startPut highFirst l v k m) else .error (.ub .oobWrite)
  | .gotUp l u k, m => load m.low l fun w => (.run (k (l.join mix u w)), m)
  | .gotLow l w k, m => load m.up l fun u => (.run (k (l.join mix u w)), m)
  | .putUp l v k, m => .ok (.run k, m.storeLow l v)
  | .putLow l v k, m => .ok (.run k, m.storeUp l v)

/-- Two tasks: the schedule says which one makes the next access, and which word it takes first. -/
def wpar (mix : K → K → K) : List (Race.Task × Bool) → (Race.Task → Pend K α) → Words K → C ((Race.Task → Pend K α) × Words K)
  | [], ps, m => .ok (ps, m)
  | t :: sched, ps, m => do
    let r ← wstep mix t.2 (ps t.1) m
    wpar mix sched (Function.update ps t.1 r.1) r.2

/-! ### The two words of a `double`: IEEE 754 binary64 -/

/-- The significand as an integer, with the hidden bit. -/
def significand (v : ℚ) : Nat := ⌊|v| / (2 : ℚ) ^ ulpExp b64 v⌋₊

/-- The biased exponent: 0 for zero and subnormal numbers. -/
def biased (v : ℚ) : Nat := if significand v < 2 ^ 52 then 0 else (ulpExp b64 v + 1075).toNat

/-- Sign, exponent and the upper 20 bits of the fraction. -/
def highWord (v : ℚ) : Nat := (if v < 0 then 2 ^ 31 else 0) + biased v * 2 ^ 20 + significand v % 2 ^ 52 / 2 ^ 32

/-- The lower 32 bits of the fraction. -/
def lowWord (v : ℚ) : Nat := significand v % 2 ^ 32

/-- The (finite) number with the given words. -/
def ofWords (hi lo : Nat) : ℚ :=
  let e : Nat := hi / 2 ^ 20 % 2 ^ 11
  let f : Nat := hi % 2 ^ 20 * 2 ^ 32 + lo
  let a : ℚ := if e = 0 then (f : ℚ) * (2 : ℚ) ^ (-1074 : ℤ) else ((2 ^ 52 + f : Nat) : ℚ) * (2 : ℚ) ^ ((e : ℤ) - 1075)
  if hi / 2 ^ 31 % 2 = 1 then -a else a

/-- The `double` with the high word of `v` and the low word of `w`. -/
def torn (v w : ℚ) : ℚ := ofWords (highWord v) (lowWord w)

/-- `mix` for `double`s; two halves of one and the same number are that number, also if the model's arithmetic has produced one that is not a
`double`. -/
def mixDouble (v w : ℚ) : ℚ := if v = w then v else torn v w

end Verif.Shared
