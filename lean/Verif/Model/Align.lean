import Verif.Model.Triangulate
import Verif.Model.Linalg
import Verif.Model.Helper

/-!
# Model of `lib/alignment/src/alignment.cpp`: class `Alignment`

`double` is an exact ordered field `K`.  What the model cannot know is a parameter (`Env`), and every theorem is about all
of them: the answers of the geometric tests, the order `qsort` gives to equal keys, the values behind the matrices read by
`LUDecompose`, and the rounding of the `float` variables.
-/

namespace Verif.Align

open Linalg

variable {K σ : Type} [Field K] [LinearOrder K] [IsStrictOrderedRing K]

/-- What the environment decides. -/
structure Env (K σ : Type) where
  /-- geometric tests of the triangulation -/
  test : Test K σ
  /-- indeterminate initial content of `xc`, `r` -/
  init : σ
  /-- `qsort(…, XYZCompare)` -/
  sort : List (VertexPair K) → List (VertexPair K)
  /-- the `double` behind the matrix copy while inverting the `i`-th matrix -/
  stray : Nat → K
  /-- conversion to `float` -/
  rd : K → K

/-- `alignment.cpp:3-15`: `qsort` with `XYZCompare` permutes its input and orders it by `actual.x`; C does not say how it
orders equal keys. -/
def IsSort (sort : List (VertexPair K) → List (VertexPair K)) : Prop :=
  ∀ l, (sort l).Perm l ∧ (sort l).Pairwise (fun u v => u.actual.x ≤ v.actual.x)

/-- `alignment.h:14` `MAX_ALIGNMENT_POINTS`. -/
def maxVertices : Nat := 64

/-- `alignment.h:46-55`: the members of `Alignment`.  `vertices` is the whole array of 67 elements, of which the first
`numVertices` are in use; `triangles` lists `triangles[0..numTriangles-1]`; a matrix never written is `none`. -/
structure State (K : Type) where
  vertices : List (VertexPair K)
  numVertices : Nat
  triangles : List Tri
  matrices : List (Option (Mat3 K))
  deriving DecidableEq

/-- `alignment.cpp:17-23` constructor, `mytypes.h:41-49` (points start as (0, 0)). -/
def fresh : State K :=
  ⟨List.replicate (maxVertices + 3) ⟨⟨0, 0⟩, ⟨0, 0⟩⟩, 0, [], List.replicate (3 * maxVertices) none⟩

/-- The vertices in use. -/
def State.used (s : State K) : List (VertexPair K) := s.vertices.take s.numVertices

/-- `alignment.cpp:34-46`: wrapping of the reference azimuth relative to `vertices[0]`. -/
def wrapRef (first : VertexPair K) (r : Pt K) : Pt K :=
  let r : Pt K := if first.reference.x - r.x > 180 then ⟨r.x + 360, r.y⟩ else r
  if first.reference.x - r.x < -180 then ⟨r.x - 360, r.y⟩ else r

/-- `alignment.cpp:34-46`, guarded by `numVertices > 0`. -/
def wrapFor (s : State K) (r : Pt K) : Pt K :=
  match s.used with
  | [] => r
  | first :: _ => wrapRef first r

/-- `alignment.cpp:48-49` with a bounds check. -/
def writeVertex (mem : List (VertexPair K)) (i : Nat) (v : VertexPair K) : C (List (VertexPair K)) :=
  if i < mem.length then .ok (mem.set i v) else .error (.ub .oobWrite)

/-- `alignment.cpp:25-55` `addVertexPair`. -/
def addVertexPair (env : Env K σ) (s : State K) (actual reference : Pt K) : C (Bool × State K) :=
  if s.used.any (fun v => v.actual.x == actual.x && v.actual.y == actual.y) then .ok (false, s)
  else do
    let mem ← writeVertex s.vertices s.numVertices ⟨actual, wrapFor s reference⟩
    let n := (s.numVertices + 1) % maxVertices
    return (true, { s with vertices := env.sort (mem.take n) ++ mem.drop n, numVertices := n })

/-- `alignment.cpp:57-61` `clearAll`. -/
def clearAll (s : State K) : State K := { s with numVertices := 0, triangles := [] }

/-- `vertices[i]` with a bounds check. -/
def vertex (s : State K) (i : Nat) : C (VertexPair K) :=
  match s.vertices[i]? with
  | some v => .ok v
  | none => .error (.ub .oobRead)

/-- `transormationMatrices[i] = m` with a bounds check. -/
def setMatrix (s : State K) (i : Nat) (m : Mat3 K) : C (State K) :=
  if i < s.matrices.length then .ok { s with matrices := s.matrices.set i (some m) } else .error (.ub .oobWrite)

/-- `alignment.cpp:433-440,456-463`: `ref * Inverse(actual)`, or the identity if the inversion reports a singular matrix. -/
def solveMatrix (stray : K) (ref actual : Mat3 K) : Mat3 K :=
  match invert actual stray with
  | some inv => mul ref inv
  | none => identity

/-- `alignment.cpp:416-418`. -/
def pointMatrix (v : VertexPair K) : Mat3 K :=
  { (identity : Mat3 K) with a02 := v.reference.x - v.actual.x, a12 := v.reference.y - v.actual.y }

/-- `alignment.cpp:423-426,428-431`: two points and the second one plus the vector between them turned by -90°. -/
def lineCorners (p q : Pt K) : Mat3 K :=
  ⟨p.x, q.x, q.x + (q.y - p.y), p.y, q.y, q.y - (q.x - p.x), 1, 1, 1⟩

/-- `alignment.cpp:446-449,451-454`: three points as columns. -/
def triCorners (p q r : Pt K) : Mat3 K := ⟨p.x, q.x, r.x, p.y, q.y, r.y, 1, 1, 1⟩

/-- `alignment.cpp:446-463`: the matrix of one triangle. -/
def triMatrix (s : State K) (stray : K) (t : Tri) : C (Mat3 K) := do
  let a ← vertex s t.p1
  let b ← vertex s t.p2
  let c ← vertex s t.p3
  return solveMatrix stray (triCorners a.reference b.reference c.reference) (triCorners a.actual b.actual c.actual)

/-- `alignment.cpp:444-464`: the matrices of the triangles from index `i` on. -/
def triMatrices (stray : Nat → K) : (i : Nat) → List Tri → State K → C (State K)
  | _, [], s => .ok s
  | i, t :: ts, s => do
    let m ← triMatrix s (stray i) t
    let s ← setMatrix s i m
    triMatrices stray (i + 1) ts s

/-- `alignment.cpp:421-441`: the matrix of the 2-point alignment. -/
def lineMatrix (s : State K) (stray : K) : C (Mat3 K) := do
  let a ← vertex s 0
  let b ← vertex s 1
  return solveMatrix stray (lineCorners a.reference b.reference) (lineCorners a.actual b.actual)

/-- `alignment.cpp:412-470` `updateTransformationMatrices`. -/
def updateMatrices (env : Env K σ) (s : State K) : C (State K) :=
  match s.triangles with
  | [] =>
    if s.numVertices = 1 then do
      let v ← vertex s 0
      setMatrix s 0 (pointMatrix v)
    else if 2 ≤ s.numVertices then do
      let m ← lineMatrix s (env.stray 0)
      setMatrix s 0 m
    else setMatrix s 0 identity
  | ts => triMatrices env.stray 0 ts s

/-- `alignment.cpp:88-95` `TriangulateActual()`. -/
def triangulateActual (env : Env K σ) (s : State K) : C (State K) :=
  if 0 < s.numVertices then do
    let r ← triangulate env.test env.init s.numVertices s.vertices
    updateMatrices env { s with vertices := r.1, triangles := r.2 }
  else updateMatrices env s

/-- `alignment.cpp:526-529` `triangleArea`. -/
def triangleArea (p q r : Pt K) : K := |(p.x * (q.y - r.y) + q.x * (r.y - p.y) + r.x * (p.y - q.y)) / 2|

/-- `alignment.cpp:531-539` `isInTriangle`; `rd` is the rounding of `float` variables and `float` operations. -/
def isInTriangle (rd : K → K) (p p1 p2 p3 : Pt K) : Bool :=
  let area := rd (triangleArea p1 p2 p3)
  let area1 := rd (triangleArea p p2 p3)
  let area2 := rd (triangleArea p1 p p3)
  let area3 := rd (triangleArea p1 p2 p)
  decide (|rd (area - rd (rd (area1 + area2) + area3))| < 1 / 10000)

/-- `alignment.cpp:358-361`: is the point in the triangle? -/
def inTri (env : Env K σ) (s : State K) (p : Pt K) (t : Tri) : C Bool := do
  let a ← vertex s t.p1
  let b ← vertex s t.p2
  let c ← vertex s t.p3
  return isInTriangle env.rd p a.actual b.actual c.actual

/-- `alignment.cpp:356-365,393-402`: index of the first triangle containing the point. -/
def firstContaining (env : Env K σ) (s : State K) (p : Pt K) : (i : Nat) → List Tri → C (Option Nat)
  | _, [] => .ok none
  | i, t :: ts => do
    match ← inTri env s p t with
    | true => .ok (some i)
    | false => firstContaining env s p (i + 1) ts

/-- `alignment.cpp:498-506`: squared distance between the centre of a triangle and the point, as `float`. -/
def centreDistance (env : Env K σ) (s : State K) (p : Pt K) (t : Tri) : C K := do
  let a ← vertex s t.p1
  let b ← vertex s t.p2
  let c ← vertex s t.p3
  let az := (a.actual.x + b.actual.x + c.actual.x) / 3
  let alt := (a.actual.y + b.actual.y + c.actual.y) / 3
  return env.rd ((az - p.x) * (az - p.x) + (alt - p.y) * (alt - p.y))

/-- `alignment.cpp:507`: `distance < minDistance`, with `none` for the initial `INFINITY`. -/
def closer (d : K) : Option K → Bool
  | none => true
  | some m => decide (d < m)

/-- `alignment.cpp:494-513`: the loop; `best` is `minDistance` with `triangleIndex`, `none` is `INFINITY`, -1. -/
def nearestLoop (env : Env K σ) (s : State K) (p : Pt K) :
    (i : Nat) → List Tri → Option (K × Nat) → C (Option (K × Nat))
  | _, [], best => .ok best
  | i, t :: ts, best => do
    let d ← centreDistance env s p t
    nearestLoop env s p (i + 1) ts (if closer d (best.map (·.1)) then some (d, i) else best)

/-- `alignment.cpp:472-514` `nearestTriangle`; `none` is -1.  Simplification: no distance is as large as the `float`
infinity. -/
def nearestTriangle (env : Env K σ) (s : State K) (p : Pt K) : C (Option Nat) := do
  let r ← nearestLoop env s p 0 s.triangles none
  return r.map (·.2)

/-- `transormationMatrices[i]`: an element never written is indeterminate. -/
def matrixAt (s : State K) (i : Nat) : C (Mat3 K) :=
  match s.matrices[i]? with
  | some (some m) => .ok m
  | some none => .error (.ub .uninit)
  | none => .error (.ub .oobRead)

/-- `alignment.cpp:366-377`: the matrix of the nearest triangle. -/
def nearestMatrix (env : Env K σ) (s : State K) (p : Pt K) : C (Mat3 K) := do
  match ← nearestTriangle env s p with
  | some i => matrixAt s i
  | none => .ok identity

/-- `alignment.cpp:343-378` `getTransformationMatrix`. -/
def getTransformationMatrix (env : Env K σ) (s : State K) (p : Pt K) : C (Mat3 K) :=
  match s.triangles with
  | [] => if 1 ≤ s.numVertices then matrixAt s 0 else .ok identity
  | ts => do
    match ← firstContaining env s p 0 ts with
    | some i => matrixAt s i
    | none => nearestMatrix env s p

/-- `mytypes.h:57-64` `TransformationType`. -/
inductive TType where
  | none
  | point
  | line
  | triangleOut
  | triangleIn
  deriving DecidableEq, Repr

/-- `alignment.cpp:380-410` `getTransformationType`. -/
def getTransformationType (env : Env K σ) (s : State K) (p : Pt K) : C TType :=
  match s.triangles with
  | [] => .ok (if s.numVertices = 1 then .point else if 2 ≤ s.numVertices then .line else .none)
  | ts => do
    match ← firstContaining env s p 0 ts with
    | some _ => .ok .triangleIn
    | none => .ok .triangleOut

/-- `alignment.cpp:516-524` `getCalibratedOrientation`. -/
def getCalibratedOrientation [FloorRing K] (env : Env K σ) (s : State K) (p : Pt K) : C (Pt K) := do
  let m ← getTransformationMatrix env s p
  let out := mulVec m ⟨p.x, p.y, 1⟩
  return ⟨Helper.fMod out.v0 360, out.v1⟩

end Verif.Align
