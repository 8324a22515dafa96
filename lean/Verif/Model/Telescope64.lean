import Verif.Model.Align
import Verif.Model.Linalg64
import Verif.Model.Coord64

/-!
# Model of `lib/alignment/src/alignment.cpp` and `lib/telescope/src/telescope.cpp` in IEEE arithmetic

`Model/Align.lean` and `Model/Telescope.lean` once more, with `double` as binary64 and `float` as binary32: every operation is rounded.  The loops
of the triangulation are those of `Model/Triangulate.lean` (they do not calculate).  What the model cannot know is again a parameter (`Env`).
-/

namespace Verif.Align64

open Verif Verif.Align Verif.Linalg Verif.Linalg64

variable {σ : Type}

/-! ### The triangulation -/

/-- `alignment.cpp:186-218`: the three corners of the supertriangle for the points `p :: ps`. -/
def superPts (p : Pt ℚ) (ps : List (Pt ℚ)) : C (Pt ℚ × Pt ℚ × Pt ℚ) := do
  let xmin := minOf p.x (ps.map (·.x))
  let xmax := maxOf p.x (ps.map (·.x))
  let ymin := minOf p.y (ps.map (·.y))
  let ymax := maxOf p.y (ps.map (·.y))
  let dx ← fl b64 (xmax - xmin)
  let dy ← fl b64 (ymax - ymin)
  let dmax : D := .ok (if dx > dy then dx else dy)
  let xmid := divD (add (.ok xmax) (.ok xmin)) (.ok 2)
  let ymid := divD (add (.ok ymax) (.ok ymin)) (.ok 2)
  let x0 ← sub xmid (mulD (.ok 20) dmax)
  let y0 ← sub ymid dmax
  let x1 ← xmid
  let y1 ← add ymid (mulD (.ok 20) dmax)
  let x2 ← add xmid (mulD (.ok 20) dmax)
  let y2 ← sub ymid dmax
  return (⟨x0, y0⟩, ⟨x1, y1⟩, ⟨x2, y2⟩)

/-- `alignment.cpp:186-218`: the vertex array with the supertriangle behind the points. -/
def withSuper (nv : Nat) (mem : List (VertexPair ℚ)) : C (List (VertexPair ℚ)) :=
  match (mem.take nv).map (·.actual) with
  | [] => .error (.ub .oobRead)
  | p :: ps => do
    let s ← superPts p ps
    let mem ← writePt mem nv s.1
    let mem ← writePt mem (nv + 1) s.2.1
    writePt mem (nv + 2) s.2.2

/-- `alignment.cpp:164-337` `TriangulateActual(nv, vertex, v, ntri)` (cf. `Align.triangulate`). -/
def triangulate (test : Test ℚ σ) (init : σ) (nv : Nat) (mem : List (VertexPair ℚ)) : C (List (VertexPair ℚ) × List Tri) := do
  let mem ← withSuper nv mem
  let tris ← pushTri nv [] ⟨nv, nv + 1, nv + 2⟩
  let w ← insertAll test nv mem (List.range nv) ⟨tris, 200, init⟩
  let v := w.tris.map (·.1)
  return (mem, purge nv v.length v [])

/-- `alignment.cpp:115-141`: the centre of the circumcircle.  `-(x3 - x2) / (y3 - y2)` negates the numerator (exact). -/
def centre (a b c : Pt ℚ) : C (ℚ × ℚ) := do
  let eps ← fl b64 (1 / 1000000)
  let e21 ← sub (.ok b.y) (.ok a.y)
  let e32 ← sub (.ok c.y) (.ok b.y)
  let neg : D → D := fun d => do return -(← d)
  let m1 := divD (neg (sub (.ok b.x) (.ok a.x))) (sub (.ok b.y) (.ok a.y))
  let m2 := divD (neg (sub (.ok c.x) (.ok b.x))) (sub (.ok c.y) (.ok b.y))
  let half : ℚ → ℚ → D := fun u v => divD (add (.ok u) (.ok v)) (.ok 2)
  if |e21| < eps then do
    let xc ← half b.x a.x
    let yc ← add (mulD m2 (sub (.ok xc) (half b.x c.x))) (half b.y c.y)
    return (xc, yc)
  else if |e32| < eps then do
    let xc ← half c.x b.x
    let yc ← add (mulD m1 (sub (.ok xc) (half a.x b.x))) (half a.y b.y)
    return (xc, yc)
  else do
    let xc ← divD (sub (add (sub (mulD m1 (half a.x b.x)) (mulD m2 (half b.x c.x))) (half b.y c.y)) (half a.y b.y)) (sub m1 m2)
    let yc ← add (mulD m1 (sub (.ok xc) (half a.x b.x))) (half a.y b.y)
    return (xc, yc)

/-- `alignment.cpp:142-149`: `dx * dx + dy * dy`. -/
def sqr (p : Pt ℚ) (o : ℚ × ℚ) : D :=
  add (mulD (sub (.ok p.x) (.ok o.1)) (sub (.ok p.x) (.ok o.1))) (mulD (sub (.ok p.y) (.ok o.2)) (sub (.ok p.y) (.ok o.2)))

/-- `alignment.cpp:106-150` `CircumCircle`: the return value with `xc` and `r`; `none` is the early return of line 114. -/
def circumCircle (sqrt : ℚ → C ℚ) (p a b c : Pt ℚ) : C (Option (Bool × ℚ × ℚ)) := do
  let eps ← fl b64 (1 / 1000000)
  let e12 ← sub (.ok a.y) (.ok b.y)
  let e23 ← sub (.ok b.y) (.ok c.y)
  if |e12| < eps ∧ |e23| < eps then return none
  else do
    let o ← centre a b c
    let rsqr ← sqr b o
    let r ← sqrt rsqr
    let drsqr ← sqr p o
    return some (decide (drsqr ≤ rsqr), o.1, r)

/-- `alignment.cpp:248-253`: the tests of the code in double arithmetic.  The state is the pair `xc`, `r` (`none`: indeterminate).  When the calculation
leaves the finite numbers the answer is `guess`: an arbitrary one. -/
def ieeeTest (sqrt : ℚ → C ℚ) (guess : Pt ℚ → Pt ℚ → Pt ℚ → Pt ℚ → Bool × Bool) : Test ℚ (Option (ℚ × ℚ)) := fun st p a b c =>
  let left : ℚ × ℚ → C Bool := fun o => do return decide ((← fl b64 (o.1 + o.2)) < p.x)
  match circumCircle sqrt p a b c with
  | .ok (some (inside, o)) => do return ⟨inside, ← left o, some o⟩
  | .ok none =>
    match st with
    | some o => do return ⟨false, ← left o, some o⟩
    | none => .error (.ub .uninit)
  | .error _ => .ok ⟨(guess p a b c).1, (guess p a b c).2, none⟩

/-! ### `Alignment` -/

/-- What the environment decides. -/
structure Env (σ : Type) where
  /-- geometric tests of the triangulation -/
  test : Test ℚ σ
  /-- indeterminate initial content of `xc`, `r` -/
  init : σ
  /-- `qsort(…, XYZCompare)` -/
  sort : List (VertexPair ℚ) → List (VertexPair ℚ)
  /-- the `double` behind the matrix copy while inverting the `i`-th matrix -/
  stray : Nat → ℚ

/-- `alignment.h:46-55`: the members of `Alignment`, as in `Align.State`.  A matrix that was calculated with an overflow or a division by zero is an
error value: the program carries on, the model knows nothing about its elements. -/
structure State where
  vertices : List (VertexPair ℚ)
  numVertices : Nat
  triangles : List Tri
  matrices : List (Option (C (Mat3 D)))

/-- `alignment.cpp:17-23` constructor, `mytypes.h:41-49` (points start as (0, 0)). -/
def fresh : State :=
  ⟨List.replicate (maxVertices + 3) ⟨⟨0, 0⟩, ⟨0, 0⟩⟩, 0, [], List.replicate (3 * maxVertices) none⟩

/-- The vertices in use. -/
def State.used (s : State) : List (VertexPair ℚ) := s.vertices.take s.numVertices

/-- `alignment.cpp:34-46`: wrapping of the reference azimuth relative to `vertices[0]`. -/
def wrapRef (first : VertexPair ℚ) (r : Pt ℚ) : C (Pt ℚ) := do
  let d ← fl b64 (first.reference.x - r.x)
  let up : C ℚ := if d > 180 then fl b64 (r.x + 360) else .ok r.x
  let x ← up
  let d ← fl b64 (first.reference.x - x)
  let down : C ℚ := if d < -180 then fl b64 (x - 360) else .ok x
  let x ← down
  return ⟨x, r.y⟩

/-- `alignment.cpp:34-46`, guarded by `numVertices > 0`. -/
def wrapFor (s : State) (r : Pt ℚ) : C (Pt ℚ) :=
  match s.used with
  | [] => .ok r
  | first :: _ => wrapRef first r

/-- `alignment.cpp:25-55` `addVertexPair`. -/
def addVertexPair (env : Env σ) (s : State) (actual reference : Pt ℚ) : C (Bool × State) :=
  if s.used.any (fun v => v.actual.x == actual.x && v.actual.y == actual.y) then .ok (false, s)
  else do
    let w ← wrapFor s reference
    let mem ← writeVertex s.vertices s.numVertices ⟨actual, w⟩
    let n := (s.numVertices + 1) % maxVertices
    return (true, { s with vertices := env.sort (mem.take n) ++ mem.drop n, numVertices := n })

/-- `alignment.cpp:57-61` `clearAll`. -/
def clearAll (s : State) : State := { s with numVertices := 0, triangles := [] }

/-- `vertices[i]` with a bounds check. -/
def vertex (s : State) (i : Nat) : C (VertexPair ℚ) :=
  match s.vertices[i]? with
  | some v => .ok v
  | none => .error (.ub .oobRead)

/-- `transormationMatrices[i] = m` with a bounds check. -/
def setMatrix (s : State) (i : Nat) (m : C (Mat3 D)) : C State :=
  if i < s.matrices.length then .ok { s with matrices := s.matrices.set i (some m) } else .error (.ub .oobWrite)

/-- `alignment.cpp:416-418`. -/
def pointMatrix (v : VertexPair ℚ) : Mat3 D :=
  { identity with a02 := sub (.ok v.reference.x) (.ok v.actual.x), a12 := sub (.ok v.reference.y) (.ok v.actual.y) }

/-- `alignment.cpp:446-463`: the matrix of one triangle. -/
def triMatrix (s : State) (stray : ℚ) (t : Tri) : C (C (Mat3 D)) := do
  let a ← vertex s t.p1
  let b ← vertex s t.p2
  let c ← vertex s t.p3
  return solveMatrix (.ok stray) (Linalg64.triCorners a.reference b.reference c.reference) (Linalg64.triCorners a.actual b.actual c.actual)

/-- `alignment.cpp:444-464`: the matrices of the triangles from index `i` on. -/
def triMatrices (stray : Nat → ℚ) : (i : Nat) → List Tri → State → C State
  | _, [], s => .ok s
  | i, t :: ts, s => do
    let m ← triMatrix s (stray i) t
    let s ← setMatrix s i m
    triMatrices stray (i + 1) ts s

/-- `alignment.cpp:421-441`: the matrix of the 2-point alignment. -/
def lineMatrix (s : State) (stray : ℚ) : C (C (Mat3 D)) := do
  let a ← vertex s 0
  let b ← vertex s 1
  return solveMatrix (.ok stray) (Linalg64.lineCorners a.reference b.reference) (Linalg64.lineCorners a.actual b.actual)

/-- `alignment.cpp:412-470` `updateTransformationMatrices`. -/
def updateMatrices (env : Env σ) (s : State) : C State :=
  match s.triangles with
  | [] =>
    if s.numVertices = 1 then do
      let v ← vertex s 0
      setMatrix s 0 (.ok (pointMatrix v))
    else if 2 ≤ s.numVertices then do
      let m ← lineMatrix s (env.stray 0)
      setMatrix s 0 m
    else setMatrix s 0 (.ok identity)
  | ts => triMatrices env.stray 0 ts s

/-- `alignment.cpp:88-95` `TriangulateActual()`. -/
def triangulateActual (env : Env σ) (s : State) : C State :=
  if 0 < s.numVertices then do
    let r ← triangulate env.test env.init s.numVertices s.vertices
    updateMatrices env { s with vertices := r.1, triangles := r.2 }
  else updateMatrices env s

/-- `alignment.cpp:526-529` `triangleArea`. -/
def triangleArea (p q r : Pt ℚ) : D :=
  fabs (divD (add (add (mulD (.ok p.x) (sub (.ok q.y) (.ok r.y))) (mulD (.ok q.x) (sub (.ok r.y) (.ok p.y))))
    (mulD (.ok r.x) (sub (.ok p.y) (.ok q.y)))) (.ok 2))

/-- `alignment.cpp:531-539` `isInTriangle`: `float` variables, the limit is a `double`. -/
def isInTriangle (p p1 p2 p3 : Pt ℚ) : C Bool := do
  let area ← fl b32 (← triangleArea p1 p2 p3)
  let area1 ← fl b32 (← triangleArea p p2 p3)
  let area2 ← fl b32 (← triangleArea p1 p p3)
  let area3 ← fl b32 (← triangleArea p1 p2 p)
  let sum ← fl b32 (area1 + area2)
  let sum ← fl b32 (sum + area3)
  let diff ← fl b32 (area - sum)
  let limit ← fl b64 (1 / 10000)
  return decide (|diff| < limit)

/-- `alignment.cpp:358-361`: is the point in the triangle? -/
def inTri (s : State) (p : Pt ℚ) (t : Tri) : C Bool := do
  let a ← vertex s t.p1
  let b ← vertex s t.p2
  let c ← vertex s t.p3
  isInTriangle p a.actual b.actual c.actual

/-- `alignment.cpp:356-365,393-402`: index of the first triangle containing the point. -/
def firstContaining (s : State) (p : Pt ℚ) : (i : Nat) → List Tri → C (Option Nat)
  | _, [] => .ok none
  | i, t :: ts => do
    match ← inTri s p t with
    | true => .ok (some i)
    | false => firstContaining s p (i + 1) ts

/-- `alignment.cpp:498-506`: squared distance between the centre of a triangle and the point, as `float`. -/
def centreDistance (s : State) (p : Pt ℚ) (t : Tri) : C ℚ := do
  let a ← vertex s t.p1
  let b ← vertex s t.p2
  let c ← vertex s t.p3
  let az ← divD (add (add (.ok a.actual.x) (.ok b.actual.x)) (.ok c.actual.x)) (.ok 3)
  let alt ← divD (add (add (.ok a.actual.y) (.ok b.actual.y)) (.ok c.actual.y)) (.ok 3)
  let d ← sqr ⟨az, alt⟩ (p.x, p.y)
  fl b32 d

/-- `alignment.cpp:494-513`: the loop; `best` is `minDistance` with `triangleIndex`, `none` is `INFINITY`, -1. -/
def nearestLoop (s : State) (p : Pt ℚ) : (i : Nat) → List Tri → Option (ℚ × Nat) → C (Option (ℚ × Nat))
  | _, [], best => .ok best
  | i, t :: ts, best => do
    let d ← centreDistance s p t
    nearestLoop s p (i + 1) ts (if closer d (best.map (·.1)) then some (d, i) else best)

/-- `alignment.cpp:472-514` `nearestTriangle`; `none` is -1. -/
def nearestTriangle (s : State) (p : Pt ℚ) : C (Option Nat) := do
  let r ← nearestLoop s p 0 s.triangles none
  return r.map (·.2)

/-- `transormationMatrices[i]`: an element never written is indeterminate. -/
def matrixAt (s : State) (i : Nat) : C (Mat3 D) :=
  match s.matrices[i]? with
  | some (some m) => m
  | some none => .error (.ub .uninit)
  | none => .error (.ub .oobRead)

/-- `alignment.cpp:366-377`: the matrix of the nearest triangle. -/
def nearestMatrix (s : State) (p : Pt ℚ) : C (Mat3 D) := do
  match ← nearestTriangle s p with
  | some i => matrixAt s i
  | none => .ok identity

/-- `alignment.cpp:343-378` `getTransformationMatrix`. -/
def getTransformationMatrix (s : State) (p : Pt ℚ) : C (Mat3 D) :=
  match s.triangles with
  | [] => if 1 ≤ s.numVertices then matrixAt s 0 else .ok identity
  | ts => do
    match ← firstContaining s p 0 ts with
    | some i => matrixAt s i
    | none => nearestMatrix s p

/-- `alignment.cpp:380-410` `getTransformationType`. -/
def getTransformationType (s : State) (p : Pt ℚ) : C TType :=
  match s.triangles with
  | [] => .ok (if s.numVertices = 1 then .point else if 2 ≤ s.numVertices then .line else .none)
  | ts => do
    match ← firstContaining s p 0 ts with
    | some _ => .ok .triangleIn
    | none => .ok .triangleOut

/-- `alignment.cpp:516-524` `getCalibratedOrientation`. -/
def getCalibratedOrientation (s : State) (p : Pt ℚ) : C (Pt ℚ) := do
  let m ← getTransformationMatrix s p
  calibrate m p

end Verif.Align64

namespace Verif.Telescope64

open Verif Verif.Align Verif.Coord64

variable {σ : Type}

/-- `telescope.h:27-31`: the members `alignment` and `orientation` (azimuth, altitude). -/
structure Tel where
  alignment : Align64.State
  orientation : Pt ℚ

/-- `telescope.cpp:3-5`, `mytypes.h:21-28`: a new telescope points at (0, 0). -/
def new : Tel := ⟨Align64.fresh, ⟨0, 0⟩⟩

/-- `telescope.cpp:17-27` `setOrientation`. -/
def setOrientation (T : Tel) (o : Pt ℚ) : Tel := { T with orientation := o }

/-- `telescope.cpp:29-36` `addReferencePoint`; the result of `addVertexPair` is ignored. -/
def addReferencePoint (M : Libm) (env : Align64.Env σ) (T : Tel) (ra dec latitude lst : ℚ) : C Tel := do
  let r ← equatorialToHorizontal M ra dec latitude lst
  let a ← Align64.addVertexPair env T.alignment T.orientation ⟨r.1, r.2⟩
  let s ← Align64.triangulateActual env a.2
  return { T with alignment := s }

/-- `telescope.cpp:38-48` `getCalibratedOrientation`: the transformation type, right ascension and declination. -/
def getCalibratedOrientation (M : Libm) (T : Tel) (latitude lst : ℚ) : C (TType × ℚ × ℚ) := do
  let ty ← Align64.getTransformationType T.alignment T.orientation
  let p ← Align64.getCalibratedOrientation T.alignment T.orientation
  let e ← horizontalToEquatorial M p.x p.y latitude lst
  return (ty, e.1, e.2)

/-- `main.cpp:155`: `telescope.alignment.clearAll()`. -/
def clear (T : Tel) : Tel := { T with alignment := Align64.clearAll T.alignment }

end Verif.Telescope64
