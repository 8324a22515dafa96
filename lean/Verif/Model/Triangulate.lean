import Mathlib.Algebra.Order.Field.Basic
import Verif.C.Basic

/-!
# Model of the triangulation in `lib/alignment/src/alignment.cpp`

`CircumCircle` (lines 106-150) and `TriangulateActual(int, VertexPair[], Triangle[], int&)` (lines 164-337).  The loop structure is
modelled for an arbitrary answer of the geometric tests (`Test`), so that what is proved about indices holds for any
arithmetic; `exactTest` is the code's own test with `double` as an exact ordered field.
-/

namespace Verif.Align

/-- `mytypes.h:41-49` `Point`. -/
@[ext] structure Pt (K : Type) where
  x : K
  y : K
  deriving DecidableEq, Repr

/-- `mytypes.h:51-55` `VertexPair`. -/
@[ext] structure VertexPair (K : Type) where
  actual : Pt K
  reference : Pt K
  deriving DecidableEq, Repr

/-- `mytypes.h:31-34` `Triangle`.  Simplification: the `int` members are never negative, so they are naturals. -/
structure Tri where
  p1 : Nat
  p2 : Nat
  p3 : Nat
  deriving DecidableEq, Repr

/-- `mytypes.h:36-39` `Edge`, untagged.  A tagged edge `(-1, -1)` is `none` in an `Option Edge`. -/
abbrev Edge := Nat × Nat

/-- Outcome of the geometric tests of `alignment.cpp:248-253` for the point `p` and a triangle: is the triangle to be
removed (`inside`), is it complete (`xc + r < xp`), and the variables `xc`, `r` left for the next iteration. -/
structure Answer (σ : Type) where
  inside : Bool
  completes : Bool
  next : σ
  deriving DecidableEq, Repr

/-- The geometric tests: previous `xc`, `r`; the point; the three corners. -/
abbrev Test (K σ : Type) := σ → Pt K → Pt K → Pt K → Pt K → C (Answer σ)

section Loops
variable {K σ : Type}

/-- `vertex[i].actual` with a bounds check. -/
def readPt (mem : List (VertexPair K)) (i : Nat) : C (Pt K) :=
  match mem[i]? with
  | some v => .ok v.actual
  | none => .error (.ub .oobRead)

/-- `alignment.cpp:255-273`: append the three edges of a removed triangle, growing the edge array if necessary.  The
array capacity is `emax`; writing beyond it would be out of bounds. -/
def pushEdges (edges : List Edge) (emax : Nat) (t : Tri) : C (List Edge × Nat) :=
  let emax := if edges.length + 3 ≥ emax then emax + 100 else emax
  if edges.length + 3 ≤ emax then .ok (edges ++ [(t.p1, t.p2), (t.p2, t.p3), (t.p3, t.p1)], emax)
  else .error (.ub .oobWrite)

/-- Variables of the loop `alignment.cpp:238-279`. -/
structure ScanSt (σ : Type) where
  /-- `v[0..j-1]` with `complete[0..j-1]` -/
  done : List (Tri × Bool)
  /-- `edges[0..nedge-1]` -/
  edges : List Edge
  emax : Nat
  st : σ

/-- What the removal `v[j] = v[ntri-1]; ntri--; j--` (`alignment.cpp:274-277`) leaves to be visited. -/
def moveLast {α : Type} (rest : List α) : List α :=
  match rest.getLast? with
  | none => []
  | some l => l :: rest.dropLast

/-- `alignment.cpp:242-253`: the tests for one triangle. -/
def ask (test : Test K σ) (mem : List (VertexPair K)) (p : Pt K) (st : σ) (t : Tri) : C (Answer σ) := do
  let a ← readPt mem t.p1
  let b ← readPt mem t.p2
  let c ← readPt mem t.p3
  test st p a b c

/-- `alignment.cpp:238-279`: visit `todo = v[j..ntri-1]`.  `fuel` bounds the iterations; the loop ends after
`todo.length` of them. -/
def scan (test : Test K σ) (mem : List (VertexPair K)) (p : Pt K) :
    (fuel : Nat) → (todo : List (Tri × Bool)) → ScanSt σ → C (ScanSt σ)
  | 0, todo, s => .ok { s with done := s.done ++ todo }
  | _ + 1, [], s => .ok s
  | fuel + 1, (t, true) :: rest, s => scan test mem p fuel rest { s with done := s.done ++ [(t, true)] }
  | fuel + 1, (t, false) :: rest, s => do
    let a ← ask test mem p s.st t
    match a.inside with
    | true =>
      let (edges, emax) ← pushEdges s.edges s.emax t
      scan test mem p fuel (moveLast rest) { s with edges := edges, emax := emax, st := a.next }
    | false => scan test mem p fuel rest { s with done := s.done ++ [(t, a.completes)], st := a.next }

/-- `alignment.cpp:289,297`: are the two edges the same, in either direction?  Two tagged edges also compare equal in the
code, but tagging them again has no effect. -/
def sameEdge : Option Edge → Option Edge → Bool
  | some e, some f => (e.1 == f.2 && e.2 == f.1) || (e.1 == f.1 && e.2 == f.2)
  | _, _ => false

/-- `alignment.cpp:287-304`: compare `edges[j]` with all later edges, tagging both on a match. -/
def tagOne (e : Option Edge) : List (Option Edge) → Option Edge × List (Option Edge)
  | [] => (e, [])
  | f :: rest =>
    let hit := sameEdge e f
    let r := tagOne (if hit then none else e) rest
    (r.1, (if hit then none else f) :: r.2)

/-- `alignment.cpp:285-305`: tag multiple edges.  `fuel` is the number of edges. -/
def tagAll : (fuel : Nat) → List (Option Edge) → List (Option Edge)
  | 0, es => es
  | _ + 1, [] => []
  | fuel + 1, e :: rest =>
    let r := tagOne e rest
    r.1 :: tagAll fuel r.2

/-- `alignment.cpp:315-319`: append a triangle.  `v` has room for `3 * 64` triangles (`alignment.cpp:21`), `complete` for
`4 * nv` flags (line 178). -/
def pushTri (nv : Nat) (tris : List (Tri × Bool)) (t : Tri) : C (List (Tri × Bool)) :=
  if tris.length < 192 ∧ tris.length < 4 * nv then .ok (tris ++ [(t, false)]) else .error (.ub .oobWrite)

/-- `alignment.cpp:311-320`: form the new triangles from the untagged edges. -/
def formTris (nv i : Nat) : List (Option Edge) → List (Tri × Bool) → C (List (Tri × Bool))
  | [], tris => .ok tris
  | none :: es, tris => formTris nv i es tris
  | some e :: es, tris => do
    let tris ← pushTri nv tris ⟨e.1, e.2, i⟩
    formTris nv i es tris

/-- State between two points. -/
structure Work (σ : Type) where
  tris : List (Tri × Bool)
  emax : Nat
  st : σ

/-- `alignment.cpp:227-321`, one iteration: include the point with index `i`. -/
def insertPoint (test : Test K σ) (nv : Nat) (mem : List (VertexPair K)) (w : Work σ) (i : Nat) : C (Work σ) := do
  let p ← readPt mem i
  let s ← scan test mem p w.tris.length w.tris ⟨[], [], w.emax, w.st⟩
  let es := tagAll s.edges.length (s.edges.map some)
  let tris ← formTris nv i es s.done
  return ⟨tris, s.emax, s.st⟩

/-- `alignment.cpp:227-321`: include the points with the given indices one after the other. -/
def insertAll (test : Test K σ) (nv : Nat) (mem : List (VertexPair K)) : List Nat → Work σ → C (Work σ)
  | [], w => .ok w
  | i :: is, w => do
    let w ← insertPoint test nv mem w i
    insertAll test nv mem is w

/-- `alignment.cpp:326-334`: remove the triangles with supertriangle vertices, moving the last one into the gap.  `fuel`
bounds the iterations; the loop ends after `todo.length` of them. -/
def purge (nv : Nat) : (fuel : Nat) → (todo done : List Tri) → List Tri
  | 0, todo, done => done ++ todo
  | _ + 1, [], done => done
  | fuel + 1, t :: rest, done =>
    if t.p1 ≥ nv ∨ t.p2 ≥ nv ∨ t.p3 ≥ nv then purge nv fuel (moveLast rest) done
    else purge nv fuel rest (done ++ [t])

end Loops

section Geometry
variable {K : Type} [Field K] [LinearOrder K] [IsStrictOrderedRing K]

/-- `mytypes.h:30` `EPSILON`. -/
def eps : K := 1 / 1000000

/-- `alignment.cpp:186-200`: smallest value, keeping the first on ties. -/
def minOf (x : K) (xs : List K) : K := xs.foldl (fun m v => if v < m then v else m) x

/-- `alignment.cpp:186-200`: largest value. -/
def maxOf (x : K) (xs : List K) : K := xs.foldl (fun m v => if m < v then v else m) x

/-- `alignment.cpp:186-218`: the three corners of the supertriangle for the points `p :: ps`. -/
def superPts (p : Pt K) (ps : List (Pt K)) : Pt K × Pt K × Pt K :=
  let xmin := minOf p.x (ps.map (·.x))
  let xmax := maxOf p.x (ps.map (·.x))
  let ymin := minOf p.y (ps.map (·.y))
  let ymax := maxOf p.y (ps.map (·.y))
  let dx := xmax - xmin
  let dy := ymax - ymin
  let dmax := if dx > dy then dx else dy
  let xmid := (xmax + xmin) / 2
  let ymid := (ymax + ymin) / 2
  (⟨xmid - 20 * dmax, ymid - dmax⟩, ⟨xmid, ymid + 20 * dmax⟩, ⟨xmid + 20 * dmax, ymid - dmax⟩)

/-- `vertex[i].actual = p` with a bounds check; the reference stays. -/
def writePt (mem : List (VertexPair K)) (i : Nat) (p : Pt K) : C (List (VertexPair K)) :=
  match mem[i]? with
  | some v => .ok (mem.set i ⟨p, v.reference⟩)
  | none => .error (.ub .oobWrite)

/-- `alignment.cpp:186-218`: the vertex array with the supertriangle behind the points. -/
def withSuper (nv : Nat) (mem : List (VertexPair K)) : C (List (VertexPair K)) :=
  match (mem.take nv).map (·.actual) with
  | [] => .error (.ub .oobRead)
  | p :: ps => do
    let s := superPts p ps
    let mem ← writePt mem nv s.1
    let mem ← writePt mem (nv + 1) s.2.1
    writePt mem (nv + 2) s.2.2

/-- `alignment.cpp:164-337` `TriangulateActual(nv, vertex, v, ntri)`: returns the vertex array (with the supertriangle
left behind the points) and `v[0..ntri-1]`.  `init` is the indeterminate initial content of `xc`, `r`.
Simplification: what `v` holds behind index `ntri - 1` is not modelled. -/
def triangulate {σ : Type} (test : Test K σ) (init : σ) (nv : Nat) (mem : List (VertexPair K)) :
    C (List (VertexPair K) × List Tri) := do
  let mem ← withSuper nv mem
  let tris ← pushTri nv [] ⟨nv, nv + 1, nv + 2⟩
  let w ← insertAll test nv mem (List.range nv) ⟨tris, 200, init⟩
  let v := w.tris.map (·.1)
  return (mem, purge nv v.length v [])

/-- Centre of a circle and its squared radius. -/
structure Circle (K : Type) where
  xc : K
  yc : K
  rsqr : K
  deriving DecidableEq, Repr

/-- `alignment.cpp:115-141`: the centre computed by `CircumCircle`.  A division by zero (three collinear points in the
general case) leaves the modelled domain. -/
def centre (a b c : Pt K) : C (K × K) :=
  if |b.y - a.y| < eps then
    let m2 := -(c.x - b.x) / (c.y - b.y)
    let mx2 := (b.x + c.x) / 2
    let my2 := (b.y + c.y) / 2
    let xc := (b.x + a.x) / 2
    .ok (xc, m2 * (xc - mx2) + my2)
  else if |c.y - b.y| < eps then
    let m1 := -(b.x - a.x) / (b.y - a.y)
    let mx1 := (a.x + b.x) / 2
    let my1 := (a.y + b.y) / 2
    let xc := (c.x + b.x) / 2
    .ok (xc, m1 * (xc - mx1) + my1)
  else
    let m1 := -(b.x - a.x) / (b.y - a.y)
    let m2 := -(c.x - b.x) / (c.y - b.y)
    let mx1 := (a.x + b.x) / 2
    let mx2 := (b.x + c.x) / 2
    let my1 := (a.y + b.y) / 2
    let my2 := (b.y + c.y) / 2
    if m1 - m2 = 0 then .error .nonfinite
    else
      let xc := (m1 * mx1 - m2 * mx2 + my2 - my1) / (m1 - m2)
      .ok (xc, m1 * (xc - mx1) + my1)

/-- `alignment.cpp:106-150` `CircumCircle` up to line 145: `none` is the early return of line 114, which leaves `xc`, `yc`, `r`
unwritten.  `r` is kept squared (`sqrt` is exact). -/
def circumCircle (a b c : Pt K) : C (Option (Circle K)) :=
  if |a.y - b.y| < eps ∧ |b.y - c.y| < eps then .ok none
  else do
    let o ← centre a b c
    return some ⟨o.1, o.2, (b.x - o.1) * (b.x - o.1) + (b.y - o.2) * (b.y - o.2)⟩

/-- `alignment.cpp:146-149`: `drsqr <= rsqr`. -/
def Circle.covers (o : Circle K) (p : Pt K) : Bool :=
  decide ((p.x - o.xc) * (p.x - o.xc) + (p.y - o.yc) * (p.y - o.yc) ≤ o.rsqr)

/-- `alignment.cpp:249`: `xc + r < xp`, with `r = sqrt(rsqr)` the non-negative root. -/
def Circle.leftOf (o : Circle K) (p : Pt K) : Bool :=
  decide (0 < p.x - o.xc ∧ o.rsqr < (p.x - o.xc) * (p.x - o.xc))

/-- `alignment.cpp:248-253` with the code's own `CircumCircle`.  The state is the last computed circle; before the first one
`xc` and `r` are indeterminate (`none`), and comparing them is reported as such. -/
def exactTest : Test K (Option (Circle K)) := fun st p a b c => do
  match ← circumCircle a b c with
  | some o => return ⟨o.covers p, o.leftOf p, some o⟩
  | none =>
    match st with
    | some o => return ⟨false, o.leftOf p, some o⟩
    | none => .error (.ub .uninit)

end Geometry

end Verif.Align
