import Verif.Model.Align
import Verif.Model.Race

/-!
# The telescope object under concurrency

`NexStar::handleRequest` is called by `onBluetoothData` (`main.cpp:201-209`) in the task of the Bluetooth stack and works on the same
`Telescope` as `loop()`; there is no lock.  `Model/Align.lean` treats every method as one step.  Here the methods of `Alignment` and
`Telescope` are programs of single accesses to the members of the object, and two tasks are interleaved access by access.

Simplifications: an access to an `int` or a `double` is atomic and memory is sequentially consistent (formally the C++ standard leaves
every such race undefined); a member that is used several times in one statement is read once; the bounding box of the triangulation is
computed after its points were read; `qsort` reads all elements before it writes the first one.  Arrays local to a call (`complete`,
`edges`) are not shared.
-/

namespace Verif.Shared

open Verif.Align Linalg

/-! ### Memory -/

/-- A member of the shared object: `alignment.h:48-55` `numVertices`, `numTriangles`, `triangles[i].p1/p2/p3` (`k`), `vertices[i]` (`f`:
`actual.x`, `actual.y`, `reference.x`, `reference.y`), `transormationMatrices[i](r, c)`; `telescope.h:29` `orientation.az/alt`. -/
inductive Loc where
  | numV
  | numT
  | tri (i : Int) (k : Fin 3)
  | vert (i : Nat) (f : Fin 4)
  | mat (i : Nat) (r c : Fin 3)
  | az
  | alt
  deriving DecidableEq

/-- The type of a member.  `numTriangles` is an `int` and can become negative here; the others are never assigned a negative value. -/
abbrev Loc.Ty (K : Type) : Loc → Type
  | .numV => Nat
  | .numT => Int
  | .tri _ _ => Nat
  | .vert _ _ => K
  | .mat _ _ _ => K
  | .az => K
  | .alt => K

/-- `alignment.cpp:17-23`: the sizes of the arrays. -/
def Loc.valid : Loc → Bool
  | .tri i _ => decide (0 ≤ i ∧ i < 192)
  | .vert i _ => decide (i < 67)
  | .mat i _ _ => decide (i < 192)
  | _ => true

/-- The content of the object; `none` was never written. -/
abbrev Mem (K : Type) := (l : Loc) → Option (l.Ty K)

/-! ### Programs -/

/-- A program of single accesses. -/
inductive Prog (K α : Type) where
  | ret (a : α)
  | get (l : Loc) (k : l.Ty K → Prog K α)
  | put (l : Loc) (v : l.Ty K) (k : Prog K α)
  /-- an error in local memory or arithmetic -/
  | fail (e : Stop)
  /-- the bound on the iterations of a loop is used up: the task does nothing any more -/
  | spin

/-- Sequential composition. -/
def Prog.bind {K α β : Type} : Prog K α → (α → Prog K β) → Prog K β
  | .ret a, f => f a
  | .get l k, f => .get l fun v => (k v).bind f
  | .put l v k, f => .put l v (k.bind f)
  | .fail e, _ => .fail e
  | .spin, _ => .spin

instance {K : Type} : Monad (Prog K) where
  pure := .ret
  bind := .bind

variable {K σ : Type}

/-- Read a member. -/
def rd (l : Loc) : Prog K (l.Ty K) := .get l .ret

/-- Write a member. -/
def wr (l : Loc) (v : l.Ty K) : Prog K Unit := .put l v (.ret ())

/-- A computation without access to the object. -/
def ofC {α : Type} : C α → Prog K α
  | .ok a => .ret a
  | .error e => .fail e

/-- One access; an access outside the arrays or to a member never written is an error. -/
def step {α : Type} : Prog K α → Mem K → C (Prog K α × Mem K)
  | .ret a, m => .ok (.ret a, m)
  | .spin, m => .ok (.spin, m)
  | .fail e, _ => .error e
  | .get l k, m =>
    if l.valid then
      match m l with
      | some v => .ok (k v, m)
      | none => .error (.ub .uninit)
    else .error (.ub .oobRead)
  | .put l v k, m => if l.valid then .ok (k, Function.update m l (some v)) else .error (.ub .oobWrite)

/-- A program on its own; `none` if it does not end within its bounds. -/
def exec {α : Type} : Prog K α → Mem K → C (Option α × Mem K)
  | .ret a, m => .ok (some a, m)
  | .spin, m => .ok (none, m)
  | .fail e, _ => .error e
  | .get l k, m =>
    if l.valid then
      match m l with
      | some v => exec (k v) m
      | none => .error (.ub .uninit)
    else .error (.ub .oobRead)
  | .put l v k, m => if l.valid then exec k (Function.update m l (some v)) else .error (.ub .oobWrite)

/-- Two tasks: the schedule says which one makes the next access. -/
def par {α : Type} : List Race.Task → (Race.Task → Prog K α) → Mem K → C ((Race.Task → Prog K α) × Mem K)
  | [], ps, m => .ok (ps, m)
  | t :: sched, ps, m => do
    let r ← step (ps t) m
    par sched (Function.update ps t r.1) r.2

/-! ### Accesses to structures -/

/-- A point of a vertex. -/
def rdPt (i : Nat) : Prog K (Pt K) := do
  let x ← rd (.vert i 0)
  let y ← rd (.vert i 1)
  return ⟨x, y⟩

/-- A whole vertex. -/
def rdVertex (i : Nat) : Prog K (VertexPair K) := do
  let x ← rd (.vert i 0)
  let y ← rd (.vert i 1)
  let u ← rd (.vert i 2)
  let v ← rd (.vert i 3)
  return ⟨⟨x, y⟩, ⟨u, v⟩⟩

/-- `triangles[i]`. -/
def rdTri (i : Int) : Prog K Tri := do
  let a ← rd (.tri i 0)
  let b ← rd (.tri i 1)
  let c ← rd (.tri i 2)
  return ⟨a, b, c⟩

/-- `v[i] = v[j]`, member by member. -/
def copyTri (i j : Int) : Prog K Unit := do
  let a ← rd (.tri j 0)
  wr (.tri i 0) a
  let b ← rd (.tri j 1)
  wr (.tri i 1) b
  let c ← rd (.tri j 2)
  wr (.tri i 2) c

/-- Copy of `transormationMatrices[i]`. -/
def rdMat (i : Nat) : Prog K (Mat3 K) := do
  let a ← rd (.mat i 0 0)
  let b ← rd (.mat i 0 1)
  let c ← rd (.mat i 0 2)
  let d ← rd (.mat i 1 0)
  let e ← rd (.mat i 1 1)
  let f ← rd (.mat i 1 2)
  let g ← rd (.mat i 2 0)
  let h ← rd (.mat i 2 1)
  let k ← rd (.mat i 2 2)
  return ⟨a, b, c, d, e, f, g, h, k⟩

/-- `transormationMatrices[i] = m`. -/
def wrMat (i : Nat) (m : Mat3 K) : Prog K Unit := do
  wr (.mat i 0 0) m.a00
  wr (.mat i 0 1) m.a01
  wr (.mat i 0 2) m.a02
  wr (.mat i 1 0) m.a10
  wr (.mat i 1 1) m.a11
  wr (.mat i 1 2) m.a12
  wr (.mat i 2 0) m.a20
  wr (.mat i 2 1) m.a21
  wr (.mat i 2 2) m.a22

/-- `vertices[i], …, vertices[i + n - 1]`. -/
def rdVertices : (i n : Nat) → Prog K (List (VertexPair K))
  | _, 0 => .ret []
  | i, n + 1 => do
    let v ← rdVertex i
    let vs ← rdVertices (i + 1) n
    return v :: vs

/-- The points of `vertices[i], …, vertices[i + n - 1]`. -/
def rdPts : (i n : Nat) → Prog K (List (Pt K))
  | _, 0 => .ret []
  | i, n + 1 => do
    let v ← rdPt i
    let vs ← rdPts (i + 1) n
    return v :: vs

/-- `complete[j]`, an array of the call that is not initialised (`alignment.cpp:178`). -/
def flagAt (complete : List (Option Bool)) (j : Int) : C Bool :=
  if 0 ≤ j ∧ j < complete.length then
    match complete[j.toNat]? with
    | some (some b) => .ok b
    | _ => .error (.ub .uninit)
  else .error (.ub .oobRead)

/-- `complete[j] = b`. -/
def setFlag (complete : List (Option Bool)) (j : Int) (b : Bool) : C (List (Option Bool)) :=
  if 0 ≤ j ∧ j < complete.length then .ok (complete.set j.toNat (some b)) else .error (.ub .oobWrite)

/-! ### `Alignment::TriangulateActual` -/

section Triangulation
variable [Field K] [LinearOrder K] [IsStrictOrderedRing K]

/-- What a pass over the triangles hands on: `complete`, `edges`, `emax` and `xc`, `r`. -/
structure Locals (σ : Type) where
  complete : List (Option Bool)
  edges : List Edge
  emax : Nat
  st : σ

/-- `alignment.cpp:274-277`: `v[j] = v[ntri - 1]; complete[j] = complete[ntri - 1]; ntri--;` -/
def dropTri (j : Nat) (complete : List (Option Bool)) : Prog K (List (Option Bool)) := do
  let n ← rd .numT
  copyTri j (n - 1)
  let n ← rd .numT
  let b ← ofC (flagAt complete (n - 1))
  let complete ← ofC (setFlag complete j b)
  let n ← rd .numT
  wr .numT (n - 1)
  return complete

/-- `alignment.cpp:238-279`: the pass over the triangles for the point `p`. -/
def scanP (test : Test K σ) (p : Pt K) : (fuel : Nat) → (j : Nat) → Locals σ → Prog K (Locals σ)
  | 0, _, _ => .spin
  | fuel + 1, j, s => do
    let n ← rd .numT
    if (j : Int) < n then
      let b ← ofC (flagAt s.complete j)
      if b then scanP test p fuel (j + 1) s
      else
        let t ← rdTri j
        let a ← rdPt t.p1
        let b ← rdPt t.p2
        let c ← rdPt t.p3
        let r ← ofC (test s.st p a b c)
        let complete ← ofC (if r.completes then setFlag s.complete j true else .ok s.complete)
        if r.inside then
          let t ← rdTri j
          let e ← ofC (pushEdges s.edges s.emax t)
          let complete ← dropTri j complete
          scanP test p fuel j ⟨complete, e.1, e.2, r.next⟩
        else scanP test p fuel (j + 1) ⟨complete, s.edges, s.emax, r.next⟩
    else return s

/-- `alignment.cpp:311-320`: new triangles from the edges that are not tagged. -/
def formP (i : Nat) : List (Option Edge) → (complete : List (Option Bool)) → Prog K (List (Option Bool))
  | [], complete => .ret complete
  | none :: es, complete => formP i es complete
  | some e :: es, complete => do
    let n ← rd .numT
    wr (.tri n 0) e.1
    let n ← rd .numT
    wr (.tri n 1) e.2
    let n ← rd .numT
    wr (.tri n 2) i
    let n ← rd .numT
    let complete ← ofC (setFlag complete n false)
    let n ← rd .numT
    wr .numT (n + 1)
    formP i es complete

/-- `alignment.cpp:227-321`: include the points one after the other. -/
def insertP (test : Test K σ) (fuel : Nat) : List Nat → Locals σ → Prog K Unit
  | [], _ => .ret ()
  | i :: is, s => do
    let p ← rdPt i
    let s ← scanP test p fuel 0 { s with edges := [] }
    let complete ← formP i (tagAll s.edges.length (s.edges.map some)) s.complete
    insertP test fuel is { s with complete := complete }

/-- `alignment.cpp:326-334`: remove the triangles with supertriangle corners. -/
def purgeP (nv : Nat) : (fuel : Nat) → (i : Nat) → Prog K Unit
  | 0, _ => .spin
  | fuel + 1, i => do
    let n ← rd .numT
    if (i : Int) < n then
      let t ← rdTri i
      if t.p1 ≥ nv ∨ t.p2 ≥ nv ∨ t.p3 ≥ nv then
        let n ← rd .numT
        copyTri i (n - 1)
        let n ← rd .numT
        wr .numT (n - 1)
        purgeP nv fuel i
      else purgeP nv fuel (i + 1)
    else return ()

/-- `alignment.cpp:186-218`: bounding box and supertriangle. -/
def superP (nv : Nat) : Prog K Unit := do
  match ← rdPts 0 nv with
  | [] => .fail (.ub .oobRead)
  | p :: ps =>
    let s := superPts p ps
    wr (.vert nv 0) s.1.x
    wr (.vert nv 1) s.1.y
    wr (.vert (nv + 1) 0) s.2.1.x
    wr (.vert (nv + 1) 1) s.2.1.y
    wr (.vert (nv + 2) 0) s.2.2.x
    wr (.vert (nv + 2) 1) s.2.2.y

/-- `alignment.cpp:164-337` `TriangulateActual(nv, vertices, triangles, numTriangles)`. -/
def triangulateP (test : Test K σ) (init : σ) (fuel nv : Nat) : Prog K Unit := do
  superP nv
  wr (.tri 0 0) nv
  wr (.tri 0 1) (nv + 1)
  wr (.tri 0 2) (nv + 2)
  let complete ← ofC (setFlag (List.replicate (4 * nv) none) 0 false)
  wr .numT 1
  insertP test fuel (List.range nv) ⟨complete, [], 200, init⟩
  purgeP nv fuel 0

/-! ### Matrices -/

/-- The tests shared by `getTransformationMatrix` (`alignment.cpp:345-353`), `getTransformationType` (382-390) and
`updateTransformationMatrices` (414-421,442). -/
inductive Branch where
  | point
  | line
  | tris
  | none
  deriving DecidableEq

/-- `(numTriangles == 0) && q(numVertices)`: the second member is read only if the first one is 0. -/
def emptyAnd (q : Nat → Bool) : Prog K Bool := do
  let n ← rd .numT
  if n = 0 then
    let k ← rd .numV
    return q k
  else return false

/-- `(numTriangles == 0) && (numVertices == 1)`, `(numTriangles == 0) && (numVertices >= 2)`, `numTriangles >= 1`: every test reads the
members again. -/
def branchP : Prog K Branch := do
  let one ← emptyAnd fun k => decide (k = 1)
  if one then return .point
  else
    let two ← emptyAnd fun k => decide (2 ≤ k)
    if two then return .line
    else
      let n ← rd .numT
      if 1 ≤ n then return .tris else return .none

/-- `alignment.cpp:444-464`: the matrices of the triangles. -/
def triMatricesP (stray : Nat → K) : (fuel : Nat) → (i : Nat) → Prog K Unit
  | 0, _ => .spin
  | fuel + 1, i => do
    let n ← rd .numT
    if (i : Int) < n then
      let t ← rdTri i
      let a ← rdVertex t.p1
      let b ← rdVertex t.p2
      let c ← rdVertex t.p3
      wrMat i (solveMatrix (stray i) (triCorners a.reference b.reference c.reference) (triCorners a.actual b.actual c.actual))
      triMatricesP stray fuel (i + 1)
    else return ()

/-- `alignment.cpp:412-470` `updateTransformationMatrices`. -/
def updateP (env : Env K σ) (fuel : Nat) : Prog K Unit := do
  match ← branchP with
  | .point =>
    wrMat 0 identity
    let r ← rd (.vert 0 2)
    let a ← rd (.vert 0 0)
    wr (.mat 0 0 2) (r - a)
    let r ← rd (.vert 0 3)
    let a ← rd (.vert 0 1)
    wr (.mat 0 1 2) (r - a)
  | .line =>
    let a ← rdVertex 0
    let b ← rdVertex 1
    wrMat 0 (solveMatrix (env.stray 0) (lineCorners a.reference b.reference) (lineCorners a.actual b.actual))
  | .tris => triMatricesP env.stray fuel 0
  | .none => wrMat 0 identity

/-- `alignment.cpp:90-93`: only if there are stars. -/
def triangulateSomeP (env : Env K σ) (fuel : Nat) : Prog K Unit := do
  let n ← rd .numV
  if 0 < n then
    let n ← rd .numV
    triangulateP env.test env.init fuel n
  else return ()

/-- `alignment.cpp:88-95` `TriangulateActual()`. -/
def triangulateActualP (env : Env K σ) (fuel : Nat) : Prog K Unit := do
  triangulateSomeP env fuel
  updateP env fuel

/-! ### Adding a star -/

/-- `alignment.cpp:28-32`: is the orientation already in the list? -/
def knownP (actual : Pt K) : (fuel : Nat) → (i : Nat) → Prog K Bool
  | 0, _ => .spin
  | fuel + 1, i => do
    let n ← rd .numV
    if i < n then
      let p ← rdPt i
      if p.x = actual.x ∧ p.y = actual.y then return true else knownP actual fuel (i + 1)
    else return false

/-- `alignment.cpp:34-46`: wrapping relative to the first star. -/
def wrapP (r : Pt K) : Prog K (Pt K) := do
  let n ← rd .numV
  if 0 < n then
    let x ← rd (.vert 0 2)
    let r : Pt K := if x - r.x > 180 then ⟨r.x + 360, r.y⟩ else r
    let x ← rd (.vert 0 2)
    return if x - r.x < -180 then ⟨r.x - 360, r.y⟩ else r
  else return r

/-- Writes to members of vertices. -/
def wrAll : List (Nat × Fin 4 × K) → Prog K Unit
  | [] => .ret ()
  | w :: ws => do
    wr (.vert w.1 w.2.1) w.2.2
    wrAll ws

/-- `alignment.cpp:25-55` `addVertexPair`; `sortWrites` are the writes `qsort` makes for the given elements. -/
def addP (sortWrites : List (VertexPair K) → List (Nat × Fin 4 × K)) (fuel : Nat) (actual reference : Pt K) : Prog K Bool := do
  if ← knownP actual fuel 0 then return false
  else
    let r ← wrapP reference
    let n ← rd .numV
    wr (.vert n 0) actual.x
    wr (.vert n 1) actual.y
    let n ← rd .numV
    wr (.vert n 2) r.x
    wr (.vert n 3) r.y
    let n ← rd .numV
    wr .numV ((n + 1) % maxVertices)
    let n ← rd .numV
    let vs ← rdVertices 0 n
    wrAll (sortWrites vs)
    return true

/-! ### Reading a position -/

/-- `alignment.cpp:356-365,393-402`: the first triangle that contains the point. -/
def firstP (env : Env K σ) (p : Pt K) : (fuel : Nat) → (i : Nat) → Prog K (Option Nat)
  | 0, _ => .spin
  | fuel + 1, i => do
    let n ← rd .numT
    if (i : Int) < n then
      let t ← rdTri i
      let a ← rdPt t.p1
      let b ← rdPt t.p2
      let c ← rdPt t.p3
      if isInTriangle env.rd p a b c then return some i else firstP env p fuel (i + 1)
    else return none

/-- `alignment.cpp:494-513`: the loop of `nearestTriangle`. -/
def nearestP (env : Env K σ) (p : Pt K) : (fuel : Nat) → (i : Nat) → Option (K × Nat) → Prog K (Option (K × Nat))
  | 0, _, _ => .spin
  | fuel + 1, i, best => do
    let n ← rd .numT
    if (i : Int) < n then
      let t ← rdTri i
      let a ← rdPt t.p1
      let b ← rdPt t.p2
      let c ← rdPt t.p3
      let az := (a.x + b.x + c.x) / 3
      let alt := (a.y + b.y + c.y) / 3
      let d := env.rd ((az - p.x) * (az - p.x) + (alt - p.y) * (alt - p.y))
      nearestP env p fuel (i + 1) (if closer d (best.map (·.1)) then some (d, i) else best)
    else return best

/-- `alignment.cpp:343-378` `getTransformationMatrix`. -/
def matrixP (env : Env K σ) (fuel : Nat) (p : Pt K) : Prog K (Mat3 K) := do
  match ← branchP with
  | .point => rdMat 0
  | .line => rdMat 0
  | .tris =>
    match ← firstP env p fuel 0 with
    | some i => rdMat i
    | none =>
      match ← nearestP env p fuel 0 none with
      | some b => rdMat b.2
      | none => return identity
  | .none => return identity

/-- `alignment.cpp:380-410` `getTransformationType`. -/
def typeP (env : Env K σ) (fuel : Nat) (p : Pt K) : Prog K TType := do
  match ← branchP with
  | .point => return .point
  | .line => return .line
  | .tris =>
    match ← firstP env p fuel 0 with
    | some _ => return .triangleIn
    | none => return .triangleOut
  | .none => return .none

/-! ### The calls of the two tasks -/

/-- What `telescope.cpp:38-41` computes before the conversion to equatorial coordinates: the type, the orientation read and the matrix
applied to it (`alignment.cpp:516-524`). -/
structure Reading (K : Type) where
  ty : TType
  actual : Pt K
  matrix : Mat3 K

/-- `alignment.cpp:520-523`: the calibrated orientation of a reading. -/
def Reading.value [FloorRing K] (r : Reading K) : Pt K :=
  let out := mulVec r.matrix ⟨r.actual.x, r.actual.y, 1⟩
  ⟨Helper.fMod out.v0 360, out.v1⟩

/-- `telescope.cpp:38-42` `getCalibratedOrientation`: the orientation is copied twice. -/
def positionP (env : Env K σ) (fuel : Nat) : Prog K (Reading K) := do
  let x ← rd .az
  let y ← rd .alt
  let ty ← typeP env fuel ⟨x, y⟩
  let x ← rd .az
  let y ← rd .alt
  let m ← matrixP env fuel ⟨x, y⟩
  return ⟨ty, ⟨x, y⟩, m⟩

/-- `telescope.cpp:17-27` `setOrientation`. -/
def orientP (p : Pt K) : Prog K Unit := do
  wr .az p.x
  wr .alt p.y

/-- `alignment.cpp:57-61` `clearAll`. -/
def clearP : Prog K Unit := do
  wr .numV 0
  wr .numT 0

/-- `telescope.cpp:29-36` `addReferencePoint` with the horizontal coordinates of the star. -/
def syncP (env : Env K σ) (sortWrites : List (VertexPair K) → List (Nat × Fin 4 × K)) (fuel : Nat) (reference : Pt K) : Prog K Unit := do
  let x ← rd .az
  let y ← rd .alt
  let _ ← addP sortWrites fuel ⟨x, y⟩ reference
  triangulateActualP env fuel

/-- What a task asks of the telescope. -/
inductive Call (K : Type) where
  /-- a position is requested (NexStar `e`) or sent -/
  | position
  /-- a new orientation from the sensors (`main.cpp:530-545`) -/
  | orient (p : Pt K)
  /-- the alignment is reset (`main.cpp:155`) -/
  | clear
  /-- a star is synchronised (NexStar `s`, goto) -/
  | sync (reference : Pt K)

/-- One call; only a position has a result. -/
def callP (env : Env K σ) (sortWrites : List (VertexPair K) → List (Nat × Fin 4 × K)) (fuel : Nat) : Call K → Prog K (List (Reading K))
  | .position => do
    let r ← positionP env fuel
    return [r]
  | .orient p => do
    orientP p
    return []
  | .clear => do
    clearP
    return []
  | .sync r => do
    syncP env sortWrites fuel r
    return []

/-- The calls of a task, one after the other: the readings in order. -/
def callsP (env : Env K σ) (sortWrites : List (VertexPair K) → List (Nat × Fin 4 × K)) (fuel : Nat) : List (Call K) → Prog K (List (Reading K))
  | [] => .ret []
  | c :: cs => do
    let a ← callP env sortWrites fuel c
    let b ← callsP env sortWrites fuel cs
    return a ++ b

end Triangulation

end Verif.Shared
