import Verif.Model.Shared

/-!
# What the members of the shared telescope stand for
-/

namespace Verif.Shared

open Verif.Align Linalg

variable {K σ : Type} [Field K] [LinearOrder K] [IsStrictOrderedRing K]

/-- The corners of a triangle. -/
def corner (t : Tri) : Fin 3 → Nat
  | 0 => t.p1
  | 1 => t.p2
  | 2 => t.p3

/-- The numbers of a vertex. -/
def field (v : VertexPair K) : Fin 4 → K
  | 0 => v.actual.x
  | 1 => v.actual.y
  | 2 => v.reference.x
  | 3 => v.reference.y

/-- The members hold the alignment `s` (`Model/Align.lean`) and the orientation `p`.  What matrices hold that were never written, and
triangles that are not in use, is left open. -/
structure Holds (m : Mem K) (s : State K) (p : Pt K) : Prop where
  numV : m .numV = some s.numVertices
  numT : m .numT = some (s.triangles.length : Int)
  tri : ∀ (i : Nat) t, s.triangles[i]? = some t → ∀ k, m (.tri i k) = some (corner t k)
  vert : ∀ (i : Nat) v, s.vertices[i]? = some v → ∀ f, m (.vert i f) = some (field v f)
  mat : ∀ (i : Nat) M, s.matrices[i]? = some (some M) → ∀ r c, m (.mat i r c) = some (M.get r c)
  az : m .az = some p.x
  alt : m .alt = some p.y

/-- What every object of the class satisfies, whatever its history: its arrays are there, at most 63 stars and 192 triangles are in use,
corners of triangles are stars or corners of the supertriangle. -/
structure WellFormed (m : Mem K) : Prop where
  numV : ∃ n, m .numV = some n ∧ n ≤ 63
  numT : ∃ n : Int, m .numT = some n ∧ n ≤ 192 ∧ ∀ i k, 0 ≤ i → i < n → ∃ v, m (.tri i k) = some v
  tri : ∀ i k v, m (.tri i k) = some v → v ≤ 65
  vert : ∀ i f, i < 67 → ∃ v, m (.vert i f) = some v
  mat : ∀ i r c, i < 192 → ∃ v, m (.mat i r c) = some v
  az : ∃ v, m .az = some v
  alt : ∃ v, m .alt = some v

/-- `Telescope::addReferencePoint` in one step (`Model/Telescope.lean`), for the orientation `p` and the horizontal coordinates `r` of the
star. -/
def syncAtOnce (env : Env K σ) (s : State K) (p r : Pt K) : C (State K) := do
  let a ← addVertexPair env s p r
  triangulateActual env a.2

/-- The calls, each in one step, do not fail, whatever combination of the azimuths `xs` and the altitudes `ys` the telescope points at. -/
def Fine (env : Env K σ) (xs ys : List K) : List (Call K) → State K → Prop
  | [], _ => True
  | .sync r :: cs, s => ∀ x ∈ xs, ∀ y ∈ ys, ∃ s', syncAtOnce env s ⟨x, y⟩ r = .ok s' ∧ Fine env xs ys cs s'
  | .clear :: cs, s => Fine env xs ys cs (clearAll s)
  | _ :: cs, s => Fine env xs ys cs s

/-- What the calls, each in one step, make of an alignment when the telescope points at some combination of the azimuths `xs` and the
altitudes `ys` at every synchronisation. -/
inductive Outcome (env : Env K σ) (xs ys : List K) : List (Call K) → State K → State K → Prop
  | done (s : State K) : Outcome env xs ys [] s s
  | sync {x y : K} {r : Pt K} {cs : List (Call K)} {s s1 s' : State K} : x ∈ xs → y ∈ ys → syncAtOnce env s ⟨x, y⟩ r = .ok s1 →
      Outcome env xs ys cs s1 s' → Outcome env xs ys (.sync r :: cs) s s'
  | clear {cs : List (Call K)} {s s' : State K} : Outcome env xs ys cs (clearAll s) s' → Outcome env xs ys (.clear :: cs) s s'
  | position {cs : List (Call K)} {s s' : State K} : Outcome env xs ys cs s s' → Outcome env xs ys (.position :: cs) s s'
  | orient {q : Pt K} {cs : List (Call K)} {s s' : State K} : Outcome env xs ys cs s s' → Outcome env xs ys (.orient q :: cs) s s'

/-- The alignments a telescope can have between two calls: any history of synchronisations and resets. -/
inductive Reached : State K → Prop
  | fresh : Reached Align.fresh
  | clear {s : State K} : Reached s → Reached (clearAll s)
  | sync {τ : Type} {env : Env K τ} {s s' : State K} {p r : Pt K} : IsSort env.sort → Reached s → syncAtOnce env s p r = .ok s' → Reached s'

/-- A call that does not write the alignment. -/
def Call.Looks : Call K → Prop
  | .position => True
  | .orient _ => True
  | _ => False

/-- A call that does not add a star. -/
def Call.AddsNone : Call K → Prop
  | .sync _ => False
  | _ => True

/-- The orientations a task sets are among `xs`, `ys`. -/
def OrientsIn (xs ys : List K) (calls : List (Call K)) : Prop := ∀ q, Call.orient q ∈ calls → q.x ∈ xs ∧ q.y ∈ ys

/-- An object holding the alignment `s` and the orientation `p`; `heap` is what matrices hold that were never written. -/
def memOf (s : State K) (p : Pt K) (heap : Option K) : Mem K := fun l => match l with
  | .numV => some s.numVertices
  | .numT => some (s.triangles.length : Int)
  | .tri i k => if 0 ≤ i then (s.triangles[i.toNat]?).map (fun t => corner t k) else none
  | .vert i f => (s.vertices[i]?).map (fun v => field v f)
  | .mat i r c => match s.matrices[i]? with
    | some (some M) => some (M.get r c)
    | _ => heap
  | .az => some p.x
  | .alt => some p.y

/-- The effect of writes to members of vertices. -/
def applyWrites : List (Nat × Fin 4 × K) → (Nat → Fin 4 → K) → (Nat → Fin 4 → K)
  | [], g => g
  | w :: ws, g => applyWrites ws (fun i f => if i = w.1 ∧ f = w.2.1 then w.2.2 else g i f)

/-- The writes of a `qsort`: all of them inside the array, and the result is `sort`. -/
def SortsAs (sort : List (VertexPair K) → List (VertexPair K)) (writes : List (VertexPair K) → List (Nat × Fin 4 × K)) : Prop :=
  ∀ l, (∀ w ∈ writes l, w.1 < l.length) ∧
    ∀ g : Nat → Fin 4 → K, (∀ i v, l[i]? = some v → ∀ f, g i f = field v f) →
      ∀ i v, (sort l)[i]? = some v → ∀ f, applyWrites (writes l) g i f = field v f

end Verif.Shared
