import Verif.Model.Align

/-!
# Specifications for the alignment

Histories of calls and the ledger of accepted points an alignment is supposed to keep.
-/

namespace Verif.Align

variable {K σ : Type} [Field K] [LinearOrder K] [IsStrictOrderedRing K]

/-- The calls that change an alignment. -/
inductive Op (K : Type) where
  | add (actual reference : Pt K)
  | clear
  | triangulate

/-- One call in a given environment: its return value (`true` for the `void` functions) and the new state. -/
def step (env : Env K σ) : Op K → State K → C (Bool × State K)
  | .add a r, s => addVertexPair env s a r
  | .clear, s => .ok (true, clearAll s)
  | .triangulate, s => do return (true, ← triangulateActual env s)

/-- A history: calls, each in its own environment, starting in a given state.  Returns the return values and the final
state. -/
def run : List (Env K σ × Op K) → State K → C (List Bool × State K)
  | [], s => .ok ([], s)
  | (env, op) :: h, s => do
    let r ← step env op s
    let q ← run h r.2
    return (r.1 :: q.1, q.2)

/-- The ledger: accepted points with the reference given by the caller, in the order of acceptance.  A known point is not
accepted again, the 64th point empties the ledger. -/
def ledgerStep (L : List (Pt K × Pt K)) : Op K → List (Pt K × Pt K)
  | .add a r => if a ∈ L.map Prod.fst then L else if L.length = 63 then [] else L ++ [(a, r)]
  | .clear => []
  | .triangulate => L

/-- The return value a call should have, given the ledger. -/
def answer (L : List (Pt K × Pt K)) : Op K → Bool
  | .add a _ => decide (a ∉ L.map Prod.fst)
  | _ => true

/-- The ledger after a history. -/
def ledger (ops : List (Op K)) : List (Pt K × Pt K) := ops.foldl ledgerStep []

/-- The return values of a history, starting with ledger `L`. -/
def answers (L : List (Pt K × Pt K)) : List (Op K) → List Bool
  | [] => []
  | op :: ops => answer L op :: answers (ledgerStep L op) ops

/-- A stored vertex stands for an accepted point: same actual position, same reference altitude, reference azimuth equal
up to one full turn. -/
def StandsFor (v : VertexPair K) (e : Pt K × Pt K) : Prop :=
  v.actual = e.1 ∧ v.reference.y = e.2.y ∧
    (v.reference.x = e.2.x ∨ v.reference.x = e.2.x + 360 ∨ v.reference.x = e.2.x - 360)

/-- The stored vertices are, in some order, the entries of the ledger. -/
def Stores (vs : List (VertexPair K)) (L : List (Pt K × Pt K)) : Prop :=
  ∃ ws, vs.Perm ws ∧ List.Forall₂ StandsFor ws L

/-! ### plane maps -/

/-- Twice the signed area of the triangle `a b c`; zero exactly for collinear points. -/
def orient (a b c : Pt K) : K := (b.x - a.x) * (c.y - a.y) - (b.y - a.y) * (c.x - a.x)

/-- An affine map of the plane. -/
def IsAffine (f : Pt K → Pt K) : Prop :=
  ∃ a b c d e g : K, ∀ q, f q = ⟨a * q.x + b * q.y + c, d * q.x + e * q.y + g⟩

/-- An orientation-preserving similarity (rotation and scaling, then translation). -/
def IsDirectSimilarity (f : Pt K → Pt K) : Prop :=
  ∃ a b c d : K, ∀ q, f q = ⟨a * q.x - b * q.y + c, b * q.x + a * q.y + d⟩

/-- What the alignment reports when it applies the plane map `f`: azimuth reduced to one turn. -/
def report [FloorRing K] (f : Pt K → Pt K) (q : Pt K) : Pt K := ⟨Helper.fMod (f q).x 360, (f q).y⟩

/-! ### choice of the triangle -/

/-- The query point is in the `i`-th triangle, as far as `isInTriangle` can tell. -/
def InIdx (env : Env K σ) (s : State K) (q : Pt K) (i : Nat) : Prop :=
  ∃ t a b c, s.triangles[i]? = some t ∧ s.vertices[t.p1]? = some a ∧ s.vertices[t.p2]? = some b ∧
    s.vertices[t.p3]? = some c ∧ isInTriangle env.rd q a.actual b.actual c.actual = true

/-- The (rounded) squared distance of the query from the centroid of the `i`-th triangle is `d`. -/
def DistIdx (env : Env K σ) (s : State K) (q : Pt K) (i : Nat) (d : K) : Prop :=
  ∃ t a b c, s.triangles[i]? = some t ∧ s.vertices[t.p1]? = some a ∧ s.vertices[t.p2]? = some b ∧
    s.vertices[t.p3]? = some c ∧
    d = env.rd (((a.actual.x + b.actual.x + c.actual.x) / 3 - q.x) ^ 2 + ((a.actual.y + b.actual.y + c.actual.y) / 3 - q.y) ^ 2)

/-- The `i`-th triangle is the first one containing the query. -/
def UsesIn (env : Env K σ) (s : State K) (q : Pt K) (i : Nat) : Prop :=
  InIdx env s q i ∧ ∀ j < i, ¬ InIdx env s q j

/-- The `i`-th triangle is the first one whose centroid is nearest to the query. -/
def Nearest (env : Env K σ) (s : State K) (q : Pt K) (i : Nat) : Prop :=
  ∃ d, DistIdx env s q i d ∧ (∀ j d', DistIdx env s q j d' → d ≤ d') ∧ ∀ j < i, ∀ d', DistIdx env s q j d' → d < d'

/-- No triangle contains the query and the `i`-th one is the nearest. -/
def UsesOut (env : Env K σ) (s : State K) (q : Pt K) (i : Nat) : Prop :=
  (∀ j, ¬ InIdx env s q j) ∧ Nearest env s q i

end Verif.Align
