import Mathlib.Data.List.Sort
import Verif.Spec.Align

/-!
# A concrete environment for the executable examples

Exact rational arithmetic, the code's own geometric test, insertion sort for `qsort`, no `float` rounding, zero behind every
matrix.  Only examples and witnesses use it.
-/

namespace Verif.Align

/-- `qsort` realised by insertion sort. -/
def demoSort (l : List (VertexPair ℚ)) : List (VertexPair ℚ) :=
  l.insertionSort (fun u v => u.actual.x ≤ v.actual.x)

instance : Std.Total (fun u v : VertexPair ℚ => u.actual.x ≤ v.actual.x) := ⟨fun _ _ => le_total _ _⟩
instance : IsTrans (VertexPair ℚ) (fun u v => u.actual.x ≤ v.actual.x) := ⟨fun _ _ _ => le_trans⟩

theorem demoSort_isSort : IsSort demoSort := fun l =>
  ⟨List.perm_insertionSort _ l, List.pairwise_insertionSort _ l⟩

/-- The environment of the examples. -/
def demoEnv : Env ℚ (Option (Circle ℚ)) := ⟨exactTest, some ⟨0, 0, 0⟩, demoSort, fun _ => 0, id⟩

/-- A sync: add a point, then triangulate, as `Telescope::addReferencePoint` does. -/
def demoSync (a r : Pt ℚ) : List (Env ℚ (Option (Circle ℚ)) × Op ℚ) := [(demoEnv, .add a r), (demoEnv, .triangulate)]

end Verif.Align
