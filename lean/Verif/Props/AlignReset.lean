import Verif.Lemmas.AlignReset
import Verif.Props.AlignMaps

/-!
# C40, C43: reset, and the triangulation of a single point
-/

namespace Verif.Align

open Helper

variable {K σ : Type} [Field K] [LinearOrder K] [IsStrictOrderedRing K] [FloorRing K]

set_option linter.unusedSectionVars false

/-- **C40** After `clearAll`, in every state whatsoever, every orientation is reported as it is, azimuth modulo 360, and
no alignment type is reported. -/
theorem C40_identity (s : State K) (env : Env K σ) (q : Pt K) :
    getCalibratedOrientation env (clearAll s) q = .ok ⟨fMod q.x 360, q.y⟩ ∧
      getTransformationType env (clearAll s) q = .ok .none ∧ (clearAll s).used = [] := by
  refine ⟨?_, rfl, rfl⟩
  have hg : getTransformationMatrix env (clearAll s) q = .ok Linalg.identity := rfl
  rw [calibrated_of_matrix _ _ _ _ hg, report, planeMap_identity]

/-- **C40** From then on the alignment behaves like a new one: any history `g` of calls that succeeds on a new alignment
succeeds on the cleared one with the same return values, and leads to the same points, the same triangles, the same
alignment type and the same calibrated orientation (whenever the new one delivers it) for every query. -/
theorem C40_like_new (h : List (Env K σ × Op K)) (hs : ∀ e ∈ h, IsSort e.1.sort) (bs : List Bool) (s : State K)
    (hr : run h fresh = .ok (bs, s)) (g : List (Env K σ × Op K)) (hg : ∀ e ∈ g, IsSort e.1.sort) (cs : List Bool) (t : State K)
    (ht : run g fresh = .ok (cs, t)) :
    ∃ s', run g (clearAll s) = .ok (cs, s') ∧ s'.used = t.used ∧ s'.triangles = t.triangles ∧
      ∀ (env : Env K σ) q, getTransformationType env s' q = getTransformationType env t q ∧
        ∀ c, getCalibratedOrientation env t q = .ok c → getCalibratedOrientation env s' q = .ok c := by
  obtain ⟨_, hI⟩ := run_refines h hs _ _ Inv.fresh bs s hr
  obtain ⟨m, s', h1, h2⟩ := run_like g hg 0 fresh (clearAll s) [] (clear_like hI) Inv.fresh cs t ht
  refine ⟨s', h1, h2.used, h2.tris, fun env q => ⟨type_like h2 env q, fun c hc => ?_⟩⟩
  unfold getCalibratedOrientation at hc ⊢
  obtain ⟨M, hM, hc⟩ := bind_eq_ok.1 hc
  rw [matrix_like h2 env q hM, bind_ok]
  exact hc

/-- The hypotheses of `C40_like_new` are met, and its conclusion is visible, for a long history before the reset. -/
example : demoQuery (demoSync ⟨0, 0⟩ ⟨10, 10⟩ ++ demoSync ⟨9, 0⟩ ⟨10, 28⟩ ++ demoSync ⟨0, 9⟩ ⟨19, 10⟩ ++ [(demoEnv, .clear)] ++
      demoSync ⟨0, 0⟩ ⟨10, 10⟩ ++ demoSync ⟨1, 0⟩ ⟨10, 12⟩) ⟨2, 1⟩
    = demoQuery (demoSync ⟨0, 0⟩ ⟨10, 10⟩ ++ demoSync ⟨1, 0⟩ ⟨10, 12⟩) ⟨2, 1⟩ := by decide +kernel

theorem superPts_single (p : Pt K) : superPts p [] = (p, p, p) := by
  simp [superPts, minOf, maxOf]

/-- **C43** (finding) With one point the code's own `CircumCircle` returns before writing `xc` and `r`, and the next line compares
them: if they are indeterminate at that moment, `TriangulateActual` has undefined behaviour for every single point. -/
theorem C43_indeterminate (mem : List (VertexPair K)) (hm : 4 ≤ mem.length) :
    triangulate exactTest none 1 mem = .error (.ub .uninit) := by
  obtain ⟨m, p, ps, hp, hw, _, hsame, _, r1, r2, r3⟩ := withSuper_ok 1 mem (le_refl _) hm
  have hps : ps = [] := by
    have := congrArg List.length hp
    simp only [List.length_map, List.length_take, List.length_cons] at this
    exact List.length_eq_zero_iff.1 (by omega)
  subst hps
  simp only [superPts_single] at r1 r2 r3
  have hp0 : readPt m 0 = .ok p := by
    unfold readPt
    rw [hsame 0 (by omega)]
    cases mem with
    | nil => simp at hm
    | cons v mem => simp only [List.take_succ_cons, List.take_zero, List.map_cons, List.map_nil, List.cons.injEq] at hp
                    simp [hp.1]
  unfold triangulate
  rw [hw, bind_ok, pushTri_first 1 (le_refl _), bind_ok]
  have he : |p.y - p.y| < (eps : K) := by simp [eps]
  simp only [List.range_one, insertAll, insertPoint, hp0, bind_ok, List.length_singleton, scan, ask, r1, r2, r3, exactTest,
    circumCircle, he, and_self, if_true, bind_error]

/-- **C43** Whatever the variables contain (any circle), the triangulation of a single point ends without triangles. -/
theorem C43_harmless (o : Circle K) (mem : List (VertexPair K)) (hm : 4 ≤ mem.length) :
    ∃ mem', triangulate exactTest (some o) 1 mem = .ok (mem', []) := by
  obtain ⟨m, p, ps, hp, hw, _, hsame, _, r1, r2, r3⟩ := withSuper_ok 1 mem (le_refl _) hm
  have hps : ps = [] := by
    have := congrArg List.length hp
    simp only [List.length_map, List.length_take, List.length_cons] at this
    exact List.length_eq_zero_iff.1 (by omega)
  subst hps
  simp only [superPts_single] at r1 r2 r3
  have hp0 : readPt m 0 = .ok p := by
    unfold readPt
    rw [hsame 0 (by omega)]
    cases mem with
    | nil => simp at hm
    | cons v mem => simp only [List.take_succ_cons, List.take_zero, List.map_cons, List.map_nil, List.cons.injEq] at hp
                    simp [hp.1]
  refine ⟨m, ?_⟩
  unfold triangulate
  rw [hw, bind_ok, pushTri_first 1 (le_refl _), bind_ok]
  have he : |p.y - p.y| < (eps : K) := by simp [eps]
  simp only [List.range_one, insertAll, insertPoint, hp0, bind_ok, List.length_singleton, scan, ask, r1, r2, r3, exactTest,
    circumCircle, he, and_self, if_true, pure, Except.pure, List.nil_append, List.length_nil, List.map_nil, tagAll, formTris]
  rfl

end Verif.Align
