import Verif.Lemmas.Telescope64Run

/-!
# The triangulation of a single position in double arithmetic
-/

namespace Verif.Telescope64

open Verif Verif.Align Verif.Linalg Verif.Linalg64 Verif.Coord64 Verif.Spec Verif.Align64

theorem fl_null : fl b64 0 = .ok 0 := by decide +kernel

/-- The supertriangle of a single position is flat. -/
theorem superPts_flat {p : Pt ℚ} {s : Pt ℚ × Pt ℚ × Pt ℚ} (h : Align64.superPts p [] = .ok s) : s.1.y = s.2.1.y ∧ s.2.1.y = s.2.2.y := by
  unfold Align64.superPts at h
  simp only [List.map_nil, minOf, maxOf, List.foldl_nil, sub_self, fl_null, bind_ok, gt_iff_lt, lt_irrefl, if_false] at h
  obtain ⟨x0, -, h⟩ := bind_eq_ok.1 h
  obtain ⟨y0, hy0, h⟩ := bind_eq_ok.1 h
  obtain ⟨x1, -, h⟩ := bind_eq_ok.1 h
  obtain ⟨y1, hy1, h⟩ := bind_eq_ok.1 h
  obtain ⟨x2, -, h⟩ := bind_eq_ok.1 h
  rw [hy0, bind_ok, pure_ok] at h
  cases h
  have e : mulD (.ok 20) (.ok 0) = .ok 0 := by simp only [mulD, bind_ok, mul_zero, fl_null]
  rw [e] at hy1
  show y0 = y1 ∧ y1 = y0
  have : (.ok y0 : C ℚ) = .ok y1 := by
    rw [← hy0, ← hy1]
    cases divD (add (.ok p.y) (.ok p.y)) (.ok 2) with
    | error e => rfl
    | ok y => simp only [sub, add, bind_ok, sub_zero, add_zero]
  cases this
  exact ⟨rfl, rfl⟩

/-- The circumcircle of a flat triangle is not calculated. -/
theorem circumCircle_flat (sqrt : ℚ → C ℚ) (p a b c : Pt ℚ) (h1 : a.y = b.y) (h2 : b.y = c.y) : Align64.circumCircle sqrt p a b c = .ok none := by
  have e : fl b64 (1 / 1000000) = .ok (rnd b64 (1 / 1000000)) ∧ 0 < rnd b64 (1 / 1000000) := by decide +kernel
  unfold Align64.circumCircle
  rw [e.1, bind_ok]
  simp only [sub, bind_ok, h1, h2, sub_self, fl_null, abs_zero, e.2, and_self, if_true, pure_ok]

/-- The triangulation of one position: no triangles.  The variables `xc` and `r` are read without having been set; they have to hold numbers. -/
theorem triangulate_one {sqrt : ℚ → C ℚ} {guess : Pt ℚ → Pt ℚ → Pt ℚ → Pt ℚ → Bool × Bool} {o : ℚ × ℚ} (ho : ∃ x, fl b64 (o.1 + o.2) = .ok x)
    {mem : List (VertexPair ℚ)} (h3 : 4 ≤ mem.length) (hr : ∀ v ∈ mem.take 1, Range v.actual) :
    ∃ m, Align64.triangulate (ieeeTest sqrt guess) (some o) 1 mem = .ok (m, []) := by
  cases hp : (mem.take 1).map VertexPair.actual with
  | nil =>
    have := congrArg List.length hp
    simp only [List.length_map, List.length_take, List.length_nil] at this
    omega
  | cons p ps =>
    have hps : ps = [] := by
      have := congrArg List.length hp
      simp only [List.length_map, List.length_take, List.length_cons] at this
      exact List.length_eq_zero_iff.1 (by omega)
    subst hps
    obtain ⟨s, hs⟩ := superPts_ok (p := p) (ps := []) (by
      rw [← hp]; intro q hq; obtain ⟨v, hv, rfl⟩ := List.mem_map.1 hq; exact hr v hv)
    obtain ⟨n, n1, n2, n3, n4, n5, n6⟩ := withSuper_run (nv := 1) h3 hp hs
    obtain ⟨f1, f2⟩ := superPts_flat hs
    obtain ⟨q, hq⟩ : ∃ q, readPt n 0 = .ok q := by
      unfold readPt; rw [List.getElem?_eq_getElem (by omega)]; exact ⟨_, rfl⟩
    obtain ⟨x, hx⟩ := ho
    unfold Align64.triangulate
    simp only [n1, bind_ok, pushTri_first 1 le_rfl]
    refine ⟨n, ?_⟩
    simp only [List.range_one, insertAll, insertPoint, hq, bind_ok, List.length_singleton, scan, ask, n4, n5, n6, ieeeTest, circumCircle_flat sqrt q _ _ _ f1 f2,
      hx, pure_ok, List.map_nil, List.length_nil, tagAll, formTris, List.nil_append]
    rfl

end Verif.Telescope64
