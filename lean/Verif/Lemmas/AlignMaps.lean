import Verif.Lemmas.Align
import Mathlib.Tactic.LinearCombination

/-!
# Which matrix an alignment uses, and what it does
-/

namespace Verif.Align

open Linalg

variable {K σ : Type} [Field K] [LinearOrder K] [IsStrictOrderedRing K]

set_option linter.unusedSectionVars false

/-! ### matrices as plane maps -/

/-- The plane map of a matrix. -/
def planeMap (M : Mat3 K) (q : Pt K) : Pt K := ⟨(mulVec M ⟨q.x, q.y, 1⟩).v0, (mulVec M ⟨q.x, q.y, 1⟩).v1⟩

theorem planeMap_affine (M : Mat3 K) : IsAffine (planeMap M) :=
  ⟨M.a00, M.a01, M.a02, M.a10, M.a11, M.a12, fun q => by
    simp only [planeMap, mulVec, dotVec, Mat3.get, mul_one]⟩

theorem toMatrix_inj {A B : Mat3 K} (h : A.toMatrix = B.toMatrix) : A = B := by
  have e := fun i j => congrFun (congrFun h i) j
  ext
  · exact e 0 0
  · exact e 0 1
  · exact e 0 2
  · exact e 1 0
  · exact e 1 1
  · exact e 1 2
  · exact e 2 0
  · exact e 2 1
  · exact e 2 2

theorem solveMatrix_mul (stray : K) (R A : Mat3 K) (hd : det3 A ≠ 0) : mul (solveMatrix stray R A) A = R := by
  obtain ⟨V, h1, h2⟩ := invert_some A stray hd
  have h3 : A.toMatrix * V.toMatrix = 1 := by rw [← toMatrix_mul, h2, toMatrix_identity]
  have h4 : V.toMatrix * A.toMatrix = 1 := mul_eq_one_comm.1 h3
  apply toMatrix_inj
  unfold solveMatrix
  rw [h1]
  simp only [toMatrix_mul]
  rw [mul_assoc, h4, mul_one]

theorem det3_triCorners (a b c : Pt K) : det3 (triCorners a b c) = orient a b c := by
  simp only [det3, triCorners, orient]; ring

theorem det3_lineCorners (a b : Pt K) :
    det3 (lineCorners a b) = -((b.x - a.x) ^ 2 + (b.y - a.y) ^ 2) := by
  simp only [det3, lineCorners]; ring

/-- A plane map given by three points and their images. -/
theorem planeMap_solve (stray : K) (a b c ra rb rc : Pt K) (h : orient a b c ≠ 0) :
    planeMap (solveMatrix stray (triCorners ra rb rc) (triCorners a b c)) a = ra ∧
    planeMap (solveMatrix stray (triCorners ra rb rc) (triCorners a b c)) b = rb ∧
    planeMap (solveMatrix stray (triCorners ra rb rc) (triCorners a b c)) c = rc := by
  have hm := solveMatrix_mul stray (triCorners ra rb rc) (triCorners a b c) (by rw [det3_triCorners]; exact h)
  generalize solveMatrix stray (triCorners ra rb rc) (triCorners a b c) = M at *
  simp only [mul, dot, triCorners, Mat3.get, Mat3.mk.injEq] at hm
  obtain ⟨e1, e2, e3, e4, e5, e6, _⟩ := hm
  refine ⟨?_, ?_, ?_⟩ <;> simp only [planeMap, mulVec, dotVec, Mat3.get] <;> ext <;> assumption

theorem lineCorners_eq (p q : Pt K) :
    lineCorners p q = triCorners p q ⟨q.x + (q.y - p.y), q.y - (q.x - p.x)⟩ := rfl

theorem affine_unique {f g : Pt K → Pt K} (hf : IsAffine f) (hg : IsAffine g) {a b c : Pt K} (h : orient a b c ≠ 0)
    (ha : f a = g a) (hb : f b = g b) (hc : f c = g c) : f = g := by
  obtain ⟨f1, f2, f3, f4, f5, f6, hf⟩ := hf
  obtain ⟨g1, g2, g3, g4, g5, g6, hg⟩ := hg
  rw [hf, hg, Pt.mk.injEq] at ha hb hc
  have key : ∀ u v w : K, u * a.x + v * a.y + w = 0 → u * b.x + v * b.y + w = 0 → u * c.x + v * c.y + w = 0 →
      u = 0 ∧ v = 0 ∧ w = 0 := by
    intro u v w e1 e2 e3
    have hu : u * orient a b c = 0 := by
      unfold orient
      linear_combination (e2 - e1) * (c.y - a.y) - (e3 - e1) * (b.y - a.y)
    have hv : v * orient a b c = 0 := by
      unfold orient
      linear_combination (e3 - e1) * (b.x - a.x) - (e2 - e1) * (c.x - a.x)
    have hu' : u = 0 := (mul_eq_zero.1 hu).resolve_right h
    have hv' : v = 0 := (mul_eq_zero.1 hv).resolve_right h
    refine ⟨hu', hv', ?_⟩
    rw [hu', hv'] at e1
    linarith
  obtain ⟨u1, u2, u3⟩ := key (f1 - g1) (f2 - g2) (f3 - g3) (by linear_combination ha.1) (by linear_combination hb.1)
    (by linear_combination hc.1)
  obtain ⟨v1, v2, v3⟩ := key (f4 - g4) (f5 - g5) (f6 - g6) (by linear_combination ha.2) (by linear_combination hb.2)
    (by linear_combination hc.2)
  funext q
  rw [hf, hg]
  ext
  · simp only; linear_combination u1 * q.x + u2 * q.y + u3
  · simp only; linear_combination v1 * q.x + v2 * q.y + v3

theorem IsDirectSimilarity.affine {f : Pt K → Pt K} (h : IsDirectSimilarity f) : IsAffine f := by
  obtain ⟨a, b, c, d, h⟩ := h
  exact ⟨a, -b, c, b, a, d, fun q => by rw [h]; ext <;> simp only <;> ring⟩

theorem norm_pos_of_ne {p q : Pt K} (h : p ≠ q) : 0 < (q.x - p.x) ^ 2 + (q.y - p.y) ^ 2 := by
  by_contra hc
  have h1 := sq_nonneg (q.x - p.x)
  have h2 := sq_nonneg (q.y - p.y)
  have e1 : (q.x - p.x) ^ 2 = 0 := by linarith
  have e2 : (q.y - p.y) ^ 2 = 0 := by linarith
  apply h
  ext
  · have := pow_eq_zero_iff (two_ne_zero) |>.1 e1; linarith
  · have := pow_eq_zero_iff (two_ne_zero) |>.1 e2; linarith

theorem orient_line (p q : Pt K) : orient p q ⟨q.x + (q.y - p.y), q.y - (q.x - p.x)⟩ =
    -((q.x - p.x) ^ 2 + (q.y - p.y) ^ 2) := by
  simp only [orient]; ring

theorem similarity_through (p q rp rq : Pt K) (h : p ≠ q) :
    ∃ f, IsDirectSimilarity f ∧ f p = rp ∧ f q = rq ∧
      f ⟨q.x + (q.y - p.y), q.y - (q.x - p.x)⟩ = ⟨rq.x + (rq.y - rp.y), rq.y - (rq.x - rp.x)⟩ := by
  have hN := norm_pos_of_ne h
  set N := (q.x - p.x) ^ 2 + (q.y - p.y) ^ 2 with hNdef
  have hN0 : N ≠ 0 := ne_of_gt hN
  let α := ((rq.x - rp.x) * (q.x - p.x) + (rq.y - rp.y) * (q.y - p.y)) / N
  let β := ((rq.y - rp.y) * (q.x - p.x) - (rq.x - rp.x) * (q.y - p.y)) / N
  have hx : α * (q.x - p.x) - β * (q.y - p.y) = rq.x - rp.x := by
    simp only [α, β]; field_simp; rw [hNdef]; ring
  have hy : β * (q.x - p.x) + α * (q.y - p.y) = rq.y - rp.y := by
    simp only [α, β]; field_simp; rw [hNdef]; ring
  refine ⟨fun u => ⟨α * u.x - β * u.y + (rp.x - α * p.x + β * p.y), β * u.x + α * u.y + (rp.y - β * p.x - α * p.y)⟩,
    ⟨α, β, _, _, fun u => rfl⟩, ?_, ?_, ?_⟩
  · ext <;> simp only <;> ring
  · ext <;> simp only
    · linear_combination hx
    · linear_combination hy
  · ext <;> simp only
    · linear_combination hx + hy
    · linear_combination hy - hx

theorem similarity_unique {f g : Pt K → Pt K} (hf : IsDirectSimilarity f) (hg : IsDirectSimilarity g) {p q : Pt K}
    (h : p ≠ q) (hp : f p = g p) (hq : f q = g q) : f = g := by
  refine affine_unique hf.affine hg.affine
    (c := ⟨q.x + (q.y - p.y), q.y - (q.x - p.x)⟩) ?_ hp hq ?_
  · rw [orient_line]; exact ne_of_lt (neg_lt_zero.2 (norm_pos_of_ne h))
  · obtain ⟨a, b, c, d, hf⟩ := hf
    obtain ⟨a', b', c', d', hg⟩ := hg
    rw [hf, hg, Pt.mk.injEq] at hp hq
    rw [hf, hg]
    ext <;> simp only
    · linear_combination hq.1 + hq.2 - hp.2
    · linear_combination hq.2 - hq.1 + hp.1

/-- The matrix of the two-point alignment is the direct similarity through both points. -/
theorem planeMap_line (stray : K) (p q rp rq : Pt K) (h : p ≠ q) :
    IsDirectSimilarity (planeMap (solveMatrix stray (lineCorners rp rq) (lineCorners p q))) ∧
    planeMap (solveMatrix stray (lineCorners rp rq) (lineCorners p q)) p = rp ∧
    planeMap (solveMatrix stray (lineCorners rp rq) (lineCorners p q)) q = rq := by
  have ho : orient p q ⟨q.x + (q.y - p.y), q.y - (q.x - p.x)⟩ ≠ 0 := by
    rw [orient_line]; exact ne_of_lt (neg_lt_zero.2 (norm_pos_of_ne h))
  rw [lineCorners_eq, lineCorners_eq]
  obtain ⟨h1, h2, h3⟩ := planeMap_solve stray p q _ rp rq ⟨rq.x + (rq.y - rp.y), rq.y - (rq.x - rp.x)⟩ ho
  obtain ⟨f, hf, f1, f2, f3⟩ := similarity_through p q rp rq h
  have := affine_unique (planeMap_affine _) hf.affine ho (h1.trans f1.symm) (h2.trans f2.symm) (h3.trans f3.symm)
  exact ⟨this ▸ hf, h1, h2⟩

theorem calibrated_of_matrix [FloorRing K] (env : Env K σ) (s : State K) (q : Pt K) (M : Mat3 K)
    (h : getTransformationMatrix env s q = .ok M) :
    getCalibratedOrientation env s q = .ok (report (planeMap M) q) := by
  unfold getCalibratedOrientation
  rw [h, bind_ok]
  rfl

theorem planeMap_identity (q : Pt K) : planeMap (identity : Mat3 K) q = q := by
  ext <;> simp [planeMap, mulVec, dotVec, Mat3.get, identity]

theorem planeMap_point (v : VertexPair K) (q : Pt K) :
    planeMap (pointMatrix v) q = ⟨q.x + (v.reference.x - v.actual.x), q.y + (v.reference.y - v.actual.y)⟩ := by
  ext <;> simp [planeMap, mulVec, dotVec, Mat3.get, identity, pointMatrix]

/-! ### the matrices after `TriangulateActual` -/

theorem vertex_ok {s : State K} {i : Nat} {v : VertexPair K} (h : vertex s i = .ok v) : s.vertices[i]? = some v := by
  unfold vertex at h
  cases hv : s.vertices[i]? with
  | none => rw [hv] at h; cases h
  | some w => rw [hv] at h; cases h; rfl

theorem vertex_some {s : State K} {i : Nat} {v : VertexPair K} (h : s.vertices[i]? = some v) : vertex s i = .ok v := by
  unfold vertex; rw [h]

theorem triMatrix_ok {s : State K} {stray : K} {t : Tri} {m : Mat3 K} (h : triMatrix s stray t = .ok m) :
    ∃ a b c, s.vertices[t.p1]? = some a ∧ s.vertices[t.p2]? = some b ∧ s.vertices[t.p3]? = some c ∧
      m = solveMatrix stray (triCorners a.reference b.reference c.reference) (triCorners a.actual b.actual c.actual) := by
  unfold triMatrix at h
  obtain ⟨a, ha, h⟩ := bind_eq_ok.1 h
  obtain ⟨b, hb, h⟩ := bind_eq_ok.1 h
  obtain ⟨c, hc, h⟩ := bind_eq_ok.1 h
  cases h
  exact ⟨a, b, c, vertex_ok ha, vertex_ok hb, vertex_ok hc, rfl⟩

/-- The matrix of triangle `t` stored at index `i`. -/
def TriMatrixAt (s : State K) (i : Nat) (t : Tri) : Prop :=
  ∃ a b c stray, s.vertices[t.p1]? = some a ∧ s.vertices[t.p2]? = some b ∧ s.vertices[t.p3]? = some c ∧
    s.matrices[i]? = some (some (solveMatrix stray (triCorners a.reference b.reference c.reference)
      (triCorners a.actual b.actual c.actual)))

theorem triMatrices_spec (stray : Nat → K) (ts : List Tri) : ∀ (i : Nat) (s s' : State K),
    triMatrices stray i ts s = .ok s' →
      (∀ j, j < i → s'.matrices[j]? = s.matrices[j]?) ∧ ∀ k t, ts[k]? = some t → TriMatrixAt s' (i + k) t := by
  induction ts with
  | nil =>
    intro i s s' h
    simp only [triMatrices, Except.ok.injEq] at h; subst h
    exact ⟨fun _ _ => rfl, fun k t h => by simp at h⟩
  | cons t ts ih =>
    intro i s s' h
    have hfr := triMatrices_frame _ _ _ _ _ h
    simp only [triMatrices] at h
    obtain ⟨m, hm, h⟩ := bind_eq_ok.1 h
    obtain ⟨s1, hs1, h⟩ := bind_eq_ok.1 h
    obtain ⟨rfl, hi⟩ := setMatrix_frame hs1
    obtain ⟨h1, h2⟩ := ih _ _ _ h
    refine ⟨fun j hj => ?_, fun k u hk => ?_⟩
    · rw [h1 j (by omega)]
      simp only
      rw [List.getElem?_set_ne (by omega)]
    · cases k with
      | zero =>
        simp only [List.getElem?_cons_zero, Option.some.injEq] at hk
        subst hk
        obtain ⟨a, b, c, ha, hb, hc, rfl⟩ := triMatrix_ok hm
        refine ⟨a, b, c, stray i, by rw [hfr.1]; exact ha, by rw [hfr.1]; exact hb, by rw [hfr.1]; exact hc, ?_⟩
        rw [Nat.add_zero, h1 i (by omega)]
        simp only
        rw [List.getElem?_set_self hi]
      | succ k =>
        rw [List.getElem?_cons_succ] at hk
        have := h2 k u hk
        have e : i + 1 + k = i + (k + 1) := by omega
        rwa [e] at this

/-- The matrices fit the points and triangles: what `TriangulateActual` establishes. -/
structure Synced (s : State K) : Prop where
  point : s.triangles = [] → s.numVertices = 1 →
    ∃ v, s.vertices[0]? = some v ∧ s.matrices[0]? = some (some (pointMatrix v))
  line : s.triangles = [] → 2 ≤ s.numVertices →
    ∃ a b stray, s.vertices[0]? = some a ∧ s.vertices[1]? = some b ∧
      s.matrices[0]? = some (some (solveMatrix stray (lineCorners a.reference b.reference) (lineCorners a.actual b.actual)))
  tri : ∀ i t, s.triangles[i]? = some t → TriMatrixAt s i t

theorem updateMatrices_synced (env : Env K σ) (s s' : State K) (h : updateMatrices env s = .ok s') : Synced s' := by
  have hfr := updateMatrices_frame env s s' h
  obtain ⟨f1, f2, f3, f4⟩ := hfr
  unfold updateMatrices at h
  split at h
  · rename_i hnil
    split at h
    · rename_i h1
      obtain ⟨v, hv, h⟩ := bind_eq_ok.1 h
      obtain ⟨rfl, hi⟩ := setMatrix_frame h
      refine ⟨fun _ _ => ⟨v, vertex_ok hv, by simp only; rw [List.getElem?_set_self hi]⟩, fun _ h2 => ?_, fun i t ht => ?_⟩
      · simp only at h2; omega
      · simp only [hnil] at ht; simp at ht
    · split at h
      · rename_i h1 h2
        obtain ⟨m, hm, h⟩ := bind_eq_ok.1 h
        obtain ⟨rfl, hi⟩ := setMatrix_frame h
        unfold lineMatrix at hm
        obtain ⟨a, ha, hm⟩ := bind_eq_ok.1 hm
        obtain ⟨b, hb, hm⟩ := bind_eq_ok.1 hm
        cases hm
        refine ⟨fun _ hn => absurd hn h1, fun _ _ => ⟨a, b, env.stray 0, vertex_ok ha, vertex_ok hb, ?_⟩, fun i t ht => ?_⟩
        · simp only; rw [List.getElem?_set_self hi]
        · simp only [hnil] at ht; simp at ht
      · rename_i h1 h2
        obtain ⟨rfl, hi⟩ := setMatrix_frame h
        refine ⟨fun _ hn => absurd hn h1, fun _ hn => absurd hn h2, fun i t ht => ?_⟩
        simp only [hnil] at ht; simp at ht
  · rename_i ts hne
    obtain ⟨_, h2⟩ := triMatrices_spec env.stray s.triangles 0 s s' h
    have hne' : s'.triangles ≠ [] := by rw [f3]; exact hne
    refine ⟨fun h0 => absurd h0 hne', fun h0 => absurd h0 hne', fun i t ht => ?_⟩
    rw [f3] at ht
    have := h2 i t ht
    rwa [Nat.zero_add] at this

theorem triangulateActual_synced (env : Env K σ) (s s' : State K) (h : triangulateActual env s = .ok s') : Synced s' := by
  unfold triangulateActual at h
  split at h
  · obtain ⟨r, _, h⟩ := bind_eq_ok.1 h
    exact updateMatrices_synced env _ _ h
  · exact updateMatrices_synced env _ _ h

/-- With one or two points there is no triangle, whatever the geometric tests say. -/
theorem no_triangles (env : Env K σ) (s s' : State K) (h : triangulateActual env s = .ok s') (h1 : 1 ≤ s.numVertices)
    (h2 : s.numVertices ≤ 2) : s'.triangles = [] := by
  unfold triangulateActual at h
  rw [if_pos (show 0 < s.numVertices from h1)] at h
  obtain ⟨⟨mem', ts⟩, hr, h⟩ := bind_eq_ok.1 h
  obtain ⟨_, _, f3, _⟩ := updateMatrices_frame env _ _ h
  simp only at f3
  rw [f3]
  cases ts with
  | nil => rfl
  | cons t ts =>
    have := triangulate_indices env.test env.init _ _ mem' (t :: ts) h1 hr t List.mem_cons_self
    omega

/-- Triangle corners lie inside the vertex array. -/
def TrisIn (s : State K) : Prop := ∀ t ∈ s.triangles, t.p1 < 64 ∧ t.p2 < 64 ∧ t.p3 < 64

theorem triangulateActual_trisIn (env : Env K σ) (s s' : State K) (L : List (Pt K × Pt K)) (hI : Inv s L) (hT : TrisIn s)
    (h : triangulateActual env s = .ok s') : TrisIn s' := by
  unfold triangulateActual at h
  split at h
  · rename_i h1
    obtain ⟨⟨mem', ts⟩, hr, h⟩ := bind_eq_ok.1 h
    obtain ⟨_, _, f3, _⟩ := updateMatrices_frame env _ _ h
    intro t ht
    rw [f3] at ht
    have := triangulate_indices env.test env.init _ _ mem' ts h1 hr t ht
    have hn := hI.num
    have hc := hI.cap
    omega
  · obtain ⟨_, _, f3, _⟩ := updateMatrices_frame env _ _ h
    intro t ht
    rw [f3] at ht
    exact hT t ht

theorem run_trisIn (h : List (Env K σ × Op K)) (hs : ∀ e ∈ h, IsSort e.1.sort) : ∀ (s : State K) (L : List (Pt K × Pt K)),
    Inv s L → TrisIn s → ∀ (bs : List Bool) (s' : State K), run h s = .ok (bs, s') → TrisIn s' := by
  induction h with
  | nil => intro s L hI hT bs s' h; cases h; exact hT
  | cons e h ih =>
    obtain ⟨env, op⟩ := e
    intro s L hI hT bs s' hr
    simp only [run] at hr
    obtain ⟨⟨b, s1⟩, h1, hr⟩ := bind_eq_ok.1 hr
    obtain ⟨⟨bs1, s2⟩, h2, hr⟩ := bind_eq_ok.1 hr
    cases hr
    obtain ⟨_, e2⟩ := step_refines env (hs _ List.mem_cons_self) op s L hI b s1 h1
    refine ih (fun e he => hs e (List.mem_cons_of_mem _ he)) s1 _ e2 ?_ bs1 s2 h2
    cases op with
    | add a r =>
      obtain ⟨s3, h3, _, _, h5, _⟩ := add_refines env (hs _ List.mem_cons_self) s L hI a r
      simp only [step] at h1
      rw [h3] at h1
      cases h1
      intro t ht
      rw [h5] at ht
      exact hT t ht
    | clear =>
      simp only [step] at h1
      cases h1
      intro t ht
      simp [clearAll] at ht
    | triangulate =>
      simp only [step] at h1
      obtain ⟨s3, h3, h1⟩ := bind_eq_ok.1 h1
      cases h1
      exact triangulateActual_trisIn env s s1 L hI hT h3

theorem trisIn_fresh : TrisIn (fresh : State K) := by intro t ht; simp [fresh] at ht

/-! ### choice of the triangle -/

theorem corners_exist {s : State K} (hl : s.vertices.length = 67) (hT : TrisIn s) {t : Tri} (ht : t ∈ s.triangles) :
    ∃ a b c, s.vertices[t.p1]? = some a ∧ s.vertices[t.p2]? = some b ∧ s.vertices[t.p3]? = some c := by
  obtain ⟨h1, h2, h3⟩ := hT t ht
  exact ⟨_, _, _, List.getElem?_eq_getElem (by omega), List.getElem?_eq_getElem (by omega),
    List.getElem?_eq_getElem (by omega)⟩

theorem inTri_ok {env : Env K σ} {s : State K} {q : Pt K} {t : Tri} {a b c : VertexPair K} (h1 : s.vertices[t.p1]? = some a)
    (h2 : s.vertices[t.p2]? = some b) (h3 : s.vertices[t.p3]? = some c) :
    inTri env s q t = .ok (isInTriangle env.rd q a.actual b.actual c.actual) := by
  unfold inTri
  rw [vertex_some h1, bind_ok, vertex_some h2, bind_ok, vertex_some h3, bind_ok]
  rfl

theorem dist_ok {env : Env K σ} {s : State K} {q : Pt K} {t : Tri} {a b c : VertexPair K} (h1 : s.vertices[t.p1]? = some a)
    (h2 : s.vertices[t.p2]? = some b) (h3 : s.vertices[t.p3]? = some c) :
    centreDistance env s q t = .ok (env.rd (((a.actual.x + b.actual.x + c.actual.x) / 3 - q.x) ^ 2 +
      ((a.actual.y + b.actual.y + c.actual.y) / 3 - q.y) ^ 2)) := by
  unfold centreDistance
  rw [vertex_some h1, bind_ok, vertex_some h2, bind_ok, vertex_some h3, bind_ok]
  simp only [pow_two]
  rfl

theorem firstContaining_spec (env : Env K σ) (s : State K) (q : Pt K) (hl : s.vertices.length = 67) (hT : TrisIn s) :
    ∀ (ts pre : List Tri), s.triangles = pre ++ ts →
      (∃ i, firstContaining env s q pre.length ts = .ok (some i) ∧ InIdx env s q i ∧ pre.length ≤ i ∧
        ∀ j, pre.length ≤ j → j < i → ¬ InIdx env s q j) ∨
      (firstContaining env s q pre.length ts = .ok none ∧ ∀ j, pre.length ≤ j → ¬ InIdx env s q j) := by
  intro ts
  induction ts with
  | nil =>
    intro pre hpre
    refine Or.inr ⟨rfl, fun j hj ⟨t, a, b, c, ht, _⟩ => ?_⟩
    rw [hpre, List.append_nil, List.getElem?_eq_none hj] at ht
    cases ht
  | cons t ts ih =>
    intro pre hpre
    obtain ⟨a, b, c, ha, hb, hc⟩ := corners_exist hl hT (t := t) (by rw [hpre]; simp)
    have htt : s.triangles[pre.length]? = some t := by rw [hpre]; simp
    simp only [firstContaining]
    rw [inTri_ok ha hb hc, bind_ok]
    cases hin : isInTriangle env.rd q a.actual b.actual c.actual with
    | true =>
      exact Or.inl ⟨pre.length, rfl, ⟨t, a, b, c, htt, ha, hb, hc, hin⟩, le_refl _, fun j h1 h2 => absurd h1 (by omega)⟩
    | false =>
      have hno : ¬ InIdx env s q pre.length := by
        rintro ⟨t', a', b', c', ht', ha', hb', hc', hin'⟩
        rw [htt] at ht'; cases ht'
        rw [ha] at ha'; cases ha'
        rw [hb] at hb'; cases hb'
        rw [hc] at hc'; cases hc'
        rw [hin] at hin'; cases hin'
      have hrec := ih (pre ++ [t]) (by rw [hpre]; simp)
      simp only [List.length_append, List.length_singleton] at hrec
      rcases hrec with ⟨i, h1, h2, h3, h4⟩ | ⟨h1, h2⟩
      · refine Or.inl ⟨i, h1, h2, by omega, fun j hj hji => ?_⟩
        by_cases hj' : j = pre.length
        · rw [hj']; exact hno
        · exact h4 j (by omega) hji
      · refine Or.inr ⟨h1, fun j hj => ?_⟩
        by_cases hj' : j = pre.length
        · rw [hj']; exact hno
        · exact h2 j (by omega)

/-- The best triangle among the first `n`. -/
def BestBelow (env : Env K σ) (s : State K) (q : Pt K) (n : Nat) (d : K) (i : Nat) : Prop :=
  i < n ∧ DistIdx env s q i d ∧ (∀ j < n, ∀ d', DistIdx env s q j d' → d ≤ d') ∧ ∀ j < i, ∀ d', DistIdx env s q j d' → d < d'

theorem nearestLoop_spec (env : Env K σ) (s : State K) (q : Pt K) (hl : s.vertices.length = 67) (hT : TrisIn s) :
    ∀ (ts pre : List Tri) (best : Option (K × Nat)), s.triangles = pre ++ ts →
      (match best with
        | none => pre = []
        | some (d, i) => BestBelow env s q pre.length d i) →
      (s.triangles = [] ∧ nearestLoop env s q pre.length ts best = .ok none) ∨
      ∃ d i, nearestLoop env s q pre.length ts best = .ok (some (d, i)) ∧ BestBelow env s q s.triangles.length d i := by
  intro ts
  induction ts with
  | nil =>
    intro pre best hpre hb
    rw [List.append_nil] at hpre
    match best, hb with
    | none, hb => exact Or.inl ⟨by rw [hpre, hb], rfl⟩
    | some (d, i), hb => exact Or.inr ⟨d, i, rfl, by rw [hpre]; exact hb⟩
  | cons t ts ih =>
    intro pre best hpre hb
    obtain ⟨a, b, c, ha, hb', hc⟩ := corners_exist hl hT (t := t) (by rw [hpre]; simp)
    have htt : s.triangles[pre.length]? = some t := by rw [hpre]; simp
    simp only [nearestLoop]
    rw [dist_ok ha hb' hc, bind_ok]
    set D := env.rd (((a.actual.x + b.actual.x + c.actual.x) / 3 - q.x) ^ 2 +
      ((a.actual.y + b.actual.y + c.actual.y) / 3 - q.y) ^ 2) with hD
    have hDi : DistIdx env s q pre.length D := ⟨t, a, b, c, htt, ha, hb', hc, hD⟩
    have huniq : ∀ d', DistIdx env s q pre.length d' → d' = D := by
      rintro d' ⟨t', a', b', c', ht', ha', hb'', hc', hd'⟩
      rw [htt] at ht'; cases ht'
      rw [ha] at ha'; cases ha'
      rw [hb'] at hb''; cases hb''
      rw [hc] at hc'; cases hc'
      rw [hd', hD]
    have hrec := fun best' => ih (pre ++ [t]) best' (by rw [hpre]; simp)
    simp only [List.length_append, List.length_singleton] at hrec
    match best, hb with
    | none, hb =>
      simp only [Option.map_none, closer, if_true]
      apply hrec
      simp only
      subst hb
      refine ⟨by simp, hDi, fun j hj d' hd' => ?_, fun j hj d' _ => absurd hj (by simp)⟩
      have : j = 0 := by simpa using hj
      subst this
      rw [huniq d' hd']
    | some (d, i), hb =>
      obtain ⟨h1, h2, h3, h4⟩ := hb
      simp only [Option.map_some, closer, decide_eq_true_eq]
      by_cases hlt : D < d
      · rw [if_pos hlt]
        apply hrec
        simp only
        refine ⟨by omega, hDi, fun j hj d' hd' => ?_, fun j hj d' hd' => ?_⟩
        · by_cases hj' : j = pre.length
          · subst hj'; rw [huniq d' hd']
          · exact le_trans hlt.le (h3 j (by omega) d' hd')
        · exact lt_of_lt_of_le hlt (h3 j hj d' hd')
      · rw [if_neg hlt]
        apply hrec
        simp only
        refine ⟨by omega, h2, fun j hj d' hd' => ?_, h4⟩
        by_cases hj' : j = pre.length
        · subst hj'; rw [huniq d' hd']; exact not_lt.1 hlt
        · exact h3 j (by omega) d' hd'

theorem nearestTriangle_spec (env : Env K σ) (s : State K) (q : Pt K) (hl : s.vertices.length = 67) (hT : TrisIn s) :
    (s.triangles = [] ∧ nearestTriangle env s q = .ok none) ∨
    ∃ i, i < s.triangles.length ∧ nearestTriangle env s q = .ok (some i) ∧ Nearest env s q i := by
  unfold nearestTriangle
  rcases nearestLoop_spec env s q hl hT s.triangles [] none rfl rfl with ⟨h1, h2⟩ | ⟨d, i, h1, h2⟩
  · exact Or.inl ⟨h1, by rw [List.length_nil] at h2; rw [h2, bind_ok]; rfl⟩
  · refine Or.inr ⟨i, h2.1, by rw [List.length_nil] at h1; rw [h1, bind_ok]; rfl, d, h2.2.1, fun j d' hd' => ?_, h2.2.2.2⟩
    refine h2.2.2.1 j ?_ d' hd'
    obtain ⟨t, _, _, _, ht, _⟩ := hd'
    by_contra hc
    rw [List.getElem?_eq_none (not_lt.1 hc)] at ht
    cases ht

theorem triMatrixAt_matrixAt {s : State K} {i : Nat} {t : Tri} (h : TriMatrixAt s i t) :
    ∃ a b c stray, s.vertices[t.p1]? = some a ∧ s.vertices[t.p2]? = some b ∧ s.vertices[t.p3]? = some c ∧
      matrixAt s i = .ok (solveMatrix stray (triCorners a.reference b.reference c.reference)
        (triCorners a.actual b.actual c.actual)) := by
  obtain ⟨a, b, c, stray, ha, hb, hc, hm⟩ := h
  refine ⟨a, b, c, stray, ha, hb, hc, ?_⟩
  unfold matrixAt; rw [hm]

/-- The matrix and the type of an alignment with triangles. -/
theorem tri_choice (env : Env K σ) (s : State K) (q : Pt K) (hl : s.vertices.length = 67) (hT : TrisIn s)
    (hne : s.triangles ≠ []) :
    (∃ i, UsesIn env s q i ∧ i < s.triangles.length ∧ getTransformationMatrix env s q = matrixAt s i ∧
      getTransformationType env s q = .ok .triangleIn) ∨
    (∃ i, UsesOut env s q i ∧ i < s.triangles.length ∧ getTransformationMatrix env s q = matrixAt s i ∧
      getTransformationType env s q = .ok .triangleOut) := by
  cases hts : s.triangles with
  | nil => exact absurd hts hne
  | cons t0 rest =>
    unfold getTransformationMatrix getTransformationType
    simp only [hts]
    have hfc := firstContaining_spec env s q hl hT s.triangles [] rfl
    rw [List.length_nil, hts] at hfc
    rcases hfc with ⟨i, h1, h2, _, h4⟩ | ⟨h1, h2⟩
    · refine Or.inl ⟨i, ⟨h2, fun j hj => h4 j (Nat.zero_le _) hj⟩, ?_, by rw [h1, bind_ok], by rw [h1, bind_ok]⟩
      obtain ⟨t, _, _, _, ht, _⟩ := h2
      rw [hts] at ht
      exact List.getElem?_eq_some_iff.1 ht |>.1
    · rcases nearestTriangle_spec env s q hl hT with ⟨h3, _⟩ | ⟨i, hi, h4, h5⟩
      · exact absurd h3 hne
      · refine Or.inr ⟨i, ⟨fun j => h2 j (Nat.zero_le _), h5⟩, by rw [← hts]; exact hi, ?_, by rw [h1, bind_ok]⟩
        rw [h1, bind_ok]
        simp only [nearestMatrix, h4, bind_ok]

end Verif.Align
