import Verif.Lemmas.AlignMaps
import Verif.Spec.AlignDemo
import Verif.Props.Helper

/-!
# C34, C35, C36, C39, C44: what the alignment does to an orientation

`run h fresh = .ok (bs, s)` with `triangulateActual env s = .ok s'` says that `s'` is the state after any history of calls that
ends with `TriangulateActual()`, as every history made by `Telescope::addReferencePoint` does.  The environment `env'` of
the query is arbitrary too.
-/

namespace Verif.Align

open Helper

variable {K σ : Type} [Field K] [LinearOrder K] [IsStrictOrderedRing K] [FloorRing K]

set_option linter.unusedSectionVars false

theorem fMod_turn (x y z : K) (h : y = x ∨ y = x + 360 ∨ y = x - 360) : fMod (y + z) 360 = fMod (x + z) 360 := by
  rcases h with rfl | rfl | rfl
  · rfl
  · rw [show x + 360 + z = (x + z) + ((1 : ℤ) : K) * 360 by push_cast; ring, C23_fmod_periodic _ _ (by norm_num)]
  · rw [show x - 360 + z = (x + z) + ((-1 : ℤ) : K) * 360 by push_cast; ring, C23_fmod_periodic _ _ (by norm_num)]

theorem used_head {s : State K} {v : VertexPair K} {rest : List (VertexPair K)} (h : s.used = v :: rest) :
    s.vertices[0]? = some v := by
  have := congrArg (fun l => l[0]?) h
  simp only [State.used, List.getElem?_take, List.getElem?_cons_zero] at this
  split at this
  · exact this
  · cases this

theorem used_second {s : State K} {u v : VertexPair K} {rest : List (VertexPair K)} (h : s.used = u :: v :: rest) :
    s.vertices[1]? = some v := by
  have := congrArg (fun l => l[1]?) h
  simp only [State.used, List.getElem?_take, List.getElem?_cons_zero, List.getElem?_cons_succ] at this
  split at this
  · exact this
  · cases this

theorem matrixAt_of {s : State K} {i : Nat} {m : Linalg.Mat3 K} (h : s.matrices[i]? = some (some m)) : matrixAt s i = .ok m := by
  unfold matrixAt; rw [h]

/-- **C34** With exactly one accepted point `(a, r)`, the calibrated orientation of every orientation is that orientation
shifted by `r - a`, azimuth modulo 360; the calibration point itself is reported at its reference. -/
theorem C34_translation (h : List (Env K σ × Op K)) (hs : ∀ e ∈ h, IsSort e.1.sort) (bs : List Bool) (s s' : State K)
    (hr : run h fresh = .ok (bs, s)) (env env' : Env K σ) (ht : triangulateActual env s = .ok s') (a r : Pt K)
    (hL : ledger (h.map Prod.snd) = [(a, r)]) :
    (∀ q, getCalibratedOrientation env' s' q = .ok ⟨fMod (q.x + (r.x - a.x)) 360, q.y + (r.y - a.y)⟩) ∧
      getCalibratedOrientation env' s' a = .ok ⟨fMod r.x 360, r.y⟩ := by
  obtain ⟨_, hI⟩ := run_refines h hs _ _ Inv.fresh bs s hr
  rw [← ledger, hL] at hI
  obtain ⟨hI', hused⟩ := triangulateActual_frame env s s' _ hI ht
  have hn : s.numVertices = 1 := hI.num
  have hn' : s'.numVertices = 1 := hI'.num
  have htri := no_triangles env s s' ht (by omega) (by omega)
  obtain ⟨v, hv, hm⟩ := (triangulateActual_synced env s s' ht).point htri hn'
  have hvs : StandsFor v (a, r) := by
    obtain ⟨w, hw, hwe⟩ := hI'.stores.mem List.mem_cons_self
    have hlen : s'.used.length = 1 := hI'.stores.length
    obtain ⟨u, hu⟩ := List.length_eq_one_iff.1 hlen
    rw [hu] at hw
    have h0 := used_head hu
    rw [hv] at h0
    cases h0
    rw [List.mem_singleton.1 hw] at hwe
    exact hwe
  have main : ∀ q, getCalibratedOrientation env' s' q = .ok ⟨fMod (q.x + (r.x - a.x)) 360, q.y + (r.y - a.y)⟩ := by
    intro q
    have hg : getTransformationMatrix env' s' q = .ok (pointMatrix v) := by
      unfold getTransformationMatrix
      rw [htri]
      simp only [hn']
      exact matrixAt_of hm
    rw [calibrated_of_matrix _ _ _ _ hg]
    obtain ⟨h1, h2, h3⟩ := hvs
    simp only at h1 h2 h3
    simp only [report, planeMap_point, h1, h2]
    have := fMod_turn r.x v.reference.x (q.x - a.x) h3
    rw [show q.x + (v.reference.x - a.x) = v.reference.x + (q.x - a.x) by ring,
      show q.x + (r.x - a.x) = r.x + (q.x - a.x) by ring, this]
  refine ⟨main, ?_⟩
  rw [main a, show a.x + (r.x - a.x) = r.x by ring, show a.y + (r.y - a.y) = r.y by ring]

/-- **C35** When there is no triangle and at least two points (always so with exactly two), the plane map applied to every
orientation is the one and only orientation-preserving similarity that sends the first two stored points to their
references. -/
theorem C35_similarity (h : List (Env K σ × Op K)) (hs : ∀ e ∈ h, IsSort e.1.sort) (bs : List Bool) (s s' : State K)
    (hr : run h fresh = .ok (bs, s)) (env env' : Env K σ) (ht : triangulateActual env s = .ok s')
    (hno : s'.triangles = []) (u v : VertexPair K) (rest : List (VertexPair K)) (hu : s'.used = u :: v :: rest) :
    ∃ f : Pt K → Pt K, IsDirectSimilarity f ∧ f u.actual = u.reference ∧ f v.actual = v.reference ∧
      (∀ g, IsDirectSimilarity g → g u.actual = u.reference → g v.actual = v.reference → g = f) ∧
      ∀ q, getCalibratedOrientation env' s' q = .ok (report f q) := by
  obtain ⟨_, hI⟩ := run_refines h hs _ _ Inv.fresh bs s hr
  obtain ⟨hI', hused⟩ := triangulateActual_frame env s s' _ hI ht
  have hn2 : 2 ≤ s'.numVertices := by
    have := hI'.stores.length
    rw [hu] at this
    have h2 := hI'.num
    simp only [List.length_cons] at this
    omega
  obtain ⟨a, b, stray, ha, hb, hm⟩ := (triangulateActual_synced env s s' ht).line hno hn2
  have e1 := used_head hu
  have e2 := used_second hu
  rw [ha] at e1; rw [hb] at e2
  cases e1; cases e2
  have hne : u.actual ≠ v.actual := by
    have hnd : (s'.used.map VertexPair.actual).Nodup := hI'.stores.actual.nodup_iff.2 hI'.nodup
    rw [hu] at hnd
    simp only [List.map_cons, List.nodup_cons, List.mem_cons, not_or] at hnd
    exact hnd.1.1
  obtain ⟨h1, h2, h3⟩ := planeMap_line stray u.actual v.actual u.reference v.reference hne
  refine ⟨_, h1, h2, h3, fun g hg g1 g2 => similarity_unique hg h1 hne (g1.trans h2.symm) (g2.trans h3.symm), fun q => ?_⟩
  apply calibrated_of_matrix
  unfold getTransformationMatrix
  rw [hno]
  simp only
  rw [if_pos (by omega)]
  exact matrixAt_of hm

/-- **C35** With exactly two accepted points both are reported at their references (azimuth modulo 360), whatever the
geometric tests of the triangulation say. -/
theorem C35_two_points (h : List (Env K σ × Op K)) (hs : ∀ e ∈ h, IsSort e.1.sort) (bs : List Bool) (s s' : State K)
    (hr : run h fresh = .ok (bs, s)) (env env' : Env K σ) (ht : triangulateActual env s = .ok s')
    (a1 r1 a2 r2 : Pt K) (hL : ledger (h.map Prod.snd) = [(a1, r1), (a2, r2)]) :
    getCalibratedOrientation env' s' a1 = .ok ⟨fMod r1.x 360, r1.y⟩ ∧
      getCalibratedOrientation env' s' a2 = .ok ⟨fMod r2.x 360, r2.y⟩ := by
  obtain ⟨_, hI⟩ := run_refines h hs _ _ Inv.fresh bs s hr
  rw [← ledger, hL] at hI
  obtain ⟨hI', hused⟩ := triangulateActual_frame env s s' _ hI ht
  have hno := no_triangles env s s' ht (by rw [hI.num]; simp) (by rw [hI.num]; simp)
  have hlen : s'.used.length = 2 := hI'.stores.length
  obtain ⟨u, v, hu⟩ := List.length_eq_two.1 hlen
  obtain ⟨f, _, f1, f2, _, hf⟩ := C35_similarity h hs bs s s' hr env env' ht hno u v [] hu
  have hall : ∀ w ∈ s'.used, f w.actual = w.reference := by
    intro w hw
    rw [hu] at hw
    rcases List.mem_cons.1 hw with rfl | hw
    · exact f1
    · rw [List.mem_singleton.1 hw]; exact f2
  have key : ∀ e ∈ [(a1, r1), (a2, r2)], getCalibratedOrientation env' s' e.1 = .ok ⟨fMod e.2.x 360, e.2.y⟩ := by
    intro e he
    obtain ⟨w, hw, h1, h2, h3⟩ := hI'.stores.mem he
    rw [hf, report, ← h1, hall w hw, h2]
    have := fMod_turn e.2.x w.reference.x 0 h3
    rw [add_zero, add_zero] at this
    rw [this]
  exact ⟨key (a1, r1) (by simp), key (a2, r2) (by simp)⟩

/-- **C36** If the alignment uses its `i`-th triangle for the query (the first one containing it, or the nearest one) and the
actual corners of that triangle are not collinear, the plane map applied is the one and only affine map that sends each
actual corner to its reference. -/
theorem C36_affine (h : List (Env K σ × Op K)) (hs : ∀ e ∈ h, IsSort e.1.sort) (bs : List Bool) (s s' : State K)
    (hr : run h fresh = .ok (bs, s)) (env env' : Env K σ) (ht : triangulateActual env s = .ok s') (q : Pt K) (i : Nat) (t : Tri)
    (a b c : VertexPair K) (hi : s'.triangles[i]? = some t) (ha : s'.vertices[t.p1]? = some a)
    (hb : s'.vertices[t.p2]? = some b) (hc : s'.vertices[t.p3]? = some c)
    (hnc : orient a.actual b.actual c.actual ≠ 0) (hq : UsesIn env' s' q i ∨ UsesOut env' s' q i) :
    ∃ f : Pt K → Pt K, IsAffine f ∧ f a.actual = a.reference ∧ f b.actual = b.reference ∧ f c.actual = c.reference ∧
      (∀ g, IsAffine g → g a.actual = a.reference → g b.actual = b.reference → g c.actual = c.reference → g = f) ∧
      getCalibratedOrientation env' s' q = .ok (report f q) := by
  obtain ⟨_, hI⟩ := run_refines h hs _ _ Inv.fresh bs s hr
  have hT := run_trisIn h hs _ _ Inv.fresh trisIn_fresh bs s hr
  obtain ⟨hI', hused⟩ := triangulateActual_frame env s s' _ hI ht
  have hT' := triangulateActual_trisIn env s s' _ hI hT ht
  obtain ⟨a', b', c', stray, ha', hb', hc', hm⟩ := triMatrixAt_matrixAt ((triangulateActual_synced env s s' ht).tri i t hi)
  rw [ha] at ha'; rw [hb] at hb'; rw [hc] at hc'
  cases ha'; cases hb'; cases hc'
  have hne : s'.triangles ≠ [] := by intro h0; rw [h0] at hi; simp at hi
  have hmat : getTransformationMatrix env' s' q = matrixAt s' i := by
    have nearest_unique : ∀ j k, Nearest env' s' q j → Nearest env' s' q k → j = k := by
      rintro j k ⟨d, h1, h2, h3⟩ ⟨d', h1', h2', h3'⟩
      rcases lt_trichotomy j k with hjk | hjk | hjk
      · exact absurd (h3' j hjk d h1) (not_lt.2 (h2 k d' h1'))
      · exact hjk
      · exact absurd (h3 k hjk d' h1') (not_lt.2 (h2' j d h1))
    rcases tri_choice env' s' q hI'.len hT' hne with ⟨j, hj, _, h1, _⟩ | ⟨j, hj, _, h1, _⟩
    · rcases hq with hq | hq
      · have : i = j := by
          rcases lt_trichotomy i j with hij | hij | hij
          · exact absurd hq.1 (hj.2 i hij)
          · exact hij
          · exact absurd hj.1 (hq.2 j hij)
        rw [this, h1]
      · exact absurd hj.1 (hq.1 j)
    · rcases hq with hq | hq
      · exact absurd hq.1 (hj.1 i)
      · rw [nearest_unique i j hq.2 hj.2, h1]
  obtain ⟨h1, h2, h3⟩ := planeMap_solve stray a.actual b.actual c.actual a.reference b.reference c.reference hnc
  refine ⟨_, planeMap_affine _, h1, h2, h3, fun g hg g1 g2 g3 => ?_, ?_⟩
  · exact affine_unique hg (planeMap_affine _) hnc (g1.trans h1.symm) (g2.trans h2.symm) (g3.trans h3.symm)
  · exact calibrated_of_matrix _ _ _ _ (by rw [hmat, hm])

/-- **C36** Equivalently, the alignment interpolates: the calibrated orientation of a query with barycentric coordinates
`x`, `y`, `z` in the triangle used is the point with the same coordinates in the reference triangle. -/
theorem C36_interpolates (h : List (Env K σ × Op K)) (hs : ∀ e ∈ h, IsSort e.1.sort) (bs : List Bool) (s s' : State K)
    (hr : run h fresh = .ok (bs, s)) (env env' : Env K σ) (ht : triangulateActual env s = .ok s') (i : Nat) (t : Tri)
    (a b c : VertexPair K) (hi : s'.triangles[i]? = some t) (ha : s'.vertices[t.p1]? = some a)
    (hb : s'.vertices[t.p2]? = some b) (hc : s'.vertices[t.p3]? = some c)
    (hnc : orient a.actual b.actual c.actual ≠ 0) (x y z : K) (hsum : x + y + z = 1) (q : Pt K)
    (hqx : q.x = x * a.actual.x + y * b.actual.x + z * c.actual.x)
    (hqy : q.y = x * a.actual.y + y * b.actual.y + z * c.actual.y)
    (hq : UsesIn env' s' q i ∨ UsesOut env' s' q i) :
    getCalibratedOrientation env' s' q =
      .ok ⟨fMod (x * a.reference.x + y * b.reference.x + z * c.reference.x) 360,
        x * a.reference.y + y * b.reference.y + z * c.reference.y⟩ := by
  obtain ⟨f, ⟨m1, m2, m3, m4, m5, m6, hf⟩, f1, f2, f3, _, hcal⟩ := C36_affine h hs bs s s' hr env env' ht q i t a b c hi ha hb
    hc hnc hq
  rw [hcal, report]
  rw [← f1, ← f2, ← f3]
  simp only [hf, hqx, hqy]
  congr 2
  · congr 1; linear_combination (-m3) * hsum
  · linear_combination (-m6) * hsum

/-- Which transformation an alignment applies to a query, described by its stored points and triangles only. -/
inductive Applies (env : Env K σ) (s : State K) (q : Pt K) : TType → (Pt K → Pt K) → Prop where
  | none (h1 : s.triangles = []) (h2 : s.used = []) : Applies env s q .none (fun p => p)
  | point (v : VertexPair K) (h1 : s.triangles = []) (h2 : s.used = [v]) :
      Applies env s q .point (fun p => ⟨p.x + (v.reference.x - v.actual.x), p.y + (v.reference.y - v.actual.y)⟩)
  | line (u v : VertexPair K) (rest : List (VertexPair K)) (h1 : s.triangles = []) (h2 : s.used = u :: v :: rest)
      (f : Pt K → Pt K) (h3 : IsDirectSimilarity f) (h4 : f u.actual = u.reference) (h5 : f v.actual = v.reference) :
      Applies env s q .line f
  | triangleIn (i : Nat) (h1 : UsesIn env s q i) (f : Pt K → Pt K)
      (h2 : ∀ t a b c, s.triangles[i]? = some t → s.vertices[t.p1]? = some a → s.vertices[t.p2]? = some b →
        s.vertices[t.p3]? = some c → orient a.actual b.actual c.actual ≠ 0 →
        IsAffine f ∧ f a.actual = a.reference ∧ f b.actual = b.reference ∧ f c.actual = c.reference) :
      Applies env s q .triangleIn f
  | triangleOut (i : Nat) (h1 : UsesOut env s q i) (f : Pt K → Pt K)
      (h2 : ∀ t a b c, s.triangles[i]? = some t → s.vertices[t.p1]? = some a → s.vertices[t.p2]? = some b →
        s.vertices[t.p3]? = some c → orient a.actual b.actual c.actual ≠ 0 →
        IsAffine f ∧ f a.actual = a.reference ∧ f b.actual = b.reference ∧ f c.actual = c.reference) :
      Applies env s q .triangleOut f

/-- **C39** After every history that ends with a triangulation and for every query, `getTransformationType` and
`getCalibratedOrientation` succeed and agree: the type reported is the kind of transformation applied.  (The 64th point,
which discards all points but not the triangles, is no exception: see `C32_overflow_keeps_triangles`.) -/
theorem C39_type_matches (h : List (Env K σ × Op K)) (hs : ∀ e ∈ h, IsSort e.1.sort) (bs : List Bool) (s s' : State K)
    (hr : run h fresh = .ok (bs, s)) (env env' : Env K σ) (ht : triangulateActual env s = .ok s') (q : Pt K) :
    ∃ T f, Applies env' s' q T f ∧ getTransformationType env' s' q = .ok T ∧
      getCalibratedOrientation env' s' q = .ok (report f q) := by
  obtain ⟨_, hI⟩ := run_refines h hs _ _ Inv.fresh bs s hr
  have hT := run_trisIn h hs _ _ Inv.fresh trisIn_fresh bs s hr
  obtain ⟨hI', hused⟩ := triangulateActual_frame env s s' _ hI ht
  have hT' := triangulateActual_trisIn env s s' _ hI hT ht
  have hsync := triangulateActual_synced env s s' ht
  have hlen : s'.used.length = s'.numVertices := by rw [hI'.stores.length, hI'.num]
  by_cases hno : s'.triangles = []
  · have hty : getTransformationType env' s' q
        = .ok (if s'.numVertices = 1 then .point else if 2 ≤ s'.numVertices then .line else .none) := by
      unfold getTransformationType; rw [hno]
    rw [hty]
    match hu : s'.used with
    | [] =>
      have hn : s'.numVertices = 0 := by rw [hu] at hlen; exact hlen.symm
      refine ⟨_, _, .none hno hu, by simp [hn], ?_⟩
      have hg : getTransformationMatrix env' s' q = .ok Linalg.identity := by
        unfold getTransformationMatrix
        rw [hno]
        simp only [hn]
        rfl
      rw [calibrated_of_matrix _ _ _ _ hg, report, planeMap_identity, report]
    | [v] =>
      have hn : s'.numVertices = 1 := by rw [hu] at hlen; exact hlen.symm
      refine ⟨_, _, .point v hno hu, by simp [hn], ?_⟩
      obtain ⟨w, hw, hm⟩ := hsync.point hno hn
      rw [used_head hu] at hw
      cases hw
      have hg : getTransformationMatrix env' s' q = .ok (pointMatrix v) := by
        unfold getTransformationMatrix
        rw [hno]
        simp only [hn]
        exact matrixAt_of hm
      rw [calibrated_of_matrix _ _ _ _ hg, report, planeMap_point, report]
    | u :: v :: rest =>
      have hn : 2 ≤ s'.numVertices := by rw [hu] at hlen; simp only [List.length_cons] at hlen; omega
      obtain ⟨f, f1, f2, f3, _, f5⟩ := C35_similarity h hs bs s s' hr env env' ht hno u v rest hu
      refine ⟨_, _, .line u v rest hno hu f f1 f2 f3, ?_, f5 q⟩
      rw [if_neg (by omega), if_pos hn]
  · have hmap : ∀ i, i < s'.triangles.length → ∃ M, matrixAt s' i = .ok M ∧
        ∀ t a b c, s'.triangles[i]? = some t → s'.vertices[t.p1]? = some a → s'.vertices[t.p2]? = some b →
        s'.vertices[t.p3]? = some c → orient a.actual b.actual c.actual ≠ 0 →
        IsAffine (planeMap M) ∧ planeMap M a.actual = a.reference ∧ planeMap M b.actual = b.reference ∧
          planeMap M c.actual = c.reference := by
      intro i hi
      obtain ⟨a, b, c, stray, ha, hb, hc, hm⟩ := triMatrixAt_matrixAt (hsync.tri i _ (List.getElem?_eq_getElem hi))
      refine ⟨_, hm, fun t a' b' c' ht' ha' hb' hc' hnc => ?_⟩
      rw [List.getElem?_eq_getElem hi] at ht'
      cases ht'
      rw [ha] at ha'; rw [hb] at hb'; rw [hc] at hc'
      cases ha'; cases hb'; cases hc'
      obtain ⟨h1, h2, h3⟩ := planeMap_solve stray a.actual b.actual c.actual a.reference b.reference c.reference hnc
      exact ⟨planeMap_affine _, h1, h2, h3⟩
    rcases tri_choice env' s' q hI'.len hT' hno with ⟨i, hi, hil, h1, h2⟩ | ⟨i, hi, hil, h1, h2⟩
    · obtain ⟨M, hM, hM2⟩ := hmap i hil
      exact ⟨_, planeMap M, .triangleIn i hi _ hM2, h2, calibrated_of_matrix _ _ _ _ (h1.trans hM)⟩
    · obtain ⟨M, hM, hM2⟩ := hmap i hil
      exact ⟨_, planeMap M, .triangleOut i hi _ hM2, h2, calibrated_of_matrix _ _ _ _ (h1.trans hM)⟩

/-- **C32** (finding) The point that reaches the capacity discards all points but keeps triangles and matrices, and the
following `TriangulateActual` does not remove them either: until the next point the alignment goes on with the triangles of
the discarded points. -/
theorem C32_overflow_keeps_triangles (h : List (Env K σ × Op K)) (hs : ∀ e ∈ h, IsSort e.1.sort) (bs : List Bool)
    (s : State K) (hr : run h fresh = .ok (bs, s)) (h63 : s.numVertices = 63) (env env' : Env K σ) (he : IsSort env.sort)
    (a r : Pt K) (hd : ¬ ∃ v ∈ s.used, v.actual = a) :
    ∃ s1, addVertexPair env s a r = .ok (true, s1) ∧ s1.numVertices = 0 ∧ s1.triangles = s.triangles ∧
      s1.matrices = s.matrices ∧ ∀ s2, triangulateActual env' s1 = .ok s2 → s2.triangles = s.triangles := by
  obtain ⟨_, hI⟩ := run_refines h hs _ _ Inv.fresh bs s hr
  generalize (h.map Prod.snd).foldl ledgerStep [] = L at hI
  have hn : a ∉ L.map Prod.fst := by
    intro hc
    obtain ⟨v, hv, rfl⟩ := List.mem_map.1 (hI.stores.actual.mem_iff.2 hc)
    exact hd ⟨v, hv, rfl⟩
  obtain ⟨s', h1, h2, _, h4, h5⟩ := add_refines env he s L hI a r
  have hans : answer L (.add a r) = true := by simp [answer, hn]
  rw [hans] at h1
  have hL : ledgerStep L (.add a r) = [] := by
    simp only [ledgerStep, hn, if_false]
    rw [if_pos (by rw [← hI.num]; exact h63)]
  rw [hL] at h2
  have h0 : s'.numVertices = 0 := h2.num
  refine ⟨s', h1, h0, h4, h5, fun s2 hs2 => ?_⟩
  unfold triangulateActual at hs2
  rw [if_neg (by omega)] at hs2
  obtain ⟨_, _, h3, _⟩ := updateMatrices_frame env' _ _ hs2
  rw [h3, h4]

/-- **C44** In every state that a history can produce, `nearestTriangle` returns the first index minimising the (rounded)
squared distance between the query and the centroid of the triangle, and -1 exactly when there are no triangles. -/
theorem C44_nearest (h : List (Env K σ × Op K)) (hs : ∀ e ∈ h, IsSort e.1.sort) (bs : List Bool) (s : State K)
    (hr : run h fresh = .ok (bs, s)) (env : Env K σ) (q : Pt K) :
    ∃ r, nearestTriangle env s q = .ok r ∧ (r = none ↔ s.triangles = []) ∧ ∀ i, r = some i → i < s.triangles.length ∧
      ∃ d, DistIdx env s q i d ∧ (∀ j d', DistIdx env s q j d' → d ≤ d') ∧ ∀ j < i, ∀ d', DistIdx env s q j d' → d < d' := by
  obtain ⟨_, hI⟩ := run_refines h hs _ _ Inv.fresh bs s hr
  have hT := run_trisIn h hs _ _ Inv.fresh trisIn_fresh bs s hr
  rcases nearestTriangle_spec env s q hI.len hT with ⟨h1, h2⟩ | ⟨i, hi, h1, h2⟩
  · exact ⟨none, h2, by simp [h1], by simp⟩
  · refine ⟨some i, h1, ?_, ?_⟩
    · constructor
      · intro hc; cases hc
      · intro hc; rw [hc] at hi; simp at hi
    · intro j hj
      cases hj
      exact ⟨hi, h2⟩

/-! ### the hypotheses are met by concrete cases -/

/-- The result of a history followed by a query, for the examples. -/
def demoQuery (h : List (Env ℚ (Option (Circle ℚ)) × Op ℚ)) (q : Pt ℚ) : C (TType × Pt ℚ) := do
  let r ← run h fresh
  let t ← getTransformationType demoEnv r.2 q
  let c ← getCalibratedOrientation demoEnv r.2 q
  return (t, c)

/-- One point across the 0/360 boundary. -/
example : demoQuery (demoSync ⟨350, 10⟩ ⟨5, 12⟩) ⟨340, 20⟩ = .ok (.point, ⟨355, 22⟩) := by decide +kernel
/-- Two points: rotation by 90 degrees and scaling by 2. -/
example : demoQuery (demoSync ⟨0, 0⟩ ⟨10, 10⟩ ++ demoSync ⟨1, 0⟩ ⟨10, 12⟩) ⟨2, 1⟩ = .ok (.line, ⟨8, 14⟩) := by decide +kernel
/-- Three points: inside and outside the triangle. -/
example : demoQuery (demoSync ⟨0, 0⟩ ⟨10, 10⟩ ++ demoSync ⟨9, 0⟩ ⟨10, 28⟩ ++ demoSync ⟨0, 9⟩ ⟨19, 10⟩) ⟨3, 3⟩
    = .ok (.triangleIn, ⟨13, 16⟩) := by decide +kernel
example : demoQuery (demoSync ⟨0, 0⟩ ⟨10, 10⟩ ++ demoSync ⟨9, 0⟩ ⟨10, 28⟩ ++ demoSync ⟨0, 9⟩ ⟨19, 10⟩) ⟨30, 3⟩
    = .ok (.triangleOut, ⟨13, 70⟩) := by decide +kernel
/-- The ledgers of the histories above. -/
example : ledger ((demoSync ⟨0, 0⟩ ⟨10, 10⟩ ++ demoSync ⟨1, 0⟩ ⟨10, 12⟩).map Prod.snd) = [(⟨0, 0⟩, ⟨10, 10⟩), (⟨1, 0⟩, ⟨10, 12⟩)] := by
  decide +kernel

end Verif.Align
