import Verif.Lemmas.Delivered
import Verif.Lemmas.AlignMaps
import Verif.Props.InTriangle
import Verif.Props.AlignMaps
import Verif.Spec.AlignDemo

/-!
# C42: the triangulation is a Delaunay triangulation and fits its arrays

The specification (`dist2`, `Circumcentre`, `StrictlyIn`, `ClosedIn`, `CornersAre`, `Generic`) is in `Spec/Delaunay.lean`.
`exactTest` is the code's own `CircumCircle` and sweep test with exact arithmetic.
-/

namespace Verif.Align

variable {K : Type} [Field K] [LinearOrder K] [IsStrictOrderedRing K]

set_option linter.unusedSectionVars false

/-- **C42** For up to 64 generic positions in ascending azimuth order, the triangulation runs to its end: it writes neither
behind the triangle array (192) nor behind the flags (4 per point), divides by no zero and uses no variable before it is set. -/
theorem C42_succeeds (init : Option (Circle K)) (nv : Nat) (mem : List (VertexPair K)) (h64 : nv ≤ 64) (hmem : nv + 3 ≤ mem.length)
    (hg : Generic ((mem.take nv).map VertexPair.actual))
    (hsort : (mem.take nv).Pairwise (fun u v => u.actual.x ≤ v.actual.x)) :
    ∃ mem' ts, triangulate exactTest init nv mem = .ok (mem', ts) := by
  obtain ⟨mem', ts, _, h, _⟩ := triangulate_exact init nv mem h64 hmem hg hsort
  exact ⟨mem', ts, h⟩

/-- What a delivered triangle knows about the mesh. -/
theorem delivered {init : Option (Circle K)} {nv : Nat} {mem mem' : List (VertexPair K)} {ts : List Tri} (h64 : nv ≤ 64)
    (hmem : nv + 3 ≤ mem.length) (hg : Generic ((mem.take nv).map VertexPair.actual))
    (hsort : (mem.take nv).Pairwise (fun u v => u.actual.x ≤ v.actual.x))
    (h : triangulate exactTest init nv mem = .ok (mem', ts)) :
    ∃ (P : Nat → Pt K) (all : List Tri), Delivered nv mem ts P all := by
  obtain ⟨m, ts', all, h', hr, hm, hp, hsame, x0, y0, d, q0, q1, q2, hd, hb, hsp⟩ := triangulate_exact init nv mem h64 hmem hg hsort
  rw [h'] at h
  cases h
  have hd0 : 0 < d := by
    have := eps_pos (K := K)
    linarith
  refine ⟨pos mem', all, hr.cw, hm, hp, ?_, fun x y z hrot j hj => hr.side le_rfl x y z hrot j hj, x0, y0, d, ?_, ?_, ?_, hd0, hb, hsp⟩
  · intro j hj
    have hj' : j < mem.length := by omega
    unfold pos
    rw [hsame j (by omega), List.getElem?_eq_getElem hj']
    rfl
  · rw [q0]; simp only; linarith
  · rw [q1]; simp only; linarith
  · rw [q2]; simp only; linarith

/-- **C42** Every delivered triangle is a proper triangle given in clockwise order (so collinear positions deliver none), and the
circle through its corners has no stored position inside. -/
theorem C42_delaunay (init : Option (Circle K)) (nv : Nat) (mem mem' : List (VertexPair K)) (ts : List Tri) (h64 : nv ≤ 64)
    (hmem : nv + 3 ≤ mem.length) (hg : Generic ((mem.take nv).map VertexPair.actual))
    (hsort : (mem.take nv).Pairwise (fun u v => u.actual.x ≤ v.actual.x))
    (h : triangulate exactTest init nv mem = .ok (mem', ts)) (t : Tri) (ht : t ∈ ts) (a b c : Pt K) (hc : CornersAre mem t a b c) :
    orient a b c < 0 ∧ ∃ m, Circumcentre m a b c ∧ ∀ v ∈ mem.take nv, dist2 m a ≤ dist2 m v.actual := by
  obtain ⟨P, all, D⟩ := delivered h64 hmem hg hsort h
  exact D.delaunay hmem ht hc

/-- **C42** The delivered triangles do not overlap. -/
theorem C42_disjoint (init : Option (Circle K)) (nv : Nat) (mem mem' : List (VertexPair K)) (ts : List Tri) (h64 : nv ≤ 64)
    (hmem : nv + 3 ≤ mem.length) (hg : Generic ((mem.take nv).map VertexPair.actual))
    (hsort : (mem.take nv).Pairwise (fun u v => u.actual.x ≤ v.actual.x))
    (h : triangulate exactTest init nv mem = .ok (mem', ts)) :
    ts.Pairwise (fun t u => ∀ a b c a' b' c' q, CornersAre mem t a b c → CornersAre mem u a' b' c' →
      ¬ (StrictlyIn q a b c ∧ StrictlyIn q a' b' c')) := by
  obtain ⟨P, all, D⟩ := delivered h64 hmem hg hsort h
  exact D.disjoint

/-- **C42** There are at most `2 n - 4` triangles for `n` positions. -/
theorem C42_count (init : Option (Circle K)) (nv : Nat) (mem mem' : List (VertexPair K)) (ts : List Tri) (h64 : nv ≤ 64)
    (hmem : nv + 3 ≤ mem.length) (hg : Generic ((mem.take nv).map VertexPair.actual))
    (hsort : (mem.take nv).Pairwise (fun u v => u.actual.x ≤ v.actual.x))
    (h : triangulate exactTest init nv mem = .ok (mem', ts)) : ts.length + 4 ≤ 2 * nv := by
  obtain ⟨P, all, D⟩ := delivered h64 hmem hg hsort h
  refine D.count hmem ?_
  obtain ⟨-, a, ha, b, hb, hab⟩ := hg
  refine ⟨a, ha, b, hb, ?_⟩
  intro e
  rw [e, sub_self, sub_self, abs_zero] at hab
  rcases hab with h | h <;> norm_num at h

/-- **C42** A stored position inside or on the border of a delivered triangle is one of its corners. -/
theorem C42_star_is_corner (init : Option (Circle K)) (nv : Nat) (mem mem' : List (VertexPair K)) (ts : List Tri) (h64 : nv ≤ 64)
    (hmem : nv + 3 ≤ mem.length) (hg : Generic ((mem.take nv).map VertexPair.actual))
    (hsort : (mem.take nv).Pairwise (fun u v => u.actual.x ≤ v.actual.x))
    (h : triangulate exactTest init nv mem = .ok (mem', ts)) (t : Tri) (ht : t ∈ ts) (a b c : Pt K) (hc : CornersAre mem t a b c)
    (v : VertexPair K) (hv : v ∈ mem.take nv) (hin : ClosedIn v.actual a b c) : v.actual = a ∨ v.actual = b ∨ v.actual = c := by
  obtain ⟨P, all, D⟩ := delivered h64 hmem hg hsort h
  exact D.star_is_corner hmem ht hc hv hin

/-- **C42** Conversely, three stored positions that belong together form a delivered triangle. -/
theorem C42_complete (init : Option (Circle K)) (nv : Nat) (mem mem' : List (VertexPair K)) (ts : List Tri) (h64 : nv ≤ 64)
    (hmem : nv + 3 ≤ mem.length) (hg : Generic ((mem.take nv).map VertexPair.actual))
    (hsort : (mem.take nv).Pairwise (fun u v => u.actual.x ≤ v.actual.x)) (hnd : ((mem.take nv).map VertexPair.actual).Nodup)
    (h : triangulate exactTest init nv mem = .ok (mem', ts)) (a b c : Pt K) (hb : Belong ((mem.take nv).map VertexPair.actual) a b c) :
    ∃ t ∈ ts, ∃ a' b' c', CornersAre mem t a' b' c' ∧ [a', b', c'].Perm [a, b, c] := by
  obtain ⟨P, all, D⟩ := delivered h64 hmem hg hsort h
  exact D.complete hmem hnd hb

/-! ### the alignment object -/

theorem triMatrices_total (stray : Nat → K) (ts : List Tri) : ∀ (i : Nat) (s : State K), i + ts.length ≤ s.matrices.length →
    (∀ t ∈ ts, t.p1 < s.vertices.length ∧ t.p2 < s.vertices.length ∧ t.p3 < s.vertices.length) →
    ∃ s', triMatrices stray i ts s = .ok s' := by
  induction ts with
  | nil => intro i s _ _; exact ⟨s, rfl⟩
  | cons t ts ih =>
    intro i s hl hv
    obtain ⟨v1, v2, v3⟩ := hv t List.mem_cons_self
    simp only [List.length_cons] at hl
    have hm : ∃ m, triMatrix s (stray i) t = .ok m := by
      unfold triMatrix
      rw [vertex_some (List.getElem?_eq_getElem v1), bind_ok, vertex_some (List.getElem?_eq_getElem v2), bind_ok,
        vertex_some (List.getElem?_eq_getElem v3), bind_ok]
      exact ⟨_, rfl⟩
    obtain ⟨m, hm⟩ := hm
    have hset : setMatrix s i m = .ok { s with matrices := s.matrices.set i (some m) } := by
      unfold setMatrix; rw [if_pos (by omega)]
    obtain ⟨s', hs'⟩ := ih (i + 1) { s with matrices := s.matrices.set i (some m) } (by simp; omega)
      (fun t ht => hv t (List.mem_cons_of_mem _ ht))
    refine ⟨s', ?_⟩
    simp only [triMatrices]
    rw [hm, bind_ok, hset, bind_ok, hs']

theorem updateMatrices_total {σ : Type} (env : Env K σ) (s : State K) (hl : s.vertices.length = 67) (hm : s.matrices.length = 192)
    (ht : s.triangles.length ≤ 192) (hv : ∀ t ∈ s.triangles, t.p1 < 67 ∧ t.p2 < 67 ∧ t.p3 < 67) : ∃ s', updateMatrices env s = .ok s' := by
  have hset : ∀ m, ∃ s', setMatrix s 0 m = .ok s' := by
    intro m; unfold setMatrix; rw [if_pos (by omega)]; exact ⟨_, rfl⟩
  unfold updateMatrices
  split
  · split
    · rw [vertex_some (List.getElem?_eq_getElem (by omega)), bind_ok]; exact hset _
    · split
      · unfold lineMatrix
        rw [vertex_some (List.getElem?_eq_getElem (by omega)), bind_ok, vertex_some (List.getElem?_eq_getElem (by omega)), bind_ok]
        exact hset _
      · exact hset _
  · exact triMatrices_total _ _ 0 s (by omega) (by rw [hl]; exact hv)

theorem used_corners {s : State K} {t : Tri} {a b c : Pt K} (h : CornersAre s.vertices t a b c)
    (ht : t.p1 < s.numVertices ∧ t.p2 < s.numVertices ∧ t.p3 < s.numVertices) :
    a ∈ s.used.map VertexPair.actual ∧ b ∈ s.used.map VertexPair.actual ∧ c ∈ s.used.map VertexPair.actual := by
  have key : ∀ (j : Nat) (x : Pt K), j < s.numVertices → s.vertices[j]?.map VertexPair.actual = some x → x ∈ s.used.map VertexPair.actual := by
    intro j x hj hx
    cases hv : s.vertices[j]? with
    | none => rw [hv] at hx; cases hx
    | some v =>
      rw [hv] at hx
      cases hx
      apply List.mem_map_of_mem
      unfold State.used
      rw [List.mem_take_iff_getElem]
      obtain ⟨hlt, hval⟩ := List.getElem?_eq_some_iff.1 hv
      exact ⟨j, by omega, hval⟩
  exact ⟨key _ _ ht.1 h.1, key _ _ ht.2.1 h.2.1, key _ _ ht.2.2 h.2.2⟩

/-- **C42** For every history of calls after which the stored positions are generic, `TriangulateActual` succeeds; it keeps the
stored points, and its triangles are clockwise, do not overlap, have empty circumcircles, number at most `2 n - 4` and include all triples
that belong together. -/
theorem C42_history (h : List (Env K (Option (Circle K)) × Op K)) (hs : ∀ e ∈ h, IsSort e.1.sort) (bs : List Bool) (s : State K)
    (hr : run h fresh = .ok (bs, s)) (hg : Generic (s.used.map VertexPair.actual)) (env : Env K (Option (Circle K)))
    (htest : env.test = exactTest) :
    ∃ s', triangulateActual env s = .ok s' ∧ s'.used = s.used ∧ s'.triangles.length + 4 ≤ 2 * s.numVertices ∧
      (∀ t ∈ s'.triangles, ∃ a ∈ s.used, ∃ b ∈ s.used, ∃ c ∈ s.used, CornersAre s'.vertices t a.actual b.actual c.actual ∧
        orient a.actual b.actual c.actual < 0 ∧
        ∃ m, Circumcentre m a.actual b.actual c.actual ∧ ∀ v ∈ s.used, dist2 m a.actual ≤ dist2 m v.actual) ∧
      s'.triangles.Pairwise (fun t u => ∀ a b c a' b' c' q, CornersAre s'.vertices t a b c → CornersAre s'.vertices u a' b' c' →
        ¬ (StrictlyIn q a b c ∧ StrictlyIn q a' b' c')) ∧
      ∀ a b c, Belong (s.used.map VertexPair.actual) a b c →
        ∃ t ∈ s'.triangles, ∃ a' b' c', CornersAre s'.vertices t a' b' c' ∧ [a', b', c'].Perm [a, b, c] := by
  obtain ⟨_, hI⟩ := run_refines h hs _ _ Inv.fresh bs s hr
  have hlen := hI.len
  have hcap := hI.cap
  have hnum := hI.num
  have hpos : 0 < s.numVertices := by
    rcases Nat.eq_zero_or_pos s.numVertices with h0 | h0
    · obtain ⟨-, a, ha, -⟩ := hg
      unfold State.used at ha
      rw [h0] at ha
      simp at ha
    · exact h0
  have h64 : s.numVertices ≤ 64 := by omega
  have hmem : s.numVertices + 3 ≤ s.vertices.length := by omega
  have hnd : (s.used.map VertexPair.actual).Nodup := hI.stores.actual.nodup_iff.2 hI.nodup
  obtain ⟨mem', ts, hts⟩ := C42_succeeds env.init s.numVertices s.vertices h64 hmem hg hI.sorted
  have hcount := C42_count env.init s.numVertices s.vertices mem' ts h64 hmem hg hI.sorted hts
  have hidx := triangulate_indices exactTest env.init s.numVertices s.vertices mem' ts hpos hts
  obtain ⟨hws, _⟩ := triangulate_spec exactTest env.init _ _ mem' ts hpos hts
  obtain ⟨m, p, ps, _, hm, hml, hsame, _, _⟩ := withSuper_ok s.numVertices s.vertices hpos hmem
  rw [hws] at hm
  cases hm
  obtain ⟨s', hs'⟩ := updateMatrices_total env { s with vertices := mem', triangles := ts } (by simp only; omega) hI.mats
    (by simp only; omega) (by
      intro t ht
      have := hidx t ht
      omega)
  have htri : triangulateActual env s = .ok s' := by
    unfold triangulateActual
    rw [if_pos hpos, htest, hts, bind_ok]
    exact hs'
  obtain ⟨f1, f2, f3, f4⟩ := updateMatrices_frame env _ _ hs'
  simp only at f1 f2 f3 f4
  have hcor : ∀ t ∈ ts, ∀ a b c, CornersAre s'.vertices t a b c ↔ CornersAre s.vertices t a b c := by
    intro t ht a b c
    obtain ⟨i1, i2, i3, -⟩ := hidx t ht
    unfold CornersAre
    rw [f1, hsame _ (by omega), hsame _ (by omega), hsame _ (by omega)]
  refine ⟨s', htri, (triangulateActual_frame env s s' _ hI htri).2, by rw [f3]; exact hcount, ?_, ?_, ?_⟩
  · intro t ht
    rw [f3] at ht
    obtain ⟨i1, i2, i3, -⟩ := hidx t ht
    have g : ∀ j (hj : j < s.numVertices), s.vertices[j]'(by omega) ∈ s.used := by
      intro j hj
      unfold State.used
      rw [List.mem_take_iff_getElem]
      exact ⟨j, by omega, rfl⟩
    have hc : CornersAre s.vertices t (s.vertices[t.p1]'(by omega)).actual (s.vertices[t.p2]'(by omega)).actual (s.vertices[t.p3]'(by omega)).actual := by
      refine ⟨?_, ?_, ?_⟩ <;> rw [List.getElem?_eq_getElem (by omega)] <;> rfl
    exact ⟨_, g _ i1, _, g _ i2, _, g _ i3, (hcor t ht _ _ _).2 hc, C42_delaunay env.init _ _ mem' ts h64 hmem hg hI.sorted hts t ht _ _ _ hc⟩
  · rw [f3]
    have hmem' : ts.Pairwise (fun t u => t ∈ ts ∧ u ∈ ts) := by
      rw [List.pairwise_iff_forall_sublist]
      intro t u h
      exact ⟨h.subset (by simp), h.subset (by simp)⟩
    refine ((C42_disjoint env.init _ _ mem' ts h64 hmem hg hI.sorted hts).and hmem').imp ?_
    rintro t u ⟨hno, ht, hu⟩ a b c a' b' c' q h1 h2
    exact hno a b c a' b' c' q ((hcor t ht _ _ _).1 h1) ((hcor u hu _ _ _).1 h2)
  · intro a b c hb
    obtain ⟨t, ht, a', b', c', h1, h2⟩ := C42_complete env.init _ _ mem' ts h64 hmem hg hI.sorted hnd hts a b c hb
    exact ⟨t, by rw [f3]; exact ht, a', b', c', (hcor t ht _ _ _).2 h1, h2⟩

theorem closedIn_of {q a b c : Pt K} (h : orient a b c < 0) (h1 : orient a b q ≤ 0) (h2 : orient b c q ≤ 0) (h3 : orient c a q ≤ 0) :
    ClosedIn q a b c := by
  have hne : orient a b c ≠ 0 := ne_of_lt h
  refine ⟨orient b c q / orient a b c, orient c a q / orient a b c, orient a b q / orient a b c, div_nonneg_of_nonpos h2 h.le,
    div_nonneg_of_nonpos h3 h.le, div_nonneg_of_nonpos h1 h.le, ?_, ?_, ?_⟩
  · rw [← add_div, ← add_div, div_eq_one_iff_eq hne, ← orient_sum a b c q]; ring
  · field_simp
    unfold orient; ring
  · field_simp
    unfold orient; ring

/-- **C42** If no three stored positions are nearly collinear, a star that belongs to some triple is served by a triangle of
which it is a corner (containment computed without `float` rounding). -/
theorem C42_star_has_own_triangle (h : List (Env K (Option (Circle K)) × Op K)) (hs : ∀ e ∈ h, IsSort e.1.sort) (bs : List Bool)
    (s s' : State K) (hr : run h fresh = .ok (bs, s)) (hg : Generic (s.used.map VertexPair.actual))
    (hns : NoSliver (s.used.map VertexPair.actual)) (env env' : Env K (Option (Circle K))) (htest : env.test = exactTest)
    (hrd : env'.rd = id) (ht : triangulateActual env s = .ok s') (v : VertexPair K) (hv : v ∈ s.used) (b c : Pt K)
    (hb : Belong (s.used.map VertexPair.actual) v.actual b c) :
    ∃ i t u1 u2 u3, s'.triangles[i]? = some t ∧ s'.vertices[t.p1]? = some u1 ∧ s'.vertices[t.p2]? = some u2 ∧
      s'.vertices[t.p3]? = some u3 ∧ orient u1.actual u2.actual u3.actual < 0 ∧ UsesIn env' s' v.actual i ∧
      (v.actual = u1.actual ∨ v.actual = u2.actual ∨ v.actual = u3.actual) := by
  obtain ⟨s2, ht2, hu, -, hdel, -, hcompl⟩ := C42_history h hs bs s hr hg env htest
  rw [ht] at ht2
  cases ht2
  obtain ⟨_, hI⟩ := run_refines h hs _ _ Inv.fresh bs s hr
  have hI' := (triangulateActual_frame env s s' _ hI ht).1
  have hT' := triangulateActual_trisIn env s s' _ hI (run_trisIn h hs _ _ Inv.fresh trisIn_fresh bs s hr) ht
  obtain ⟨t0, ht0, a', b', c', hcor, hperm⟩ := hcompl _ _ _ hb
  obtain ⟨u1, u2, u3, e1, e2, e3⟩ := corners_exist hI'.len hT' ht0
  have hcor' := hcor
  obtain ⟨k1, k2, k3⟩ := hcor'
  rw [e1] at k1; rw [e2] at k2; rw [e3] at k3
  have q1 : u1.actual = a' := Option.some.inj k1
  have q2 : u2.actual = b' := Option.some.inj k2
  have q3 : u3.actual = c' := Option.some.inj k3
  have hin0 : InClosedTriangle v.actual a' b' c' := by
    have : v.actual ∈ [a', b', c'] := hperm.symm.subset (by simp)
    simp only [List.mem_cons, List.not_mem_nil, or_false] at this
    rcases this with e | e | e <;> rw [e]
    · exact ⟨1, 0, 0, by norm_num, by norm_num, by norm_num, by norm_num, by ring, by ring⟩
    · exact ⟨0, 1, 0, by norm_num, by norm_num, by norm_num, by norm_num, by ring, by ring⟩
    · exact ⟨0, 0, 1, by norm_num, by norm_num, by norm_num, by norm_num, by ring, by ring⟩
  obtain ⟨i0, hi0⟩ := List.mem_iff_getElem?.1 ht0
  have hidx0 : InIdx env' s' v.actual i0 :=
    ⟨t0, u1, u2, u3, hi0, e1, e2, e3, by rw [hrd, q1, q2, q3]; exact C45_exact_accepts _ _ _ _ hin0⟩
  have hne : s'.triangles ≠ [] := by intro h0; rw [h0] at ht0; cases ht0
  rcases tri_choice env' s' v.actual hI'.len hT' hne with ⟨i, hui, -⟩ | ⟨i, huo, -⟩
  · obtain ⟨t, w1, w2, w3, hti, g1, g2, g3, hin⟩ := hui.1
    have htm : t ∈ s'.triangles := List.mem_of_getElem? hti
    obtain ⟨x, hx, y, hy, z, hz, hcor2, hcw, m, hmc, hemp⟩ := hdel t htm
    obtain ⟨l1, l2, l3⟩ := hcor2
    rw [g1] at l1; rw [g2] at l2; rw [g3] at l3
    have r1 : w1.actual = x.actual := Option.some.inj l1
    have r2 : w2.actual = y.actual := Option.some.inj l2
    have r3 : w3.actual = z.actual := Option.some.inj l3
    rw [hrd, r1, r2, r3] at hin
    have near : ∀ p ∈ s.used, ∀ q ∈ s.used, 0 < orient p.actual q.actual v.actual → 1 / 10000 ≤ orient p.actual q.actual v.actual := by
      intro p hp q hq hpos
      rcases hns _ (List.mem_map_of_mem hp) _ (List.mem_map_of_mem hq) _ (List.mem_map_of_mem hv) with h0 | h0
      · rw [h0] at hpos; exact absurd hpos (lt_irrefl _)
      · rwa [abs_of_pos hpos] at h0
    have hcl : ClosedIn v.actual x.actual y.actual z.actual := by
      refine closedIn_of hcw ?_ ?_ ?_
      · by_contra hc
        rw [(C45_exact_rejects v.actual x.actual y.actual z.actual (Or.inr ⟨hcw, near x hx y hy (not_le.1 hc)⟩)).1] at hin
        cases hin
      · by_contra hc
        rw [(C45_exact_rejects v.actual y.actual z.actual x.actual (Or.inr ⟨by rw [orient_cycle]; exact hcw, near y hy z hz (not_le.1 hc)⟩)).2.2] at hin
        cases hin
      · by_contra hc
        rw [(C45_exact_rejects v.actual z.actual x.actual y.actual (Or.inr ⟨by rw [orient_cycle, orient_cycle]; exact hcw, near z hz x hx (not_le.1 hc)⟩)).2.1] at hin
        cases hin
    refine ⟨i, t, w1, w2, w3, hti, g1, g2, g3, by rw [r1, r2, r3]; exact hcw, hui, ?_⟩
    rw [r1, r2, r3]
    refine corner_of hcw (circle_of_centre hmc) ?_ hcl
    have := hemp v hv
    unfold Circle.pow
    simp only
    unfold dist2 at this ⊢
    linarith
  · exact absurd hidx0 (huo.1 i0)

/-- **C35** (collinear points). Any number of generic positions on one line deliver no triangle; every orientation is mapped by the one and
only similarity through the first two in azimuth order. -/
theorem C35_collinear [FloorRing K] (h : List (Env K (Option (Circle K)) × Op K)) (hs : ∀ e ∈ h, IsSort e.1.sort) (bs : List Bool)
    (s s' : State K) (hr : run h fresh = .ok (bs, s)) (hg : Generic (s.used.map VertexPair.actual)) (env env' : Env K (Option (Circle K)))
    (htest : env.test = exactTest) (ht : triangulateActual env s = .ok s')
    (hline : ∀ a ∈ s.used, ∀ b ∈ s.used, ∀ c ∈ s.used, orient a.actual b.actual c.actual = 0)
    (u v : VertexPair K) (rest : List (VertexPair K)) (hu : s'.used = u :: v :: rest) :
    s'.triangles = [] ∧ ∃ f : Pt K → Pt K, IsDirectSimilarity f ∧ f u.actual = u.reference ∧ f v.actual = v.reference ∧
      (∀ g, IsDirectSimilarity g → g u.actual = u.reference → g v.actual = v.reference → g = f) ∧
      ∀ q, getCalibratedOrientation env' s' q = .ok (report f q) := by
  obtain ⟨s2, ht2, -, -, hdel, -⟩ := C42_history h hs bs s hr hg env htest
  rw [ht] at ht2
  cases ht2
  have hno : s'.triangles = [] := by
    rw [List.eq_nil_iff_forall_not_mem]
    intro t htm
    obtain ⟨a, ha, b, hb, c, hc, -, hcw, -⟩ := hdel t htm
    rw [hline a ha b hb c hc] at hcw
    exact lt_irrefl _ hcw
  exact ⟨hno, C35_similarity h hs bs s s' hr env env' ht hno u v rest hu⟩

/-- The five positions of the unit test `test_function_TriangulateSimple` are generic, sorted and without slivers; the first three belong
together, and so the theorems above apply to them. -/
def demoFive : List (Pt ℚ) := [⟨1, 8⟩, ⟨3, 5⟩, ⟨4, 7⟩, ⟨5, 1⟩, ⟨10, 5⟩]

example : Generic demoFive := by
  refine ⟨?_, ⟨1, 8⟩, by simp [demoFive], ⟨10, 5⟩, by simp [demoFive], Or.inl ?_⟩
  · intro a ha b hb
    simp only [demoFive, List.mem_cons, List.not_mem_nil, or_false] at ha hb
    rcases ha with rfl | rfl | rfl | rfl | rfl <;> rcases hb with rfl | rfl | rfl | rfl | rfl <;> norm_num
  · norm_num

example : NoSliver demoFive := by
  intro a ha b hb c hc
  simp only [demoFive, List.mem_cons, List.not_mem_nil, or_false] at ha hb hc
  rcases ha with rfl | rfl | rfl | rfl | rfl <;> rcases hb with rfl | rfl | rfl | rfl | rfl <;>
    rcases hc with rfl | rfl | rfl | rfl | rfl <;> norm_num [orient]

example : Belong demoFive ⟨1, 8⟩ ⟨3, 5⟩ ⟨4, 7⟩ := by
  refine ⟨by simp [demoFive], by simp [demoFive], by simp [demoFive], by norm_num [orient], ⟨31 / 14, 93 / 14⟩, ?_, ?_, ⟨1, 8⟩, by simp [demoFive],
    ⟨10, 5⟩, by simp [demoFive], Or.inl ?_⟩
  · constructor <;> norm_num [dist2]
  · intro q hq h1 h2 h3
    simp only [demoFive, List.mem_cons, List.not_mem_nil, or_false] at hq
    rcases hq with rfl | rfl | rfl | rfl | rfl
    · exact absurd rfl h1
    · exact absurd rfl h2
    · exact absurd rfl h3
    · norm_num [dist2]
    · norm_num [dist2]
  · norm_num [dist2]

/-- The hypotheses of `C42_history` are met by syncing the five positions in another order. -/
example : (run (demoSync ⟨10, 5⟩ ⟨11, 6⟩ ++ demoSync ⟨5, 1⟩ ⟨5, 2⟩ ++ demoSync ⟨1, 8⟩ ⟨2, 9⟩ ++ demoSync ⟨4, 7⟩ ⟨3, 9⟩ ++ demoSync ⟨3, 5⟩ ⟨3, 6⟩) fresh).map
      (fun r => (r.2.used.map VertexPair.actual, r.2.triangles)) = .ok (demoFive, [⟨3, 1, 4⟩, ⟨1, 0, 2⟩, ⟨1, 2, 4⟩, ⟨0, 1, 3⟩]) := by
  decide +kernel

/-- **C42** (finding) The supertriangle is not far enough away: three positions that are not collinear can be left without a triangle,
because the circle through them is too large. -/
theorem C42_flat_triple_dropped : ∃ (mem : List (VertexPair ℚ)), (mem.take 3).map VertexPair.actual = [⟨0, 0⟩, ⟨10, -1 / 10⟩, ⟨20, 0⟩] ∧
    orient (⟨0, 0⟩ : Pt ℚ) ⟨10, -1 / 10⟩ ⟨20, 0⟩ = 2 ∧ (triangulate exactTest none 3 mem).map (·.2) = .ok [] := by
  refine ⟨[⟨⟨0, 0⟩, ⟨0, 0⟩⟩, ⟨⟨10, -1 / 10⟩, ⟨0, 0⟩⟩, ⟨⟨20, 0⟩, ⟨0, 0⟩⟩, ⟨⟨0, 0⟩, ⟨0, 0⟩⟩, ⟨⟨0, 0⟩, ⟨0, 0⟩⟩, ⟨⟨0, 0⟩, ⟨0, 0⟩⟩], rfl, ?_, ?_⟩
  · norm_num [orient]
  · decide +kernel

end Verif.Align
