import Verif.Lemmas.Telescope64Read
import Verif.Lemmas.AlignReset

/-!
# The alignment in IEEE arithmetic: a sync succeeds if the triangulation of the orientations does
-/

namespace Verif.Telescope64

open Verif Verif.Align Verif.Linalg Verif.Linalg64 Verif.Coord64 Verif.Spec Verif.Align64

variable {σ : Type}

theorem withSuper_run {nv : Nat} {mem : List (VertexPair ℚ)} (h3 : nv + 3 ≤ mem.length) {p : Pt ℚ} {ps : List (Pt ℚ)}
    (hp : (mem.take nv).map VertexPair.actual = p :: ps) {s : Pt ℚ × Pt ℚ × Pt ℚ} (hs : Align64.superPts p ps = .ok s) :
    ∃ m, Align64.withSuper nv mem = .ok m ∧ m.length = mem.length ∧ (∀ j, j < nv → m[j]? = mem[j]?) ∧
      readPt m nv = .ok s.1 ∧ readPt m (nv + 1) = .ok s.2.1 ∧ readPt m (nv + 2) = .ok s.2.2 := by
  obtain ⟨m1, e1, l1, r1, o1, f1⟩ := writePt_ok mem nv s.1 (by omega)
  obtain ⟨m2, e2, l2, r2, o2, f2⟩ := writePt_ok m1 (nv + 1) s.2.1 (by omega)
  obtain ⟨m3, e3, l3, r3, o3, f3⟩ := writePt_ok m2 (nv + 2) s.2.2 (by omega)
  refine ⟨m3, ?_, by omega, ?_, ?_, ?_, r3⟩
  · unfold Align64.withSuper
    rw [hp]
    simp only [hs, bind_ok, e1, e2, e3]
  · intro j hj
    rw [o3 j (by omega), o2 j (by omega), o1 j (by omega)]
  · rw [readPt_congr (o3 nv (by omega)), readPt_congr (o2 nv (by omega)), r1]
  · rw [readPt_congr (o3 (nv + 1) (by omega)), r2]

/-- The triangulation depends on the measured directions of the points only. -/
theorem triangulate_actual {test : Test ℚ σ} {init : σ} {nv : Nat} {mem mem2 : List (VertexPair ℚ)} (h1 : 1 ≤ nv) (h3 : nv + 3 ≤ mem.length)
    (h3' : nv + 3 ≤ mem2.length) (hA : (mem.take nv).map VertexPair.actual = (mem2.take nv).map VertexPair.actual)
    {m2 : List (VertexPair ℚ)} {ts : List Tri} (h : Align64.triangulate test init nv mem2 = .ok (m2, ts)) :
    ∃ m, Align64.triangulate test init nv mem = .ok (m, ts) := by
  cases hp : (mem2.take nv).map VertexPair.actual with
  | nil =>
    have := congrArg List.length hp
    simp only [List.length_map, List.length_take, List.length_nil] at this
    omega
  | cons p ps =>
    unfold Align64.triangulate at h
    obtain ⟨m, hm, h⟩ := bind_eq_ok.1 h
    obtain ⟨tris, ht, h⟩ := bind_eq_ok.1 h
    obtain ⟨w, hw, h⟩ := bind_eq_ok.1 h
    cases h
    obtain ⟨s, hs⟩ : ∃ s, Align64.superPts p ps = .ok s := by
      have hm' := hm
      unfold Align64.withSuper at hm'
      rw [hp] at hm'
      simp only at hm'
      obtain ⟨s, hs, -⟩ := bind_eq_ok.1 hm'
      exact ⟨s, hs⟩
    obtain ⟨n, n1, n2, n3, n4, n5, n6⟩ := withSuper_run h3 (hA.trans hp) hs
    obtain ⟨n', n1', n2', n3', n4', n5', n6'⟩ := withSuper_run h3' hp hs
    rw [hm] at n1'; cases n1'
    have hread : ∀ i < nv + 3, readPt n i = readPt m2 i := by
      intro i hi
      by_cases hin : i < nv
      · rw [readPt_congr (n3 i hin), readPt_congr (n3' i hin)]
        have e : (mem[i]?).map VertexPair.actual = (mem2[i]?).map VertexPair.actual := by
          have := congrArg (·[i]?) hA
          simp only [List.getElem?_map, List.getElem?_take, if_pos hin] at this
          exact this
        unfold readPt
        cases h : mem[i]? <;> cases h' : mem2[i]? <;> rw [h, h'] at e <;> simp at e
        simp only [e]
      · have : i = nv ∨ i = nv + 1 ∨ i = nv + 2 := by omega
        rcases this with rfl | rfl | rfl
        · rw [n4, n4']
        · rw [n5, n5']
        · rw [n6, n6']
    rw [pushTri_first nv h1] at ht
    cases ht
    have hi := insertAll_congr test nv hread nv 0 ⟨[(⟨nv, nv + 1, nv + 2⟩, false)], 200, init⟩ (by omega) (super_triOK nv)
    rw [← List.range_eq_range', hw] at hi
    refine ⟨n, ?_⟩
    unfold Align64.triangulate
    simp only [n1, bind_ok, pushTri_first nv h1, hi, pure_ok]

/-- The vertex array with these measured directions. -/
def pad (A : List (Pt ℚ)) : List (VertexPair ℚ) := (A.map (fun p => ⟨p, ⟨0, 0⟩⟩)) ++ List.replicate (67 - A.length) ⟨⟨0, 0⟩, ⟨0, 0⟩⟩

theorem triMatrices_run {stray : Nat → ℚ} : ∀ (ts : List Tri) (i : Nat) (s : Align64.State), s.vertices.length = 67 → i + ts.length ≤ s.matrices.length →
    (∀ t ∈ ts, t.p1 < 67 ∧ t.p2 < 67 ∧ t.p3 < 67) → ∃ s', Align64.triMatrices stray i ts s = .ok s'
  | [], i, s, _, _, _ => ⟨s, rfl⟩
  | t :: ts, i, s, hv, hm, ht => by
    obtain ⟨h1, h2, h3⟩ := ht t List.mem_cons_self
    simp only [List.length_cons] at hm
    have v : ∀ {j}, j < 67 → ∃ x, Align64.vertex s j = .ok x := fun {j} hj => ⟨_, vertex_some (List.getElem?_eq_getElem (by omega))⟩
    obtain ⟨a, ha⟩ := v h1
    obtain ⟨b, hb⟩ := v h2
    obtain ⟨c, hc⟩ := v h3
    simp only [Align64.triMatrices, Align64.triMatrix, ha, hb, hc, bind_ok, pure_ok, Align64.setMatrix]
    rw [if_pos (by omega), bind_ok]
    exact triMatrices_run ts (i + 1) _ hv (by simp only [List.length_set]; omega) (fun t h => ht t (List.mem_cons_of_mem _ h))

theorem updateMatrices_run (env : Align64.Env σ) {s : Align64.State} (hv : s.vertices.length = 67) (hm : s.matrices.length = 192) (hl : s.triangles.length ≤ 192)
    (ht : ∀ t ∈ s.triangles, t.p1 < 67 ∧ t.p2 < 67 ∧ t.p3 < 67) : ∃ s', Align64.updateMatrices env s = .ok s' := by
  have v : ∀ {j}, j < 67 → ∃ x, Align64.vertex s j = .ok x := fun {j} hj => ⟨_, vertex_some (List.getElem?_eq_getElem (by omega))⟩
  have m : ∀ x, ∃ s', Align64.setMatrix s 0 x = .ok s' := fun x => by
    unfold Align64.setMatrix; rw [if_pos (by omega)]; exact ⟨_, rfl⟩
  unfold Align64.updateMatrices
  split
  · obtain ⟨a, ha⟩ := v (j := 0) (by omega)
    obtain ⟨b, hb⟩ := v (j := 1) (by omega)
    split
    · rw [ha, bind_ok]; exact m _
    · split
      · unfold Align64.lineMatrix
        rw [ha, bind_ok, hb, bind_ok, pure_ok, bind_ok]
        exact m _
      · exact m _
  · exact triMatrices_run _ _ _ hv (by omega) ht

/-- A sync succeeds if the triangulation of the orientations known then, in the order of their azimuths, does; the triangles are those of that
triangulation. -/
theorem sync_runs {M : Libm} {env : Align64.Env σ} {ra dec lat lst : ℚ} (hF : Fair (M, env, .sync ra dec lat lst)) {T : Tel} {k : Knows} (hR : Rep T k)
    (hnew : k.now ∉ k.stars.map Star.at') (hcap : k.stars.length < 63) (A : List (Pt ℚ)) (hA : A.Perm (k.stars.map Star.at' ++ [k.now]))
    (hsort : A.Pairwise (fun p q => p.x < q.x)) {m : List (VertexPair ℚ)} {ts : List Tri}
    (hts : Align64.triangulate env.test env.init A.length (pad A) = .ok (m, ts)) (hlen : ts.length ≤ 192) :
    ∃ T', step M env (.sync ra dec lat lst) T = .ok T' ∧ T'.alignment.triangles = ts := by
  obtain ⟨hM, hs, hst, i1, i2, i3⟩ := hF
  obtain ⟨az, alt, e1, a1, a2, a3, n1⟩ := C69_e2h M hM ra dec lat lst i1 i2 i3
  obtain ⟨b, s1, j1, j2, -, j4⟩ := add_inv env hs T.alignment k.stars hR.inv ⟨k.now, ra, dec, lat, lst⟩ hR.sane i3 (r := ⟨az, alt⟩) a1 a2 a3 n1
  have hL : addStar k.stars ⟨k.now, ra, dec, lat, lst⟩ = k.stars ++ [⟨k.now, ra, dec, lat, lst⟩] := by
    unfold addStar
    rw [if_neg hnew, if_neg (by omega)]
  rw [hL] at j2
  have hn : s1.numVertices = k.stars.length + 1 := by rw [j2.num]; simp
  have hAl : A.length = k.stars.length + 1 := by rw [hA.length_eq]; simp
  have hused : s1.used.map VertexPair.actual = A := by
    have hp : (s1.used.map VertexPair.actual).Perm A := j2.stores.actual.trans (by simpa using hA.symm)
    have hs1 : (s1.used.map VertexPair.actual).Pairwise (fun p q => p.x ≤ q.x) := List.pairwise_map.2 j2.sorted
    refine hp.eq_of_pairwise (le := fun p q => p.x ≤ q.x) ?_ hs1 (hsort.imp le_of_lt)
    intro p q hp' hq hpq hqp
    have hx : p.x = q.x := le_antisymm hpq hqp
    have hpA := hp.subset hp'
    by_contra hne
    obtain ⟨i, hi, rfl⟩ := List.mem_iff_getElem.1 hpA
    obtain ⟨j, hj, rfl⟩ := List.mem_iff_getElem.1 hq
    rcases lt_trichotomy i j with h | h | h
    · have := List.pairwise_iff_getElem.1 hsort i j hi hj h; linarith
    · subst h; exact hne rfl
    · have := List.pairwise_iff_getElem.1 hsort j i hj hi h; linarith
  have hpad : ((pad A).take A.length).map VertexPair.actual = A := by
    unfold pad
    rw [List.take_left' (by simp), List.map_map]
    simp [Function.comp_def]
  have hpl : (pad A).length = 67 := by unfold pad; simp only [List.length_append, List.length_map, List.length_replicate]; omega
  have hn' : s1.numVertices = A.length := by omega
  obtain ⟨m', hm'⟩ := triangulate_actual (mem := s1.vertices) (by omega) (by rw [j2.len]; omega) (by rw [hpl]; omega)
    (by rw [hpad, ← hn']; exact hused) hts
  obtain ⟨f1, -, f3⟩ := triangulate_frame (by omega) hm'
  obtain ⟨s2, hs2⟩ := updateMatrices_run env (s := { s1 with vertices := m', triangles := ts }) (by rw [f1]; exact j2.len) j2.mats hlen
    (fun t ht => by obtain ⟨g1, g2, g3, -⟩ := f3 t ht; omega)
  refine ⟨{ T with alignment := s2 }, ?_, ?_⟩
  · have ht : Align64.triangulateActual env s1 = .ok s2 := by
      unfold Align64.triangulateActual
      rw [← hn'] at hm'
      rw [if_pos (by omega), hm', bind_ok]
      exact hs2
    simp only at j1
    simp only [step, addReferencePoint, e1, bind_ok, hR.now, j1, ht, pure_ok]
  · obtain ⟨-, -, h3, -⟩ := updateMatrices_frame env _ _ hs2
    exact h3

/-! ### Totality -/

theorem minOf_le {N : ℚ} : ∀ (l : List ℚ) (x : ℚ), |x| ≤ N → (∀ y ∈ l, |y| ≤ N) → |minOf x l| ≤ N ∧ |maxOf x l| ≤ N
  | [], x, hx, _ => ⟨hx, hx⟩
  | y :: l, x, hx, h => by
    have hy := h y List.mem_cons_self
    have hl := fun w hw => h w (List.mem_cons_of_mem _ hw)
    constructor
    · show |minOf (if y < x then y else x) l| ≤ N
      split
      · exact (minOf_le l y hy hl).1
      · exact (minOf_le l x hx hl).1
    · show |maxOf (if x < y then y else x) l| ≤ N
      split
      · exact (minOf_le l y hy hl).2
      · exact (minOf_le l x hx hl).2

theorem superPts_ok {p : Pt ℚ} {ps : List (Pt ℚ)} (h : ∀ q ∈ p :: ps, Range q) : ∃ s, Align64.superPts p ps = .ok s := by
  have hx : ∀ y ∈ ps.map (·.x), |y| ≤ 360 := by
    intro y hy; obtain ⟨q, hq, rfl⟩ := List.mem_map.1 hy; exact (h q (List.mem_cons_of_mem _ hq)).1
  have hy : ∀ y ∈ ps.map (·.y), |y| ≤ 91 := by
    intro y hy; obtain ⟨q, hq, rfl⟩ := List.mem_map.1 hy; exact (h q (List.mem_cons_of_mem _ hq)).2
  obtain ⟨x0, x1⟩ := minOf_le _ p.x (h p List.mem_cons_self).1 hx
  obtain ⟨y0, y1⟩ := minOf_le _ p.y (h p List.mem_cons_self).2 hy
  unfold Align64.superPts
  obtain ⟨a1, a2⟩ := op64 (q := maxOf p.x (ps.map (·.x)) - minOf p.x (ps.map (·.x))) 720 ((abs_sub _ _).trans (by push_cast; linarith)) (by norm_num)
  obtain ⟨b1, b2⟩ := op64 (q := maxOf p.y (ps.map (·.y)) - minOf p.y (ps.map (·.y))) 182 ((abs_sub _ _).trans (by push_cast; linarith)) (by norm_num)
  obtain ⟨c1, c2⟩ := op64 (q := maxOf p.x (ps.map (·.x)) + minOf p.x (ps.map (·.x))) 720 ((abs_add_le _ _).trans (by push_cast; linarith)) (by norm_num)
  obtain ⟨d1, d2⟩ := op64 (q := maxOf p.y (ps.map (·.y)) + minOf p.y (ps.map (·.y))) 182 ((abs_add_le _ _).trans (by push_cast; linarith)) (by norm_num)
  push_cast at a2 b2 c2 d2
  simp only [a1, b1, bind_ok, add, divD, c1, d1]
  have h20 : ¬ ((2 : ℚ) = 0) := by norm_num
  simp only [h20, if_false]
  obtain ⟨e1, e2⟩ := op64 (q := rnd b64 (maxOf p.x (ps.map (·.x)) + minOf p.x (ps.map (·.x))) / 2) 360 (by rw [abs_div, abs_two]; push_cast; linarith) (by norm_num)
  obtain ⟨f1, f2⟩ := op64 (q := rnd b64 (maxOf p.y (ps.map (·.y)) + minOf p.y (ps.map (·.y))) / 2) 91 (by rw [abs_div, abs_two]; push_cast; linarith) (by norm_num)
  push_cast at e2 f2
  simp only [e1, f1]
  generalize rnd b64 (rnd b64 (maxOf p.x (ps.map (·.x)) + minOf p.x (ps.map (·.x))) / 2) = xm at *
  generalize rnd b64 (rnd b64 (maxOf p.y (ps.map (·.y)) + minOf p.y (ps.map (·.y))) / 2) = ym at *
  have hd : |if rnd b64 (maxOf p.x (ps.map (·.x)) - minOf p.x (ps.map (·.x))) > rnd b64 (maxOf p.y (ps.map (·.y)) - minOf p.y (ps.map (·.y)))
      then rnd b64 (maxOf p.x (ps.map (·.x)) - minOf p.x (ps.map (·.x))) else rnd b64 (maxOf p.y (ps.map (·.y)) - minOf p.y (ps.map (·.y)))| ≤ 720 := by
    split <;> linarith
  generalize (if rnd b64 (maxOf p.x (ps.map (·.x)) - minOf p.x (ps.map (·.x))) > rnd b64 (maxOf p.y (ps.map (·.y)) - minOf p.y (ps.map (·.y)))
      then rnd b64 (maxOf p.x (ps.map (·.x)) - minOf p.x (ps.map (·.x))) else rnd b64 (maxOf p.y (ps.map (·.y)) - minOf p.y (ps.map (·.y)))) = dm at *
  obtain ⟨g1, g2⟩ := op64 (q := 20 * dm) 14400 (by rw [abs_mul, abs_of_pos (by norm_num : (0 : ℚ) < 20)]; push_cast; linarith) (by norm_num)
  push_cast at g2
  obtain ⟨k1, -⟩ := op64 (q := xm - rnd b64 (20 * dm)) 15000 ((abs_sub _ _).trans (by push_cast; linarith)) (by norm_num)
  obtain ⟨k2, -⟩ := op64 (q := ym - dm) 15000 ((abs_sub _ _).trans (by push_cast; linarith)) (by norm_num)
  obtain ⟨k3, -⟩ := op64 (q := ym + rnd b64 (20 * dm)) 15000 ((abs_add_le _ _).trans (by push_cast; linarith)) (by norm_num)
  obtain ⟨k4, -⟩ := op64 (q := xm + rnd b64 (20 * dm)) 15000 ((abs_add_le _ _).trans (by push_cast; linarith)) (by norm_num)
  simp only [sub, mulD, bind_ok, g1, k1, k2, k3, k4, pure_ok]
  exact ⟨_, rfl⟩

/-- Tests that always give an answer. -/
def Answers (test : Test ℚ σ) : Prop := ∀ st p a b c, ∃ r, test st p a b c = .ok r

theorem triangulate_total {test : Test ℚ σ} (ht : Answers test) (init : σ) {nv : Nat} {mem : List (VertexPair ℚ)} (h1 : 1 ≤ nv) (h3 : nv + 3 ≤ mem.length)
    (hr : ∀ v ∈ mem.take nv, Range v.actual) :
    (∃ m ts, Align64.triangulate test init nv mem = .ok (m, ts)) ∨ Align64.triangulate test init nv mem = .error (.ub .oobWrite) := by
  cases hp : (mem.take nv).map VertexPair.actual with
  | nil =>
    have := congrArg List.length hp
    simp only [List.length_map, List.length_take, List.length_nil] at this
    omega
  | cons p ps =>
    obtain ⟨s, hs⟩ := superPts_ok (p := p) (ps := ps) (by
      rw [← hp]; intro q hq; obtain ⟨v, hv, rfl⟩ := List.mem_map.1 hq; exact hr v hv)
    obtain ⟨n, n1, n2, -⟩ := withSuper_run h3 hp hs
    have hi := insertAll_total test ht nv n (by omega) nv 0 ⟨[(⟨nv, nv + 1, nv + 2⟩, false)], 200, init⟩ (by omega) (super_triOK nv)
    rw [← List.range_eq_range'] at hi
    unfold Align64.triangulate
    simp only [n1, bind_ok, pushTri_first nv h1]
    rcases hi with ⟨w, hw⟩ | hw
    · left; rw [hw, bind_ok, pure_ok]; exact ⟨_, _, rfl⟩
    · right; rw [hw, bind_error]

theorem triMatrices_total {stray : Nat → ℚ} : ∀ (ts : List Tri) (i : Nat) (s : Align64.State), s.vertices.length = 67 →
    (∀ t ∈ ts, t.p1 < 67 ∧ t.p2 < 67 ∧ t.p3 < 67) → (∃ s', Align64.triMatrices stray i ts s = .ok s') ∨ Align64.triMatrices stray i ts s = .error (.ub .oobWrite)
  | [], i, s, _, _ => Or.inl ⟨s, rfl⟩
  | t :: ts, i, s, hv, ht => by
    obtain ⟨h1, h2, h3⟩ := ht t List.mem_cons_self
    have v : ∀ {j}, j < 67 → ∃ x, Align64.vertex s j = .ok x := fun {j} hj => ⟨_, vertex_some (List.getElem?_eq_getElem (by omega))⟩
    obtain ⟨a, ha⟩ := v h1
    obtain ⟨b, hb⟩ := v h2
    obtain ⟨c, hc⟩ := v h3
    simp only [Align64.triMatrices, Align64.triMatrix, ha, hb, hc, bind_ok, pure_ok, Align64.setMatrix]
    split
    · rw [bind_ok]
      exact triMatrices_total ts (i + 1) _ hv (fun t h => ht t (List.mem_cons_of_mem _ h))
    · exact Or.inr rfl

theorem updateMatrices_total (env : Align64.Env σ) {s : Align64.State} (hv : s.vertices.length = 67) (hm : s.matrices.length = 192)
    (ht : ∀ t ∈ s.triangles, t.p1 < 67 ∧ t.p2 < 67 ∧ t.p3 < 67) :
    (∃ s', Align64.updateMatrices env s = .ok s') ∨ Align64.updateMatrices env s = .error (.ub .oobWrite) := by
  by_cases h : s.triangles = []
  · exact Or.inl (updateMatrices_run env hv hm (by rw [h]; simp) ht)
  · unfold Align64.updateMatrices
    split
    · exact absurd (by assumption) h
    · exact triMatrices_total _ _ _ hv ht

/-- The corners of the triangles kept are indices of the vertex array (also when the last star has discarded all stars). -/
def Bounded (T : Tel) : Prop := ∀ t ∈ T.alignment.triangles, t.p1 < 67 ∧ t.p2 < 67 ∧ t.p3 < 67

theorem step_total {M : Libm} {env : Align64.Env σ} {op : Op} (hF : Fair (M, env, op)) (hA : Answers env.test) {T : Tel} {k : Knows} (hR : Rep T k) (hB : Bounded T) :
    (∃ T', step M env op T = .ok T' ∧ Bounded T') ∨ step M env op T = .error (.ub .oobWrite) := by
  obtain ⟨hM, hs, hst, hsane⟩ := hF
  cases op with
  | orient o => exact Or.inl ⟨_, rfl, hB⟩
  | clear => exact Or.inl ⟨_, rfl, fun t ht => by simp [clear, Align64.clearAll] at ht⟩
  | sync ra dec lat lst =>
    obtain ⟨i1, i2, i3⟩ := hsane
    obtain ⟨az, alt, e1, a1, a2, a3, n1⟩ := C69_e2h M hM ra dec lat lst i1 i2 i3
    obtain ⟨b, s1, j1, j2, j3, j4⟩ := add_inv env hs T.alignment k.stars hR.inv ⟨k.now, ra, dec, lat, lst⟩ hR.sane i3 (r := ⟨az, alt⟩) a1 a2 a3 n1
    simp only at j1
    simp only [step, addReferencePoint, e1, bind_ok, hR.now, j1]
    have key : (∃ s2, Align64.triangulateActual env s1 = .ok s2 ∧ ∀ t ∈ s2.triangles, t.p1 < 67 ∧ t.p2 < 67 ∧ t.p3 < 67) ∨
        Align64.triangulateActual env s1 = .error (.ub .oobWrite) := by
      unfold Align64.triangulateActual
      split
      · rename_i hn
        have hcap := j2.cap
        have hnum := j2.num
        rcases triangulate_total hA env.init hn (mem := s1.vertices) (by rw [j2.len]; omega) (by
          intro v hv
          obtain ⟨e, -, he⟩ := j2.stores.mem' hv
          exact he.sane.2) with ⟨m, ts, h⟩ | h
        · rw [h, bind_ok]
          obtain ⟨f1, -, f3⟩ := triangulate_frame hn h
          have hb : ∀ t ∈ ts, t.p1 < 67 ∧ t.p2 < 67 ∧ t.p3 < 67 := fun t ht => by obtain ⟨g1, g2, g3, -⟩ := f3 t ht; omega
          rcases updateMatrices_total env (s := { s1 with vertices := m, triangles := ts }) (by rw [f1]; exact j2.len) j2.mats hb with ⟨s2, h2⟩ | h2
          · refine Or.inl ⟨s2, h2, ?_⟩
            obtain ⟨-, -, h3, -⟩ := updateMatrices_frame env _ _ h2
            rw [h3]; exact hb
          · exact Or.inr h2
        · right; rw [h, bind_error]
      · have hb : ∀ t ∈ s1.triangles, t.p1 < 67 ∧ t.p2 < 67 ∧ t.p3 < 67 := by rw [j3]; exact hB
        rcases updateMatrices_total env j2.len j2.mats hb with ⟨s2, h2⟩ | h2
        · refine Or.inl ⟨s2, h2, ?_⟩
          obtain ⟨-, -, h3, -⟩ := updateMatrices_frame env _ _ h2
          rw [h3]; exact hb
        · exact Or.inr h2
    rcases key with ⟨s2, h2, hb⟩ | h2
    · left; simp only [h2, bind_ok, pure_ok]; exact ⟨_, rfl, hb⟩
    · right; simp only [h2, bind_error]

theorem run_total : ∀ (h : List (Libm × Align64.Env σ × Op)), (∀ e ∈ h, Fair e ∧ Answers e.2.1.test) → ∀ (T : Tel) (k : Knows), Rep T k → Bounded T →
    (∃ T', run h T = .ok T') ∨ run h T = .error (.ub .oobWrite)
  | [], _, T, _, _, _ => Or.inl ⟨T, rfl⟩
  | (M, env, op) :: h, hF, T, k, hR, hB => by
    obtain ⟨f1, f2⟩ := hF (M, env, op) List.mem_cons_self
    simp only [run]
    rcases step_total f1 f2 hR hB with ⟨T', h1, hB'⟩ | h1
    · rw [h1, bind_ok]
      exact run_total h (fun e he => hF e (List.mem_cons_of_mem _ he)) T' _ (step_rep f1 hR h1) hB'
    · right; rw [h1, bind_error]

end Verif.Telescope64
