import Verif.Lemmas.Delaunay64
import Verif.Props.Telescope64
import Verif.Props.Delaunay

/-!
# C82 The triangulation in double arithmetic
-/

namespace Verif.Telescope64

open Verif Verif.Align Verif.Coord64 Verif.Spec Verif.Align64 Verif.Linalg64

/-- **C82.** The triangulation of up to 64 well-placed positions, stored in the order of their azimuths, all calculations rounded to doubles, succeeds and is a
Delaunay triangulation of the positions as they are stored.  It does not matter what the indeterminate variables contain or what the program would do
with numbers that are not finite. -/
theorem C82_triangulation (M : Libm) (hM : Accurate M) (guess : Pt ℚ → Pt ℚ → Pt ℚ → Pt ℚ → Bool × Bool) (init : Option (ℚ × ℚ)) (nv : Nat)
    (mem : List (VertexPair ℚ)) (h64 : nv ≤ 64) (hmem : nv + 3 ≤ mem.length) (hw : WellPlaced ((mem.take nv).map VertexPair.actual))
    (hsort : (mem.take nv).Pairwise (fun v w => v.actual.x ≤ w.actual.x)) :
    ∃ mem' ts, Align64.triangulate (ieeeTest (fun x => .ok (M.sqrt x)) guess) init nv mem = .ok (mem', ts) ∧
      Delaunay ((mem.take nv).map VertexPair.actual) mem ts ∧ ∀ j < nv, mem'[j]? = mem[j]? := by
  obtain ⟨mem', ts, all, h, D⟩ := triangulate_ieee hM guess init nv mem h64 hmem hw hsort
  have h1 : 1 ≤ nv := by
    by_contra hcon
    have : nv = 0 := by omega
    subst this
    obtain ⟨a, ha, -⟩ := hw.spread
    simp at ha
  obtain ⟨-, f2, f3⟩ := triangulate_frame h1 h
  exact ⟨mem', ts, h, delaunay_of D hmem hw (fun t ht => ⟨(f3 t ht).1, (f3 t ht).2.1, (f3 t ht).2.2.1⟩), f2⟩

theorem step_stars (k : Knows) (ra dec lat lst : ℚ) : (k.step (.sync ra dec lat lst)).stars = addStar k.stars ⟨k.now, ra, dec, lat, lst⟩ := by
  simp only [Knows.step, addStar]
  split
  · rfl
  · split <;> rfl

/-- **C82.** A sync after any history of orientations, syncs and resets: if the orientations at which the known stars were synced are then well placed, the
sync succeeds, and the triangles of the telescope are a Delaunay triangulation of these orientations. -/
theorem C82_sync (hist : List (Libm × Align64.Env (Option (ℚ × ℚ)) × Op)) (hF : ∀ e ∈ hist, Fair e) (T : Tel) (hr : run hist new = .ok T) (M : Libm)
    (env : Align64.Env (Option (ℚ × ℚ))) (ra dec lat lst : ℚ) (hFs : Fair (M, env, .sync ra dec lat lst))
    (guess : Pt ℚ → Pt ℚ → Pt ℚ → Pt ℚ → Bool × Bool) (htest : env.test = ieeeTest (fun x => .ok (M.sqrt x)) guess)
    (hw : WellPlaced ((knows (calls hist ++ [.sync ra dec lat lst])).stars.map Star.at')) :
    ∃ T', step M env (.sync ra dec lat lst) T = .ok T' ∧
      Delaunay ((knows (calls hist ++ [.sync ra dec lat lst])).stars.map Star.at') T'.alignment.vertices T'.alignment.triangles := by
  have hR : Rep T (knows (calls hist)) := run_known hF hr
  have hK : (knows (calls hist ++ [.sync ra dec lat lst])).stars = addStar (knows (calls hist)).stars ⟨(knows (calls hist)).now, ra, dec, lat, lst⟩ := by
    rw [← step_stars]
    unfold knows
    rw [List.foldl_append]
    rfl
  rw [hK] at hw ⊢
  generalize knows (calls hist) = k at *
  obtain ⟨hM, hs, hst, i1, i2, i3⟩ := hFs
  obtain ⟨az, alt, e1, a1, a2, a3, n1⟩ := C69_e2h M hM ra dec lat lst i1 i2 i3
  obtain ⟨b, s1, j1, j2, -, -⟩ := add_inv env hs T.alignment k.stars hR.inv ⟨k.now, ra, dec, lat, lst⟩ hR.sane i3 (r := ⟨az, alt⟩) a1 a2 a3 n1
  have hcap := j2.cap
  have hnum := j2.num
  have hperm : (s1.used.map VertexPair.actual).Perm ((addStar k.stars ⟨k.now, ra, dec, lat, lst⟩).map Star.at') := j2.stores.actual
  have hw1 : WellPlaced ((s1.vertices.take s1.numVertices).map VertexPair.actual) := hw.perm hperm.symm
  have hmem : s1.numVertices + 3 ≤ s1.vertices.length := by rw [j2.len]; omega
  obtain ⟨m, ts, ht, hD, f2⟩ := C82_triangulation M hM guess env.init s1.numVertices s1.vertices (by omega) hmem hw1 j2.sorted
  have hpos : 0 < s1.numVertices := by
    by_contra hcon
    have h0 : s1.numVertices = 0 := by omega
    obtain ⟨a, ha, -⟩ := hw1.spread
    rw [h0] at ha
    simp at ha
  obtain ⟨f1, -, f3⟩ := triangulate_frame hpos ht
  have hcount := hD.count
  rw [List.length_map, List.length_take] at hcount
  obtain ⟨s2, hs2⟩ := updateMatrices_run env (s := { s1 with vertices := m, triangles := ts }) (by rw [f1]; exact j2.len) j2.mats
    (by show ts.length ≤ 192; omega) (fun t ht => by obtain ⟨g1, g2, g3, -⟩ := f3 t ht; omega)
  have htri : Align64.triangulateActual env s1 = .ok s2 := by
    unfold Align64.triangulateActual
    rw [if_pos hpos, htest, ht, bind_ok]
    exact hs2
  obtain ⟨g1, -, g3, -⟩ := updateMatrices_frame env _ _ hs2
  refine ⟨{ T with alignment := s2 }, ?_, ?_⟩
  · simp only at j1
    simp only [step, addReferencePoint, e1, bind_ok, hR.now, j1, htri, pure_ok]
  · show Delaunay _ s2.vertices s2.triangles
    rw [g3, g1]
    refine (hD.perm hperm).congr ?_
    intro t ht
    obtain ⟨i1, i2, i3, -⟩ := f3 t ht
    exact ⟨f2 _ i1, f2 _ i2, f2 _ i3⟩

/-- A position near the triangle that is not near one of the sides is in the triangle. -/
theorem closed_of_near {q a b c : Pt ℚ} (hcw : orient a b c < 0) (hin : Inside (1 / 10) q a b c) (h1 : 1 / 20 < |orient a b q|) (h2 : 1 / 20 < |orient b c q|)
    (h3 : 1 / 20 < |orient c a q|) : ClosedIn q a b c := by
  unfold Inside at hin
  have e1 : orient q b c = orient b c q := by unfold orient; ring
  have e2 : orient a q c = orient c a q := by unfold orient; ring
  have hs := orient_sum a b c q
  rw [e1, e2, abs_of_neg hcw] at hin
  refine closedIn_of hcw ?_ ?_ ?_ <;> by_contra hc <;> rw [not_le] at hc
  · rw [abs_of_pos hc] at h1 hin
    linarith [neg_abs_le (orient b c q), neg_abs_le (orient c a q)]
  · rw [abs_of_pos hc] at h2 hin
    linarith [neg_abs_le (orient a b q), neg_abs_le (orient c a q)]
  · rw [abs_of_pos hc] at h3 hin
    linarith [neg_abs_le (orient a b q), neg_abs_le (orient b c q)]

/-- A telescope whose triangles are a Delaunay triangulation of the orientations at which its stars were synced. -/
theorem stars_reading (hist' : List (Libm × Align64.Env (Option (ℚ × ℚ)) × Op)) (hF' : ∀ e ∈ hist', Fair e) (T' : Tel) (hr' : run hist' new = .ok T')
    (hD : Delaunay ((knows (calls hist')).stars.map Star.at') T'.alignment.vertices T'.alignment.triangles) (h : ℚ) (hh : 1 / 3 ≤ h)
    (H : ∀ a ∈ (knows (calls hist')).stars, ∀ b ∈ (knows (calls hist')).stars, ∀ c ∈ (knows (calls hist')).stars, a.at' ≠ b.at' → b.at' ≠ c.at' →
      c.at' ≠ a.at' → Tall h a.at' b.at' c.at') (s : Star) (hk : s ∈ (knows (calls hist')).stars) (y z : Pt ℚ)
    (hb : Belong ((knows (calls hist')).stars.map Star.at') s.at' y z) (M' : Libm) (hM : Accurate M') (θ : ℚ) (hθ : |θ| ≤ 361) :
    ∃ α δ, getCalibratedOrientation M' (setOrientation T' s.at') s.lat θ = .ok (.triangleIn, α, δ) ∧ -2⁻¹ ^ 1000 ≤ α ∧ α ≤ 360 ∧ |δ| ≤ 90 + 2⁻¹ ^ 42 ∧
      SamePlace (1 / (100000 * h ^ 2)) s α δ θ := by
  have hR : Rep T' (knows (calls hist')) := run_known hF' hr'
  have hne : (knows (calls hist')).stars ≠ [] := List.ne_nil_of_mem hk
  have h1 : 1 ≤ T'.alignment.numVertices := by rw [hR.inv.num]; exact List.length_pos_iff.2 hne
  have sane : ∀ k ∈ (knows (calls hist')).stars, SaneDirection k.at' ∧ |k.lat| ≤ 361 := by
    intro k hk
    obtain ⟨v, -, hv⟩ := hR.inv.stores.mem (e := k) hk
    exact ⟨hv.at_eq ▸ hv.sane, hv.lat⟩
  obtain ⟨hz, hlat⟩ := sane s hk
  -- the star is a corner of some triangle
  obtain ⟨t0, ht0, a0, b0, c0, hc0, hp0⟩ := hD.complete _ _ _ hb
  have hty : Align64.getTransformationType T'.alignment s.at' = .ok .triangleIn := by
    obtain ⟨i, t, ti, -, tc⟩ := choice hz.2 (hR.corners h1) (List.ne_nil_of_mem ht0)
    rcases tc with ⟨h, -⟩ | ⟨-, h⟩
    · exact h
    · exfalso
      have hf := h t0 ht0
      obtain ⟨i1, i2, i3, -⟩ := (hR.ready h1).2 t0 ht0
      obtain ⟨p, p1, -, _, -, p4⟩ := hR.inv.index i1
      obtain ⟨q, q1, -, _, -, q4⟩ := hR.inv.index i2
      obtain ⟨r, r1, -, _, -, r4⟩ := hR.inv.index i3
      rw [inTri_ok p1 q1 r1] at hf
      obtain ⟨c1, c2, c3⟩ := hc0
      rw [p1] at c1; rw [q1] at c2; rw [r1] at c3
      have hmem : s.at' ∈ [a0, b0, c0] := hp0.symm.subset (by simp)
      simp only [List.mem_cons, List.not_mem_nil, or_false] at hmem
      rw [← Option.some.inj c1, ← Option.some.inj c2, ← Option.some.inj c3] at hmem
      rw [corner_inside p4.sane.2 q4.sane.2 r4.sane.2 hmem] at hf
      cases hf
  obtain ⟨a, ha, b, hb', c, hc, ⟨t, htm, tc⟩, ⟨n1, n2, n3⟩, hin, rd⟩ := triangle_reading hist' hF' T' hr' hne s.at' hz _ hty (Or.inl rfl)
  have H' := H a ha b hb' c hc n1 n2 n3
  have hcorner : s.at' = a.at' ∨ s.at' = b.at' ∨ s.at' = c.at' := by
    by_contra hcon
    rw [not_or, not_or] at hcon
    obtain ⟨m1, m2, m3⟩ := hcon
    obtain ⟨a', _, b', _, c', _, tc', hcw, -⟩ := hD.empty t htm
    have hcw' : orient a.at' b.at' c.at' < 0 := by
      obtain ⟨x1, x2, x3⟩ := tc'
      rw [tc.1] at x1; rw [tc.2.1] at x2; rw [tc.2.2] at x3
      rw [Option.some.inj x1, Option.some.inj x2, Option.some.inj x3]
      exact hcw
    have big : ∀ p ∈ (knows (calls hist')).stars, ∀ q ∈ (knows (calls hist')).stars, p.at' ≠ q.at' → s.at' ≠ p.at' → s.at' ≠ q.at' →
        1 / 20 < |orient p.at' q.at' s.at'| := by
      intro p hp q hq k1 k2 k3
      have := area_low (H p hp q hq s hk k1 (Ne.symm k3) k2)
      have := pow_le_pow_left₀ (by norm_num) hh 2
      norm_num at this
      linarith
    have hcl := closed_of_near hcw' (hin rfl) (big a ha b hb' n1 m1 m2) (big b hb' c hc n2 m2 m3) (big c hc a ha n3 m3 m1)
    rcases hD.own t htm _ _ _ tc s.at' (List.mem_map_of_mem hk) hcl with e | e | e
    · exact m1 e
    · exact m2 e
    · exact m3 e
  have hsame : s ∈ [a, b, c] := by
    have key : ∀ k ∈ (knows (calls hist')).stars, s.at' = k.at' → s = k := by
      intro k hk' e
      exact List.inj_on_of_nodup_map hR.inv.nodup hk hk' e
    rcases hcorner with e | e | e
    · rw [key a ha e]; simp
    · rw [key b hb' e]; simp
    · rw [key c hc e]; simp
  obtain ⟨f, -, f1, rd⟩ := rd h (le_trans (by norm_num) hh) H'
  obtain ⟨g1, g2⟩ := f1 s hsame
  obtain ⟨α, δ, e, r1, r2, r3, n⟩ := rd M' hM (by linarith) s.lat θ hlat hθ
  obtain ⟨-, t2, -⟩ := tri_small H' (le_trans (by norm_num) hh) (sane a ha).1.2 (sane b hb').1.2 (sane c hc).1.2
  obtain ⟨m1, m2, m3⟩ := same_place (by positivity) (by positivity) g1 n
  exact ⟨α, δ, e, r1, r2, r3, m1.trans t2, m2.trans t2, m3.trans t2⟩

/-- **C82.** Any number of known stars, synced at well-placed orientations; the heights of the triangles formed by any three of the orientations are
at least `h ≥ 1/3` degrees.  Pointing at a star that belongs to some triple as during its sync is recognised as inside a triangle, and reports the position
of the star, up to `1/(100000 h²)` (radians), at any sidereal time. -/
theorem C82_stars (hist : List (Libm × Align64.Env (Option (ℚ × ℚ)) × Op)) (hF : ∀ e ∈ hist, Fair e) (T T' : Tel) (hr : run hist new = .ok T) (M : Libm)
    (env : Align64.Env (Option (ℚ × ℚ))) (ra dec lat lst : ℚ) (hFs : Fair (M, env, .sync ra dec lat lst))
    (guess : Pt ℚ → Pt ℚ → Pt ℚ → Pt ℚ → Bool × Bool) (htest : env.test = ieeeTest (fun x => .ok (M.sqrt x)) guess)
    (hw : WellPlaced ((knows (calls hist ++ [.sync ra dec lat lst])).stars.map Star.at')) (hT : step M env (.sync ra dec lat lst) T = .ok T')
    (h : ℚ) (hh : 1 / 3 ≤ h)
    (H : ∀ a ∈ (knows (calls hist ++ [.sync ra dec lat lst])).stars, ∀ b ∈ (knows (calls hist ++ [.sync ra dec lat lst])).stars,
      ∀ c ∈ (knows (calls hist ++ [.sync ra dec lat lst])).stars, a.at' ≠ b.at' → b.at' ≠ c.at' → c.at' ≠ a.at' → Tall h a.at' b.at' c.at')
    (s : Star) (hk : s ∈ (knows (calls hist ++ [.sync ra dec lat lst])).stars) (y z : Pt ℚ)
    (hb : Belong ((knows (calls hist ++ [.sync ra dec lat lst])).stars.map Star.at') s.at' y z) (M' : Libm) (hM : Accurate M') (θ : ℚ) (hθ : |θ| ≤ 361) :
    ∃ α δ, getCalibratedOrientation M' (setOrientation T' s.at') s.lat θ = .ok (.triangleIn, α, δ) ∧ -2⁻¹ ^ 1000 ≤ α ∧ α ≤ 360 ∧ |δ| ≤ 90 + 2⁻¹ ^ 42 ∧
      SamePlace (1 / (100000 * h ^ 2)) s α δ θ := by
  obtain ⟨T2, h2, hD⟩ := C82_sync hist hF T hr M env ra dec lat lst hFs guess htest hw
  rw [hT] at h2
  cases h2
  have hF' : ∀ e ∈ hist ++ [(M, env, .sync ra dec lat lst)], Fair e := by
    intro e he
    rcases List.mem_append.1 he with he | he
    · exact hF e he
    · rw [List.mem_singleton.1 he]; exact hFs
  have hr' : run (hist ++ [(M, env, .sync ra dec lat lst)]) new = .ok T' := by
    have app : ∀ (l l' : List (Libm × Align64.Env (Option (ℚ × ℚ)) × Op)) (T : Tel), run (l ++ l') T = (run l T >>= run l') := by
      intro l l'
      induction l with
      | nil => intro T; rfl
      | cons e l ih =>
        obtain ⟨M, env, op⟩ := e
        intro T
        simp only [List.cons_append, run]
        cases h : step M env op T with
        | error e => simp only [bind_error]
        | ok T' => simp only [bind_ok]; exact ih T'
    rw [app, hr, bind_ok]
    simp only [run]
    rw [hT, bind_ok]
  have hK : knows (calls (hist ++ [(M, env, .sync ra dec lat lst)])) = knows (calls hist ++ [.sync ra dec lat lst]) := by
    unfold calls
    rw [List.map_append]
    rfl
  rw [← hK] at hw H hk hb hD
  exact stars_reading _ hF' T' hr' hD h hh H s hk y z hb M' hM θ hθ

end Verif.Telescope64
