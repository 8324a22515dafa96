import Verif.Lemmas.Super

/-!
# From the invariant of the triangulation to its specification
-/

namespace Verif.Align

variable {K : Type} [Field K] [LinearOrder K] [IsStrictOrderedRing K]

set_option linter.unusedSectionVars false

/-- Everything the exact triangulation does. -/
theorem triangulate_exact (init : Option (Circle K)) (nv : Nat) (mem : List (VertexPair K)) (h64 : nv ≤ 64) (hmem : nv + 3 ≤ mem.length)
    (hg : Generic ((mem.take nv).map VertexPair.actual))
    (hsort : (mem.take nv).Pairwise (fun u v => u.actual.x ≤ v.actual.x)) :
    ∃ mem' ts all, triangulate exactTest init nv mem = .ok (mem', ts) ∧ Ready (pos mem') nv mem' ∧
      Mesh (pos mem') nv nv all ∧ ts.Perm (all.filter (fun t => t.p1 < nv ∧ t.p2 < nv ∧ t.p3 < nv)) ∧
      (∀ j, ¬ (nv ≤ j ∧ j < nv + 3) → mem'[j]? = mem[j]?) ∧
      ∃ x0 y0 d : K, pos mem' nv = ⟨x0 - 20 * d, y0 - d⟩ ∧ pos mem' (nv + 1) = ⟨x0, y0 + 20 * d⟩ ∧
        pos mem' (nv + 2) = ⟨x0 + 20 * d, y0 - d⟩ ∧ 2 * eps ≤ d ∧
        (∀ j < nv, |(pos mem' j).x - x0| ≤ d / 2 ∧ |(pos mem' j).y - y0| ≤ d / 2) ∧
        (∀ j < nv, ∀ k < nv, |(pos mem' j).x - (pos mem' k).x| ≤ d ∧ |(pos mem' j).y - (pos mem' k).y| ≤ d) := by
  have h1 : 1 ≤ nv := by
    by_contra hcon
    have : nv = 0 := by omega
    subst this
    obtain ⟨-, a, ha, -⟩ := hg
    simp at ha
  obtain ⟨mem', hm, hr, hsame, hbox⟩ := ready_of nv mem h1 hmem hg hsort
  have h0 : WorkOK (pos mem') nv 0 ⟨[(superTri nv, false)], 200, init⟩ := by
    refine ⟨Mesh.super hr.cw, ?_⟩
    intro t ht
    rw [List.mem_singleton.1 ht]
    simp
  obtain ⟨w, hw, hwok⟩ := insertAll_faithful hr hr.faithful h64 nv 0 _ (by omega) h0
  rw [Nat.zero_add] at hwok
  refine ⟨mem', purge nv (w.tris.map Prod.fst).length (w.tris.map Prod.fst) [], w.tris.map Prod.fst, ?_, hr, hwok.mesh, ?_, hsame, hbox⟩
  · unfold triangulate
    rw [hm, bind_ok, pushTri_first nv h1, bind_ok, List.range_eq_range']
    unfold superTri at hw
    rw [hw, bind_ok]
    rfl
  · have := purge_perm nv (w.tris.map Prod.fst).length (w.tris.map Prod.fst) [] le_rfl
    simpa using this

theorem strictlyIn_inside {q a b c : Pt K} (hcw : orient a b c < 0) (h : StrictlyIn q a b c) : Inside q a b c := by
  obtain ⟨u, v, w, hu, hv, hw, hs, hx, hy⟩ := h
  have hw' : w = 1 - u - v := by linarith
  have e1 : orient a b q = w * orient a b c := by unfold orient; rw [hx, hy, hw']; ring
  have e2 : orient b c q = u * orient a b c := by unfold orient; rw [hx, hy, hw']; ring
  have e3 : orient c a q = v * orient a b c := by unfold orient; rw [hx, hy, hw']; ring
  unfold Inside
  rw [e1, e2, e3]
  exact ⟨mul_neg_of_pos_of_neg hw hcw, mul_neg_of_pos_of_neg hu hcw, mul_neg_of_pos_of_neg hv hcw⟩

/-- The power of a point given by weights. -/
theorem pow_weights (o : Circle K) {q a b c : Pt K} {u v w : K} (hs : u + v + w = 1) (hx : q.x = u * a.x + v * b.x + w * c.x)
    (hy : q.y = u * a.y + v * b.y + w * c.y) :
    o.pow q = u * o.pow a + v * o.pow b + w * o.pow c - (u * v * dist2 a b + v * w * dist2 b c + w * u * dist2 c a) := by
  have hw' : w = 1 - u - v := by linarith
  unfold Circle.pow dist2
  rw [hx, hy, hw']; ring

theorem dist2_pos {a b : Pt K} (h : a ≠ b) : 0 < dist2 a b := by
  unfold dist2
  by_contra hcon
  have h1 : (b.x - a.x) ^ 2 = 0 := by nlinarith [sq_nonneg (b.x - a.x), sq_nonneg (b.y - a.y)]
  have h2 : (b.y - a.y) ^ 2 = 0 := by nlinarith [sq_nonneg (b.x - a.x), sq_nonneg (b.y - a.y)]
  apply h
  ext
  · have := pow_eq_zero_iff (two_ne_zero) |>.1 h1; linarith
  · have := pow_eq_zero_iff (two_ne_zero) |>.1 h2; linarith

theorem dist2_nonneg (a b : Pt K) : 0 ≤ dist2 a b := by unfold dist2; positivity

/-- A point of the closed triangle that is not inside the circumcircle is a corner. -/
theorem corner_of {o : Circle K} {q a b c : Pt K} (hcw : orient a b c < 0) (ho : o.Through a b c) (hq : 0 ≤ o.pow q) (h : ClosedIn q a b c) :
    q = a ∨ q = b ∨ q = c := by
  obtain ⟨u, v, w, hu, hv, hw, hs, hx, hy⟩ := h
  have e := pow_weights o hs hx hy
  rw [ho.1, ho.2.1, ho.2.2] at e
  have nab : a ≠ b := by rintro rfl; unfold orient at hcw; simp at hcw
  have nbc : b ≠ c := by rintro rfl; rw [← orient_cycle] at hcw; unfold orient at hcw; simp at hcw
  have nca : c ≠ a := by rintro rfl; rw [← orient_cycle, ← orient_cycle] at hcw; unfold orient at hcw; simp at hcw
  have d1 := dist2_pos nab
  have d2 := dist2_pos nbc
  have d3 := dist2_pos nca
  have p1 : 0 ≤ u * v * dist2 a b := by positivity
  have p2 : 0 ≤ v * w * dist2 b c := by positivity
  have p3 : 0 ≤ w * u * dist2 c a := by positivity
  have z1 : u * v * dist2 a b = 0 := by linarith
  have z2 : v * w * dist2 b c = 0 := by linarith
  have z3 : w * u * dist2 c a = 0 := by linarith
  have y1 : u * v = 0 := (mul_eq_zero.1 z1).resolve_right d1.ne'
  have y2 : v * w = 0 := (mul_eq_zero.1 z2).resolve_right d2.ne'
  have y3 : w * u = 0 := (mul_eq_zero.1 z3).resolve_right d3.ne'
  rcases mul_eq_zero.1 y1 with hu0 | hv0
  · rcases mul_eq_zero.1 y2 with hv0 | hw0
    · right; right
      have : w = 1 := by linarith
      ext <;> [rw [hx]; rw [hy]] <;> rw [hu0, hv0, this] <;> ring
    · right; left
      have : v = 1 := by linarith
      ext <;> [rw [hx]; rw [hy]] <;> rw [hu0, hw0, this] <;> ring
  · rcases mul_eq_zero.1 y3 with hw0 | hu0
    · left
      have : u = 1 := by linarith
      ext <;> [rw [hx]; rw [hy]] <;> rw [hv0, hw0, this] <;> ring
    · right; right
      have : w = 1 := by linarith
      ext <;> [rw [hx]; rw [hy]] <;> rw [hu0, hv0, this] <;> ring

/-- A circle around the circumcentre. -/
theorem circle_of_centre {m a b c : Pt K} (h : Circumcentre m a b c) : (⟨m.x, m.y, dist2 m a⟩ : Circle K).Through a b c := by
  obtain ⟨h1, h2⟩ := h
  refine ⟨?_, ?_, ?_⟩ <;> unfold Circle.pow <;> simp only
  · unfold dist2; ring
  · rw [h1]; unfold dist2; ring
  · rw [h1, h2]; unfold dist2; ring

/-- Every triangle has a circumcentre. -/
theorem exists_centre {a b c : Pt K} (h : orient a b c ≠ 0) : ∃ m, Circumcentre m a b c := by
  refine ⟨⟨(((b.x ^ 2 + b.y ^ 2) - (a.x ^ 2 + a.y ^ 2)) * (c.y - a.y) - ((c.x ^ 2 + c.y ^ 2) - (a.x ^ 2 + a.y ^ 2)) * (b.y - a.y)) / (2 * orient a b c),
    (((c.x ^ 2 + c.y ^ 2) - (a.x ^ 2 + a.y ^ 2)) * (b.x - a.x) - ((b.x ^ 2 + b.y ^ 2) - (a.x ^ 2 + a.y ^ 2)) * (c.x - a.x)) / (2 * orient a b c)⟩, ?_, ?_⟩ <;>
  unfold dist2 <;> simp only <;> field_simp <;> unfold orient <;> ring

/-- A covered point is in the closed triangle. -/
theorem cover_closed {q a b c : Pt K} (hcw : orient a b c < 0) (h : cover q a b c = 1) :
    orient a b q ≤ 0 ∧ orient b c q ≤ 0 ∧ orient c a q ≤ 0 := by
  have left : ∀ {a b c : Pt K}, orient a b c < 0 → a.x ≤ q.x → q.x < b.x → q.x < c.x → cover q a b c = 1 →
      orient a b q ≤ 0 ∧ orient b c q ≤ 0 ∧ orient c a q ≤ 0 := by
    intro a b c hcw ha hb hc h
    have e := (cover_left hcw ha hb hc).1
    rw [h] at e
    have hx := bary_x a b c q
    have s1 : orient a b q < 0 := by
      by_contra hn
      rw [if_neg hn] at e
      split at e <;> omega
    have s2 : ¬ orient a c q < 0 := by
      intro hn
      rw [if_pos hn, if_pos s1] at e; omega
    have s3 : orient c a q ≤ 0 := by rw [← neg_neg (orient c a q), ← orient_flip]; linarith
    refine ⟨s1.le, ?_, s3⟩
    by_contra hn
    push Not at hn
    have t1 : orient b c q * (a.x - q.x) ≤ 0 := mul_nonpos_of_nonneg_of_nonpos hn.le (by linarith)
    have t2 : orient c a q * (b.x - q.x) ≤ 0 := mul_nonpos_of_nonpos_of_nonneg s3 (by linarith)
    have t3 : orient a b q * (c.x - q.x) < 0 := mul_neg_of_neg_of_pos s1 (by linarith)
    linarith
  have right : ∀ {a b c : Pt K}, orient a b c < 0 → q.x < a.x → b.x ≤ q.x → c.x ≤ q.x → cover q a b c = 1 →
      orient a b q ≤ 0 ∧ orient b c q ≤ 0 ∧ orient c a q ≤ 0 := by
    intro a b c hcw ha hb hc h
    have e := (cover_right hcw ha hb hc).1
    rw [h] at e
    have hx := bary_x a b c q
    have s1 : orient c a q < 0 := by
      by_contra hn
      rw [if_neg hn] at e
      split at e <;> omega
    have s2 : ¬ orient b a q < 0 := by
      intro hn
      rw [if_pos hn, if_pos s1] at e; omega
    have s3 : orient a b q ≤ 0 := by rw [← neg_neg (orient a b q), ← orient_flip]; linarith
    refine ⟨s3, ?_, s1.le⟩
    by_contra hn
    push Not at hn
    have t1 : 0 < orient b c q * (a.x - q.x) := mul_pos hn (by linarith)
    have t2 : 0 ≤ orient c a q * (b.x - q.x) := mul_nonneg_of_nonpos_of_nonpos s1.le (by linarith)
    have t3 : 0 ≤ orient a b q * (c.x - q.x) := mul_nonneg_of_nonpos_of_nonpos s3 (by linarith)
    linarith
  have h2 : orient b c a < 0 := by rw [orient_cycle]; exact hcw
  have h3 : orient c a b < 0 := by rw [orient_cycle]; exact h2
  have c2 : cover q b c a = 1 := by rw [cover_cycle]; exact h
  have c3 : cover q c a b = 1 := by rw [cover_cycle]; exact c2
  rcases le_or_gt a.x q.x with ha | ha <;> rcases le_or_gt b.x q.x with hb | hb <;> rcases le_or_gt c.x q.x with hc | hc
  · rw [cover_none_left ha hb hc] at h; cases h
  · obtain ⟨x, y, z⟩ := right h3 hc ha hb c3; exact ⟨y, z, x⟩
  · obtain ⟨x, y, z⟩ := right h2 hb hc ha c2; exact ⟨z, x, y⟩
  · exact left hcw ha hb hc h
  · exact right hcw ha hb hc h
  · obtain ⟨x, y, z⟩ := left h2 hb hc ha c2; exact ⟨z, x, y⟩
  · obtain ⟨x, y, z⟩ := left h3 hc ha hb c3; exact ⟨y, z, x⟩
  · rw [cover_none_right ha hb hc] at h; cases h

/-- Every point inside the supertriangle lies in some triangle of the mesh. -/
theorem Mesh.covers {P : Nat → Pt K} {nv i : Nat} {ts : List Tri} (hm : Mesh P nv i ts) {q : Pt K} (hq : (superTri nv).Contains P q) :
    ∃ t ∈ ts, orient (P t.p1) (P t.p2) q ≤ 0 ∧ orient (P t.p2) (P t.p3) q ≤ 0 ∧ orient (P t.p3) (P t.p1) q ≤ 0 := by
  have h := hm.chain (fun e => crossing q (P e.1) (P e.2)) (fun e => crossing_anti q _ _)
  have e : bd (fun e => crossing q (P e.1) (P e.2)) = Tri.cover P q := by
    funext t; rfl
  rw [e] at h
  have h1 : Tri.cover P q (superTri nv) = 1 := cover_inside hq
  rw [h1] at h
  by_contra hcon
  push Not at hcon
  have hz : ∀ t ∈ ts, Tri.cover P q t = 0 := by
    intro t ht
    obtain ⟨l, u⟩ := cover_bounds q (hm.cw t ht)
    have l' : 0 ≤ Tri.cover P q t := l
    have u' : Tri.cover P q t ≤ 1 := u
    rcases (by omega : Tri.cover P q t = 0 ∨ Tri.cover P q t = 1) with h | h
    · exact h
    · obtain ⟨x, y, z⟩ := cover_closed (hm.cw t ht) h
      exact absurd (hcon t ht x y) (not_lt.2 z)
  have : (ts.map (Tri.cover P q)).sum = 0 := by
    rw [List.map_congr_left (g := fun _ => 0) hz]; simp
  omega

/-- The difference of two powers is affine. -/
theorem pow_diff_weights (o o' : Circle K) (a b c q : Pt K) :
    (o'.pow q - o.pow q) * orient a b c = (o'.pow a - o.pow a) * orient b c q + (o'.pow b - o.pow b) * orient c a q +
      (o'.pow c - o.pow c) * orient a b q := by
  unfold Circle.pow orient; ring

/-- A triangle with an empty circumcircle is in every mesh. -/
theorem Mesh.complete {P : Nat → Pt K} {nv i : Nat} {ts : List Tri} (hm : Mesh P nv i ts) (hs : (superTri nv).CW P)
    {a b c : Nat} (ha : Vtx nv i a) (hb : Vtx nv i b) (hc : Vtx nv i c) (hcw : orient (P a) (P b) (P c) < 0)
    (hside : ∀ x y z, (superTri nv).Rot x y z → ∀ j, Vtx nv i j → orient (P x) (P y) (P j) ≤ 0)
    {o : Circle K} (ho : o.Through (P a) (P b) (P c)) (hempty : ∀ j, Vtx nv i j → j ≠ a → j ≠ b → j ≠ c → 0 < o.pow (P j)) :
    ∃ t ∈ ts, t.Rot a b c := by
  -- the centroid is inside the supertriangle
  set g : Pt K := ⟨((P a).x + (P b).x + (P c).x) / 3, ((P a).y + (P b).y + (P c).y) / 3⟩ with hg
  have hgi : ∀ x y : Pt K, orient x y g = (orient x y (P a) + orient x y (P b) + orient x y (P c)) / 3 := by
    intro x y; rw [hg]; unfold orient; simp only; ring
  have hgs : (superTri nv).Contains P g := by
    have key : ∀ x y z, (superTri nv).Rot x y z → orient (P x) (P y) g < 0 := by
      intro x y z hr
      rw [hgi]
      have h1 := hside x y z hr a ha
      have h2 := hside x y z hr b hb
      have h3 := hside x y z hr c hc
      rcases lt_or_eq_of_le h1 with h1 | h1
      · linarith
      · rcases lt_or_eq_of_le h2 with h2 | h2
        · linarith
        · rcases lt_or_eq_of_le h3 with h3 | h3
          · linarith
          · exfalso
            have hsup := hr.cw.1 hs
            -- all three corners on one line
            have : orient (P a) (P b) (P c) * orient (P x) (P y) (P z) = 0 := by
              have e1 : orient (P x) (P y) (P a) = 0 := h1
              have e2 : orient (P x) (P y) (P b) = 0 := h2
              have e3 : orient (P x) (P y) (P c) = 0 := h3
              have nx : P x ≠ P y := by intro e; rw [e] at hsup; unfold orient at hsup; simp at hsup
              by_cases hxx : (P y).x - (P x).x = 0
              · have hyy : (P y).y - (P x).y ≠ 0 := by
                  intro h0; apply nx; ext <;> linarith
                have f1 : (P a).x = (P x).x := by
                  unfold orient at e1; rw [hxx] at e1
                  have : ((P y).y - (P x).y) * ((P a).x - (P x).x) = 0 := by linarith
                  have := (mul_eq_zero.1 this).resolve_left hyy; linarith
                have f2 : (P b).x = (P x).x := by
                  unfold orient at e2; rw [hxx] at e2
                  have : ((P y).y - (P x).y) * ((P b).x - (P x).x) = 0 := by linarith
                  have := (mul_eq_zero.1 this).resolve_left hyy; linarith
                have f3 : (P c).x = (P x).x := by
                  unfold orient at e3; rw [hxx] at e3
                  have : ((P y).y - (P x).y) * ((P c).x - (P x).x) = 0 := by linarith
                  have := (mul_eq_zero.1 this).resolve_left hyy; linarith
                have : orient (P a) (P b) (P c) = 0 := by unfold orient; rw [f1, f2, f3]; ring
                rw [this, zero_mul]
              · have : ((P y).x - (P x).x) * orient (P a) (P b) (P c) = 0 := by
                  unfold orient at e1 e2 e3 ⊢
                  linear_combination ((P c).x - (P b).x) * e1 + ((P a).x - (P c).x) * e2 + ((P b).x - (P a).x) * e3
                have := (mul_eq_zero.1 this).resolve_left hxx
                rw [this, zero_mul]
            rcases mul_eq_zero.1 this with h | h <;> linarith
    refine ⟨key _ _ _ (Or.inl rfl), key _ _ _ (Tri.Rot.cycle (Or.inl rfl)), key _ _ _ (Tri.Rot.cycle (Tri.Rot.cycle (Or.inl rfl)))⟩
  obtain ⟨t, ht, g1, g2, g3⟩ := hm.covers hgs
  have htcw := hm.cw t ht
  have hrot : t.Rot t.p1 t.p2 t.p3 := Or.inl rfl
  obtain ⟨m, hmc⟩ := exists_centre (ne_of_lt htcw)
  set o' : Circle K := ⟨m.x, m.y, dist2 m (P t.p1)⟩ with ho'
  have hth : o'.Through (P t.p1) (P t.p2) (P t.p3) := circle_of_centre hmc
  have hemp := hm.empty t ht o' hth
  -- at the corners of t the difference is not positive, at a, b, c it is not negative
  have hnn : ∀ j, Vtx nv i j → 0 ≤ o.pow (P j) := by
    intro j hj
    by_cases h1 : j = a
    · rw [h1, ho.1]
    · by_cases h2 : j = b
      · rw [h2, ho.2.1]
      · by_cases h3 : j = c
        · rw [h3, ho.2.2]
        · exact (hempty j hj h1 h2 h3).le
  have v1 := hm.vtx t ht _ _ _ hrot
  have v2 := hm.vtx t ht _ _ _ hrot.cycle
  have v3 := hm.vtx t ht _ _ _ hrot.cycle.cycle
  have w1 := pow_diff_weights o o' (P t.p1) (P t.p2) (P t.p3) g
  rw [hth.1, hth.2.1, hth.2.2] at w1
  have hle : o'.pow g - o.pow g ≤ 0 := by
    have k1 : 0 ≤ (0 - o.pow (P t.p1)) * orient (P t.p2) (P t.p3) g := mul_nonneg_of_nonpos_of_nonpos (by linarith [hnn _ v1]) g2
    have k2 : 0 ≤ (0 - o.pow (P t.p2)) * orient (P t.p3) (P t.p1) g := mul_nonneg_of_nonpos_of_nonpos (by linarith [hnn _ v2]) g3
    have k3 : 0 ≤ (0 - o.pow (P t.p3)) * orient (P t.p1) (P t.p2) g := mul_nonneg_of_nonpos_of_nonpos (by linarith [hnn _ v3]) g1
    by_contra hcon
    push Not at hcon
    have htcw' : orient (P t.p1) (P t.p2) (P t.p3) < 0 := htcw
    have := mul_neg_of_pos_of_neg hcon htcw'
    linarith
  have w2 : o'.pow g - o.pow g = (o'.pow (P a) + o'.pow (P b) + o'.pow (P c)) / 3 := by
    have : o'.pow g - o.pow g = ((o'.pow (P a) - o.pow (P a)) + (o'.pow (P b) - o.pow (P b)) + (o'.pow (P c) - o.pow (P c))) / 3 := by
      rw [hg]; unfold Circle.pow; simp only; ring
    rw [this, ho.1, ho.2.1, ho.2.2]; ring
  have n1 := hemp a ha
  have n2 := hemp b hb
  have n3 := hemp c hc
  have z1 : o'.pow (P a) = 0 := by linarith
  have z2 : o'.pow (P b) = 0 := by linarith
  have z3 : o'.pow (P c) = 0 := by linarith
  have same : ∀ w, o'.pow w = o.pow w := fun w => pow_unique ho ⟨z1, z2, z3⟩ (ne_of_lt hcw) w
  have mem : ∀ j, Vtx nv i j → o'.pow (P j) = 0 → j = a ∨ j = b ∨ j = c := by
    intro j hj h0
    by_contra hcon
    push Not at hcon
    have := hempty j hj hcon.1 hcon.2.1 hcon.2.2
    rw [← same, h0] at this
    exact lt_irrefl _ this
  have m1 := mem _ v1 hth.1
  have m2 := mem _ v2 hth.2.1
  have m3 := mem _ v3 hth.2.2
  refine ⟨t, ht, ?_⟩
  have e12 := cw_ne htcw (mem_edges.2 ⟨_, hrot⟩)
  have e23 := cw_ne htcw (mem_edges.2 ⟨_, hrot.cycle⟩)
  have e31 := cw_ne htcw (mem_edges.2 ⟨_, hrot.cycle.cycle⟩)
  obtain ⟨t1, t2, t3⟩ := t
  simp only at m1 m2 m3 e12 e23 e31
  have anti : ∀ x y z : Pt K, orient x z y = - orient x y z := by intro x y z; unfold orient; ring
  have htcw' : orient (P t1) (P t2) (P t3) < 0 := htcw
  rcases m1 with rfl | rfl | rfl <;> rcases m2 with rfl | rfl | rfl <;> rcases m3 with rfl | rfl | rfl <;>
    first
      | exact absurd rfl e12
      | exact absurd rfl e23
      | exact absurd rfl e31
      | exact Or.inl rfl
      | exact Or.inr (Or.inl rfl)
      | exact Or.inr (Or.inr rfl)
      | (exfalso; unfold orient at hcw htcw'; linarith)

end Verif.Align
