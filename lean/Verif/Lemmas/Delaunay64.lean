import Verif.Lemmas.Circum64Test
import Verif.Lemmas.Super64
import Verif.Lemmas.Delivered
import Verif.Spec.Delaunay64

/-!
# The triangulation in double arithmetic, for positions that double precision can tell apart
-/

namespace Verif.Align64

open Verif Verif.Align Verif.Coord64 Verif.Spec

local notation "u" => Linalg64.u

theorem le_reach (m a b c p : Pt ℚ) : 1 ≤ reach m a b c p ∧ extent m ≤ reach m a b c p ∧ extent p ≤ reach m a b c p ∧ extent a ≤ reach m a b c p ∧
    extent b ≤ reach m a b c p ∧ extent c ≤ reach m a b c p := by
  unfold reach
  refine ⟨?_, ?_, ?_, ?_, ?_, ?_⟩ <;> simp

theorem extent_ge (p : Pt ℚ) : |p.x| ≤ extent p ∧ |p.y| ≤ extent p := ⟨le_max_left _ _, le_max_right _ _⟩

theorem dist2_le {m q : Pt ℚ} {R : ℚ} (hm : extent m ≤ R) (hq : extent q ≤ R) : Align.dist2 m q ≤ 8 * (R * R) := by
  obtain ⟨m1, m2⟩ := extent_ge m
  obtain ⟨q1, q2⟩ := extent_ge q
  have sq : ∀ x X : ℚ, |x| ≤ R → |X| ≤ R → (x - X) ^ 2 ≤ 4 * (R * R) := by
    intro x X h1 h2
    have h : |x - X| ≤ 2 * R := (abs_sub _ _).trans (by linarith)
    have := mul_le_mul h h (abs_nonneg _) (by linarith [abs_nonneg x])
    rw [abs_mul_abs_self] at this
    linarith
  unfold Align.dist2
  linarith [sq _ _ (q1.trans hq) (m1.trans hm), sq _ _ (q2.trans hq) (m2.trans hm)]

/-- The centre is not too far away. -/
theorem centre_size {a b c m : Pt ℚ} {G H S : ℚ} (hG : 1 ≤ G) (hH : 1 ≤ H) (hS : 1 ≤ S) (ha : extent a ≤ S) (hb : extent b ≤ S) (hc : extent c ≤ S)
    (s1 : a.y ≠ b.y → |b.x - a.x| ≤ G * |b.y - a.y|) (s2 : b.y ≠ c.y → |c.x - b.x| ≤ G * |c.y - b.y|)
    (cond : a.y ≠ b.y → b.y ≠ c.y → |b.y - a.y| * |c.y - b.y| ≤ H * |orient a b c|) (hn : orient a b c ≠ 0) (hm : Circumcentre m a b c) :
    extent m ≤ 6 * G ^ 2 * H * S := by
  obtain ⟨hab, hbc⟩ := hm
  obtain ⟨a1, a2⟩ := extent_ge a
  obtain ⟨b1, b2⟩ := extent_ge b
  obtain ⟨c1, c2⟩ := extent_ge c
  have G0 : 0 ≤ G := by linarith
  have GH : 1 ≤ G * H := one_le_mul_of_one_le_of_one_le hG hH
  have HGH : 1 ≤ H * G := one_le_mul_of_one_le_of_one_le hH hG
  have GS : S ≤ G * S := le_mul_of_one_le_left (by linarith) hG
  have GHS : G * S ≤ H * (G * S) := le_mul_of_one_le_left (by positivity) hH
  have GGHS : H * (G * S) ≤ G * (H * (G * S)) := le_mul_of_one_le_left (by positivity) hG
  have avg : ∀ x y : ℚ, |x| ≤ S → |y| ≤ S → |(x + y) / 2| ≤ S := by
    intro x y hx hy
    rw [abs_div, abs_two]
    have := abs_add_le x y
    linarith
  have along : ∀ μ x h k y T : ℚ, |μ| ≤ G → |x| ≤ T → |h| ≤ S → |k| ≤ S → y = μ * (x - h) + k → |y| ≤ G * (T + S) + S := by
    intro μ x h k y T h1 h2 h3 h4 e
    rw [e]
    refine (abs_add_le _ _).trans (add_le_add ?_ h4)
    rw [abs_mul]
    exact mul_le_mul h1 ((abs_sub _ _).trans (add_le_add h2 h3)) (abs_nonneg _) (by linarith)
  have e6 : 6 * G ^ 2 * H * S = 6 * (G * (H * (G * S))) := by ring
  rw [e6]
  unfold extent
  rw [max_le_iff]
  by_cases k1 : a.y = b.y
  · have k2 : b.y ≠ c.y := by intro h; apply hn; unfold orient; rw [k1, h]; ring
    have hd : c.y - b.y ≠ 0 := fun h => k2 (by linarith)
    have hx : a.x ≠ b.x := by intro h; apply hn; unfold orient; rw [k1, h]; ring
    obtain ⟨m2, m3⟩ := slope_of hd (s2 k2)
    have mx : |m.x| ≤ S := by rw [vertical hab k1 hx]; exact avg _ _ (a1.trans ha) (b1.trans hb)
    have my := along _ _ _ _ _ _ m3 mx (avg _ _ (b1.trans hb) (c1.trans hc)) (avg _ _ (b2.trans hb) (c2.trans hc)) (bisector hbc m2 hd)
    constructor <;> linarith
  · have hd1 : b.y - a.y ≠ 0 := fun h => k1 (by linarith)
    obtain ⟨m2, m3⟩ := slope_of hd1 (s1 k1)
    have h1 := avg _ _ (a1.trans ha) (b1.trans hb)
    have h3 := avg _ _ (a2.trans ha) (b2.trans hb)
    by_cases k2 : b.y = c.y
    · have hx : b.x ≠ c.x := by intro h; apply hn; unfold orient; rw [k2, h]; ring
      have mx : |m.x| ≤ S := by rw [vertical hbc k2 hx]; exact avg _ _ (b1.trans hb) (c1.trans hc)
      have my := along _ _ _ _ _ _ m3 mx h1 h3 (bisector hab m2 hd1)
      constructor <;> linarith
    · have hd2 : c.y - b.y ≠ 0 := fun h => k2 (by linarith)
      obtain ⟨n2, n3⟩ := slope_of hd2 (s2 k2)
      have h2 := avg _ _ (b1.trans hb) (c1.trans hc)
      have h4 := avg _ _ (b2.trans hb) (c2.trans hc)
      have q1 := bisector hab m2 hd1
      have q2 := bisector hbc n2 hd2
      have hdet : (-(b.x - a.x) / (b.y - a.y) - -(c.x - b.x) / (c.y - b.y)) * ((b.y - a.y) * (c.y - b.y)) = -orient a b c := by
        unfold orient; field_simp; ring
      generalize -(b.x - a.x) / (b.y - a.y) = μ at *
      generalize -(c.x - b.x) / (c.y - b.y) = ν at *
      have hD : 1 ≤ H * |μ - ν| := by
        have h1 := cond k1 k2
        rw [← abs_neg (orient a b c), ← hdet, abs_mul, abs_mul] at h1
        have h2 : 0 < |b.y - a.y| * |c.y - b.y| := mul_pos (abs_pos.2 hd1) (abs_pos.2 hd2)
        by_contra hcon
        rw [not_le] at hcon
        have := mul_lt_mul_of_pos_right hcon h2
        linarith
      have pr : ∀ μ h : ℚ, |μ| ≤ G → |h| ≤ S → |μ * h| ≤ G * S := by
        intro μ h h1 h2; rw [abs_mul]; exact mul_le_mul h1 h2 (abs_nonneg _) G0
      have hN : |m.x * (μ - ν)| ≤ 4 * (G * S) := by
        rw [show m.x * (μ - ν) = (μ * ((a.x + b.x) / 2) - ν * ((b.x + c.x) / 2)) + ((b.y + c.y) / 2 - (a.y + b.y) / 2) by linear_combination q2 - q1]
        refine (abs_add_le _ _).trans ?_
        have := abs_sub (μ * ((a.x + b.x) / 2)) (ν * ((b.x + c.x) / 2))
        have := abs_sub ((b.y + c.y) / 2) ((a.y + b.y) / 2)
        linarith [pr _ _ m3 h1, pr _ _ n3 h2]
      have mx : |m.x| ≤ 4 * (H * (G * S)) := by
        have k := mul_le_mul_of_nonneg_left hD (abs_nonneg m.x)
        have k' := mul_le_mul_of_nonneg_left hN (by linarith : 0 ≤ H)
        rw [abs_mul] at k'
        linarith
      have my := along _ _ _ _ _ _ m3 mx h1 h3 q1
      constructor <;> linarith

/-- Clear positions have good bounds. -/
theorem frame_of {a b c m p : Pt ℚ} (ha : extent a ≤ 2 ^ 20) (hb : extent b ≤ 2 ^ 20) (hc : extent c ≤ 2 ^ 20) (hp : extent p ≤ 2 ^ 20)
    (h1 : a.y = b.y ∨ 2 / 1000000 ≤ |b.y - a.y|) (h2 : b.y = c.y ∨ 2 / 1000000 ≤ |c.y - b.y|) (hn : orient a b c ≠ 0) (hm : Circumcentre m a b c)
    (hclear : Clear a b c p) :
    Frame a b c m (steepness a b c) (conditioning a b c) (reach m a b c p) ∧
      8192 * (u * steepness a b c ^ 2 * conditioning a b c * reach m a b c p * reach m a b c p) < |Align.dist2 m p - Align.dist2 m a| := by
  have hcl := hclear m hm
  have G1 : 1 ≤ steepness a b c := le_max_left _ _
  have H1 : 1 ≤ conditioning a b c := le_max_left _ _
  obtain ⟨R1, rm, rp, ra, rb, rc⟩ := le_reach m a b c p
  have st1 : a.y ≠ b.y → |b.x - a.x| ≤ steepness a b c * |b.y - a.y| := by
    intro h
    rw [← div_le_iff₀ (abs_pos.2 (fun h0 => h (by linarith)))]
    exact (le_max_left _ _).trans (le_max_right _ _)
  have st2 : b.y ≠ c.y → |c.x - b.x| ≤ steepness a b c * |c.y - b.y| := by
    intro h
    rw [← div_le_iff₀ (abs_pos.2 (fun h0 => h (by linarith)))]
    exact (le_max_right _ _).trans (le_max_right _ _)
  have cond : a.y ≠ b.y → b.y ≠ c.y → |b.y - a.y| * |c.y - b.y| ≤ conditioning a b c * |orient a b c| := by
    intro _ _
    rw [← div_le_iff₀ (abs_pos.2 hn)]
    exact le_max_right _ _
  have hsize := centre_size G1 H1 (by norm_num : (1 : ℚ) ≤ 2 ^ 20) ha hb hc st1 st2 cond hn hm
  have hRle : reach m a b c p ≤ max (2 ^ 20) (extent m) := by
    unfold reach
    simp only [max_le_iff]
    refine ⟨(by norm_num : (1 : ℚ) ≤ 2 ^ 20).trans (le_max_left _ _), le_max_right _ _, hp.trans (le_max_left _ _), ha.trans (le_max_left _ _),
      hb.trans (le_max_left _ _), hc.trans (le_max_left _ _)⟩
  generalize steepness a b c = G at *
  generalize conditioning a b c = H at *
  generalize reach m a b c p = R at *
  have d1 := dist2_le rm rp
  have d2 := dist2_le rm ra
  have d3 := Align.dist2_nonneg m p
  have d4 := Align.dist2_nonneg m a
  have hle : |Align.dist2 m p - Align.dist2 m a| ≤ 8 * (R * R) := by rw [abs_le]; constructor <;> linarith
  have RR : 0 < R * R := by positivity
  have hu : u = 1 / 2 ^ 53 := by unfold Linalg64.u; rfl
  have hGH : G ^ 2 * H / 2 ^ 40 < 8 := by
    by_contra hcon
    rw [not_lt] at hcon
    have := mul_le_mul_of_nonneg_right hcon RR.le
    have e : G ^ 2 * H / 2 ^ 40 * (R * R) = G ^ 2 * H * R ^ 2 / 2 ^ 40 := by ring
    linarith
  have hGH' : G ^ 2 * H ≤ 2 ^ 43 := by
    rw [div_lt_iff₀ (by positivity)] at hGH
    norm_num at hGH ⊢
    linarith
  have G0 : 0 ≤ G ^ 2 := sq_nonneg G
  have GG : G ≤ G ^ 2 := by nlinarith
  have G2 : G ^ 2 ≤ 2 ^ 43 := by
    have := mul_le_mul_of_nonneg_left H1 G0
    linarith
  have H2 : H ≤ 2 ^ 43 := by
    have : 1 ≤ G ^ 2 := one_le_pow₀ G1
    have := mul_le_mul_of_nonneg_right this (by linarith : 0 ≤ H)
    linarith
  have hm6 : extent m ≤ 2 ^ 100 := by
    have : 6 * G ^ 2 * H * 2 ^ 20 = 6 * (G ^ 2 * H) * 2 ^ 20 := by ring
    rw [this] at hsize
    have h : 6 * (G ^ 2 * H) * 2 ^ 20 ≤ (2 : ℚ) ^ 100 := by
      have : 6 * (G ^ 2 * H) * 2 ^ 20 ≤ 6 * 2 ^ 43 * 2 ^ 20 := by norm_num at hGH' ⊢; linarith
      exact this.trans (by norm_num)
    linarith
  have R2 : R ≤ 2 ^ 100 := hRle.trans (max_le (by norm_num) hm6)
  have big : (2 : ℚ) ^ 100 ≤ 2 ^ 300 := pow_le_pow_right₀ (by norm_num) (by norm_num)
  have alt : ∀ x y : Pt ℚ, extent x ≤ 2 ^ 20 → extent y ≤ 2 ^ 20 → |y.y - x.y| ≤ 2 ^ 100 := by
    intro x y hx hy
    have h1 := (extent_ge x).2.trans hx
    have h2 := (extent_ge y).2.trans hy
    have h3 := abs_sub y.y x.y
    have h4 : (2 : ℚ) ^ 20 + 2 ^ 20 ≤ 2 ^ 100 := by norm_num
    linarith
  have bnd : ∀ x : Pt ℚ, extent x ≤ R → |x.x| ≤ R ∧ |x.y| ≤ R := fun x hx => ⟨(extent_ge x).1.trans hx, (extent_ge x).2.trans hx⟩
  refine ⟨⟨G1, H1, R1, (GG.trans G2).trans (by norm_num), H2.trans (by norm_num), R2.trans big, ?_, bnd _ ra, bnd _ rb, bnd _ rc, bnd _ rm,
    h1.imp id (fun h => ⟨h, alt _ _ ha hb⟩), h2.imp id (fun h => ⟨h, alt _ _ hb hc⟩), st1, st2, cond, hn, hm⟩, ?_⟩
  · rw [hu]
    have : 1 / 2 ^ 53 * G ^ 2 * H = G ^ 2 * H / 2 ^ 53 := by ring
    rw [this, div_le_iff₀ (by positivity)]
    exact hGH'.trans (by norm_num)
  · rw [hu]
    have : 8192 * (1 / 2 ^ 53 * G ^ 2 * H * R * R) = G ^ 2 * H * R ^ 2 / 2 ^ 40 := by ring
    rw [this]
    exact hcl

/-- The vertex array with the supertriangle is ready for the triangulation. -/
theorem ready_of64 (nv : Nat) (mem : List (VertexPair ℚ)) (h : nv + 3 ≤ mem.length) (hw : WellPlaced ((mem.take nv).map VertexPair.actual))
    (hsort : (mem.take nv).Pairwise (fun v w => v.actual.x ≤ w.actual.x)) :
    ∃ mem' s, Align64.withSuper nv mem = .ok mem' ∧ Corners ((mem.take nv).map VertexPair.actual) s ∧ Ready (pos mem') nv mem' ∧
      (∀ j < nv, mem'[j]? = mem[j]?) ∧ pos mem' nv = s.1 ∧ pos mem' (nv + 1) = s.2.1 ∧ pos mem' (nv + 2) = s.2.2 ∧
      (∀ j < nv, pos mem' j ∈ (mem.take nv).map VertexPair.actual) ∧
      (∀ j < nv + 3, extent (pos mem' j) ≤ 2 ^ 20) ∧
      (∀ j < nv + 3, ∀ k < nv + 3, (pos mem' j).y = (pos mem' k).y ∨ 2 / 1000000 ≤ |(pos mem' k).y - (pos mem' j).y|) ∧
      ∃ x0 y0 d : ℚ, (pos mem' nv).x ≤ x0 - 19 * d ∧ y0 + 19 * d ≤ (pos mem' (nv + 1)).y ∧ x0 + 19 * d ≤ (pos mem' (nv + 2)).x ∧ 0 < d ∧
        (∀ j < nv, |(pos mem' j).x - x0| ≤ d / 2 ∧ |(pos mem' j).y - y0| ≤ d / 2) ∧
        (∀ j < nv, ∀ k < nv, |(pos mem' j).x - (pos mem' k).x| ≤ d ∧ |(pos mem' j).y - (pos mem' k).y| ≤ d) := by
  cases hps : (mem.take nv).map VertexPair.actual with
  | nil =>
    obtain ⟨a, ha, -⟩ := hw.spread
    rw [hps] at ha
    simp at ha
  | cons p ps =>
  have hsmall := hw.doubles
  have hapart := hw.apart
  have hspr := hw.spread
  rw [hps] at hsmall hapart hspr
  obtain ⟨x0, y0, d, xa, ya, xb, yb, xc, hsup, k1, k2, k3, k4, k5, kx, ky, kd, hbox, hspread⟩ := superPts_near (p := p) (ps := ps)
    (fun q hq => (hsmall q hq).2)
  obtain ⟨mem', hm, hlen, hsame, r0, r1, r2⟩ := Telescope64.withSuper_run h hps hsup
  simp only at r0 r1 r2
  have hd : 1 / 100000 ≤ d := by
    obtain ⟨a, ha, b, hb, hab⟩ := hspr
    have := hspread a ha b hb
    rcases hab with h | h
    · exact h.trans this.1
    · exact h.trans this.2
  have hd2 : 2 / 1000000 ≤ d := le_trans (by norm_num) hd
  obtain ⟨hcw, hcont⟩ := corner_orient hd2 k1 k2 k3 k4 k5
  have hold : ∀ j < nv, pos mem' j ∈ p :: ps ∧ readPt mem' j = .ok (pos mem' j) := by
    intro j hj
    have hj' : j < mem.length := by omega
    have e : mem'[j]? = some mem[j] := by rw [hsame j hj, List.getElem?_eq_getElem hj']
    have hp : pos mem' j = mem[j].actual := by unfold pos; rw [e]; rfl
    refine ⟨?_, ?_⟩
    · rw [hp, ← hps]
      apply List.mem_map_of_mem
      rw [List.mem_take_iff_getElem]
      exact ⟨j, by omega, rfl⟩
    · rw [hp]; unfold readPt; rw [e]
  have q0 := pos_of r0
  have q1 := pos_of r1
  have q2 := pos_of r2
  have hcases : ∀ j, j < nv + 3 → j < nv ∨ j = nv ∨ j = nv + 1 ∨ j = nv + 2 := by intro j hj; omega
  have hb' : ∀ j < nv, -(d / 2) ≤ (pos mem' j).x - x0 ∧ (pos mem' j).x - x0 ≤ d / 2 ∧ -(d / 2) ≤ (pos mem' j).y - y0 ∧ (pos mem' j).y - y0 ≤ d / 2 := by
    intro j hj
    obtain ⟨h1, h2⟩ := hbox _ (hold j hj).1
    rw [abs_le] at h1 h2
    exact ⟨h1.1, h1.2, h2.1, h2.2⟩
  have hη : (1 : ℚ) / 10 ^ 9 ≤ d / 1000 := by norm_num at hd ⊢; linarith
  have d0 : 0 < d := lt_of_lt_of_le (by norm_num) hd
  have kk1 := k1; have kk2 := k2; have kk3 := k3; have kk4 := k4; have kk5 := k5
  rw [abs_le] at k1 k2 k3 k4 k5
  have hsep : ∀ j < nv + 3, ∀ k < nv + 3, (pos mem' j).y = (pos mem' k).y ∨ 2 / 1000000 ≤ |(pos mem' k).y - (pos mem' j).y| := by
    have far : ∀ j < nv, 2 / 1000000 ≤ |(pos mem' j).y - ya| ∧ 2 / 1000000 ≤ |(pos mem' j).y - yb| := by
      intro j hj
      obtain ⟨-, -, h3, h4⟩ := hb' j hj
      refine ⟨le_trans ?_ (le_abs_self _), le_trans ?_ (neg_le_abs _)⟩ <;> linarith
    have hab : 2 / 1000000 ≤ |ya - yb| := le_trans (by linarith) (neg_le_abs _)
    intro j hj k hk
    rcases hcases j hj with h | rfl | rfl | rfl <;> rcases hcases k hk with g | rfl | rfl | rfl
    · have := hapart _ (hold j h).1 _ (hold k g).1
      rwa [abs_sub_comm] at this
    · rw [q0, abs_sub_comm]; exact Or.inr (far j h).1
    · rw [q1, abs_sub_comm]; exact Or.inr (far j h).2
    · rw [q2, abs_sub_comm]; exact Or.inr (far j h).1
    · rw [q0]; exact Or.inr (far k g).1
    · exact Or.inl rfl
    · rw [q0, q1, abs_sub_comm]; exact Or.inr hab
    · rw [q0, q2]; exact Or.inl rfl
    · rw [q1]; exact Or.inr (far k g).2
    · rw [q0, q1]; exact Or.inr hab
    · exact Or.inl rfl
    · rw [q1, q2]; exact Or.inr hab
    · rw [q2]; exact Or.inr (far k g).1
    · rw [q0, q2]; exact Or.inl rfl
    · rw [q1, q2, abs_sub_comm]; exact Or.inr hab
    · exact Or.inl rfl
  have hext : ∀ j < nv + 3, extent (pos mem' j) ≤ 2 ^ 20 := by
    have lim : ∀ x y : ℚ, -(2 ^ 20) ≤ x → x ≤ 2 ^ 20 → -(2 ^ 20) ≤ y → y ≤ 2 ^ 20 → extent ⟨x, y⟩ ≤ 2 ^ 20 := by
      intro x y h1 h2 h3 h4
      unfold extent
      rw [max_le_iff, abs_le, abs_le]
      exact ⟨⟨h1, h2⟩, h3, h4⟩
    rw [abs_le] at kx ky
    have p20 : (2 : ℚ) ^ 20 = 1048576 := by norm_num
    intro j hj
    rcases hcases j hj with h | rfl | rfl | rfl
    · have := hsmall _ (hold j h).1
      unfold extent
      rw [max_le_iff]
      exact ⟨this.2.1.trans (by norm_num), this.2.2.trans (by norm_num)⟩
    · rw [q0]; apply lim <;> rw [p20] <;> linarith
    · rw [q1]; apply lim <;> rw [p20] <;> linarith
    · rw [q2]; apply lim <;> rw [p20] <;> linarith
  refine ⟨mem', _, hm, ⟨p, ps, rfl, hsup⟩, ⟨?_, ?_, ?_, ?_, ?_, ?_, ?_, ?_⟩, hsame, q0, q1, q2, fun j hj => (hold j hj).1, hext, hsep,
    x0, y0, d, ?_, ?_, ?_, d0, ?_, ?_⟩
  · intro j hj
    rcases hcases j hj with h | rfl | rfl | rfl
    · exact (hold j h).2
    · rw [q0]; exact r0
    · rw [q1]; exact r1
    · rw [q2]; exact r2
  · intro j hj k hk
    rcases hsep j hj k hk with h | h
    · exact Or.inl h
    · refine Or.inr ?_
      rw [abs_sub_comm]
      refine le_trans ?_ h
      unfold Align.eps
      norm_num
  · intro j k hjk hk
    rcases Nat.eq_or_lt_of_le hjk with rfl | hlt
    · exact le_rfl
    · have hj' : j < mem.length := by omega
      have hk' : k < mem.length := by omega
      have e1 : pos mem' j = mem[j].actual := by unfold pos; rw [hsame j (by omega), List.getElem?_eq_getElem hj']; rfl
      have e2 : pos mem' k = mem[k].actual := by unfold pos; rw [hsame k (by omega), List.getElem?_eq_getElem hk']; rfl
      rw [e1, e2]
      have := List.pairwise_iff_getElem.1 hsort j k (by rw [List.length_take]; omega) (by rw [List.length_take]; omega) hlt
      simpa using this
  · show orient (pos mem' nv) (pos mem' (nv + 1)) (pos mem' (nv + 2)) < 0
    rw [q0, q1, q2]
    exact hcw
  · intro j hj
    obtain ⟨h1, h2⟩ := hbox _ (hold j hj).1
    obtain ⟨c1, c2, c3⟩ := hcont _ h1 h2
    refine ⟨?_, ?_, ?_⟩ <;> simp only [superTri]
    · rw [q0, q1]; exact c1
    · rw [q1, q2]; exact c2
    · rw [q2, q0]; exact c3
  · intro j hj hne
    rcases hcases j hj with h | rfl | rfl | rfl
    · obtain ⟨h1, -⟩ := hb' j h
      rw [q0]; simp only; linarith
    · exact absurd rfl hne
    · rw [q0, q1]; simp only; linarith
    · rw [q0, q2]; simp only; linarith
  · intro j hj hne
    rcases hcases j hj with h | rfl | rfl | rfl
    · obtain ⟨-, h1, -⟩ := hb' j h
      rw [q2]; simp only; linarith
    · rw [q0, q2]; simp only; linarith
    · rw [q1, q2]; simp only; linarith
    · exact absurd rfl hne
  · intro j hj
    rcases hcases j hj with h | rfl | rfl | rfl
    · obtain ⟨-, -, -, h1⟩ := hb' j h
      rw [q1]; simp only; linarith
    · rw [q0, q1]; simp only; linarith
    · exact le_rfl
    · rw [q1, q2]; simp only; linarith
  · rw [q0]; simp only; linarith
  · rw [q1]; simp only; linarith
  · rw [q2]; simp only; linarith
  · intro j hj; exact hbox _ (hold j hj).1
  · intro j hj k hk; exact hspread _ (hold j hj).1 _ (hold k hk).1

/-- The tests of the program answer right. -/
theorem faithful_ieee {M : Libm} (hM : Accurate M) (guess : Pt ℚ → Pt ℚ → Pt ℚ → Pt ℚ → Bool × Bool) {nv : Nat} {pts : List (Pt ℚ)} {P : Nat → Pt ℚ}
    {mem' : List (VertexPair ℚ)} (hr : Ready P nv mem')
    (hw : WellPlaced pts) {s : Pt ℚ × Pt ℚ × Pt ℚ} (hs : Corners pts s) (h0 : P nv = s.1) (h1 : P (nv + 1) = s.2.1) (h2 : P (nv + 2) = s.2.2)
    (hin : ∀ j < nv, P j ∈ pts) (hne : ∀ j k, j < k → k < nv → P j ≠ P k) (hext : ∀ j < nv + 3, extent (P j) ≤ 2 ^ 20)
    (hsep : ∀ j < nv + 3, ∀ k < nv + 3, (P j).y = (P k).y ∨ 2 / 1000000 ≤ |(P k).y - (P j).y|) :
    Faithful (ieeeTest (fun x => .ok (M.sqrt x)) guess) P nv := by
  intro i hi t hcw v1 v2 v3 st
  obtain ⟨m, hm⟩ := exists_centre (ne_of_lt hcw)
  have hall : ∀ j, Vtx nv i j → P j ∈ [s.1, s.2.1, s.2.2] ++ pts := by
    rintro j (h | ⟨h, h'⟩)
    · exact List.mem_append_right _ (hin j (by omega))
    · apply List.mem_append_left
      have : j = nv ∨ j = nv + 1 ∨ j = nv + 2 := by omega
      rcases this with rfl | rfl | rfl
      · rw [h0]; simp
      · rw [h1]; simp
      · rw [h2]; simp
  have hdiff : ∀ j, i ≤ j → j < nv → ∀ k, Vtx nv i k → P j ≠ P k := by
    rintro j hij hj k (h | ⟨h, h'⟩)
    · exact (hne k j (by omega) hj).symm
    · have hc := hr.inside j hj
      intro e
      rw [e] at hc
      have : k = nv ∨ k = nv + 1 ∨ k = nv + 2 := by omega
      obtain ⟨c1, c2, c3⟩ := hc
      simp only [superTri] at c1 c2 c3
      rcases this with rfl | rfl | rfl
      · unfold orient at c1; simp at c1
      · unfold orient at c2; simp at c2
      · unfold orient at c3; simp at c3
  have hfr : ∀ j, i ≤ j → j < nv → _ := fun j hij hj =>
    frame_of (m := m) (p := P j) (hext _ (v1.lt hi.le)) (hext _ (v2.lt hi.le)) (hext _ (v3.lt hi.le)) (hext j (by omega))
      (hsep _ (v1.lt hi.le) _ (v2.lt hi.le)) (hsep _ (v2.lt hi.le) _ (v3.lt hi.le)) (ne_of_lt hcw) hm
      (hw.clear s hs _ (hall _ v1) _ (hall _ v2) _ (hall _ v3) hcw _ (hin j hj) (hdiff j hij hj _ v1) (hdiff j hij hj _ v2) (hdiff j hij hj _ v3))
  have hreach : ∀ j, |(P j).x| ≤ reach m (P t.p1) (P t.p2) (P t.p3) (P j) ∧ |(P j).y| ≤ reach m (P t.p1) (P t.p2) (P t.p3) (P j) := fun j =>
    ⟨(extent_ge _).1.trans (le_reach m _ _ _ (P j)).2.2.1, (extent_ge _).2.trans (le_reach m _ _ _ (P j)).2.2.1⟩
  obtain ⟨F, hmar⟩ := hfr i le_rfl hi
  obtain ⟨ans, a1, a2, a3⟩ := F.test hM guess st (hreach i) (hw.doubles _ (hin i hi)).1.1 hmar
  have hpow : ∀ q : Pt ℚ, (⟨m.x, m.y, Align.dist2 m (P t.p1)⟩ : Circle ℚ).pow q = Align.dist2 m q - Align.dist2 m (P t.p1) := by
    intro q; unfold Circle.pow Align.dist2; simp only
  refine ⟨⟨m.x, m.y, Align.dist2 m (P t.p1)⟩, ans, circle_of_centre hm, a1, ?_, ?_⟩
  · rw [a2, hpow, sub_nonpos]
  · intro _ hcomp j hij hj
    obtain ⟨F', hmar'⟩ := hfr j hij hj
    rw [hpow, sub_pos]
    exact a3 hcomp _ _ _ _ F' (hreach j) hmar' (hr.sorted i j hij hj)

/-- The triangulation in double arithmetic. -/
theorem triangulate_ieee {M : Libm} (hM : Accurate M) (guess : Pt ℚ → Pt ℚ → Pt ℚ → Pt ℚ → Bool × Bool) (init : Option (ℚ × ℚ)) (nv : Nat)
    (mem : List (VertexPair ℚ)) (h64 : nv ≤ 64) (hmem : nv + 3 ≤ mem.length) (hw : WellPlaced ((mem.take nv).map VertexPair.actual))
    (hsort : (mem.take nv).Pairwise (fun v w => v.actual.x ≤ w.actual.x)) :
    ∃ mem' ts all, Align64.triangulate (ieeeTest (fun x => .ok (M.sqrt x)) guess) init nv mem = .ok (mem', ts) ∧ Delivered nv mem ts (pos mem') all := by
  obtain ⟨mem', s, hm, hs, hr, hsame, q0, q1, q2, hin, hext, hsep, hbox⟩ := ready_of64 nv mem hmem hw hsort
  have h1 : 1 ≤ nv := by
    by_contra hcon
    have : nv = 0 := by omega
    subst this
    obtain ⟨a, ha, -⟩ := hw.spread
    simp at ha
  have hread : ∀ j < nv, mem[j]?.map VertexPair.actual = some (pos mem' j) := by
    intro j hj
    have hj' : j < mem.length := by omega
    rw [← hsame j hj]
    unfold pos
    rw [hsame j hj, List.getElem?_eq_getElem hj']
    rfl
  have hne : ∀ j k, j < k → k < nv → pos mem' j ≠ pos mem' k := by
    intro j k hjk hk
    have := List.pairwise_iff_getElem.1 hw.distinct j k (by rw [List.length_map, List.length_take]; omega) (by rw [List.length_map, List.length_take]; omega) hjk
    have e1 := hread j (by omega)
    have e2 := hread k hk
    rw [List.getElem?_eq_getElem (by omega)] at e1 e2
    rw [← Option.some.inj e1, ← Option.some.inj e2]
    simpa using this
  have hT := faithful_ieee hM guess hr hw hs q0 q1 q2 hin hne hext hsep
  have h0 : WorkOK (pos mem') nv 0 (⟨[(superTri nv, false)], 200, init⟩ : Work (Option (ℚ × ℚ))) := by
    refine ⟨Mesh.super hr.cw, ?_⟩
    intro t ht
    rw [List.mem_singleton.1 ht]
    simp
  obtain ⟨w, hw', hwok⟩ := insertAll_faithful hr hT h64 nv 0 _ (by omega) h0
  rw [Nat.zero_add] at hwok
  refine ⟨mem', purge nv (w.tris.map Prod.fst).length (w.tris.map Prod.fst) [], w.tris.map Prod.fst, ?_, hr.cw, hwok.mesh, ?_, hread, ?_, hbox⟩
  · unfold Align64.triangulate
    rw [hm, bind_ok, pushTri_first nv h1, bind_ok, List.range_eq_range']
    unfold superTri at hw'
    rw [hw', bind_ok]
    rfl
  · have := purge_perm nv (w.tris.map Prod.fst).length (w.tris.map Prod.fst) [] le_rfl
    simpa using this
  · exact fun x y z hrot j hj => hr.side le_rfl x y z hrot j hj

/-! ### Positions as a set -/

theorem minOf_mem (x : ℚ) (xs : List ℚ) : minOf x xs ∈ x :: xs ∧ maxOf x xs ∈ x :: xs := by
  have key : ∀ (f : ℚ → ℚ → ℚ) (_ : ∀ x y, f x y = x ∨ f x y = y) (xs : List ℚ) (x : ℚ), xs.foldl f x ∈ x :: xs := by
    intro f hf xs
    induction xs with
    | nil => intro x; simp
    | cons y ys ih =>
      intro x
      rw [List.foldl_cons]
      rcases List.mem_cons.1 (ih (f x y)) with h | h
      · rw [h]
        rcases hf x y with e | e <;> rw [e] <;> simp
      · exact List.mem_cons_of_mem _ (List.mem_cons_of_mem _ h)
  exact ⟨key _ (fun x y => by split <;> simp) xs x, key _ (fun x y => by split <;> simp) xs x⟩

theorem minOf_perm {x y : ℚ} {xs ys : List ℚ} (h : (x :: xs).Perm (y :: ys)) : minOf x xs = minOf y ys ∧ maxOf x xs = maxOf y ys := by
  have low : ∀ (x : ℚ) (xs : List ℚ), ∀ v ∈ x :: xs, minOf x xs ≤ v := by
    intro x xs v hv
    rcases List.mem_cons.1 hv with rfl | hv
    · exact (Align.minOf_le _ _).1
    · exact (Align.minOf_le _ _).2 v hv
  have high : ∀ (x : ℚ) (xs : List ℚ), ∀ v ∈ x :: xs, v ≤ maxOf x xs := by
    intro x xs v hv
    rcases List.mem_cons.1 hv with rfl | hv
    · exact (Align.le_maxOf _ _).1
    · exact (Align.le_maxOf _ _).2 v hv
  exact ⟨le_antisymm (low _ _ _ (h.symm.subset (minOf_mem y ys).1)) (low _ _ _ (h.subset (minOf_mem x xs).1)),
    le_antisymm (high _ _ _ (h.subset (minOf_mem x xs).2)) (high _ _ _ (h.symm.subset (minOf_mem y ys).2))⟩

/-- The supertriangle does not depend on the order of the positions. -/
theorem Corners.perm {pts pts' : List (Pt ℚ)} (h : pts.Perm pts') {s : Pt ℚ × Pt ℚ × Pt ℚ} (hs : Corners pts s) : Corners pts' s := by
  obtain ⟨p, ps, rfl, hs⟩ := hs
  cases pts' with
  | nil => exact absurd h.length_eq (by simp)
  | cons q qs =>
    refine ⟨q, qs, rfl, ?_⟩
    obtain ⟨x1, x2⟩ := minOf_perm (by simpa using h.map (fun z : Pt ℚ => z.x))
    obtain ⟨y1, y2⟩ := minOf_perm (by simpa using h.map (fun z : Pt ℚ => z.y))
    unfold superPts at hs ⊢
    rw [x1, x2, y1, y2] at hs
    exact hs

theorem WellPlaced.perm {pts pts' : List (Pt ℚ)} (h : pts.Perm pts') (hw : WellPlaced pts) : WellPlaced pts' := by
  have hm : ∀ {p}, p ∈ pts' → p ∈ pts := fun hp => h.symm.subset hp
  refine ⟨fun a ha => hw.doubles a (hm ha), h.nodup_iff.1 hw.distinct, fun a ha b hb => hw.apart a (hm ha) b (hm hb), ?_, ?_⟩
  · obtain ⟨a, ha, b, hb, hab⟩ := hw.spread
    exact ⟨a, h.subset ha, b, h.subset hb, hab⟩
  · intro s hs a ha b hb c hc ho p hp h1 h2 h3
    have hl : ∀ {q}, q ∈ [s.1, s.2.1, s.2.2] ++ pts' → q ∈ [s.1, s.2.1, s.2.2] ++ pts := fun hq =>
      (h.symm.append_left _).subset hq
    exact hw.clear s (hs.perm h.symm) a (hl ha) b (hl hb) c (hl hc) ho p (hm hp) h1 h2 h3

theorem Delaunay.perm {pts pts' : List (Pt ℚ)} (h : pts.Perm pts') {mem : List (VertexPair ℚ)} {ts : List Tri} (D : Delaunay pts mem ts) :
    Delaunay pts' mem ts := by
  refine ⟨?_, D.apart, fun t ht a b c hc q hq => D.own t ht a b c hc q (h.symm.subset hq), ?_, by rw [← h.length_eq]; exact D.count⟩
  · intro t ht
    obtain ⟨a, ha, b, hb, c, hc, h1, h2, m, h3, h4⟩ := D.empty t ht
    exact ⟨a, h.subset ha, b, h.subset hb, c, h.subset hc, h1, h2, m, h3, fun q hq => h4 q (h.symm.subset hq)⟩
  · rintro a b c ⟨ha, hb, hc, ho, m, hm, he, y, hy, z, hz, hyz⟩
    exact D.complete a b c ⟨h.symm.subset ha, h.symm.subset hb, h.symm.subset hc, ho, m, hm, fun q hq => he q (h.subset hq),
      y, h.symm.subset hy, z, h.symm.subset hz, hyz⟩

/-- The triangles mean the same for two arrays with the same positions. -/
theorem Delaunay.congr {pts : List (Pt ℚ)} {mem mem' : List (VertexPair ℚ)} {ts : List Tri} (D : Delaunay pts mem ts)
    (h : ∀ t ∈ ts, mem'[t.p1]? = mem[t.p1]? ∧ mem'[t.p2]? = mem[t.p2]? ∧ mem'[t.p3]? = mem[t.p3]?) : Delaunay pts mem' ts := by
  have hc : ∀ t ∈ ts, ∀ a b c, CornersAre mem' t a b c ↔ CornersAre mem t a b c := by
    intro t ht a b c
    obtain ⟨h1, h2, h3⟩ := h t ht
    unfold CornersAre
    rw [h1, h2, h3]
  refine ⟨?_, ?_, ?_, ?_, D.count⟩
  · intro t ht
    obtain ⟨a, ha, b, hb, c, hc', h'⟩ := D.empty t ht
    exact ⟨a, ha, b, hb, c, hc', (hc t ht _ _ _).2 h'.1, h'.2⟩
  · have hmem' : ts.Pairwise (fun t t' => t ∈ ts ∧ t' ∈ ts) := by
      rw [List.pairwise_iff_forall_sublist]
      intro t t' h
      exact ⟨h.subset (by simp), h.subset (by simp)⟩
    refine (D.apart.and hmem').imp ?_
    rintro t t' ⟨hno, ht, hu⟩ a b c a' b' c' q h1 h2
    exact hno a b c a' b' c' q ((hc t ht _ _ _).1 h1) ((hc t' hu _ _ _).1 h2)
  · intro t ht a b c h1
    exact D.own t ht a b c ((hc t ht _ _ _).1 h1)
  · intro a b c hb
    obtain ⟨t, ht, a', b', c', h1, h2⟩ := D.complete a b c hb
    exact ⟨t, ht, a', b', c', (hc t ht _ _ _).2 h1, h2⟩

theorem WellPlaced.two {pts : List (Pt ℚ)} (hw : WellPlaced pts) : ∃ a ∈ pts, ∃ b ∈ pts, a ≠ b := by
  obtain ⟨a, ha, b, hb, hab⟩ := hw.spread
  refine ⟨a, ha, b, hb, ?_⟩
  rintro rfl
  rw [sub_self, sub_self, abs_zero] at hab
  rcases hab with h | h <;> norm_num at h

/-- What is delivered is a Delaunay triangulation. -/
theorem delaunay_of {nv : Nat} {mem : List (VertexPair ℚ)} {ts : List Tri} {P : Nat → Pt ℚ} {all : List Tri} (D : Delivered nv mem ts P all)
    (hmem : nv + 3 ≤ mem.length) (hw : WellPlaced ((mem.take nv).map VertexPair.actual))
    (hidx : ∀ t ∈ ts, t.p1 < nv ∧ t.p2 < nv ∧ t.p3 < nv) : Delaunay ((mem.take nv).map VertexPair.actual) mem ts := by
  refine ⟨?_, D.disjoint, ?_, fun a b c hb => D.complete hmem hw.distinct hb, ?_⟩
  · intro t ht
    obtain ⟨i1, i2, i3⟩ := hidx t ht
    have g : ∀ j (hj : j < nv), (mem[j]'(by omega)).actual ∈ (mem.take nv).map VertexPair.actual := by
      intro j hj
      apply List.mem_map_of_mem
      rw [List.mem_take_iff_getElem]
      exact ⟨j, by omega, rfl⟩
    have hc : CornersAre mem t (mem[t.p1]'(by omega)).actual (mem[t.p2]'(by omega)).actual (mem[t.p3]'(by omega)).actual := by
      refine ⟨?_, ?_, ?_⟩ <;> rw [List.getElem?_eq_getElem (by omega)] <;> rfl
    obtain ⟨h1, m, h2, h3⟩ := D.delaunay hmem ht hc
    refine ⟨_, g _ i1, _, g _ i2, _, g _ i3, hc, h1, m, h2, ?_⟩
    intro q hq
    obtain ⟨v, hv, rfl⟩ := List.mem_map.1 hq
    exact h3 v hv
  · intro t ht a b c hc q hq hin
    obtain ⟨v, hv, rfl⟩ := List.mem_map.1 hq
    exact D.star_is_corner hmem ht hc hv hin
  · have := D.count hmem hw.two
    rw [List.length_map, List.length_take]
    omega

end Verif.Align64
