import Verif.Lemmas.Circum64
import Verif.Lemmas.Super
import Verif.Lemmas.Telescope64Run

/-!
# The supertriangle in double arithmetic
-/

namespace Verif.Align64

open Verif Verif.Align Verif.Linalg64

theorem ite_max_near {x y X Y e : ℚ} (hx : |x - X| ≤ e) (hy : |y - Y| ≤ e) : |(if x > y then x else y) - (if X > Y then X else Y)| ≤ e := by
  rw [abs_le] at *
  split <;> split <;> constructor <;> linarith

/-- The corners as calculated are the ideal ones up to `10⁻⁹`; the two lower corners have exactly the same altitude. -/
theorem superPts_near {p : Pt ℚ} {ps : List (Pt ℚ)} (h : ∀ q ∈ p :: ps, |q.x| ≤ 1000 ∧ |q.y| ≤ 1000) :
    ∃ x0 y0 d xa ya xb yb xc : ℚ, Align64.superPts p ps = .ok (⟨xa, ya⟩, ⟨xb, yb⟩, ⟨xc, ya⟩) ∧
      |xa - (x0 - 20 * d)| ≤ 1 / 10 ^ 9 ∧ |ya - (y0 - d)| ≤ 1 / 10 ^ 9 ∧ |xb - x0| ≤ 1 / 10 ^ 9 ∧ |yb - (y0 + 20 * d)| ≤ 1 / 10 ^ 9 ∧
      |xc - (x0 + 20 * d)| ≤ 1 / 10 ^ 9 ∧ |x0| ≤ 1000 ∧ |y0| ≤ 1000 ∧ d ≤ 2000 ∧
      (∀ q ∈ p :: ps, |q.x - x0| ≤ d / 2 ∧ |q.y - y0| ≤ d / 2) ∧
      ∀ q ∈ p :: ps, ∀ q' ∈ p :: ps, |q.x - q'.x| ≤ d ∧ |q.y - q'.y| ≤ d := by
  have hx : ∀ y ∈ ps.map (·.x), |y| ≤ 1000 := by
    intro y hy; obtain ⟨q, hq, rfl⟩ := List.mem_map.1 hy; exact (h q (List.mem_cons_of_mem _ hq)).1
  have hy : ∀ y ∈ ps.map (·.y), |y| ≤ 1000 := by
    intro y hy; obtain ⟨q, hq, rfl⟩ := List.mem_map.1 hy; exact (h q (List.mem_cons_of_mem _ hq)).2
  obtain ⟨x1, x2⟩ := Telescope64.minOf_le _ p.x (h p List.mem_cons_self).1 hx
  obtain ⟨y1, y2⟩ := Telescope64.minOf_le _ p.y (h p List.mem_cons_self).2 hy
  obtain ⟨a1, a2⟩ := Align.minOf_le p.x (ps.map (·.x))
  obtain ⟨b1, b2⟩ := Align.le_maxOf p.x (ps.map (·.x))
  obtain ⟨c1, c2⟩ := Align.minOf_le p.y (ps.map (·.y))
  obtain ⟨e1, e2⟩ := Align.le_maxOf p.y (ps.map (·.y))
  have hin : ∀ q ∈ p :: ps, minOf p.x (ps.map (·.x)) ≤ q.x ∧ q.x ≤ maxOf p.x (ps.map (·.x)) ∧
      minOf p.y (ps.map (·.y)) ≤ q.y ∧ q.y ≤ maxOf p.y (ps.map (·.y)) := by
    intro q hq
    rcases List.mem_cons.1 hq with rfl | hq
    · exact ⟨a1, b1, c1, e1⟩
    · exact ⟨a2 _ (List.mem_map_of_mem hq), b2 _ (List.mem_map_of_mem hq), c2 _ (List.mem_map_of_mem hq), e2 _ (List.mem_map_of_mem hq)⟩
  unfold Align64.superPts
  generalize minOf p.x (ps.map (·.x)) = xmin at *
  generalize maxOf p.x (ps.map (·.x)) = xmax at *
  generalize minOf p.y (ps.map (·.y)) = ymin at *
  generalize maxOf p.y (ps.map (·.y)) = ymax at *
  have hu := u_small
  have hu0 := u_pos
  have mag : ∀ k : ℚ, 1 ≤ k → k ≤ 2 ^ 20 → Mag 1000 k := fun k h1 h2 => by
    have := mag_le (k := 1) h1 h2 (by norm_num) (by norm_num) (by norm_num)
    rwa [one_mul] at this
  have sx : |xmax - xmin| ≤ 2000 := (abs_sub _ _).trans (by linarith)
  have sy : |ymax - ymin| ≤ 2000 := (abs_sub _ _).trans (by linarith)
  obtain ⟨dx, dx1, -, dx2⟩ := fl_bound (mag 2000 (by norm_num) (by norm_num)) sx
  obtain ⟨dy, dy1, -, dy2⟩ := fl_bound (mag 2000 (by norm_num) (by norm_num)) sy
  obtain ⟨mx, mx1, mx2⟩ := half_near (R := 1000) (x := xmax) (y := xmin) (by norm_num)
    (le_trans (by norm_num : (1000 : ℚ) ≤ 2 ^ 10) (pow_le_pow_right₀ (by norm_num) (by norm_num))) (by linarith) (by linarith)
  obtain ⟨my, my1, my2⟩ := half_near (R := 1000) (x := ymax) (y := ymin) (by norm_num)
    (le_trans (by norm_num : (1000 : ℚ) ≤ 2 ^ 10) (pow_le_pow_right₀ (by norm_num) (by norm_num))) (by linarith) (by linarith)
  have hd := ite_max_near dx2 dy2
  have hd0 : 0 ≤ xmax - xmin := by linarith
  have hd0' : 0 ≤ ymax - ymin := by linarith
  have hx0 : |(xmax + xmin) / 2| ≤ 1000 := by rw [abs_div, abs_two]; have := abs_add_le xmax xmin; linarith
  have hy0 : |(ymax + ymin) / 2| ≤ 1000 := by rw [abs_div, abs_two]; have := abs_add_le ymax ymin; linarith
  have hbox : ∀ q ∈ p :: ps, |q.x - (xmax + xmin) / 2| ≤ (if xmax - xmin > ymax - ymin then xmax - xmin else ymax - ymin) / 2 ∧
      |q.y - (ymax + ymin) / 2| ≤ (if xmax - xmin > ymax - ymin then xmax - xmin else ymax - ymin) / 2 := by
    intro q hq
    obtain ⟨h1, h2, h3, h4⟩ := hin q hq
    split <;> rw [abs_le, abs_le] <;> refine ⟨⟨?_, ?_⟩, ?_, ?_⟩ <;> linarith
  have hspread : ∀ q ∈ p :: ps, ∀ q' ∈ p :: ps, |q.x - q'.x| ≤ (if xmax - xmin > ymax - ymin then xmax - xmin else ymax - ymin) ∧
      |q.y - q'.y| ≤ (if xmax - xmin > ymax - ymin then xmax - xmin else ymax - ymin) := by
    intro q hq q' hq'
    obtain ⟨h1, h2, h3, h4⟩ := hin q hq
    obtain ⟨g1, g2, g3, g4⟩ := hin q' hq'
    split <;> rw [abs_le, abs_le] <;> refine ⟨⟨?_, ?_⟩, ?_, ?_⟩ <;> linarith
  have hdle : (if xmax - xmin > ymax - ymin then xmax - xmin else ymax - ymin) ≤ 2000 := by
    split <;> linarith [le_abs_self (xmax - xmin), le_abs_self (ymax - ymin)]
  have hdge : 0 ≤ (if xmax - xmin > ymax - ymin then xmax - xmin else ymax - ymin) := by split <;> linarith
  generalize hdm : (if dx > dy then dx else dy) = dm at *
  generalize (if xmax - xmin > ymax - ymin then xmax - xmin else ymax - ymin) = d at *
  generalize (xmax + xmin) / 2 = x0 at *
  generalize (ymax + ymin) / 2 = y0 at *
  have hdabs : |d| ≤ 2000 := by rw [abs_of_nonneg hdge]; exact hdle
  obtain ⟨t, t1, t2⟩ := mul_near (x := 20) (X := 20) (B := 41000) (mag _ (by norm_num) (by norm_num)) (self_near 20) hd (p := 20) (by norm_num) hdabs
    (by rw [abs_mul, abs_of_nonneg (by norm_num : (0 : ℚ) ≤ 20)]; linarith)
  have b20 : |20 * d| ≤ 40000 := by rw [abs_mul, abs_of_nonneg (by norm_num : (0 : ℚ) ≤ 20)]; linarith
  have e20 : |t - 20 * d| ≤ 82000 * u := by linarith
  have m3 : |mx - x0| ≤ 3000 * u := by linarith
  have n3 : |my - y0| ≤ 3000 * u := by linarith
  obtain ⟨p1, p1', p1''⟩ := sub_near (B := 42000) (mag _ (by norm_num) (by norm_num)) m3 e20 (by have := abs_sub x0 (20 * d); linarith)
  obtain ⟨p2, p2', p2''⟩ := sub_near (B := 42000) (mag _ (by norm_num) (by norm_num)) n3 hd (by have := abs_sub y0 d; linarith)
  obtain ⟨p3, p3', p3''⟩ := add_near (B := 42000) (mag _ (by norm_num) (by norm_num)) n3 e20 (by have := abs_add_le y0 (20 * d); linarith)
  obtain ⟨p4, p4', p4''⟩ := add_near (B := 42000) (mag _ (by norm_num) (by norm_num)) m3 e20 (by have := abs_add_le x0 (20 * d); linarith)
  refine ⟨x0, y0, d, p1, p2, mx, p3, p4, ?_, ?_, ?_, ?_, ?_, ?_, hx0, hy0, hdle, hbox, hspread⟩
  · simp only [dx1, dy1, bind_ok, mx1, my1, hdm, t1, p1', p2', p3', p4']
    rfl
  all_goals norm_num at hu ⊢; linarith

/-- A point of the box is inside the supertriangle. -/
theorem corner_orient {x0 y0 d xa ya xb yb xc : ℚ} (hd : 2 / 1000000 ≤ d) (h1 : |xa - (x0 - 20 * d)| ≤ 1 / 10 ^ 9) (h2 : |ya - (y0 - d)| ≤ 1 / 10 ^ 9)
    (h3 : |xb - x0| ≤ 1 / 10 ^ 9) (h4 : |yb - (y0 + 20 * d)| ≤ 1 / 10 ^ 9) (h5 : |xc - (x0 + 20 * d)| ≤ 1 / 10 ^ 9) :
    orient (⟨xa, ya⟩ : Pt ℚ) ⟨xb, yb⟩ ⟨xc, ya⟩ < 0 ∧ ∀ q : Pt ℚ, |q.x - x0| ≤ d / 2 → |q.y - y0| ≤ d / 2 →
      orient ⟨xa, ya⟩ ⟨xb, yb⟩ q < 0 ∧ orient ⟨xb, yb⟩ ⟨xc, ya⟩ q < 0 ∧ orient ⟨xc, ya⟩ ⟨xa, ya⟩ q < 0 := by
  have hη : (1 : ℚ) / 10 ^ 9 ≤ d / 1000 := by norm_num at hd ⊢; linarith
  have d0 : 0 < d := lt_of_lt_of_le (by norm_num) hd
  generalize (1 : ℚ) / 10 ^ 9 = η at *
  rw [abs_le] at h1 h2 h3 h4 h5
  have pr : ∀ {x y X Y : ℚ}, x ≤ X → y ≤ Y → 0 ≤ y → 0 ≤ X → x * y ≤ X * Y := fun h1 h2 h3 h4 => mul_le_mul h1 h2 h3 h4
  have dd : 0 < d * d := mul_pos d0 d0
  constructor
  · unfold orient
    simp only
    have k1 : 20 * d * (39 * d) ≤ (yb - ya) * (xc - xa) := pr (by linarith) (by linarith) (by linarith) (by linarith)
    nlinarith
  · intro q hx hy
    rw [abs_le] at hx hy
    unfold orient
    simp only
    refine ⟨?_, ?_, ?_⟩
    · have k1 : 20 * d * (19 * d) ≤ (yb - ya) * (q.x - xa) := pr (by linarith) (by linarith) (by linarith) (by linarith)
      have k2 : (xb - xa) * (q.y - ya) ≤ 21 * d * (2 * d) := pr (by linarith) (by linarith) (by linarith) (by linarith)
      linarith
    · have k1 : 19 * d * (19 * d) ≤ (xc - xb) * (yb - q.y) := pr (by linarith) (by linarith) (by linarith) (by linarith)
      have k2 : (yb - ya) * (q.x - xb) ≤ 22 * d * d := by
        have hy0 : 0 ≤ yb - ya := by linarith
        calc (yb - ya) * (q.x - xb) ≤ (yb - ya) * d := mul_le_mul_of_nonneg_left (by linarith) hy0
          _ ≤ 22 * d * d := mul_le_mul_of_nonneg_right (by linarith) d0.le
      nlinarith
    · have k1 : 39 * d * (d / 4) ≤ (xc - xa) * (q.y - ya) := pr (by linarith) (by linarith) (by linarith) (by linarith)
      nlinarith

end Verif.Align64
