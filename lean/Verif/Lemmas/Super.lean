import Verif.Lemmas.MeshRun
import Verif.Spec.Delaunay

/-!
# The supertriangle
-/

namespace Verif.Align

variable {K : Type} [Field K] [LinearOrder K] [IsStrictOrderedRing K]

set_option linter.unusedSectionVars false

theorem minOf_le (x : K) (xs : List K) : minOf x xs ≤ x ∧ ∀ v ∈ xs, minOf x xs ≤ v := by
  unfold minOf
  induction xs generalizing x with
  | nil => simp
  | cons y ys ih =>
    simp only [List.foldl_cons]
    obtain ⟨h1, h2⟩ := ih (if y < x then y else x)
    have hx : (if y < x then y else x) ≤ x ∧ (if y < x then y else x) ≤ y := by
      split
      · rename_i h; exact ⟨h.le, le_rfl⟩
      · rename_i h; exact ⟨le_rfl, not_lt.1 h⟩
    refine ⟨h1.trans hx.1, ?_⟩
    intro v hv
    rcases List.mem_cons.1 hv with rfl | hv
    · exact h1.trans hx.2
    · exact h2 v hv

theorem le_maxOf (x : K) (xs : List K) : x ≤ maxOf x xs ∧ ∀ v ∈ xs, v ≤ maxOf x xs := by
  unfold maxOf
  induction xs generalizing x with
  | nil => simp
  | cons y ys ih =>
    simp only [List.foldl_cons]
    obtain ⟨h1, h2⟩ := ih (if x < y then y else x)
    have hx : x ≤ (if x < y then y else x) ∧ y ≤ (if x < y then y else x) := by
      split
      · rename_i h; exact ⟨h.le, le_rfl⟩
      · rename_i h; exact ⟨le_rfl, not_lt.1 h⟩
    refine ⟨hx.1.trans h1, ?_⟩
    intro v hv
    rcases List.mem_cons.1 hv with rfl | hv
    · exact hx.2.trans h1
    · exact h2 v hv

/-- The corners of the supertriangle lie far outside the square of side `d` that contains the points. -/
theorem superPts_box (p : Pt K) (ps : List (Pt K)) :
    ∃ x0 y0 d : K, superPts p ps = (⟨x0 - 20 * d, y0 - d⟩, ⟨x0, y0 + 20 * d⟩, ⟨x0 + 20 * d, y0 - d⟩) ∧
      (∀ q ∈ p :: ps, |q.x - x0| ≤ d / 2 ∧ |q.y - y0| ≤ d / 2) ∧
      ∀ q ∈ p :: ps, ∀ q' ∈ p :: ps, |q.x - q'.x| ≤ d ∧ |q.y - q'.y| ≤ d := by
  obtain ⟨a1, a2⟩ := minOf_le p.x (ps.map (·.x))
  obtain ⟨b1, b2⟩ := le_maxOf p.x (ps.map (·.x))
  obtain ⟨c1, c2⟩ := minOf_le p.y (ps.map (·.y))
  obtain ⟨e1, e2⟩ := le_maxOf p.y (ps.map (·.y))
  have hx : ∀ q ∈ p :: ps, minOf p.x (ps.map (·.x)) ≤ q.x ∧ q.x ≤ maxOf p.x (ps.map (·.x)) ∧
      minOf p.y (ps.map (·.y)) ≤ q.y ∧ q.y ≤ maxOf p.y (ps.map (·.y)) := by
    intro q hq
    rcases List.mem_cons.1 hq with rfl | hq
    · exact ⟨a1, b1, c1, e1⟩
    · exact ⟨a2 _ (List.mem_map_of_mem hq), b2 _ (List.mem_map_of_mem hq), c2 _ (List.mem_map_of_mem hq), e2 _ (List.mem_map_of_mem hq)⟩
  unfold superPts
  generalize minOf p.x (ps.map (·.x)) = xmin at *
  generalize maxOf p.x (ps.map (·.x)) = xmax at *
  generalize minOf p.y (ps.map (·.y)) = ymin at *
  generalize maxOf p.y (ps.map (·.y)) = ymax at *
  simp only
  refine ⟨_, _, _, rfl, ?_, ?_⟩
  · intro q hq
    obtain ⟨h1, h2, h3, h4⟩ := hx q hq
    split <;> rw [abs_le, abs_le] <;> refine ⟨⟨?_, ?_⟩, ?_, ?_⟩ <;> linarith
  · intro q hq q' hq'
    obtain ⟨h1, h2, h3, h4⟩ := hx q hq
    obtain ⟨g1, g2, g3, g4⟩ := hx q' hq'
    split <;> rw [abs_le, abs_le] <;> refine ⟨⟨?_, ?_⟩, ?_, ?_⟩ <;> linarith

/-- The position of the `j`-th vertex. -/
def pos (mem : List (VertexPair K)) (j : Nat) : Pt K := (mem[j]?.map VertexPair.actual).getD ⟨0, 0⟩

theorem pos_of {mem : List (VertexPair K)} {j : Nat} {p : Pt K} (h : readPt mem j = .ok p) : pos mem j = p := by
  unfold readPt at h
  unfold pos
  split at h
  · rename_i v hv
    rw [hv]
    simpa using h
  · cases h

theorem ready_of (nv : Nat) (mem : List (VertexPair K)) (h1 : 1 ≤ nv) (h : nv + 3 ≤ mem.length)
    (hg : Generic ((mem.take nv).map VertexPair.actual))
    (hsort : (mem.take nv).Pairwise (fun u v => u.actual.x ≤ v.actual.x)) :
    ∃ mem', withSuper nv mem = .ok mem' ∧ Ready (pos mem') nv mem' ∧ (∀ j, ¬ (nv ≤ j ∧ j < nv + 3) → mem'[j]? = mem[j]?) ∧
      ∃ x0 y0 d : K, pos mem' nv = ⟨x0 - 20 * d, y0 - d⟩ ∧ pos mem' (nv + 1) = ⟨x0, y0 + 20 * d⟩ ∧
        pos mem' (nv + 2) = ⟨x0 + 20 * d, y0 - d⟩ ∧ 2 * eps ≤ d ∧
        (∀ j < nv, |(pos mem' j).x - x0| ≤ d / 2 ∧ |(pos mem' j).y - y0| ≤ d / 2) ∧
        (∀ j < nv, ∀ k < nv, |(pos mem' j).x - (pos mem' k).x| ≤ d ∧ |(pos mem' j).y - (pos mem' k).y| ≤ d) := by
  obtain ⟨mem', p, ps, hps, hm, hlen, hsame, -, r0, r1, r2⟩ := withSuper_ok nv mem h1 h
  obtain ⟨x0, y0, d, hsup, hbox, hspread⟩ := superPts_box p ps
  rw [hsup] at r0 r1 r2
  simp only at r0 r1 r2
  rw [hps] at hg
  obtain ⟨hsep, a, ha, b, hb, hab⟩ := hg
  have hd : 2 * eps ≤ d := by
    have := hspread a ha b hb
    have e : (2 : K) * eps = 2 / 1000000 := by unfold eps; norm_num
    rw [e]
    rcases hab with h | h
    · exact h.trans this.1
    · exact h.trans this.2
  have hep := eps_pos (K := K)
  have hold : ∀ j < nv, pos mem' j ∈ p :: ps ∧ readPt mem' j = .ok (pos mem' j) := by
    intro j hj
    have hj' : j < mem.length := by omega
    have e : mem'[j]? = some mem[j] := by rw [hsame j (by omega), List.getElem?_eq_getElem hj']
    have hp : pos mem' j = mem[j].actual := by unfold pos; rw [e]; rfl
    refine ⟨?_, ?_⟩
    · rw [hp, ← hps]
      apply List.mem_map_of_mem
      rw [List.mem_take_iff_getElem]
      exact ⟨j, by omega, rfl⟩
    · rw [hp]; unfold readPt; rw [e]
  have q0 := pos_of r0
  have q1 := pos_of r1
  have q2 := pos_of r2
  have hcases : ∀ j, j < nv + 3 → j < nv ∨ j = nv ∨ j = nv + 1 ∨ j = nv + 2 := by intro j hj; omega
  have hb' : ∀ j < nv, -(d / 2) ≤ (pos mem' j).x - x0 ∧ (pos mem' j).x - x0 ≤ d / 2 ∧ -(d / 2) ≤ (pos mem' j).y - y0 ∧ (pos mem' j).y - y0 ≤ d / 2 := by
    intro j hj
    obtain ⟨h1, h2⟩ := hbox _ (hold j hj).1
    rw [abs_le] at h1 h2
    exact ⟨h1.1, h1.2, h2.1, h2.2⟩
  refine ⟨mem', hm, ⟨?_, ?_, ?_, ?_, ?_, ?_, ?_, ?_⟩, hsame, x0, y0, d, q0, q1, q2, hd, ?_, ?_⟩
  · intro j hj
    rcases hcases j hj with h | rfl | rfl | rfl
    · exact (hold j h).2
    · rw [q0]; exact r0
    · rw [q1]; exact r1
    · rw [q2]; exact r2
  · have far : ∀ j < nv, eps ≤ |(pos mem' j).y - (y0 - d)| ∧ eps ≤ |(pos mem' j).y - (y0 + 20 * d)| := by
      intro j hj
      obtain ⟨-, -, h3, h4⟩ := hb' j hj
      refine ⟨le_trans ?_ (le_abs_self _), le_trans ?_ (neg_le_abs _)⟩ <;> linarith
    have hd21 : eps ≤ |(y0 - d) - (y0 + 20 * d)| := le_trans (by linarith) (neg_le_abs _)
    have s01 : AltSep (⟨x0 - 20 * d, y0 - d⟩ : Pt K) ⟨x0, y0 + 20 * d⟩ := Or.inr hd21
    have s21 : AltSep (⟨x0 + 20 * d, y0 - d⟩ : Pt K) ⟨x0, y0 + 20 * d⟩ := Or.inr hd21
    intro j hj k hk
    rcases hcases j hj with h | rfl | rfl | rfl <;> rcases hcases k hk with g | rfl | rfl | rfl
    · exact hsep _ (hold j h).1 _ (hold k g).1
    · rw [q0]; exact Or.inr (far j h).1
    · rw [q1]; exact Or.inr (far j h).2
    · rw [q2]; exact Or.inr (far j h).1
    · rw [q0]; exact AltSep.symm (Or.inr (far k g).1)
    · exact Or.inl rfl
    · rw [q0, q1]; exact s01
    · rw [q0, q2]; exact Or.inl rfl
    · rw [q1]; exact AltSep.symm (Or.inr (far k g).2)
    · rw [q0, q1]; exact s01.symm
    · exact Or.inl rfl
    · rw [q1, q2]; exact s21.symm
    · rw [q2]; exact AltSep.symm (Or.inr (far k g).1)
    · rw [q0, q2]; exact Or.inl rfl
    · rw [q1, q2]; exact s21
    · exact Or.inl rfl
  · intro j k hjk hk
    rcases Nat.eq_or_lt_of_le hjk with rfl | hlt
    · exact le_rfl
    · have hj' : j < mem.length := by omega
      have hk' : k < mem.length := by omega
      have e1 : pos mem' j = mem[j].actual := by unfold pos; rw [hsame j (by omega), List.getElem?_eq_getElem hj']; rfl
      have e2 : pos mem' k = mem[k].actual := by unfold pos; rw [hsame k (by omega), List.getElem?_eq_getElem hk']; rfl
      rw [e1, e2]
      have := List.pairwise_iff_getElem.1 hsort j k (by rw [List.length_take]; omega) (by rw [List.length_take]; omega) hlt
      simpa using this
  · show orient (pos mem' nv) (pos mem' (nv + 1)) (pos mem' (nv + 2)) < 0
    rw [q0, q1, q2]
    unfold orient
    simp only
    nlinarith
  · intro j hj
    obtain ⟨h1, h2, h3, h4⟩ := hb' j hj
    have dp : 0 < d := by linarith
    have m1 : d * ((pos mem' j).x - x0) ≤ d * (d / 2) := mul_le_mul_of_nonneg_left h2 dp.le
    have m2 : d * (-(d / 2)) ≤ d * ((pos mem' j).x - x0) := mul_le_mul_of_nonneg_left h1 dp.le
    have m3 : d * ((pos mem' j).y - y0) ≤ d * (d / 2) := mul_le_mul_of_nonneg_left h4 dp.le
    have m4 : d * (-(d / 2)) ≤ d * ((pos mem' j).y - y0) := mul_le_mul_of_nonneg_left h3 dp.le
    have dd : 0 < d * d := mul_pos dp dp
    refine ⟨?_, ?_, ?_⟩ <;> simp only [superTri]
    · rw [q0, q1]; unfold orient; simp only; nlinarith
    · rw [q1, q2]; unfold orient; simp only; nlinarith
    · rw [q2, q0]; unfold orient; simp only; nlinarith
  · intro j hj hne
    rcases hcases j hj with h | rfl | rfl | rfl
    · obtain ⟨h1, -⟩ := hb' j h
      rw [q0]; simp only; linarith
    · exact absurd rfl hne
    · rw [q0, q1]; simp only; linarith
    · rw [q0, q2]; simp only; linarith
  · intro j hj hne
    rcases hcases j hj with h | rfl | rfl | rfl
    · obtain ⟨-, h1, -⟩ := hb' j h
      rw [q2]; simp only; linarith
    · rw [q0, q2]; simp only; linarith
    · rw [q1, q2]; simp only; linarith
    · exact absurd rfl hne
  · intro j hj
    rcases hcases j hj with h | rfl | rfl | rfl
    · obtain ⟨-, -, -, h1⟩ := hb' j h
      rw [q1]; simp only; linarith
    · rw [q0, q1]; simp only; linarith
    · exact le_rfl
    · rw [q1, q2]; simp only; linarith
  · intro j hj; exact hbox _ (hold j hj).1
  · intro j hj k hk; exact hspread _ (hold j hj).1 _ (hold k hk).1

end Verif.Align
