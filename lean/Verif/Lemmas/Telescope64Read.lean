import Verif.Lemmas.Telescope64

/-!
# The alignment in IEEE arithmetic: which triangle is used
-/

namespace Verif.Telescope64

open Verif Verif.Align Verif.Linalg Verif.Linalg64 Verif.Coord64 Verif.Spec Verif.Align64

/-! ### Operations on moderate numbers -/

theorem op64 {q : ℚ} (N : ℕ) (h : |q| ≤ N) (hN : N ≤ 10000000) : fl b64 q = .ok (rnd b64 q) ∧ |rnd b64 q| ≤ N := by
  have hN' : (N : ℚ) ≤ 10000000 := by exact_mod_cast hN
  refine ⟨fl_eq_rnd_64 (h.trans hN'), ?_⟩
  have := representable_int (F := b64) (z := (N : ℤ)) (by
    rw [abs_of_nonneg (by positivity)]
    have : (N : ℤ) ≤ 10000000 := by exact_mod_cast hN
    refine this.trans (by decide)) (by decide) (by decide)
  exact rnd_abs_le (by decide) (by exact_mod_cast this) h

theorem op32 {q : ℚ} (N : ℕ) (h : |q| ≤ N) (hN : N ≤ 1000000) : fl b32 q = .ok (rnd b32 q) ∧ |rnd b32 q| ≤ N := by
  have hN' : (N : ℚ) ≤ 1000000 := by exact_mod_cast hN
  refine ⟨fl_eq_rnd_32 (h.trans hN'), ?_⟩
  have := representable_int (F := b32) (z := (N : ℤ)) (by
    rw [abs_of_nonneg (by positivity)]
    have : (N : ℤ) ≤ 1000000 := by exact_mod_cast hN
    refine this.trans (by decide)) (by decide) (by decide)
  exact rnd_abs_le (by decide) (by exact_mod_cast this) h

/-! ### Areas -/

/-- `x * (y - z)`, rounded. -/
def term (x y z : ℚ) : ℚ := rnd b64 (x * rnd b64 (y - z))

theorem term_neg (x y z : ℚ) : term x z y = -term x y z := by
  unfold term
  rw [← neg_sub y z, rnd_neg, mul_neg, rnd_neg]

theorem term_self (x y : ℚ) : term x y y = 0 := by unfold term; rw [sub_self, rnd_zero, mul_zero, rnd_zero]

/-- The area as it is computed. -/
def area (p q r : Pt ℚ) : ℚ := |rnd b64 (rnd b64 (rnd b64 (term p.x q.y r.y + term q.x r.y p.y) + term r.x p.y q.y) / 2)|

/-- A point in the range of the sensors. -/
def Range (p : Pt ℚ) : Prop := |p.x| ≤ 360 ∧ |p.y| ≤ 91

theorem term_ok {x y z : ℚ} (hx : |x| ≤ 360) (hy : |y| ≤ 91) (hz : |z| ≤ 91) :
    mulD (.ok x) (sub (.ok y) (.ok z)) = .ok (term x y z) ∧ |term x y z| ≤ 65520 := by
  obtain ⟨a1, a2⟩ := op64 (q := y - z) 182 ((abs_sub _ _).trans (by push_cast; linarith)) (by norm_num)
  obtain ⟨b1, b2⟩ := op64 (q := x * rnd b64 (y - z)) 65520 (by
    rw [abs_mul]
    have := mul_le_mul hx a2 (abs_nonneg _) (by norm_num)
    push_cast at this ⊢; linarith) (by norm_num)
  refine ⟨?_, by unfold term; exact_mod_cast b2⟩
  show (fl b64 (y - z) >>= fun d => fl b64 (x * d)) = _
  rw [a1, bind_ok, b1]; rfl

theorem area_ok {p q r : Pt ℚ} (hp : Range p) (hq : Range q) (hr : Range r) : Align64.triangleArea p q r = .ok (area p q r) ∧ 0 ≤ area p q r ∧ area p q r ≤ 98280 := by
  obtain ⟨a1, a2⟩ := term_ok hp.1 hq.2 hr.2
  obtain ⟨b1, b2⟩ := term_ok hq.1 hr.2 hp.2
  obtain ⟨c1, c2⟩ := term_ok hr.1 hp.2 hq.2
  obtain ⟨d1, d2⟩ := op64 (q := term p.x q.y r.y + term q.x r.y p.y) 131040 ((abs_add_le _ _).trans (by push_cast; linarith)) (by norm_num)
  obtain ⟨e1, e2⟩ := op64 (q := rnd b64 (term p.x q.y r.y + term q.x r.y p.y) + term r.x p.y q.y) 196560
    ((abs_add_le _ _).trans (by push_cast at d2 ⊢; linarith)) (by norm_num)
  obtain ⟨f1, f2⟩ := op64 (q := rnd b64 (rnd b64 (term p.x q.y r.y + term q.x r.y p.y) + term r.x p.y q.y) / 2) 98280
    (by rw [abs_div, abs_two]; push_cast at e2 ⊢; linarith) (by norm_num)
  refine ⟨?_, abs_nonneg _, by unfold area; exact_mod_cast f2⟩
  unfold Align64.triangleArea
  rw [a1, b1, c1]
  show (do
    let x ← divD (do let z ← fl b64 (term p.x q.y r.y + term q.x r.y p.y); fl b64 (z + term r.x p.y q.y)) (.ok 2)
    return |x|) = _
  rw [d1, bind_ok, e1]
  show (do
    let x ← (if (2 : ℚ) = 0 then Except.error Stop.nonfinite else fl b64 (rnd b64 (rnd b64 (term p.x q.y r.y + term q.x r.y p.y) + term r.x p.y q.y) / 2))
    return |x|) = _
  rw [if_neg (by norm_num), f1]
  rfl

theorem area_12 (a c : Pt ℚ) : area a a c = 0 := by
  unfold area; rw [term_neg a.x a.y c.y, term_self]; simp [rnd_zero]
theorem area_23 (a b : Pt ℚ) : area a b b = 0 := by
  unfold area
  have h : rnd b64 (term b.x b.y a.y) = term b.x b.y a.y := rnd_of_representable (representable_rnd (by decide) _)
  rw [term_self, zero_add, h, term_neg b.x b.y a.y]; simp [rnd_zero]
theorem area_13 (a b : Pt ℚ) : area a b a = 0 := by
  unfold area
  have h : rnd b64 (term a.x b.y a.y) = term a.x b.y a.y := rnd_of_representable (representable_rnd (by decide) _)
  rw [term_self, add_zero, h, term_neg a.x b.y a.y]; simp [rnd_zero]

theorem limit_pos : ∃ l, fl b64 (1 / 10000) = .ok l ∧ 0 < l := ⟨rnd b64 (1 / 10000), by decide +kernel, by decide +kernel⟩

theorem inside_ok {z p q r : Pt ℚ} (hz : Range z) (hp : Range p) (hq : Range q) (hr : Range r) : ∃ b, Align64.isInTriangle z p q r = .ok b := by
  obtain ⟨l, hl, -⟩ := limit_pos
  obtain ⟨a1, a2, a3⟩ := area_ok hp hq hr
  obtain ⟨b1, b2, b3⟩ := area_ok hz hq hr
  obtain ⟨c1, c2, c3⟩ := area_ok hp hz hr
  obtain ⟨d1, d2, d3⟩ := area_ok hp hq hz
  have o : ∀ {x : ℚ}, 0 ≤ x → x ≤ 98280 → fl b32 x = .ok (rnd b32 x) ∧ |rnd b32 x| ≤ (98280 : ℕ) := fun h0 h1 =>
    op32 98280 (by rw [abs_of_nonneg h0]; exact_mod_cast h1) (by norm_num)
  obtain ⟨a4, a5⟩ := o a2 a3
  obtain ⟨b4, b5⟩ := o b2 b3
  obtain ⟨c4, c5⟩ := o c2 c3
  obtain ⟨d4, d5⟩ := o d2 d3
  push_cast at a5 b5 c5 d5
  obtain ⟨e1, e2⟩ := op32 (q := rnd b32 (area z q r) + rnd b32 (area p z r)) 200000 ((abs_add_le _ _).trans (by push_cast; linarith)) (by norm_num)
  obtain ⟨f1, f2⟩ := op32 (q := rnd b32 (rnd b32 (area z q r) + rnd b32 (area p z r)) + rnd b32 (area p q z)) 300000
    ((abs_add_le _ _).trans (by push_cast at e2 ⊢; linarith)) (by norm_num)
  obtain ⟨g1, g2⟩ := op32 (q := rnd b32 (area p q r) - rnd b32 (rnd b32 (rnd b32 (area z q r) + rnd b32 (area p z r)) + rnd b32 (area p q z))) 400000
    ((abs_sub _ _).trans (by push_cast at f2 ⊢; linarith)) (by norm_num)
  unfold Align64.isInTriangle
  simp only [a1, b1, c1, d1, bind_ok, a4, b4, c4, d4, e1, f1, g1, hl, pure_ok]
  exact ⟨_, rfl⟩

/-- A corner passes the test of its triangle, in spite of the roundings. -/
theorem corner_inside {z p q r : Pt ℚ} (hp : Range p) (hq : Range q) (hr : Range r) (h : z = p ∨ z = q ∨ z = r) : Align64.isInTriangle z p q r = .ok true := by
  obtain ⟨l, hl, l0⟩ := limit_pos
  obtain ⟨a1, a2, a3⟩ := area_ok hp hq hr
  obtain ⟨a4, -⟩ := op32 (q := area p q r) 98280 (by rw [abs_of_nonneg a2]; exact_mod_cast a3) (by norm_num)
  have z0 : fl b32 0 = .ok 0 := by decide +kernel
  have idem : rnd b32 (rnd b32 (area p q r)) = rnd b32 (area p q r) := rnd_of_representable (representable_rnd (by decide) _)
  have a6 : fl b32 (rnd b32 (area p q r)) = .ok (rnd b32 (area p q r)) := by
    have := a4
    unfold fl at this ⊢
    rw [idem]; exact this
  unfold Align64.isInTriangle
  rcases h with rfl | rfl | rfl
  · rw [(area_ok hp hp hr).1, (area_ok hp hq hp).1, area_12, area_13]
    simp only [a1, bind_ok, a4, z0, add_zero, a6, sub_self, hl, pure_ok, abs_zero, l0, decide_true]
  · rw [(area_ok hq hq hr).1, (area_ok hp hq hq).1, area_12, area_23]
    simp only [a1, bind_ok, a4, z0, zero_add, add_zero, a6, sub_self, hl, pure_ok, abs_zero, l0, decide_true]
  · rw [(area_ok hr hq hr).1, (area_ok hp hr hr).1, area_13, area_23]
    simp only [a1, bind_ok, a4, z0, zero_add, add_zero, a6, sub_self, hl, pure_ok, abs_zero, l0, decide_true]

/-! ### The choice -/

/-- The corners of the triangles are in the range of the sensors. -/
def Corners (s : Align64.State) (ts : List Tri) : Prop :=
  ∀ t ∈ ts, ∃ a b c, s.vertices[t.p1]? = some a ∧ s.vertices[t.p2]? = some b ∧ s.vertices[t.p3]? = some c ∧ Range a.actual ∧ Range b.actual ∧ Range c.actual

theorem inTri_ok {s : Align64.State} {t : Tri} {a b c : VertexPair ℚ} (ha : s.vertices[t.p1]? = some a) (hb : s.vertices[t.p2]? = some b)
    (hc : s.vertices[t.p3]? = some c) (z : Pt ℚ) : Align64.inTri s z t = Align64.isInTriangle z a.actual b.actual c.actual := by
  unfold Align64.inTri
  simp only [vertex_some ha, vertex_some hb, vertex_some hc, bind_ok]

theorem firstContaining_ok {s : Align64.State} {z : Pt ℚ} (hz : Range z) : ∀ (ts : List Tri), Corners s ts → ∀ i,
    (∃ j t, ts[j]? = some t ∧ Align64.inTri s z t = .ok true ∧ (∀ j' < j, ∀ t', ts[j']? = some t' → Align64.inTri s z t' = .ok false) ∧
      Align64.firstContaining s z i ts = .ok (some (i + j))) ∨
    ((∀ t ∈ ts, Align64.inTri s z t = .ok false) ∧ Align64.firstContaining s z i ts = .ok none)
  | [], _, i => Or.inr ⟨by simp, rfl⟩
  | t :: ts, hc, i => by
    obtain ⟨a, b, c, ha, hb, hc', ra, rb, rc⟩ := hc t List.mem_cons_self
    obtain ⟨r, hr⟩ := inside_ok hz ra rb rc
    rw [← inTri_ok ha hb hc' z] at hr
    cases r with
    | true => exact Or.inl ⟨0, t, rfl, hr, by simp, by simp only [Align64.firstContaining, hr, bind_ok, Nat.add_zero]⟩
    | false =>
      rcases firstContaining_ok hz ts (fun t ht => hc t (List.mem_cons_of_mem _ ht)) (i + 1) with ⟨j, t', h1, h2, h3, h4⟩ | ⟨h1, h2⟩
      · refine Or.inl ⟨j + 1, t', by simpa using h1, h2, ?_, ?_⟩
        · intro j' hj' t'' ht''
          cases j' with
          | zero => simp only [List.getElem?_cons_zero, Option.some.injEq] at ht''; rw [← ht'']; exact hr
          | succ n => rw [List.getElem?_cons_succ] at ht''; exact h3 n (by omega) t'' ht''
        · simp only [Align64.firstContaining, hr, bind_ok, h4]; congr 2; omega
      · refine Or.inr ⟨?_, by simp only [Align64.firstContaining, hr, bind_ok, h2]⟩
        intro t' ht'
        rcases List.mem_cons.1 ht' with rfl | ht'
        · exact hr
        · exact h1 t' ht'

theorem centreDistance_ok {s : Align64.State} {z : Pt ℚ} (hz : Range z) {t : Tri} (h : ∃ a b c, s.vertices[t.p1]? = some a ∧ s.vertices[t.p2]? = some b ∧
    s.vertices[t.p3]? = some c ∧ Range a.actual ∧ Range b.actual ∧ Range c.actual) : ∃ d, Align64.centreDistance s z t = .ok d := by
  obtain ⟨a, b, c, ha, hb, hc, ra, rb, rc⟩ := h
  have mean : ∀ {x y w : ℚ} {N : ℕ}, |x| ≤ N → |y| ≤ N → |w| ≤ N → N ≤ 1000 →
      ∃ m, divD (add (add (.ok x) (.ok y)) (.ok w)) (.ok 3) = .ok m ∧ |m| ≤ N := by
    intro x y w N hx hy hw hN
    obtain ⟨a1, a2⟩ := op64 (q := x + y) (2 * N) ((abs_add_le _ _).trans (by push_cast; linarith)) (by omega)
    obtain ⟨b1, b2⟩ := op64 (q := rnd b64 (x + y) + w) (3 * N) ((abs_add_le _ _).trans (by push_cast at a2 ⊢; linarith)) (by omega)
    obtain ⟨c1, c2⟩ := op64 (q := rnd b64 (rnd b64 (x + y) + w) / 3) N
      (by rw [abs_div, abs_of_pos (by norm_num : (0 : ℚ) < 3), div_le_iff₀ (by norm_num)]; push_cast at b2; linarith) (by omega)
    refine ⟨_, ?_, c2⟩
    show divD (do let v ← fl b64 (x + y); fl b64 (v + w)) (.ok 3) = _
    rw [a1, bind_ok, b1]
    show (if (3 : ℚ) = 0 then .error .nonfinite else fl b64 (rnd b64 (rnd b64 (x + y) + w) / 3)) = _
    rw [if_neg (by norm_num), c1]
  obtain ⟨az, e1, m1⟩ := mean (N := 360) (by exact_mod_cast ra.1) (by exact_mod_cast rb.1) (by exact_mod_cast rc.1) (by norm_num)
  obtain ⟨al, e2, m2⟩ := mean (N := 91) (by exact_mod_cast ra.2) (by exact_mod_cast rb.2) (by exact_mod_cast rc.2) (by norm_num)
  push_cast at m1 m2
  have sq : ∀ {x y : ℚ} {N : ℕ}, |x| ≤ N → |y| ≤ N → N ≤ 400 →
      ∃ m, mulD (sub (.ok x) (.ok y)) (sub (.ok x) (.ok y)) = .ok m ∧ |m| ≤ (2 * N) * (2 * N) := by
    intro x y N hx hy hN
    obtain ⟨a1, a2⟩ := op64 (q := x - y) (2 * N) ((abs_sub _ _).trans (by push_cast; linarith)) (by omega)
    obtain ⟨b1, b2⟩ := op64 (q := rnd b64 (x - y) * rnd b64 (x - y)) ((2 * N) * (2 * N)) (by
      rw [abs_mul]
      have := mul_le_mul a2 a2 (abs_nonneg _) (by positivity)
      push_cast at this ⊢; exact this) (by nlinarith)
    refine ⟨_, ?_, by exact_mod_cast b2⟩
    show (do let v ← fl b64 (x - y); let w ← fl b64 (x - y); fl b64 (v * w)) = _
    rw [a1, bind_ok, bind_ok, b1]
  obtain ⟨v, f1, n1⟩ := sq (N := 360) (x := az) (y := z.x) (by exact_mod_cast m1) (by exact_mod_cast hz.1) (by norm_num)
  obtain ⟨w, f2, n2⟩ := sq (N := 91) (x := al) (y := z.y) (by exact_mod_cast m2) (by exact_mod_cast hz.2) (by norm_num)
  push_cast at n1 n2
  obtain ⟨g1, g2⟩ := op64 (q := v + w) 600000 ((abs_add_le _ _).trans (by push_cast; linarith)) (by norm_num)
  obtain ⟨h1, -⟩ := op32 (q := rnd b64 (v + w)) 600000 (by exact_mod_cast g2) (by norm_num)
  refine ⟨rnd b32 (rnd b64 (v + w)), ?_⟩
  unfold Align64.centreDistance
  simp only [vertex_some ha, vertex_some hb, vertex_some hc, bind_ok, e1, e2]
  unfold Align64.sqr
  simp only [f1, f2]
  show (do let d ← fl b64 (v + w); fl b32 d) = _
  rw [g1, bind_ok, h1]

theorem nearestLoop_ok {s : Align64.State} {z : Pt ℚ} (hz : Range z) : ∀ (ts : List Tri), Corners s ts → ∀ (i : Nat) (best : Option (ℚ × Nat)),
    (∃ d j, Align64.nearestLoop s z i ts best = .ok (some (d, j)) ∧ (best = some (d, j) ∨ i ≤ j ∧ j < i + ts.length)) ∨
      (best = none ∧ ts = [] ∧ Align64.nearestLoop s z i ts best = .ok none)
  | [], _, i, best => by
    cases best with
    | none => exact Or.inr ⟨rfl, rfl, rfl⟩
    | some p => exact Or.inl ⟨p.1, p.2, rfl, Or.inl rfl⟩
  | t :: ts, hc, i, best => by
    obtain ⟨d, hd⟩ := centreDistance_ok hz (hc t List.mem_cons_self)
    simp only [Align64.nearestLoop, hd, bind_ok]
    by_cases hcl : closer d (best.map (·.1)) = true
    · rw [if_pos hcl]
      rcases nearestLoop_ok hz ts (fun t ht => hc t (List.mem_cons_of_mem _ ht)) (i + 1) (some (d, i)) with ⟨d', j, h1, h2⟩ | ⟨h1, -⟩
      · refine Or.inl ⟨d', j, h1, Or.inr ?_⟩
        simp only [List.length_cons]
        rcases h2 with h2 | h2
        · cases h2; omega
        · omega
      · cases h1
    · rw [if_neg hcl]
      have hb : best ≠ none := by rintro rfl; exact hcl rfl
      rcases nearestLoop_ok hz ts (fun t ht => hc t (List.mem_cons_of_mem _ ht)) (i + 1) best with ⟨d', j, h1, h2⟩ | ⟨h1, -⟩
      · refine Or.inl ⟨d', j, h1, ?_⟩
        simp only [List.length_cons]
        rcases h2 with h2 | h2
        · exact Or.inl h2
        · exact Or.inr (by omega)
      · exact absurd h1 hb

/-- Some triangle is used: one that contains the direction as far as the test can tell, if there is any. -/
theorem choice {s : Align64.State} {z : Pt ℚ} (hz : Range z) (hc : Corners s s.triangles) (hne : s.triangles ≠ []) :
    ∃ i t, s.triangles[i]? = some t ∧ Align64.getTransformationMatrix s z = Align64.matrixAt s i ∧
      ((Align64.getTransformationType s z = .ok .triangleIn ∧ Align64.inTri s z t = .ok true ∧
          ∀ j < i, ∀ t', s.triangles[j]? = some t' → Align64.inTri s z t' = .ok false) ∨
        (Align64.getTransformationType s z = .ok .triangleOut ∧ ∀ t ∈ s.triangles, Align64.inTri s z t = .ok false)) := by
  unfold Align64.getTransformationMatrix Align64.getTransformationType
  cases hts : s.triangles with
  | nil => exact absurd hts hne
  | cons t0 ts0 =>
    rw [hts] at hc
    simp only
    rcases firstContaining_ok hz (t0 :: ts0) hc 0 with ⟨j, t, h1, h2, h3, h4⟩ | ⟨h1, h2⟩
    · rw [Nat.zero_add] at h4
      refine ⟨j, t, h1, ?_, Or.inl ⟨?_, h2, h3⟩⟩ <;> simp only [h4, bind_ok]
    · have hn := nearestLoop_ok hz (t0 :: ts0) hc 0 none
      rcases hn with ⟨d, j, n1, n2⟩ | ⟨-, n2, -⟩
      · rcases n2 with n2 | n2
        · cases n2
        · have hj : j < (t0 :: ts0).length := by omega
          refine ⟨j, (t0 :: ts0)[j], List.getElem?_eq_getElem hj, ?_, Or.inr ⟨?_, h1⟩⟩
          · simp only [h2, bind_ok]
            unfold Align64.nearestMatrix Align64.nearestTriangle
            rw [hts, n1]
            simp only [bind_ok, pure_ok, Option.map_some]
          · simp only [h2, bind_ok]
      · cases n2

end Verif.Telescope64
