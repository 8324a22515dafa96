import Verif.Props.Delaunay64
import Verif.Props.Telescope64Demo

/-!
# C82: an evening with four stars
-/

namespace Verif.Telescope64

open Verif Verif.Align Verif.Coord64 Verif.Spec Verif.Align64 Verif.Linalg64

/-- The centre of the circle through three points. -/
def centreOf (a b c : Pt ℚ) : Pt ℚ :=
  ⟨(((b.x ^ 2 + b.y ^ 2) - (a.x ^ 2 + a.y ^ 2)) * (c.y - a.y) - ((c.x ^ 2 + c.y ^ 2) - (a.x ^ 2 + a.y ^ 2)) * (b.y - a.y)) / (2 * orient a b c),
    (((c.x ^ 2 + c.y ^ 2) - (a.x ^ 2 + a.y ^ 2)) * (b.x - a.x) - ((b.x ^ 2 + b.y ^ 2) - (a.x ^ 2 + a.y ^ 2)) * (c.x - a.x)) / (2 * orient a b c)⟩

theorem centre_unique {m a b c : Pt ℚ} (h : orient a b c ≠ 0) (hm : Circumcentre m a b c) : m = centreOf a b c := by
  obtain ⟨h1, h2⟩ := hm
  unfold Align.dist2 at h1 h2
  have e1 : 2 * m.x * (b.x - a.x) + 2 * m.y * (b.y - a.y) = (b.x ^ 2 + b.y ^ 2) - (a.x ^ 2 + a.y ^ 2) := by linear_combination h1
  have e2 : 2 * m.x * (c.x - a.x) + 2 * m.y * (c.y - a.y) = (c.x ^ 2 + c.y ^ 2) - (a.x ^ 2 + a.y ^ 2) := by linear_combination h1 + h2
  unfold centreOf
  rw [← e1, ← e2]
  ext
  · simp only
    rw [eq_div_iff (mul_ne_zero two_ne_zero h)]
    unfold orient; ring
  · simp only
    rw [eq_div_iff (mul_ne_zero two_ne_zero h)]
    unfold orient; ring

/-- The four orientations of the evening, and the corners of their supertriangle. -/
def fourStars : List (Pt ℚ) := [dA, dB, dC, dD]
def fourCorners : Pt ℚ × Pt ℚ × Pt ℚ := (⟨-304147 / 128, -4905 / 64⟩, ⟨21973 / 128, 41577 / 16⟩, ⟨348093 / 128, -4905 / 64⟩)

/-- They are well placed. -/
theorem four_placed : WellPlaced fourStars := by
  refine ⟨?_, by decide +kernel, by decide +kernel, by decide +kernel, ?_⟩
  · have h : ∀ a ∈ fourStars, (rnd b64 a.x = a.x ∧ rnd b64 a.y = a.y) ∧ |a.x| ≤ 1000 ∧ |a.y| ≤ 1000 := by decide +kernel
    exact fun a ha => ⟨⟨rep_of (h a ha).1.1, rep_of (h a ha).1.2⟩, (h a ha).2⟩
  · rintro s ⟨p, ps, hp, hs⟩
    cases hp
    have e : Align64.superPts dA [dB, dC, dD] = .ok fourCorners := by decide +kernel
    rw [e] at hs
    cases hs
    intro a ha b hb c hc ho p hp h1 h2 h3 m hm
    rw [centre_unique (ne_of_lt ho) hm]
    have key : ∀ a ∈ [fourCorners.1, fourCorners.2.1, fourCorners.2.2] ++ fourStars, ∀ b ∈ [fourCorners.1, fourCorners.2.1, fourCorners.2.2] ++ fourStars,
        ∀ c ∈ [fourCorners.1, fourCorners.2.1, fourCorners.2.2] ++ fourStars, orient a b c < 0 → ∀ p ∈ fourStars, p ≠ a → p ≠ b → p ≠ c →
          steepness a b c ^ 2 * conditioning a b c * reach (centreOf a b c) a b c p ^ 2 / 2 ^ 40 < |Align.dist2 (centreOf a b c) p - Align.dist2 (centreOf a b c) a| := by
      decide +kernel
    exact key a ha b hb c hc ho p hp h1 h2 h3

/-- The hypotheses of C82_triangulation: four stars in the order of their azimuths, at the beginning of the array. -/
example : ∃ M, Accurate M ∧ 4 ≤ 64 ∧ 4 + 3 ≤ (pad [dA, dB, dD, dC]).length ∧ WellPlaced (((pad [dA, dB, dD, dC]).take 4).map VertexPair.actual) ∧
    ((pad [dA, dB, dD, dC]).take 4).Pairwise (fun v w => v.actual.x ≤ w.actual.x) := by
  obtain ⟨M, hM⟩ := accurate_exists
  exact ⟨M, hM, by decide +kernel, by decide +kernel, four_placed.perm (by decide +kernel), by decide +kernel⟩

/-- An environment that calculates with the square root of the library. -/
def envOf (M : Libm) : Align64.Env (Option (ℚ × ℚ)) :=
  ⟨Align64.ieeeTest (fun x => .ok (M.sqrt x)) (fun _ _ _ _ => (true, true)), none, List.insertionSort (fun u v => u.actual.x ≤ v.actual.x), fun _ => 0⟩

/-- After three stars the telescope is turned to the fourth. -/
def evening3' (M : Libm) : List (Libm × Align64.Env (Option (ℚ × ℚ)) × Op) := evening3 M ++ [(M, envOf M, .orient dD)]

theorem knows4' (M : Libm) : knows (calls (evening3' M) ++ [.sync 120 40 48 103]) = ⟨dD, [kA, kB, kC, kD]⟩ := by
  rw [← knows4 M]
  rfl

theorem runs3' {M : Libm} (hM : Accurate M) : (∀ e ∈ evening3' M, Fair e) ∧ (∃ T, run (evening3' M) new = .ok T) ∧ Fair (M, envOf M, .sync 120 40 48 103) := by
  have hs : IsSort (envOf M).sort := fun l => ⟨List.perm_insertionSort _ l, List.pairwise_insertionSort _ l⟩
  have st : ∀ i, |(envOf M).stray i| ≤ 1 := fun i => by show |(0 : ℚ)| ≤ 1; norm_num
  refine ⟨?_, ?_, hM, hs, st, by unfold Sane; norm_num⟩
  · intro e he
    rcases List.mem_append.1 he with he | he
    · exact fair3 hM e he
    · rw [List.mem_singleton.1 he]
      exact ⟨hM, hs, st, ⟨rep_of (by decide +kernel), rep_of (by decide +kernel)⟩, by decide +kernel, by decide +kernel⟩
  · obtain ⟨T, hT, -⟩ := runs3 hM
    exact ⟨setOrientation T dD, by unfold evening3'; rw [run_append, hT]; rfl⟩

/-- The hypotheses of C82_sync and C82_stars: the fourth star is synced; afterwards the telescope points at the first one again. -/
example : ∃ M, Accurate M ∧ ∃ T T', run (evening3' M) new = .ok T ∧ step M (envOf M) (.sync 120 40 48 103) T = .ok T' ∧
    Delaunay ([kA, kB, kC, kD].map Star.at') T'.alignment.vertices T'.alignment.triangles ∧
    ∃ α δ, getCalibratedOrientation M (setOrientation T' dA) 48 200 = .ok (.triangleIn, α, δ) ∧ SamePlace (1 / (100000 * (10 : ℚ) ^ 2)) kA α δ 200 := by
  obtain ⟨M, hM⟩ := accurate_exists
  obtain ⟨hF, ⟨T, hT⟩, hFs⟩ := runs3' hM
  have e4 : ([kA, kB, kC, kD].map Star.at') = fourStars := by decide +kernel
  have hw : WellPlaced ((knows (calls (evening3' M) ++ [.sync 120 40 48 103])).stars.map Star.at') := by rw [knows4']; show WellPlaced ([kA, kB, kC, kD].map Star.at'); rw [e4]; exact four_placed
  obtain ⟨T', h1, h2⟩ := C82_sync (evening3' M) hF T hT M (envOf M) 120 40 48 103 hFs _ rfl hw
  rw [knows4'] at h2
  have hb : Belong fourStars dA dB dC := by
    have ho : orient dA dB dC ≠ 0 := by decide +kernel
    exact ⟨by decide +kernel, by decide +kernel, by decide +kernel, ho, centreOf dA dB dC, by unfold Circumcentre; decide +kernel, by decide +kernel,
      dA, by decide +kernel, dC, by decide +kernel, by decide +kernel⟩
  obtain ⟨α, δ, h3, -, -, -, h4⟩ := C82_stars (evening3' M) hF T T' hT M (envOf M) 120 40 48 103 hFs _ rfl hw h1 10 (by norm_num)
    (by rw [knows4']; simp only; unfold Tall; decide +kernel) kA (by rw [knows4']; simp) dB dC (by rw [knows4']; show Belong ([kA, kB, kC, kD].map Star.at') _ _ _; rw [e4]; exact hb) M hM 200 (by norm_num)
  exact ⟨M, hM, T, T', hT, h1, h2, α, δ, h3, h4⟩

end Verif.Telescope64
