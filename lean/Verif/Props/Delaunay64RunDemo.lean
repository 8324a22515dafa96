import Verif.Props.Delaunay64Run
import Verif.Props.Delaunay64Demo

/-!
# C82: an evening with four stars never fails

The hypotheses of `Props/Delaunay64Run.lean` are met.
-/

namespace Verif.Telescope64

open Verif Verif.Align Verif.Coord64 Verif.Spec Verif.Align64 Verif.Linalg64

/-- What has to be checked. -/
theorem placed_by {p : Pt ℚ} {ps : List (Pt ℚ)} {s : Pt ℚ × Pt ℚ × Pt ℚ} (hs : Align64.superPts p ps = .ok s)
    (h1 : ∀ a ∈ p :: ps, (rnd b64 a.x = a.x ∧ rnd b64 a.y = a.y) ∧ |a.x| ≤ 1000 ∧ |a.y| ≤ 1000) (h2 : (p :: ps).Nodup)
    (h3 : ∀ a ∈ p :: ps, ∀ b ∈ p :: ps, a.y = b.y ∨ 2 / 1000000 ≤ |a.y - b.y|)
    (h4 : ∃ a ∈ p :: ps, ∃ b ∈ p :: ps, 1 / 100000 ≤ |a.x - b.x| ∨ 1 / 100000 ≤ |a.y - b.y|)
    (key : ∀ a ∈ [s.1, s.2.1, s.2.2] ++ p :: ps, ∀ b ∈ [s.1, s.2.1, s.2.2] ++ p :: ps, ∀ c ∈ [s.1, s.2.1, s.2.2] ++ p :: ps, orient a b c < 0 →
      ∀ q ∈ p :: ps, q ≠ a → q ≠ b → q ≠ c →
        steepness a b c ^ 2 * conditioning a b c * reach (centreOf a b c) a b c q ^ 2 / 2 ^ 40 < |Align.dist2 (centreOf a b c) q - Align.dist2 (centreOf a b c) a|) :
    WellPlaced (p :: ps) := by
  refine ⟨fun a ha => ⟨⟨rep_of (h1 a ha).1.1, rep_of (h1 a ha).1.2⟩, (h1 a ha).2⟩, h2, h3, h4, ?_⟩
  rintro s' ⟨p', ps', hp, hs'⟩
  cases hp
  rw [hs] at hs'
  cases hs'
  intro a ha b hb c hc ho q hq k1 k2 k3 m hm
  rw [centre_unique (ne_of_lt ho) hm]
  exact key a ha b hb c hc ho q hq k1 k2 k3

theorem two_placed : WellPlaced [dA, dB] :=
  placed_by (s := (⟨-109243 / 128, -751 / 128⟩, ⟨16237 / 128, 131003 / 128⟩, ⟨141717 / 128, -751 / 128⟩)) (by decide +kernel) (by decide +kernel)
    (by decide +kernel) (by decide +kernel) (by decide +kernel) (by decide +kernel)

theorem three_placed : WellPlaced [dA, dB, dC] :=
  placed_by (s := (⟨-304147 / 128, -10905 / 128⟩, ⟨21973 / 128, 331521 / 128⟩, ⟨348093 / 128, -10905 / 128⟩)) (by decide +kernel) (by decide +kernel)
    (by decide +kernel) (by decide +kernel) (by decide +kernel) (by decide +kernel)

/-- At every moment of the evening. -/
theorem stages {l : List (Pt ℚ)} (h : l ∈ [[], [dA], [dA, dB], [dA, dB, dC], fourStars]) : Placed l := by
  simp only [List.mem_cons, List.not_mem_nil, or_false] at h
  rcases h with rfl | rfl | rfl | rfl | rfl
  · exact Or.inl (by simp)
  · exact Or.inl (by simp)
  · exact Or.inr two_placed
  · exact Or.inr three_placed
  · exact Or.inr four_placed

/-- An environment that calculates with the square root of the library; `xc` and `r` happen to be zero. -/
def envRun (M : Libm) : Align64.Env (Option (ℚ × ℚ)) :=
  ⟨Align64.ieeeTest (fun x => .ok (M.sqrt x)) (fun _ _ _ _ => (true, true)), some (0, 0), List.insertionSort (fun u v => u.actual.x ≤ v.actual.x), fun _ => 0⟩

theorem envRun_ieee (M : Libm) : IeeeEnv M (envRun M) := ⟨_, _, rfl, rfl, by norm_num, by norm_num⟩

/-- The evening: four times the telescope is turned, and a star is synced; then it is turned back. -/
def evening : List Op := ops kA ++ ops kB ++ ops kC ++ ops kD ++ [.orient dA]

/-- C82_run and C82_run_stars apply. -/
example : ∃ M, Accurate M ∧ ∃ T, run (evening.map (fun o => (M, envRun M, o))) new = .ok T ∧ Delaunay fourStars T.alignment.vertices T.alignment.triangles ∧
    ∃ α δ, getCalibratedOrientation M (setOrientation T dA) 48 200 = .ok (.triangleIn, α, δ) ∧ SamePlace (1 / (100000 * (10 : ℚ) ^ 2)) kA α δ 200 := by
  obtain ⟨M, hM⟩ := accurate_exists
  have hc : calls (evening.map (fun o => (M, envRun M, o))) = evening := by
    unfold calls; rw [List.map_map]; exact List.map_id _
  have hs : IsSort (envRun M).sort := fun l => ⟨List.perm_insertionSort _ l, List.pairwise_insertionSort _ l⟩
  have st : ∀ i, |(envRun M).stray i| ≤ 1 := fun i => by show |(0 : ℚ)| ≤ 1; norm_num
  have sane : ∀ o ∈ evening, Sane o := by
    have sd : ∀ p ∈ fourStars, SaneDirection p := by
      have h : ∀ p ∈ fourStars, (rnd b64 p.x = p.x ∧ rnd b64 p.y = p.y) ∧ |p.x| ≤ 360 ∧ |p.y| ≤ 91 := by decide +kernel
      exact fun p hp => ⟨⟨rep_of (h p hp).1.1, rep_of (h p hp).1.2⟩, (h p hp).2⟩
    intro o ho
    simp only [evening, ops, List.cons_append, List.nil_append, List.mem_cons, List.not_mem_nil, or_false] at ho
    rcases ho with rfl | rfl | rfl | rfl | rfl | rfl | rfl | rfl | rfl
    · exact sd dA (by decide +kernel)
    · unfold Sane; decide +kernel
    · exact sd dB (by decide +kernel)
    · unfold Sane; decide +kernel
    · exact sd dC (by decide +kernel)
    · unfold Sane; decide +kernel
    · exact sd dD (by decide +kernel)
    · unfold Sane; decide +kernel
    · exact sd dA (by decide +kernel)
  have hF : ∀ e ∈ evening.map (fun o => (M, envRun M, o)), Fair e := by
    intro e he
    obtain ⟨o, ho, rfl⟩ := List.mem_map.1 he
    exact ⟨hM, hs, st, sane o ho⟩
  have hE : ∀ e ∈ evening.map (fun o => (M, envRun M, o)), IeeeEnv e.1 e.2.1 := by
    intro e he
    obtain ⟨o, ho, rfl⟩ := List.mem_map.1 he
    exact envRun_ieee M
  have hP : ∀ h, h <+: evening.map (fun o => (M, envRun M, o)) → Placed ((knows (calls h)).stars.map Star.at') := by
    intro h hh
    have h1 : calls h <+: evening := by rw [← hc]; exact hh.map _
    have key : ∀ o ∈ evening.inits, (knows o).stars.map Star.at' ∈ [[], [dA], [dA, dB], [dA, dB, dC], fourStars] := by decide +kernel
    exact stages (key _ (List.mem_inits _ _ |>.2 h1))
  have hk : (knows evening).stars = [kA, kB, kC, kD] := by decide +kernel
  have e4 : ([kA, kB, kC, kD].map Star.at') = fourStars := by decide +kernel
  have hb : Belong fourStars dA dB dC := by
    have ho : orient dA dB dC ≠ 0 := by decide +kernel
    exact ⟨by decide +kernel, by decide +kernel, by decide +kernel, ho, centreOf dA dB dC, by unfold Circumcentre; decide +kernel, by decide +kernel,
      dA, by decide +kernel, dC, by decide +kernel, by decide +kernel⟩
  obtain ⟨T, h1, h2⟩ := C82_run _ hF hE hP
  obtain ⟨T', α, δ, h3, h4, h5⟩ := C82_run_stars _ hF hE hP 10 (by norm_num) (by rw [hc, hk]; unfold Tall; decide +kernel) kA (by rw [hc, hk]; simp) dB dC
    (by rw [hc, hk, e4]; exact hb) M hM 200 (by norm_num)
  rw [h1] at h3
  cases h3
  rw [hc, hk, e4] at h2
  exact ⟨M, hM, T, h1, h2 four_placed, α, δ, h4, h5⟩

end Verif.Telescope64
