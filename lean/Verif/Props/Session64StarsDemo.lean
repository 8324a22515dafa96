import Verif.Props.Session64Stars
import Verif.Props.Session64Demo
import Verif.Props.Delaunay64Demo

/-!
# C82: a session with four stars

The hypotheses of `Props/Session64Stars.lean` are met.
-/

namespace Verif.Session64

open Verif Verif.Align Verif.Linalg64 Verif.Coord64 Verif.Telescope64 Verif.Spec Verif.Spec.NexStar

/-- A goto message for right ascension 120°, declination 40°. -/
def evD : Ev := .goto (fixAt 20) (positionMessage 0 1431655765 477218588) 24

theorem tells_D : Tells evD (fixAt 20) 1431655765 477218588 :=
  .goto (fixAt 20) (positionMessage 0 1431655765 477218588) 24 (by decide +kernel) (by decide +kernel) (by decide +kernel)

def sD : Seen := ⟨dD, wire 1431655765, wire 477218588, fixAt 20⟩

/-- C82_session applies: three stars as in `Props/Session64Demo.lean`, then the telescope is turned to a fourth one. -/
example : ∃ M, Accurate M ∧ ∃ T T', run x87 Platform.nativeWrap (night3 M ++ [(M, envOf M, .turn dD)]) new = .ok T ∧
    step x87 Platform.nativeWrap M (envOf M) evD T = .ok T' ∧ Align64.Delaunay fourStars T'.alignment.vertices T'.alignment.triangles ∧
    Reports x87 Platform.nativeWrap T' (1 / (100000 * ((10 : ℚ) : ℝ) ^ 2) + 2⁻¹ ^ 26) sA := by
  obtain ⟨M, hM⟩ := accurate_exists
  obtain ⟨hF, T, K, hr, hs, hk⟩ := session3 NexStar.wide_x87 Platform.nativeWrap hM
  have hsort : IsSort (envOf M).sort := fun l => ⟨List.perm_insertionSort _ l, List.pairwise_insertionSort _ l⟩
  have st : ∀ i, |(envOf M).stray i| ≤ 1 := fun i => by show |(0 : ℚ)| ≤ 1; norm_num
  have hF' : ∀ e ∈ night3 M ++ [(M, envOf M, Ev.turn dD)], Fair e := by
    intro e he
    rcases List.mem_append.1 he with he | he
    · exact hF e he
    · rw [List.mem_singleton.1 he]
      exact ⟨hM, hsort, st, ⟨rep_of (by decide +kernel), rep_of (by decide +kernel)⟩, by decide +kernel, by decide +kernel⟩
  have hr' : run x87 Platform.nativeWrap (night3 M ++ [(M, envOf M, Ev.turn dD)]) new = .ok (setOrientation T dD) := by
    rw [run_append, hr, bind_ok]; rfl
  have hs' : Story nothing ((night3 M ++ [(M, envOf M, Ev.turn dD)]).map (fun e => e.2.2)) { K with now := dD } := by
    rw [List.map_append]
    exact story_append hs (.cons (.turn K dD) (.nil _))
  have hl : Learns { K with now := dD } evD ⟨dD, K.stars ++ [sD]⟩ :=
    .star { K with now := dD } evD (fixAt 20) _ _ tells_D (by rw [hk]; show dD ∉ [dA, dB, dC]; decide +kernel) (by rw [hk]; simp)
  have e4 : ((⟨dD, K.stars ++ [sD]⟩ : Known).stars.map Seen.at') = fourStars := by rw [hk]; rfl
  obtain ⟨T', h1, h2, h3⟩ := C82_session x87 NexStar.wide_x87 Platform.nativeWrap _ hF' _ hr' _ hs' M (envOf M) evD
    ⟨hM, hsort, st, proper_goto (by norm_num) (by norm_num) _ _⟩ _ _ _ tells_D _ hl _ rfl (by rw [e4]; exact four_placed)
  rw [e4] at h2 h3
  refine ⟨M, hM, _, T', hr', h1, h2, ?_⟩
  have hb : Belong fourStars dA dB dC := by
    have ho : orient dA dB dC ≠ 0 := by decide +kernel
    exact ⟨by decide +kernel, by decide +kernel, by decide +kernel, ho, centreOf dA dB dC, by unfold Circumcentre; decide +kernel, by decide +kernel,
      dA, by decide +kernel, dC, by decide +kernel, by decide +kernel⟩
  have tall : ∀ a ∈ fourStars, ∀ b ∈ fourStars, ∀ c ∈ fourStars, a ≠ b → b ≠ c → c ≠ a → Tall 10 a b c := by unfold Tall; decide +kernel
  refine h3 10 (by norm_num) ?_ sA (by simp [hk]) dB dC hb
  intro a ha b hb c hc
  have mem : ∀ s ∈ K.stars ++ [sD], s.at' ∈ fourStars := fun s hs => e4 ▸ List.mem_map_of_mem hs
  exact tall _ (mem a ha) _ (mem b hb) _ (mem c hc)

end Verif.Session64
