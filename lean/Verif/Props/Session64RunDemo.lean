import Verif.Props.Session64Run
import Verif.Props.Session64StarsDemo
import Verif.Props.Delaunay64RunDemo

/-!
# C82: an evening from bytes to bytes that never fails

The hypotheses of `Props/Session64Run.lean` are met.
-/

namespace Verif.Session64

open Verif Verif.Align Verif.Linalg64 Verif.Coord64 Verif.Telescope64 Verif.Spec Verif.Spec.NexStar

/-- One thing is learnt after the other. -/
def Chain : Known → List Ev → List Known → Prop
  | _, [], [] => True
  | K, e :: es, K' :: Ks => Learns K e K' ∧ Chain K' es Ks
  | _, _, _ => False

theorem chain_story : ∀ (es : List Ev) (Ks : List Known) (K : Known), Chain K es Ks → ∀ pre, pre <+: es → ∀ K', Story K pre K' → K' ∈ K :: Ks
  | _, _, K, _, [], _, K', h => by cases h; exact List.mem_cons_self
  | [], _, _, _, _ :: _, hp, _, _ => by simp at hp
  | _ :: _, [], _, hc, _, _, _, _ => by cases hc
  | e :: es, K1 :: Ks, K, hc, x :: pre, hp, K', h => by
    obtain ⟨rfl, hp'⟩ := List.cons_prefix_cons.1 hp
    cases h with
    | cons h1 h2 =>
      have := learns_unique h1 hc.1
      subst this
      exact List.mem_cons_of_mem _ (chain_story es Ks _ hc.2 pre hp' K' h2)

/-- The evening: four stars, then the telescope is turned back to the first. -/
def evening : List Ev := [.turn dA, evA, .turn dB, evB, .turn dC, evC, .turn dD, evD, .turn dA]

theorem evening_chain : Chain nothing evening [⟨dA, []⟩, ⟨dA, [sA]⟩, ⟨dB, [sA]⟩, ⟨dB, [sA, sB]⟩, ⟨dC, [sA, sB]⟩, ⟨dC, [sA, sB, sC]⟩, ⟨dD, [sA, sB, sC]⟩,
    ⟨dD, [sA, sB, sC, sD]⟩, ⟨dA, [sA, sB, sC, sD]⟩] :=
  ⟨.turn nothing dA, .star ⟨dA, []⟩ evA _ _ _ tells_A (by simp) (by simp), .turn _ dB,
    .star ⟨dB, [sA]⟩ evB _ _ _ tells_B (by show dB ∉ [dA]; decide +kernel) (by simp), .turn _ dC,
    .star ⟨dC, [sA, sB]⟩ evC _ _ _ tells_C (by show dC ∉ [dA, dB]; decide +kernel) (by simp), .turn _ dD,
    .star ⟨dD, [sA, sB, sC]⟩ evD _ _ _ tells_D (by show dD ∉ [dA, dB, dC]; decide +kernel) (by simp), .turn _ dA, trivial⟩

/-- C82_evening applies. -/
example : ∃ M, Accurate M ∧ ∃ T, run x87 Platform.nativeWrap (evening.map (fun e => (M, envRun M, e))) new = .ok T ∧
    Align64.Delaunay fourStars T.alignment.vertices T.alignment.triangles ∧
    Reports x87 Platform.nativeWrap T (1 / (100000 * ((10 : ℚ) : ℝ) ^ 2) + 2⁻¹ ^ 26) sA := by
  obtain ⟨M, hM⟩ := accurate_exists
  have hc : ∀ l : List Ev, (l.map (fun e => (M, envRun M, e))).map (fun e => e.2.2) = l := by
    intro l; rw [List.map_map]; exact List.map_id _
  have hs : IsSort (envRun M).sort := fun l => ⟨List.perm_insertionSort _ l, List.pairwise_insertionSort _ l⟩
  have st : ∀ i, |(envRun M).stray i| ≤ 1 := fun i => by show |(0 : ℚ)| ≤ 1; norm_num
  have proper : ∀ e ∈ evening, Proper e := by
    intro e he
    simp only [evening, List.mem_cons, List.not_mem_nil, or_false] at he
    rcases he with rfl | rfl | rfl | rfl | rfl | rfl | rfl | rfl | rfl
    · exact sane_dA
    · exact proper_goto (by norm_num) (by norm_num) _ _
    · exact sane_dB
    · exact proper_evB
    · exact sane_dC
    · exact proper_goto (by norm_num) (by norm_num) _ _
    · exact ⟨⟨rep_of (by decide +kernel), rep_of (by decide +kernel)⟩, by decide +kernel, by decide +kernel⟩
    · exact proper_goto (by norm_num) (by norm_num) _ _
    · exact sane_dA
  have hF : ∀ e ∈ evening.map (fun e => (M, envRun M, e)), Fair e := by
    intro e he
    obtain ⟨o, ho, rfl⟩ := List.mem_map.1 he
    exact ⟨hM, hs, st, proper o ho⟩
  have hE : ∀ e ∈ evening.map (fun e => (M, envRun M, e)), Align64.IeeeEnv e.1 e.2.1 := by
    intro e he
    obtain ⟨o, ho, rfl⟩ := List.mem_map.1 he
    exact envRun_ieee M
  have hP : ∀ h, h <+: evening.map (fun e => (M, envRun M, e)) → ∀ K, Story nothing (h.map (fun e => e.2.2)) K → Align64.Placed (K.stars.map Seen.at') := by
    intro h hh K hK
    have h1 : h.map (fun e => e.2.2) <+: evening := by rw [← hc evening]; exact hh.map _
    have := chain_story _ _ _ evening_chain _ h1 K hK
    refine stages ?_
    simp only [List.mem_cons, List.not_mem_nil, or_false] at this
    rcases this with rfl | rfl | rfl | rfl | rfl | rfl | rfl | rfl | rfl | rfl <;> simp [nothing, sA, sB, sC, sD, fourStars]
  obtain ⟨T, h1, h2⟩ := C82_evening x87 NexStar.wide_x87 Platform.nativeWrap _ hF hE hP
  have hst : Story nothing evening ⟨dA, [sA, sB, sC, sD]⟩ := by
    have c := evening_chain
    exact .cons c.1 (.cons c.2.1 (.cons c.2.2.1 (.cons c.2.2.2.1 (.cons c.2.2.2.2.1 (.cons c.2.2.2.2.2.1 (.cons c.2.2.2.2.2.2.1
      (.cons c.2.2.2.2.2.2.2.1 (.cons c.2.2.2.2.2.2.2.2.1 (.nil _)))))))))
  obtain ⟨h3, h4⟩ := h2 ⟨dA, [sA, sB, sC, sD]⟩ (by rw [hc]; exact hst) four_placed
  have hb : Align.Belong fourStars dA dB dC := by
    have ho : orient dA dB dC ≠ 0 := by decide +kernel
    exact ⟨by decide +kernel, by decide +kernel, by decide +kernel, ho, centreOf dA dB dC, by unfold Circumcentre; decide +kernel, by decide +kernel,
      dA, by decide +kernel, dC, by decide +kernel, by decide +kernel⟩
  have tall : ∀ a ∈ fourStars, ∀ b ∈ fourStars, ∀ c ∈ fourStars, a ≠ b → b ≠ c → c ≠ a → Tall 10 a b c := by unfold Tall; decide +kernel
  refine ⟨M, hM, T, h1, h3, h4 10 (by norm_num) ?_ sA (by simp) dB dC hb⟩
  intro a ha b hb c hc
  have mem : ∀ s ∈ [sA, sB, sC, sD], s.at' ∈ fourStars := fun s hs => List.mem_map_of_mem hs
  exact tall _ (mem a ha) _ (mem b hb) _ (mem c hc)

end Verif.Session64
