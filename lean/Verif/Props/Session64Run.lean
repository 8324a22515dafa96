import Verif.Props.Session64Stars
import Verif.Props.Delaunay64Run

/-!
# C82, continued: an evening without failures
-/

namespace Verif.Session64

open Verif Verif.Align Verif.Linalg64 Verif.Coord64 Verif.Telescope64 Verif.Spec Verif.Align64

theorem session_append {σ : Type} (L : Fmt) (P : Platform) : ∀ (l l' : List (Libm × Align64.Env σ × Ev)) (T : Tel),
    run L P (l ++ l') T = (run L P l T >>= run L P l')
  | [], _, _ => rfl
  | (M, env, e) :: l, l', T => by
    simp only [List.cons_append, run]
    cases h : step L P M env e T with
    | error e => simp only [bind_error]
    | ok T' => simp only [bind_ok]; exact session_append L P l l' T'

theorem story_split : ∀ (l : List Ev) (e : Ev) (K K' : Known), Story K (l ++ [e]) K' → ∃ K1, Story K l K1 ∧ Learns K1 e K'
  | [], e, K, K', h => by
    cases h with
    | cons h1 h2 => cases h2; exact ⟨K, .nil K, h1⟩
  | x :: l, e, K, K', h => by
    cases h with
    | cons h1 h2 =>
      obtain ⟨K1, h3, h4⟩ := story_split l e _ K' h2
      exact ⟨K1, .cons h1 h3, h4⟩

/-- **C82.** An evening: bytes arrive, the telescope is turned, the alignment is reset.  If at every moment the telescope knows at most one star, or the
orientations at which its stars were made known are well placed, then nothing fails.  If they are well placed at the end, the triangles are a Delaunay
triangulation of them, and if the heights of the triangles are at least `h ≥ 1/3` degrees, each star that belongs to a triple is reported at every later time
within `1 / (100000 h²) + 2^-26`. -/
theorem C82_evening (L : Fmt) (hL : NexStar.Wide L) (P : Platform) (hist : List (Libm × Align64.Env (Option (ℚ × ℚ)) × Ev)) (hF : ∀ e ∈ hist, Fair e)
    (hE : ∀ e ∈ hist, IeeeEnv e.1 e.2.1)
    (hP : ∀ h, h <+: hist → ∀ K, Story nothing (h.map (fun e => e.2.2)) K → Placed (K.stars.map Seen.at')) :
    ∃ T, run L P hist new = .ok T ∧ ∀ K, Story nothing (hist.map (fun e => e.2.2)) K → WellPlaced (K.stars.map Seen.at') →
      Delaunay (K.stars.map Seen.at') T.alignment.vertices T.alignment.triangles ∧
      ∀ h : ℚ, 1 / 3 ≤ h → (∀ a ∈ K.stars, ∀ b ∈ K.stars, ∀ c ∈ K.stars, a.at' ≠ b.at' → b.at' ≠ c.at' → c.at' ≠ a.at' → Tall h a.at' b.at' c.at') →
        ∀ s ∈ K.stars, ∀ y z, Belong (K.stars.map Seen.at') s.at' y z → Reports L P T (1 / (100000 * h ^ 2) + 2⁻¹ ^ 26) s := by
  suffices h : ∃ T, run L P hist new = .ok T ∧ Fits T ∧ ∀ K, Story nothing (hist.map (fun e => e.2.2)) K → WellPlaced (K.stars.map Seen.at') →
      Delaunay (K.stars.map Seen.at') T.alignment.vertices T.alignment.triangles by
    obtain ⟨T, h1, -, h3⟩ := h
    refine ⟨T, h1, fun K hs hw => ⟨h3 K hs hw, fun h hh H s hsk y z hb => ?_⟩⟩
    obtain ⟨l, hf, hrun, hrel⟩ := session_calls hL hF h1 hs
    have hD := h3 K hs hw
    rw [← hrel.at_eq] at hD hb
    obtain ⟨m1, m2⟩ := match_of hrel.stars
    obtain ⟨k, hk, hmk⟩ := m1 s hsk
    refine reports_of hL (k := k) (ty := .triangleIn) hmk fun M' hM' lst hlst => ?_
    refine stars_reading l hf T hrun hD h hh ?_ k hk y z (by rw [hmk.at_eq]; exact hb) M' hM' lst hlst
    intro a ha b hb' c hc n1 n2 n3
    obtain ⟨sa, ia, ea⟩ := m2 a ha
    obtain ⟨sb, ib, eb⟩ := m2 b hb'
    obtain ⟨sc, ic, ec⟩ := m2 c hc
    rw [ea.at_eq, eb.at_eq] at n1
    rw [eb.at_eq, ec.at_eq] at n2
    rw [ec.at_eq, ea.at_eq] at n3
    rw [ea.at_eq, eb.at_eq, ec.at_eq]
    exact H sa ia sb ib sc ic n1 n2 n3
  induction hist using List.reverseRecOn with
  | nil =>
    refine ⟨new, rfl, ⟨by simp [new, Align64.fresh], by simp [new, Align64.fresh]⟩, fun K hs hw => ?_⟩
    cases hs
    obtain ⟨a, ha, -⟩ := hw.spread
    simp [nothing] at ha
  | append_singleton l e ih =>
    obtain ⟨M, env, e⟩ := e
    have hFl : ∀ e ∈ l, Fair e := fun e he => hF e (List.mem_append_left _ he)
    obtain ⟨T, h1, h2, h3⟩ := ih hFl (fun e he => hE e (List.mem_append_left _ he)) (fun h hh => hP h (hh.trans (List.prefix_append _ _)))
    have fe := hF _ (List.mem_append_right l List.mem_cons_self)
    have ee := hE _ (List.mem_append_right l List.mem_cons_self)
    have last : ∀ T', step L P M env e T = .ok T' → run L P (l ++ [(M, env, e)]) new = .ok T' := by
      intro T' h
      rw [session_append, h1, bind_ok]
      simp only [run]
      rw [h, bind_ok]
    have hP' := hP _ (List.prefix_refl _)
    rw [List.map_append] at hP' ⊢
    have split := fun K => story_split (l.map (fun e => e.2.2)) e nothing K
    obtain ⟨K0, s0, u0⟩ := C80_story (l.map (fun e => e.2.2))
    by_cases ht : ∃ g u v, Tells e g u v
    · obtain ⟨g, u, v, ht⟩ := ht
      obtain ⟨calls', hf, hrun, hrel⟩ := session_calls hL hFl h1 s0
      obtain ⟨k0, hFk, hm, hstep⟩ := tells_call (σ := Option (ℚ × ℚ)) hL P fe ht K0.now
      have hR : Rep T (knows (calls calls')) := run_known hf hrun
      obtain ⟨K1, s1, -⟩ := C80_story (l.map (fun e => e.2.2) ++ [e])
      have hl : Learns K0 e K1 := by
        obtain ⟨K2, q1, q2⟩ := split K1 s1
        rw [u0 K2 q1] at q2
        exact q2
      have only : ∀ K, Story nothing (l.map (fun e => e.2.2) ++ [e]) K → K = K1 := by
        intro K hK
        obtain ⟨K2, q1, q2⟩ := split K hK
        rw [u0 K2 q1] at q2
        exact learns_unique q2 hl
      have hrel' := related_tell ht hl hrel hm
      have hp := hP' K1 s1
      rw [← hrel'.at_eq] at hp
      rcases hp with hp | hp
      · obtain ⟨T', k1, k2⟩ := sync_few hFk ee hR h2 (by rw [List.length_map] at hp; exact hp)
        rw [← hstep] at k1
        refine ⟨T', last _ k1, k2, fun K hK hw => ?_⟩
        exfalso
        rw [only K hK, ← hrel'.at_eq] at hw
        exact not_placed hp hw
      · obtain ⟨guess, o, htest, -⟩ := ee
        have hk : knows (calls calls' ++ [.sync k0.ra k0.dec k0.lat k0.lst]) = (knows (calls calls')).step (.sync k0.ra k0.dec k0.lat k0.lst) := by
          unfold knows
          rw [List.foldl_append]
          rfl
        obtain ⟨T', k1, k2⟩ := C82_sync calls' hf T hrun M env _ _ _ _ hFk guess htest (by rw [hk]; exact hp)
        rw [hk] at k2
        refine ⟨T', last _ (by rw [hstep]; exact k1), fits_of (step_rep hFk hR k1) k2, fun K hK hw => ?_⟩
        rw [only K hK, ← hrel'.at_eq]
        exact k2
    · have hn : ∀ g u v, ¬ Tells e g u v := fun g u v h => ht ⟨g, u, v, h⟩
      by_cases ho : ∃ o, e = .turn o
      · obtain ⟨o, rfl⟩ := ho
        refine ⟨_, last _ rfl, h2, fun K hK hw => ?_⟩
        obtain ⟨K2, q1, q2⟩ := split K hK
        cases q2 with
        | turn => exact h3 K2 q1 hw
        | other _ _ h => exact h3 K q1 hw
        | again => cases ‹Tells _ _ _ _›
        | full => cases ‹Tells _ _ _ _›
        | star => cases ‹Tells _ _ _ _›
      by_cases hc : e = .clear
      · subst hc
        refine ⟨_, last _ rfl, ⟨by simp [Telescope64.clear, Align64.clearAll], by simp [Telescope64.clear, Align64.clearAll]⟩, fun K hK hw => ?_⟩
        obtain ⟨K2, q1, q2⟩ := split K hK
        exfalso
        cases q2 with
        | clear =>
          obtain ⟨a, ha, -⟩ := hw.spread
          simp at ha
        | other _ _ _ h => exact absurd rfl ‹Ev.clear ≠ Ev.clear›
        | again => cases ‹Tells _ _ _ _›
        | full => cases ‹Tells _ _ _ _›
        | star => cases ‹Tells _ _ _ _›
      · have hp : Proper e := fe.2.2.2
        refine ⟨T, last _ (silent_step P hp (fun o h => ho ⟨o, h⟩) hc hn M env T), h2, fun K hK hw => ?_⟩
        obtain ⟨K2, q1, q2⟩ := split K hK
        cases q2 with
        | turn o => exact absurd ⟨o, rfl⟩ ho
        | clear => exact absurd rfl hc
        | other => exact h3 _ q1 hw
        | again _ _ _ _ h => exact absurd h (hn _ _ _)
        | full _ _ _ _ h => exact absurd h (hn _ _ _)
        | star _ _ _ _ h => exact absurd h (hn _ _ _)

end Verif.Session64
