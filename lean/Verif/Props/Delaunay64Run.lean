import Verif.Lemmas.Delaunay64One
import Verif.Lemmas.NmeaFloat
import Verif.Props.Delaunay64

/-!
# C82, continued: no sync fails
-/

namespace Verif.Telescope64

open Verif Verif.Align Verif.Coord64 Verif.Spec Verif.Align64 Verif.Linalg64

theorem clamped (env : Align64.Env (Option (ℚ × ℚ))) {M : Libm} (h : IeeeEnv M env) : ∃ guess o, env.test = ieeeTest (fun x => .ok (M.sqrt x)) guess ∧
    env.init = some o ∧ ∃ x, fl b64 (o.1 + o.2) = .ok x := by
  obtain ⟨guess, o, h1, h2, h3, h4⟩ := h
  refine ⟨guess, o, h1, h2, ?_⟩
  have hb : |o.1 + o.2| ≤ (2 : ℚ) ^ (1001 : ℤ) := by
    refine (abs_add_le _ _).trans ?_
    have : (2 : ℚ) ^ (1001 : ℤ) = 2 ^ 1000 + 2 ^ 1000 := by
      rw [show (1001 : ℤ) = ((1000 + 1 : ℕ) : ℤ) by norm_num, zpow_natCast, pow_succ, mul_two]
    rw [this]
    exact add_le_add h3 h4
  have := Nmea.abs_rnd_le (F := b64) (by decide) hb (by decide)
  exact ⟨_, fl_ok' (this.trans_lt (zpow_lt_zpow_right₀ (by norm_num) (by decide)))⟩

/-- The triangles refer to the vertex array and fit. -/
def Fits (T : Tel) : Prop := (∀ t ∈ T.alignment.triangles, t.p1 < 67 ∧ t.p2 < 67 ∧ t.p3 < 67) ∧ T.alignment.triangles.length ≤ 192

/-- A sync that leaves at most one star succeeds. -/
theorem sync_few {M : Libm} {env : Align64.Env (Option (ℚ × ℚ))} {ra dec lat lst : ℚ} (hF : Fair (M, env, .sync ra dec lat lst)) (hE : IeeeEnv M env) {T : Tel}
    {k : Knows} (hR : Rep T k) (hB : Fits T) (hfew : (k.step (.sync ra dec lat lst)).stars.length ≤ 1) :
    ∃ T', step M env (.sync ra dec lat lst) T = .ok T' ∧ Fits T' := by
  obtain ⟨guess, o, g1, g2, g3⟩ := clamped env hE
  obtain ⟨hM, hs, hst, i1, i2, i3⟩ := hF
  obtain ⟨az, alt, e1, a1, a2, a3, n1⟩ := C69_e2h M hM ra dec lat lst i1 i2 i3
  obtain ⟨b, s1, j1, j2, j3, j4⟩ := add_inv env hs T.alignment k.stars hR.inv ⟨k.now, ra, dec, lat, lst⟩ hR.sane i3 (r := ⟨az, alt⟩) a1 a2 a3 n1
  simp only at j1
  simp only [step, addReferencePoint, e1, bind_ok, hR.now, j1]
  rw [step_stars, ← j2.num] at hfew
  have key : ∃ s2, Align64.triangulateActual env s1 = .ok s2 ∧ (∀ t ∈ s2.triangles, t.p1 < 67 ∧ t.p2 < 67 ∧ t.p3 < 67) ∧ s2.triangles.length ≤ 192 := by
    unfold Align64.triangulateActual
    by_cases hn : s1.numVertices > 0
    · have h1 : s1.numVertices = 1 := by omega
      obtain ⟨m, hm⟩ := triangulate_one (sqrt := fun x => .ok (M.sqrt x)) (guess := guess) g3 (mem := s1.vertices) (by rw [j2.len]; omega) (by
        intro v hv
        rw [← h1] at hv
        obtain ⟨e, -, he⟩ := j2.stores.mem' hv
        exact he.sane.2)
      rw [if_pos hn, g1, g2, h1, hm, bind_ok, ← h1]
      obtain ⟨f1, -, -⟩ := triangulate_frame le_rfl hm
      obtain ⟨s2, h2⟩ := updateMatrices_run env (s := { s1 with vertices := m, triangles := [] }) (by rw [f1]; exact j2.len) j2.mats (by simp) (by simp)
      obtain ⟨-, -, h3, -⟩ := updateMatrices_frame env _ _ h2
      refine ⟨s2, h2, ?_⟩
      rw [h3]
      simp
    · rw [if_neg hn]
      obtain ⟨s2, h2⟩ := updateMatrices_run env j2.len j2.mats (by rw [j3]; exact hB.2) (by rw [j3]; exact hB.1)
      obtain ⟨-, -, h3, -⟩ := updateMatrices_frame env _ _ h2
      refine ⟨s2, h2, ?_⟩
      rw [h3, j3]
      exact hB
  obtain ⟨s2, h2, h3⟩ := key
  simp only [h2, bind_ok, pure_ok]
  exact ⟨_, rfl, h3⟩

/-- At most one position is not well placed. -/
theorem not_placed {pts : List (Pt ℚ)} (hp : pts.length ≤ 1) : ¬ WellPlaced pts := by
  intro hw
  obtain ⟨a, ha, b, hb, hab⟩ := hw.spread
  have : a = b := by
    obtain ⟨i, hi, rfl⟩ := List.mem_iff_getElem.1 ha
    obtain ⟨j, hj, rfl⟩ := List.mem_iff_getElem.1 hb
    have : i = j := by omega
    subst this; rfl
  subst this
  simp at hab
  norm_num at hab

theorem fits_of {T : Tel} {k : Knows} (hR : Rep T k) (hD : Delaunay (k.stars.map Star.at') T.alignment.vertices T.alignment.triangles) : Fits T := by
  have hc := hD.count
  rw [List.length_map] at hc
  have cap := hR.inv.cap
  refine ⟨?_, by omega⟩
  intro t ht
  obtain ⟨a, -, b, -, c, -, ⟨x1, x2, x3⟩, -⟩ := hD.empty t ht
  have lt : ∀ {i a}, (T.alignment.vertices[i]?).map VertexPair.actual = some a → i < 67 := by
    intro i a h
    rw [← hR.inv.len]
    by_contra hcon
    rw [List.getElem?_eq_none (by omega)] at h
    cases h
  exact ⟨lt x1, lt x2, lt x3⟩

theorem runs_append {σ : Type} : ∀ (l l' : List (Libm × Align64.Env σ × Op)) (T : Tel), run (l ++ l') T = (run l T >>= run l')
  | [], _, _ => rfl
  | (M, env, op) :: l, l', T => by
    simp only [List.cons_append, run]
    cases h : step M env op T with
    | error e => simp only [bind_error]
    | ok T' => simp only [bind_ok]; exact runs_append l l' T'

/-- **C82.** Syncing never fails: if at every moment of the history the telescope knows at most one star, or the orientations at which its stars were synced are
well placed, then no call fails, and if they are well placed at the end, the triangles are a Delaunay triangulation of these orientations. -/
theorem C82_run (hist : List (Libm × Align64.Env (Option (ℚ × ℚ)) × Op)) (hF : ∀ e ∈ hist, Fair e) (hE : ∀ e ∈ hist, IeeeEnv e.1 e.2.1)
    (hP : ∀ h, h <+: hist → Placed ((knows (calls h)).stars.map Star.at')) :
    ∃ T, run hist new = .ok T ∧ (WellPlaced ((knows (calls hist)).stars.map Star.at') →
      Delaunay ((knows (calls hist)).stars.map Star.at') T.alignment.vertices T.alignment.triangles) := by
  suffices h : ∃ T, run hist new = .ok T ∧ Fits T ∧ (WellPlaced ((knows (calls hist)).stars.map Star.at') →
      Delaunay ((knows (calls hist)).stars.map Star.at') T.alignment.vertices T.alignment.triangles) by
    obtain ⟨T, h1, -, h3⟩ := h
    exact ⟨T, h1, h3⟩
  induction hist using List.reverseRecOn with
  | nil =>
    refine ⟨new, rfl, ⟨by simp [new, Align64.fresh], by simp [new, Align64.fresh]⟩, fun hw => ?_⟩
    obtain ⟨a, ha, -⟩ := hw.spread
    simp [calls, knows] at ha
  | append_singleton l e ih =>
    obtain ⟨M, env, op⟩ := e
    obtain ⟨T, h1, h2, h3⟩ := ih (fun e he => hF e (List.mem_append_left _ he)) (fun e he => hE e (List.mem_append_left _ he))
      (fun h hh => hP h (hh.trans (List.prefix_append _ _)))
    have hR : Rep T (knows (calls l)) := run_known (fun e he => hF e (List.mem_append_left _ he)) h1
    have hK : knows (calls (l ++ [(M, env, op)])) = (knows (calls l)).step op := by
      unfold knows calls
      rw [List.map_append, List.foldl_append]
      rfl
    have hp := hP _ (List.prefix_refl _)
    have fe := hF _ (List.mem_append_right l List.mem_cons_self)
    have ee := hE _ (List.mem_append_right l List.mem_cons_self)
    have last : ∀ T', step M env op T = .ok T' → run (l ++ [(M, env, op)]) new = .ok T' := by
      intro T' h
      rw [runs_append, h1, bind_ok]
      simp only [run]
      rw [h, bind_ok]
    rw [hK] at hp ⊢
    cases op with
    | orient o => exact ⟨_, last _ rfl, h2, h3⟩
    | clear =>
      refine ⟨_, last _ rfl, ⟨by simp [Telescope64.clear, Align64.clearAll], by simp [Telescope64.clear, Align64.clearAll]⟩, fun hw => ?_⟩
      obtain ⟨a, ha, -⟩ := hw.spread
      simp [Knows.step] at ha
    | sync ra dec lat lst =>
      rcases hp with hp | hp
      · obtain ⟨T', k1, k2⟩ := sync_few fe ee hR h2 (by rw [List.length_map] at hp; exact hp)
        refine ⟨T', last _ k1, k2, fun hw => ?_⟩
        exact absurd hw (not_placed hp)
      · obtain ⟨guess, o, ht, -⟩ := ee
        have hk : knows (calls l ++ [.sync ra dec lat lst]) = (knows (calls l)).step (.sync ra dec lat lst) := by
          unfold knows
          rw [List.foldl_append]
          rfl
        obtain ⟨T', k1, k2⟩ := C82_sync l (fun e he => hF e (List.mem_append_left _ he)) T h1 M env ra dec lat lst fe guess ht (by rw [hk]; exact hp)
        rw [hk] at k2
        have r1 := step_rep fe hR k1
        exact ⟨T', last _ k1, fits_of r1 k2, fun _ => k2⟩

/-- **C82.** ... and if moreover the heights of the triangles formed by any three of the orientations are at least `h ≥ 1/3` degrees, each star that belongs
to a triple is reported. -/
theorem C82_run_stars (hist : List (Libm × Align64.Env (Option (ℚ × ℚ)) × Op)) (hF : ∀ e ∈ hist, Fair e) (hE : ∀ e ∈ hist, IeeeEnv e.1 e.2.1)
    (hP : ∀ h, h <+: hist → Placed ((knows (calls h)).stars.map Star.at')) (h : ℚ) (hh : 1 / 3 ≤ h)
    (H : ∀ a ∈ (knows (calls hist)).stars, ∀ b ∈ (knows (calls hist)).stars, ∀ c ∈ (knows (calls hist)).stars, a.at' ≠ b.at' → b.at' ≠ c.at' →
      c.at' ≠ a.at' → Tall h a.at' b.at' c.at') (s : Star) (hk : s ∈ (knows (calls hist)).stars) (y z : Pt ℚ)
    (hb : Belong ((knows (calls hist)).stars.map Star.at') s.at' y z) (M' : Libm) (hM : Accurate M') (θ : ℚ) (hθ : |θ| ≤ 361) :
    ∃ T α δ, run hist new = .ok T ∧ getCalibratedOrientation M' (setOrientation T s.at') s.lat θ = .ok (.triangleIn, α, δ) ∧
      SamePlace (1 / (100000 * h ^ 2)) s α δ θ := by
  obtain ⟨T, hr, hD⟩ := C82_run hist hF hE hP
  have hw : WellPlaced ((knows (calls hist)).stars.map Star.at') := by
    rcases hP hist (List.prefix_refl _) with hp | hp
    · exfalso
      obtain ⟨ha, hb, hc, hn, -⟩ := hb
      have e : ∀ x ∈ (knows (calls hist)).stars.map Star.at', ∀ y ∈ (knows (calls hist)).stars.map Star.at', x = y := by
        intro a ha b hb
        obtain ⟨i, hi, rfl⟩ := List.mem_iff_getElem.1 ha
        obtain ⟨j, hj, rfl⟩ := List.mem_iff_getElem.1 hb
        have : i = j := by omega
        subst this; rfl
      apply hn
      rw [e _ ha _ hb, e _ hb _ hc]
      unfold orient; ring
    · exact hp
  obtain ⟨α, δ, h1, -, -, -, h2⟩ := stars_reading hist hF T hr (hD hw) h hh H s hk y z hb M' hM θ hθ
  exact ⟨T, α, δ, hr, h1, h2⟩

end Verif.Telescope64
