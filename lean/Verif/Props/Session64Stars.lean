import Verif.Props.Delaunay64
import Verif.Props.Session64

/-!
# C82, continued: a session with any number of stars
-/

namespace Verif.Session64

open Verif Verif.Align Verif.Linalg64 Verif.Coord64 Verif.Telescope64 Verif.Spec Verif.Align64

variable {σ : Type}

/-- A message that tells a position is a call of `addReferencePoint`. -/
theorem tells_call {L : Fmt} (hL : NexStar.Wide L) (P : Platform) {M : Libm} {env : Align64.Env σ} {e : Ev} (hF : Fair (M, env, e)) {g : Nmea.Gnss} {u v : Nat}
    (ht : Tells e g u v) (now : Pt ℚ) : ∃ k : Star, Telescope64.Fair (M, env, Op.sync k.ra k.dec k.lat k.lst) ∧ Match L ⟨now, wire u, wire v, g⟩ k ∧
      ∀ T, step L P M env e T = Telescope64.step M env (.sync k.ra k.dec k.lat k.lst) T := by
  obtain ⟨hM, hsort, hst, hp⟩ := hF
  obtain ⟨⟨θ, hθ⟩, hlat, hu, hv, dec, hdec, heq⟩ := tells_step (σ := σ) hL P ht hp
  obtain ⟨t, ht1, ht2, ht3, -⟩ := sidereal hL hθ
  obtain ⟨u1, u2⟩ := wire_range hu
  obtain ⟨v1, v2⟩ := wire_range hv
  have tiny : (2⁻¹ : ℚ) ^ 1000 ≤ 1 / 2 ^ 24 := by
    calc (2⁻¹ : ℚ) ^ 1000 ≤ 2⁻¹ ^ 24 := pow_le_pow_of_le_one (by norm_num) (by norm_num) (by norm_num)
      _ = 1 / 2 ^ 24 := by norm_num
  have pos : (0 : ℚ) < 2⁻¹ ^ 1000 := pow_pos (by norm_num) _
  generalize (2⁻¹ : ℚ) ^ 1000 = ε at tiny ht2 pos
  generalize (1 / 2 ^ 24 : ℚ) = η at tiny u2 v2
  refine ⟨⟨now, wire u, dec, g.latitude, t⟩, ⟨hM, hsort, hst, ?_, ?_, hlat⟩, ⟨rfl, rfl, hdec, rfl, ht1⟩, fun T => ?_⟩
  · show |t - wire u| ≤ 360
    rw [abs_le]; constructor <;> linarith
  · show |dec| ≤ 361
    rcases hdec with rfl | rfl <;> rw [abs_le] <;> constructor <;> linarith
  · rw [heq, ht1, bind_ok]; rfl

/-- ... and it is remembered as one. -/
theorem related_tell {L : Fmt} {e : Ev} {g : Nmea.Gnss} {u v : Nat} (ht : Tells e g u v) {K K' : Known} (hl : Learns K e K') {k : Knows} (hr : Related L K k)
    {k0 : Star} (hm : Match L ⟨K.now, wire u, wire v, g⟩ k0) : Related L K' (k.step (.sync k0.ra k0.dec k0.lat k0.lst)) := by
  unfold Knows.step
  simp only
  cases hl with
  | turn o => cases ht
  | clear => cases ht
  | other _ _ _ h => exact absurd ht (h _ _ _)
  | again _ _ _ _ _ hmem =>
    rw [hr.at_eq, if_pos (by rw [hr.now_eq]; exact hmem)]
    exact hr
  | full _ _ _ _ _ hmem hlen =>
    rw [hr.at_eq, hr.now_eq, if_neg hmem, if_pos (by rw [← hr.stars.length_eq]; exact hlen)]
    exact ⟨rfl, .nil⟩
  | star _ g' u' v' ht' hmem hlen =>
    obtain ⟨rfl, rfl, rfl⟩ := tells_unique ht ht'
    rw [hr.at_eq, if_neg (by rw [hr.now_eq]; exact hmem), if_neg (by rw [← hr.stars.length_eq]; omega)]
    exact ⟨hr.now_eq, List.rel_append hr.stars (.cons ⟨hr.now_eq, hm.ra_eq, hm.dec_eq, hm.lat_eq, hm.lst_eq⟩ .nil)⟩

/-- Matching stars. -/
theorem match_of {L : Fmt} : ∀ {l : List Seen} {l' : List Star}, List.Forall₂ (Match L) l l' → (∀ s ∈ l, ∃ k ∈ l', Match L s k) ∧ ∀ k ∈ l', ∃ s ∈ l, Match L s k
  | _, _, .nil => ⟨by simp, by simp⟩
  | _, _, .cons h t => by
    obtain ⟨h1, h2⟩ := match_of t
    constructor
    · intro s hs
      rcases List.mem_cons.1 hs with rfl | hs
      · exact ⟨_, List.mem_cons_self, h⟩
      · obtain ⟨k, hk, hm⟩ := h1 s hs
        exact ⟨k, List.mem_cons_of_mem _ hk, hm⟩
    · intro k hk
      rcases List.mem_cons.1 hk with rfl | hk
      · exact ⟨_, List.mem_cons_self, h⟩
      · obtain ⟨s, hs, hm⟩ := h2 k hk
        exact ⟨s, List.mem_cons_of_mem _ hs, hm⟩

/-- **C82.** A session with any number of stars, from bytes to bytes.  A goto message or sync request that leaves well-placed orientations does not fail, and
the triangles are then a Delaunay triangulation of the orientations.  If the heights of all triangles between them are at least `h ≥ 1/3` degrees, then each
star that belongs to a triple is reported, with the telescope turned back to it, at every later time within `1 / (100000 h²) + 2^-26`. -/
theorem C82_session (L : Fmt) (hL : NexStar.Wide L) (P : Platform) (hist : List (Libm × Align64.Env (Option (ℚ × ℚ)) × Ev)) (hF : ∀ e ∈ hist, Fair e) (T : Tel)
    (hr : run L P hist new = .ok T) (K : Known) (hs : Story nothing (hist.map (fun e => e.2.2)) K) (M : Libm) (env : Align64.Env (Option (ℚ × ℚ))) (e : Ev)
    (hFe : Fair (M, env, e)) (g : Nmea.Gnss) (u v : Nat) (ht : Tells e g u v) (K' : Known) (hl : Learns K e K')
    (guess : Pt ℚ → Pt ℚ → Pt ℚ → Pt ℚ → Bool × Bool) (htest : env.test = ieeeTest (fun x => .ok (M.sqrt x)) guess)
    (hw : WellPlaced (K'.stars.map Seen.at')) :
    ∃ T', step L P M env e T = .ok T' ∧ Delaunay (K'.stars.map Seen.at') T'.alignment.vertices T'.alignment.triangles ∧
      ∀ h : ℚ, 1 / 3 ≤ h → (∀ a ∈ K'.stars, ∀ b ∈ K'.stars, ∀ c ∈ K'.stars, a.at' ≠ b.at' → b.at' ≠ c.at' → c.at' ≠ a.at' → Tall h a.at' b.at' c.at') →
        ∀ s ∈ K'.stars, ∀ y z, Belong (K'.stars.map Seen.at') s.at' y z → Reports L P T' (1 / (100000 * h ^ 2) + 2⁻¹ ^ 26) s := by
  obtain ⟨l, hf, hrun, hrel⟩ := session_calls hL hF hr hs
  obtain ⟨k0, hFk, hm, hstep⟩ := tells_call (σ := Option (ℚ × ℚ)) hL P hFe ht K.now
  have hrel' : Related L K' (knows (calls l ++ [.sync k0.ra k0.dec k0.lat k0.lst])) := by
    have := related_tell ht hl hrel hm
    unfold knows at this ⊢
    rw [List.foldl_append]
    exact this
  rw [← hrel'.at_eq] at hw ⊢
  obtain ⟨T', h1, h2⟩ := C82_sync l hf T hrun M env k0.ra k0.dec k0.lat k0.lst hFk guess htest hw
  refine ⟨T', by rw [hstep]; exact h1, h2, ?_⟩
  intro h hh H s hsk y z hb
  obtain ⟨m1, m2⟩ := match_of hrel'.stars
  obtain ⟨k, hk, hmk⟩ := m1 s hsk
  refine reports_of hL (k := k) (ty := .triangleIn) hmk fun M' hM' lst hlst => ?_
  refine C82_stars l hf T T' hrun M env k0.ra k0.dec k0.lat k0.lst hFk guess htest hw h1 h hh ?_ k hk y z (by rw [hmk.at_eq]; exact hb) M' hM' lst hlst
  intro a ha b hb' c hc n1 n2 n3
  obtain ⟨sa, ia, ea⟩ := m2 a ha
  obtain ⟨sb, ib, eb⟩ := m2 b hb'
  obtain ⟨sc, ic, ec⟩ := m2 c hc
  rw [ea.at_eq, eb.at_eq] at n1
  rw [eb.at_eq, ec.at_eq] at n2
  rw [ec.at_eq, ea.at_eq] at n3
  rw [ea.at_eq, eb.at_eq, ec.at_eq]
  exact H sa ia sb ib sc ic n1 n2 n3

end Verif.Session64
