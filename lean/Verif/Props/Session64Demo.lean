import Verif.Props.Session64

/-!
# C80: an evening with three stars, told by goto messages and a NexStar sync

The hypotheses of `Props/Session64.lean` are met, with the tests of the triangulation as the code calculates them and every accurate C library.
-/

namespace Verif.Session64

open Verif Verif.Align Verif.Linalg64 Verif.Coord64 Verif.Telescope64 Verif.Spec Verif.Spec.NexStar

theorem run_append {σ : Type} (L : Fmt) (P : Platform) : ∀ (l l' : List (Libm × Align64.Env σ × Ev)) (T : Tel), run L P (l ++ l') T = (run L P l T >>= run L P l')
  | [], l', T => rfl
  | (M, env, op) :: l, l', T => by
    simp only [List.cons_append, run]
    cases h : step L P M env op T with
    | error e => simp only [bind_error]
    | ok T' => simp only [bind_ok]; exact run_append L P l l' T'

theorem story_append : ∀ {l l' : List Ev} {K K1 K2 : Known}, Story K l K1 → Story K1 l' K2 → Story K (l ++ l') K2
  | [], _, _, _, _, h, h' => by cases h; exact h'
  | _ :: _, _, _, _, _, h, h' => by
    cases h with
    | cons hl hs => exact .cons hl (story_append hs h')

/-- Point, and tell a star. -/
def visitEv (M : Libm) (o : Pt ℚ) (e : Ev) : List (Libm × Align64.Env (Option (ℚ × ℚ)) × Ev) := [(M, demoEnv, .turn o), (M, demoEnv, e)]

/-- One more star. -/
theorem session_visit {L : Fmt} (hL : NexStar.Wide L) {P : Platform} {M : Libm} (hM : Accurate M) {hist : List (Libm × Align64.Env (Option (ℚ × ℚ)) × Ev)}
    {S : List Seen} (h : (∀ e ∈ hist, Fair e) ∧ ∃ T K, run L P hist new = .ok T ∧ Story nothing (hist.map (fun e => e.2.2)) K ∧ K.stars = S) {o : Pt ℚ}
    (ho : SaneDirection o) {e : Ev} {g : Nmea.Gnss} {u v : Nat} (ht : Tells e g u v) (hp : Proper e) (hnew : o ∉ S.map Seen.at') (hcap : S.length < 63)
    (A : List (Pt ℚ)) (hA : A.Perm (S.map Seen.at' ++ [o])) (hsort : A.Pairwise (fun p q => p.x < q.x)) (ts : List Tri)
    (hts : (Align64.triangulate Telescope64.demoEnv.test Telescope64.demoEnv.init A.length (pad A)).toOption.map Prod.snd = some ts) (hlen : ts.length ≤ 192) :
    (∀ x ∈ hist ++ visitEv M o e, Fair x) ∧ ∃ T K, run L P (hist ++ visitEv M o e) new = .ok T ∧
      Story nothing ((hist ++ visitEv M o e).map (fun e => e.2.2)) K ∧ K.stars = S ++ [⟨o, wire u, wire v, g⟩] := by
  obtain ⟨hF, T, K, hr, hs, rfl⟩ := h
  have st : ∀ i, |Telescope64.demoEnv.stray i| ≤ 1 := fun i => by show |(0 : ℚ)| ≤ 1; norm_num
  have f1 : Fair (M, demoEnv, Ev.turn o) := ⟨hM, demo_sort, st, ho⟩
  have f2 : Fair (M, demoEnv, e) := ⟨hM, demo_sort, st, hp⟩
  obtain ⟨l, hf, hrun, hrel⟩ := session_calls hL hF hr hs
  obtain ⟨⟨θ, hθ⟩, hlat, hu, hv, dec, hdec, heq⟩ := tells_step (σ := Option (ℚ × ℚ)) hL P ht hp
  obtain ⟨t, ht1, ht2, ht3, -⟩ := sidereal hL hθ
  obtain ⟨u1, u2⟩ := wire_range hu
  obtain ⟨v1, v2⟩ := wire_range hv
  have tiny : (2⁻¹ : ℚ) ^ 1000 ≤ 1 / 2 ^ 24 := by
    calc (2⁻¹ : ℚ) ^ 1000 ≤ 2⁻¹ ^ 24 := pow_le_pow_of_le_one (by norm_num) (by norm_num) (by norm_num)
      _ = 1 / 2 ^ 24 := by norm_num
  have pos : (0 : ℚ) < 2⁻¹ ^ 1000 := pow_pos (by norm_num) _
  generalize (2⁻¹ : ℚ) ^ 1000 = ε at tiny ht2 pos
  generalize (1 / 2 ^ 24 : ℚ) = η at tiny u2 v2
  have hk : ∀ x ∈ visit M (⟨o, wire u, dec, g.latitude, t⟩ : Star), Telescope64.Fair x := by
    intro x hx
    simp only [visit, List.mem_cons, List.not_mem_nil, or_false] at hx
    rcases hx with rfl | rfl
    · exact ⟨hM, demo_sort, st, ho⟩
    · refine ⟨hM, demo_sort, st, ?_, ?_, hlat⟩
      · show |t - wire u| ≤ 360
        rw [abs_le]; constructor <;> linarith
      · show |dec| ≤ 361
        rcases hdec with rfl | rfl <;> rw [abs_le] <;> constructor <;> linarith
  obtain ⟨T', hT', -⟩ := visit_runs (M := M) hf hrun hk (by rw [hrel.at_eq]; exact hnew) (by rw [← hrel.stars.length_eq]; exact hcap) A
    (by rw [hrel.at_eq]; exact hA) hsort ts hts hlen
  rw [Telescope64.run_append, hrun, bind_ok] at hT'
  have hadd : addReferencePoint M demoEnv (setOrientation T o) (wire u) dec g.latitude t = .ok T' := by
    change (addReferencePoint M demoEnv (setOrientation T o) (wire u) dec g.latitude t >>= fun T => Telescope64.run [] T) = _ at hT'
    obtain ⟨T1, h1, h2⟩ := bind_eq_ok.1 hT'
    cases h2
    exact h1
  refine ⟨?_, T', { now := o, stars := K.stars ++ [⟨o, wire u, wire v, g⟩] }, ?_, ?_, rfl⟩
  · intro x hx
    rcases List.mem_append.1 hx with hx | hx
    · exact hF x hx
    · simp only [visitEv, List.mem_cons, List.not_mem_nil, or_false] at hx
      rcases hx with rfl | rfl
      · exact f1
      · exact f2
  · rw [run_append, hr, bind_ok]
    show (step L P M demoEnv e (setOrientation T o) >>= fun T => run L P [] T) = _
    rw [heq, ht1, bind_ok, hadd, bind_ok]
    rfl
  · rw [List.map_append]
    exact story_append hs (.cons (.turn K o) (.cons (.star { K with now := o } e g u v ht hnew hcap) (.nil _)))

/-! ### The evening -/

/-- 10 August 1998, 23 h `m` min UTC, 48° north, 23/12° west. -/
def fixAt (m : ℤ) : Nmea.Gnss := ⟨⟨0, m, 23, 10, 8, 1998⟩, true, 5, 8, 1, 48, -23 / 12, true, false, 0, 0, 500⟩

theorem fix_sidereal {m : ℤ} (h0 : 0 ≤ m) (h1 : m ≤ 59) : ∃ θ, SiderealAt (fixAt m) θ :=
  ⟨_, -509, ⟨1998, 8, 10⟩, by decide, ⟨rfl, rfl, rfl⟩, ⟨509, Or.inr ⟨by decide, by decide +kernel⟩⟩, by decide, by decide, by decide,
    ⟨by norm_num [fixAt], by norm_num [fixAt], h0, h1, by norm_num [fixAt], by norm_num [fixAt]⟩, by show |(-23 / 12 : ℚ)| ≤ 360; rw [abs_le]; constructor <;> norm_num, rfl⟩

/-- A goto message for right ascension 30°, declination 20°. -/
def evA : Ev := .goto (fixAt 10) (positionMessage 0 357913941 238609294) 24

/-- `s38E38E39,2aAAaAAA`: right ascension 80°, declination 60°. -/
def raB : List (Bool × Fin 16) := [(false, 3), (false, 8), (false, 14), (false, 3), (false, 8), (false, 14), (false, 3), (false, 9)]
def decB : List (Bool × Fin 16) := [(false, 2), (true, 10), (false, 10), (false, 10), (true, 10), (false, 10), (false, 10), (false, 10)]
def evB : Ev := .request (fixAt 12) (115 :: (hexText raB ++ 44 :: (hexText decB ++ [])))

/-- A goto message for right ascension 150°, declination -10°. -/
def evC : Ev := .goto (fixAt 15) (positionMessage 0 1789569707 4175662649) 24

theorem proper_goto {m : ℤ} (h0 : 0 ≤ m) (h1 : m ≤ 59) (u v : Nat) : Proper (.goto (fixAt m) (positionMessage 0 u v) 24) :=
  ⟨fix_sidereal h0 h1, by show |(48 : ℚ)| ≤ 361; norm_num, by simp [positionMessage, le]⟩

theorem isSync_evB : IsSync (115 :: (hexText raB ++ 44 :: (hexText decB ++ []))) (hexVal (raB.map (·.2))) (hexVal (decB.map (·.2))) :=
  ⟨raB, decB, 44, [], rfl, rfl, rfl, rfl, rfl⟩

theorem proper_evB : Proper evB :=
  ⟨fix_sidereal (by norm_num) (by norm_num), by show |(48 : ℚ)| ≤ 361; norm_num, fun _ _ _ => ⟨_, _, isSync_evB⟩⟩

/-- The stars as they became known. -/
def sA : Seen := ⟨dA, wire 357913941, wire 238609294, fixAt 10⟩
def sB : Seen := ⟨dB, wire (hexVal (raB.map (·.2))), wire (hexVal (decB.map (·.2))), fixAt 12⟩
def sC : Seen := ⟨dC, wire 1789569707, wire 4175662649, fixAt 15⟩

theorem tells_A : Tells evA (fixAt 10) 357913941 238609294 :=
  .goto (fixAt 10) (positionMessage 0 357913941 238609294) 24 (by decide +kernel) (by decide +kernel) (by decide +kernel)
theorem tells_B : Tells evB (fixAt 12) (hexVal (raB.map (·.2))) (hexVal (decB.map (·.2))) := .sync _ _ _ _ isSync_evB
theorem tells_C : Tells evC (fixAt 15) 1789569707 4175662649 :=
  .goto (fixAt 15) (positionMessage 0 1789569707 4175662649) 24 (by decide +kernel) (by decide +kernel) (by decide +kernel)

def night1 (M : Libm) := visitEv M dA evA
def night2 (M : Libm) := night1 M ++ visitEv M dB evB
def night3 (M : Libm) := night2 M ++ visitEv M dC evC

theorem sane_dA : SaneDirection dA := ⟨⟨rep_of (by decide +kernel), rep_of (by decide +kernel)⟩, by decide +kernel, by decide +kernel⟩
theorem sane_dB : SaneDirection dB := ⟨⟨rep_of (by decide +kernel), rep_of (by decide +kernel)⟩, by decide +kernel, by decide +kernel⟩
theorem sane_dC : SaneDirection dC := ⟨⟨rep_of (by decide +kernel), rep_of (by decide +kernel)⟩, by decide +kernel, by decide +kernel⟩

theorem session1 {L : Fmt} (hL : NexStar.Wide L) (P : Platform) {M : Libm} (hM : Accurate M) : (∀ e ∈ night1 M, Fair e) ∧ ∃ T K,
    run L P (night1 M) new = .ok T ∧ Story nothing ((night1 M).map (fun e => e.2.2)) K ∧ K.stars = [sA] :=
  session_visit hL hM (hist := []) (S := []) ⟨by simp, new, nothing, rfl, .nil _, rfl⟩ sane_dA tells_A (proper_goto (by norm_num) (by norm_num) _ _)
    (by simp) (by simp) [dA] (by simp) (by simp) [] (by decide +kernel) (by simp)

theorem session2 {L : Fmt} (hL : NexStar.Wide L) (P : Platform) {M : Libm} (hM : Accurate M) : (∀ e ∈ night2 M, Fair e) ∧ ∃ T K,
    run L P (night2 M) new = .ok T ∧ Story nothing ((night2 M).map (fun e => e.2.2)) K ∧ K.stars = [sA, sB] :=
  session_visit hL hM (session1 hL P hM) sane_dB tells_B proper_evB (by show dB ∉ [dA]; decide +kernel) (by simp) [dA, dB]
    (by show [dA, dB].Perm [dA, dB]; rfl) (by decide +kernel) [] (by decide +kernel) (by simp)

theorem session3 {L : Fmt} (hL : NexStar.Wide L) (P : Platform) {M : Libm} (hM : Accurate M) : (∀ e ∈ night3 M, Fair e) ∧ ∃ T K,
    run L P (night3 M) new = .ok T ∧ Story nothing ((night3 M).map (fun e => e.2.2)) K ∧ K.stars = [sA, sB, sC] :=
  session_visit hL hM (session2 hL P hM) sane_dC tells_C (proper_goto (by norm_num) (by norm_num) _ _) (by show dC ∉ [dA, dB]; decide +kernel) (by simp)
    [dA, dB, dC] (by show [dA, dB, dC].Perm [dA, dB, dC]; rfl) (by decide +kernel) [⟨0, 1, 2⟩] (by decide +kernel) (by simp)

/-- C80_one_star applies: on the test host, after the first star, half an hour later. -/
example : ∃ M, Accurate M ∧ ∃ T u v, run x87 Platform.nativeWrap (night1 M) new = .ok T ∧ u < 2 ^ 32 ∧ v < 2 ^ 32 ∧
    packet x87 Platform.nativeWrap M (fixAt 40) (setOrientation T dA) (List.replicate 256 0) = .ok (positionMessage 0 u v) := by
  obtain ⟨M, hM⟩ := accurate_exists
  obtain ⟨hF, T, K, hr, hs, hk⟩ := session1 NexStar.wide_x87 Platform.nativeWrap hM
  obtain ⟨θ, hθ⟩ := fix_sidereal (m := 10) (by norm_num) (by norm_num)
  obtain ⟨θ', hθ'⟩ := fix_sidereal (m := 40) (by norm_num) (by norm_num)
  obtain ⟨h, -⟩ := C80_one_star x87 NexStar.wide_x87 Platform.nativeWrap _ hF T hr K hs sA hk M (fixAt 40) θ θ' (List.replicate 256 0) hM hθ hθ' rfl (le_of_eq List.length_replicate.symm)
  rcases h with ⟨u, v, h1, h2, h3, -⟩ | ⟨h, -⟩
  · exact ⟨M, hM, T, u, v, hr, h1, h2, h3⟩
  · exact absurd h (by decide)

/-- C80_two_stars applies: the first two orientations are more than 60° apart. -/
example : ∃ M, Accurate M ∧ ∃ T, run x87 Platform.nativeWrap (night2 M) new = .ok T ∧ Reports x87 Platform.nativeWrap T (1 / (2000 * ((60 : ℚ) : ℝ) ^ 2) + 2⁻¹ ^ 26) sB := by
  obtain ⟨M, hM⟩ := accurate_exists
  obtain ⟨hF, T, K, hr, hs, hk⟩ := session2 NexStar.wide_x87 Platform.nativeWrap hM
  exact ⟨M, hM, T, hr, C80_two_stars x87 NexStar.wide_x87 Platform.nativeWrap _ hF T hr K hs sA sB hk 60 (by norm_num) (by decide +kernel) sB (by simp)⟩

/-- C80_three_stars applies. -/
example : ∃ M, Accurate M ∧ ∃ T, run x87 Platform.nativeWrap (night3 M) new = .ok T ∧
    ((∀ z, Align64.getTransformationType T.alignment z = .ok .line) ∨ Reports x87 Platform.nativeWrap T (1 / (100000 * ((40 : ℚ) : ℝ) ^ 2) + 2⁻¹ ^ 26) sC) := by
  obtain ⟨M, hM⟩ := accurate_exists
  obtain ⟨hF, T, K, hr, hs, hk⟩ := session3 NexStar.wide_x87 Platform.nativeWrap hM
  exact ⟨M, hM, T, hr, C80_three_stars x87 NexStar.wide_x87 Platform.nativeWrap _ hF T hr K hs sA sB sC hk 40 (by norm_num) (by unfold Tall; decide +kernel) sC (by simp)⟩

end Verif.Session64
