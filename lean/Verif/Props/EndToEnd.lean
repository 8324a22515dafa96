import Verif.Props.Telescope
import Verif.Props.NexStarFields

/-!
# C37 end to end: sync request, then position request
-/

namespace Verif.Telescope

open Verif.Align Verif.Coord Verif.NexStar Verif.Spec Verif.Spec.NexStar

variable {σ : Type}

/-- **C37** (protocol). After any history with at most one known star, not synced at the present orientation: if the sync
request `s<a>,<d>` with a declination in [0°, 90°) is handled, the position request `e` that follows is answered with exactly
the sixteen digits that were sent, in upper case. -/
theorem C37_nexstar (h : List (Env ℝ σ × Op)) (hs : ∀ e ∈ h, IsSort e.1.sort) (T : Tel) (hr : run h new = .ok T)
    (hfew : (knows (h.map Prod.snd)).stars.length < 2) (hnew : T.orientation ∉ (knows (h.map Prod.snd)).stars.map Star.at')
    (P : Platform) (env env' : Env ℝ σ) (he : IsSort env.sort) (g : Nmea.Gnss) (cal : Bool)
    (sreq sresp : List UInt8) (n max : Nat) (a d : List (Bool × Fin 16)) (ha : a.length = 8) (hd : d.length = 8) (sep : UInt8)
    (rest : List UInt8) (hn : n ≤ sreq.length) (hreq : sreq.take n = 115 :: (hexText a ++ sep :: (hexText d ++ rest)))
    (hmax : 2 ≤ max) (hmr : max ≤ sresp.length) (hdec : hexVal (d.map (·.2)) < 2 ^ 30)
    (t : ℝ) (ht : Helper.localSiderealTime g.utc (g.longitude : ℝ) = .ok t)
    (k : UInt32) (sresp' : List UInt8) (sc : Scope Tel)
    (hsync : handleRequest P (ops env) g ⟨T, cal⟩ sreq n sresp max = .ok (k, sresp', sc))
    (ereq eresp : List UInt8) (n' max' : Nat) (hn' : n' ≤ ereq.length) (hc : Parses (ereq.take n') .position)
    (hmax' : 19 ≤ max') (hmr' : max' ≤ eresp.length) :
    handleRequest P (ops env') g sc ereq n' eresp max' =
      .ok (18, written eresp (hex8 (hexVal (a.map (·.2))) ++ [44] ++ hex8 (hexVal (d.map (·.2))) ++ [35]), sc) := by
  obtain ⟨ref, hra, hra0, hra1, ⟨j, hj⟩, hd0, hd1, hh⟩ := C10_sync_decodes P (ops env) g ⟨T, cal⟩ sreq sresp n max a d ha hd sep rest
    hn hreq t ht hmax hmr
  rw [hsync] at hh
  set va := hexVal (a.map (·.2)) with hva
  set vd := hexVal (d.map (·.2)) with hvd
  obtain ⟨T', hT', hsc⟩ : ∃ T', addReferencePoint env T ref (g.latitude : ℝ) t = .ok T' ∧ sc = ⟨T', true⟩ := by
    cases hA : addReferencePoint env T ref (g.latitude : ℝ) t with
    | error e => simp only [ops, hA, Except.map] at hh; cases hh
    | ok T' =>
      simp only [ops, hA, Except.map, Except.ok.injEq, Prod.mk.injEq] at hh
      exact ⟨T', rfl, hh.2.2⟩
  have hvd' : (vd : ℝ) < 2 ^ 30 := by exact_mod_cast hdec
  have hvd0 : (0 : ℝ) ≤ vd := Nat.cast_nonneg _
  have hj0 : j = 0 := by
    rcases lt_trichotomy j 0 with h1 | h1 | h1
    · have : (j : ℝ) ≤ -1 := by exact_mod_cast (by omega : j ≤ -1)
      exfalso
      have : ref.dec < -90 := by rw [hj]; linarith
      linarith
    · exact h1
    · have : (1 : ℝ) ≤ j := by exact_mod_cast (by omega : 1 ≤ j)
      exfalso
      have : ref.dec > 270 := by rw [hj]; linarith
      linarith
  have hdecv : ref.dec = 360 * vd / 2 ^ 32 := by rw [hj, hj0]; push_cast; ring
  have hd90 : ref.dec < 90 := by rw [hdecv]; linarith
  have hR := run_rep h hs new T _ Rep.new hr
  have hstars : (knows (h.map Prod.snd ++ [.sync ref (g.latitude : ℝ) t])).stars
      = (knows (h.map Prod.snd)).stars ++ [⟨T.orientation, ref, (g.latitude : ℝ), t⟩] := by
    have hnow : T.orientation = (knows (h.map Prod.snd)).now := hR.now
    rw [hnow] at hnew ⊢
    unfold knows at *
    rw [List.foldl_append]
    simp only [List.foldl_cons, List.foldl_nil, Knows.step]
    rw [if_neg hnew, if_neg (by omega)]
  have hor : T'.orientation = T.orientation := by
    unfold addReferencePoint at hT'
    obtain ⟨_, _, hT'⟩ := bind_eq_ok.1 hT'
    obtain ⟨_, _, hT'⟩ := bind_eq_ok.1 hT'
    simp only [pure_ok, Except.ok.injEq] at hT'
    rw [← hT']
  have hset : setOrientation T' T.orientation = T' := by unfold setOrientation; rw [← hor]
  have hpos : ∃ ty, getCalibratedOrientation env' T' (g.latitude : ℝ) t = .ok (ty, later ref 0) := by
    rw [← hset]
    match hq : (knows (h.map Prod.snd)).stars, hfew with
    | [], _ =>
      rw [hq] at hstars
      have := C37_one_star h hs T T' hr env env' he ref _ t hT' _ hstars hd0 hd90 0
      rw [add_zero] at this
      exact ⟨_, this⟩
    | [k1], _ =>
      rw [hq] at hstars
      have := C37_two_stars h hs T T' hr env env' he ref _ t hT' k1 _ _ hstars (.inr rfl) hd0 hd90 0
      rw [add_zero] at this
      exact ⟨_, this⟩
  obtain ⟨ty, hpos⟩ := hpos
  have hlater : later ref 0 = ref := by
    unfold later
    rw [add_zero, Helper.C23_fmod_id _ 360 hra0 hra1]
  rw [hlater] at hpos
  have hpo : (ops env').position sc.core (g.latitude : ℝ) t = .ok ref := by
    rw [hsc]
    simp only [ops, hpos, Except.map]
  have w1 : Wire ref.ra va := by
    refine ⟨?_, .inl ?_⟩
    · have := hexVal_lt (a.map (·.2))
      rw [List.length_map, ha] at this
      exact lt_of_lt_of_eq this (by norm_num)
    · have : ref.ra / 360 * 2 ^ 32 = va := by rw [hra]; ring
      rw [this]
      exact ⟨le_refl _, lt_add_one _⟩
  have w2 : Wire ref.dec vd := by
    refine ⟨lt_of_lt_of_le hdec (by norm_num), .inl ?_⟩
    have : ref.dec / 360 * 2 ^ 32 = vd := by rw [hdecv]; ring
    rw [this]
    exact ⟨le_refl _, lt_add_one _⟩
  exact C09_position_reply P (ops env') g sc ereq eresp n' max' hn' hc t ht ref hpo va vd w1 w2 hmax' hmr'

/-- The hypotheses of `C37_nexstar` can be met: a new telescope handles the sync request `s34AB0500,12CE0500` (right ascension 74.06°,
declination 26.44°) on the ESP32 as soon as the sidereal time is defined. -/
example (o : Circle ℝ) (sort : List (VertexPair ℝ) → List (VertexPair ℝ)) (hsort : IsSort sort) (g : Nmea.Gnss) (t : ℝ)
    (ht : Helper.localSiderealTime g.utc (g.longitude : ℝ) = .ok t) :
    ∃ T', handleRequest .esp32 (ops ⟨exactTest, some o, sort, fun _ => 0, id⟩) g ⟨new, false⟩ (ascii "s34AB0500,12CE0500") 18 [0, 0] 2
      = .ok (1, written [0, 0] [35], ⟨T', true⟩) := by
  obtain ⟨ref, _, _, _, _, _, _, hh⟩ := C10_sync_decodes (K := ℝ) .esp32 (ops ⟨exactTest, some o, sort, fun _ => 0, id⟩) g ⟨new, false⟩
    (ascii "s34AB0500,12CE0500") [0, 0] 18 2
    [(false, 3), (false, 4), (false, 10), (false, 11), (false, 0), (false, 5), (false, 0), (false, 0)]
    [(false, 1), (false, 2), (false, 12), (false, 14), (false, 0), (false, 5), (false, 0), (false, 0)] rfl rfl 44 [] (by decide) (by decide)
    t ht (by norm_num) (by simp)
  obtain ⟨T', hT, _⟩ := first_sync_succeeds o sort hsort ref (g.latitude : ℝ) t
  refine ⟨T', ?_⟩
  rw [hh]
  simp only [ops, hT, Except.map]

end Verif.Telescope
