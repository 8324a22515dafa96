import Verif.Lemmas.Session64

/-!
# C80: an observing session in IEEE arithmetic, from the bytes received to the bytes sent
-/

namespace Verif.Session64

open Verif Verif.Align Verif.Linalg64 Verif.Coord64 Verif.Telescope64 Verif.Spec Verif.Spec.NexStar

variable {σ : Type}

/-- What a new telescope knows. -/
def nothing : Known := ⟨⟨0, 0⟩, []⟩

/-! ### The stars known are determined by what was received -/

theorem tells_unique {e : Ev} {g g' : Nmea.Gnss} {u v u' v' : Nat} (h : Tells e g u v) (h' : Tells e g' u' v') : g = g' ∧ u = u' ∧ v = v' := by
  cases h with
  | goto _ rx n _ _ _ => cases h' with | goto => exact ⟨rfl, rfl, rfl⟩
  | sync _ b _ _ hb =>
    cases h' with
    | sync _ _ _ _ hb' =>
      obtain ⟨a, d, sep, rest, ha, hd, rfl, rfl, rfl⟩ := hb
      obtain ⟨a', d', sep', rest', ha', hd', hb, rfl, rfl⟩ := hb'
      have hla : (hexText a).length = 8 := by simp [hexText, ha]
      have hla' : (hexText a').length = 8 := by simp [hexText, ha']
      obtain ⟨e1, e2⟩ := List.append_inj (List.cons.inj hb).2 (by rw [hla, hla'])
      obtain ⟨e3, -⟩ := List.append_inj (List.cons.inj e2).2 (by simp [hexText, hd, hd'])
      have val : ∀ (x y : List (Bool × Fin 16)), x.length = 8 → y.length = 8 → hexText x = hexText y → hexVal (x.map (·.2)) = hexVal (y.map (·.2)) := by
        intro x y hx hy h
        have s1 := NexStar.syncAngle_hex (K := ℚ) Platform.native (hexText x) [] 0 x hx (by simp)
        have s2 := NexStar.syncAngle_hex (K := ℚ) Platform.native (hexText y) [] 0 y hy (by simp)
        rw [h, s2] at s1
        have := Except.ok.inj s1
        have : ((hexVal (y.map (·.2)) : ℕ) : ℚ) = (hexVal (x.map (·.2)) : ℕ) := by
          have h360 : (360 : ℚ) / 4294967296 ≠ 0 := by norm_num
          rw [mul_div_assoc, mul_div_assoc] at this
          exact mul_right_cancel₀ h360 this
        exact_mod_cast this.symm
      exact ⟨rfl, val a a' ha ha' e1, val d d' hd hd' e3⟩

theorem learns_unique {K K1 K2 : Known} {e : Ev} (h1 : Learns K e K1) (h2 : Learns K e K2) : K1 = K2 := by
  cases h1 with
  | turn o => cases h2 with
    | turn => rfl
    | other _ h => exact absurd rfl (h o)
    | again _ _ _ _ h => cases h
    | full _ _ _ _ h => cases h
    | star _ _ _ _ h => cases h
  | clear => cases h2 with
    | clear => rfl
    | other _ _ h => exact absurd rfl h
    | again _ _ _ _ h => cases h
    | full _ _ _ _ h => cases h
    | star _ _ _ _ h => cases h
  | other _ h1 h2' h3 => cases h2 with
    | turn o => exact absurd rfl (h1 o)
    | clear => exact absurd rfl h2'
    | other => rfl
    | again _ _ _ _ h => exact absurd h (h3 _ _ _)
    | full _ _ _ _ h => exact absurd h (h3 _ _ _)
    | star _ _ _ _ h => exact absurd h (h3 _ _ _)
  | again _ g u v ht hm => cases h2 with
    | turn o => cases ht
    | clear => cases ht
    | other _ _ _ h => exact absurd ht (h _ _ _)
    | again => rfl
    | full _ _ _ _ _ h => exact absurd hm h
    | star _ _ _ _ _ h => exact absurd hm h
  | full _ g u v ht hm hl => cases h2 with
    | turn o => cases ht
    | clear => cases ht
    | other _ _ _ h => exact absurd ht (h _ _ _)
    | again _ _ _ _ _ h => exact absurd h hm
    | full => rfl
    | star _ _ _ _ _ _ h => omega
  | star _ g u v ht hm hl => cases h2 with
    | turn o => cases ht
    | clear => cases ht
    | other _ _ _ h => exact absurd ht (h _ _ _)
    | again _ _ _ _ _ h => exact absurd h hm
    | full _ _ _ _ _ _ h => omega
    | star _ _ _ _ h => obtain ⟨rfl, rfl, rfl⟩ := tells_unique ht h; rfl

theorem learns_exists (K : Known) (hK : K.stars.length ≤ 63) (e : Ev) : ∃ K', Learns K e K' ∧ K'.stars.length ≤ 63 := by
  by_cases h1 : ∃ o, e = .turn o
  · obtain ⟨o, rfl⟩ := h1
    exact ⟨_, .turn K o, hK⟩
  by_cases h2 : e = .clear
  · subst h2
    exact ⟨_, .clear K, by simp⟩
  by_cases h3 : ∃ g u v, Tells e g u v
  · obtain ⟨g, u, v, ht⟩ := h3
    by_cases hm : K.now ∈ K.stars.map Seen.at'
    · exact ⟨_, .again K e g u v ht hm, hK⟩
    · by_cases hl : K.stars.length = 63
      · exact ⟨_, .full K e g u v ht hm hl, by simp⟩
      · refine ⟨_, .star K e g u v ht hm (by omega), ?_⟩
        simp only [List.length_append, List.length_singleton]; omega
  · exact ⟨K, .other K e (fun o h => h1 ⟨o, h⟩) h2 (fun g u v h => h3 ⟨g, u, v, h⟩), hK⟩

theorem story_exists : ∀ (evs : List Ev) (K : Known), K.stars.length ≤ 63 → ∃ K', Story K evs K' ∧ ∀ K2, Story K evs K2 → K2 = K'
  | [], K, _ => ⟨K, .nil K, fun K2 h => by cases h; rfl⟩
  | e :: es, K, hK => by
    obtain ⟨K1, h1, h1'⟩ := learns_exists K hK e
    obtain ⟨K', h2, h3⟩ := story_exists es K1 h1'
    refine ⟨K', .cons h1 h2, fun K2 h => ?_⟩
    cases h with
    | cons hl hs =>
      rw [learns_unique hl h1] at hs
      exact h3 K2 hs

/-- **C80** Every session tells exactly one story: the orientation and the list of stars are a function of the events, whatever the messages contain. -/
theorem C80_story (evs : List Ev) : ∃! K, Story nothing evs K := by
  obtain ⟨K, h1, h2⟩ := story_exists evs nothing (by simp [nothing])
  exact ⟨K, h1, h2⟩

theorem session_calls {L : Fmt} (hL : NexStar.Wide L) {P : Platform} {hist : List (Libm × Align64.Env σ × Ev)} (hF : ∀ e ∈ hist, Fair e) {T : Tel}
    (hr : run L P hist new = .ok T) {K : Known} (hs : Story nothing (hist.map (fun e => e.2.2)) K) :
    ∃ l : List (Libm × Align64.Env σ × Op), (∀ e ∈ l, Telescope64.Fair e) ∧ Telescope64.run l new = .ok T ∧ Related L K (knows (calls l)) :=
  sim hL hist hF new T hr nothing K hs ⟨⟨0, 0⟩, []⟩ ⟨rfl, .nil⟩

/-- **C80** One star, from the message or sync request that made it known to the numbers sent: after any session that leaves one star, the telescope turned
back to it reports it at every later time within `2^-26 + 2^-40` (15 nanoradians, 3 milliarcseconds) - every accurate C library, any `long double`,
all rounding, the sidereal time and the resolution of the numbers sent included. -/
theorem C80_one_star (L : Fmt) (hL : NexStar.Wide L) (P : Platform) (hist : List (Libm × Align64.Env σ × Ev)) (hF : ∀ e ∈ hist, Fair e) (T : Tel)
    (hr : run L P hist new = .ok T) (K : Known) (hs : Story nothing (hist.map (fun e => e.2.2)) K) (s : Seen) (hk : K.stars = [s]) :
    Reports L P T (2⁻¹ ^ 40 + 2⁻¹ ^ 26) s := by
  obtain ⟨l, hf, hrun, hrel⟩ := session_calls hL hF hr hs
  have hst := hrel.stars
  rw [hk] at hst
  cases hkk : (knows (calls l)).stars with
  | nil => rw [hkk] at hst; cases hst
  | cons k ks =>
    rw [hkk] at hst
    cases hst with
    | cons hm hn =>
      cases hn
      obtain ⟨p, -, hp⟩ := C79_one_star l hf T hrun k hkk
      obtain ⟨w, -, hw⟩ := (run_known hf hrun).inv.stores.mem (show k ∈ (knows (calls l)).stars by rw [hkk]; exact List.mem_cons_self)
      have hat : SaneDirection k.at' := hw.at_eq ▸ hw.sane
      refine reports_of hL (k := k) (ty := .point) hm fun M hM lst hlst => ?_
      obtain ⟨ra, dec, e, h1, h2, h3, -, h4⟩ := hp M hM k.at' hat k.lat lst hw.lat hlst
      exact ⟨ra, dec, e, h1, h2, h3, h4 rfl rfl⟩

/-- **C80** Two stars `d` degrees apart (as the telescope pointed): each is reported within `1 / (2000 d²) + 2^-26`. -/
theorem C80_two_stars (L : Fmt) (hL : NexStar.Wide L) (P : Platform) (hist : List (Libm × Align64.Env σ × Ev)) (hF : ∀ e ∈ hist, Fair e) (T : Tel)
    (hr : run L P hist new = .ok T) (K : Known) (hs : Story nothing (hist.map (fun e => e.2.2)) K) (a b : Seen) (hk : K.stars = [a, b])
    (d : ℚ) (hd : 1 / 100 ≤ d) (hdd : d ^ 2 ≤ Linalg64.dist2 a.at' b.at') (s : Seen) (hsk : s ∈ [a, b]) :
    Reports L P T (1 / (2000 * d ^ 2) + 2⁻¹ ^ 26) s := by
  obtain ⟨l, hf, hrun, hrel⟩ := session_calls hL hF hr hs
  have hst := hrel.stars
  rw [hk] at hst
  obtain ⟨ka, l1, ma, hst1, e1⟩ := List.forall₂_cons_left_iff.1 hst
  obtain ⟨kb, l2, mb, hst2, rfl⟩ := List.forall₂_cons_left_iff.1 hst1
  cases hst2
  have key : ∀ k, k ∈ [ka, kb] → Match L s k → Reports L P T (1 / (2000 * d ^ 2) + 2⁻¹ ^ 26) s := fun k hk hm =>
    reports_of hL (k := k) (ty := .line) hm fun M hM lst hlst =>
      C79_two_stars l hf T hrun ka kb e1 d hd (by rw [ma.at_eq, mb.at_eq]; exact hdd) M hM k hk lst hlst
  rcases List.mem_cons.1 hsk with rfl | hsk
  · exact key ka (by simp) ma
  · rw [List.mem_singleton] at hsk
    subst hsk
    exact key kb (by simp) mb

/-- **C80** Three stars whose triangle (as the telescope pointed) has heights of at least `h` degrees: either the triangulation found no triangle, and every
direction is treated as with two stars; or each star is reported within `1 / (100000 h²) + 2^-26`. -/
theorem C80_three_stars (L : Fmt) (hL : NexStar.Wide L) (P : Platform) (hist : List (Libm × Align64.Env σ × Ev)) (hF : ∀ e ∈ hist, Fair e) (T : Tel)
    (hr : run L P hist new = .ok T) (K : Known) (hs : Story nothing (hist.map (fun e => e.2.2)) K) (a b c : Seen) (hk : K.stars = [a, b, c])
    (h : ℚ) (hh : 1 / 1000 ≤ h) (H : Tall h a.at' b.at' c.at') (s : Seen) (hsk : s ∈ [a, b, c]) :
    (∀ z, Align64.getTransformationType T.alignment z = .ok .line) ∨ Reports L P T (1 / (100000 * h ^ 2) + 2⁻¹ ^ 26) s := by
  obtain ⟨l, hf, hrun, hrel⟩ := session_calls hL hF hr hs
  have hst := hrel.stars
  rw [hk] at hst
  obtain ⟨ka, l1, ma, hst1, e1⟩ := List.forall₂_cons_left_iff.1 hst
  obtain ⟨kb, l2, mb, hst2, rfl⟩ := List.forall₂_cons_left_iff.1 hst1
  obtain ⟨kc, l3, mc, hst3, rfl⟩ := List.forall₂_cons_left_iff.1 hst2
  cases hst3
  by_cases hline : ∀ z, Align64.getTransformationType T.alignment z = .ok .line
  · exact Or.inl hline
  right
  have key : ∀ k, k ∈ [ka, kb, kc] → Match L s k → Reports L P T (1 / (100000 * h ^ 2) + 2⁻¹ ^ 26) s := fun k hk hm =>
    reports_of hL (k := k) (ty := .triangleIn) hm fun M hM lst hlst =>
      (C79_three_stars l hf T hrun ka kb kc e1 h hh (by rw [ma.at_eq, mb.at_eq, mc.at_eq]; exact H) M hM k hk lst hlst).resolve_left hline
  simp only [List.mem_cons, List.not_mem_nil, or_false] at hsk
  rcases hsk with rfl | rfl | rfl
  · exact key ka (by simp) ma
  · exact key kb (by simp) mb
  · exact key kc (by simp) mc

end Verif.Session64
