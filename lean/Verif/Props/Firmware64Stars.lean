import Verif.Props.Firmware64
import Verif.Props.Session64Run

/-!
# C84: from the sensors and the bytes received to the bytes sent

The session a history means (`Props/Firmware64.lean`) meets the requirements of `Spec/Session64.lean`, and the calculated replies of a session are the bytes that
leave the device over Bluetooth and TCP.
-/

namespace Verif.Firmware64

open Verif Verif.Main Verif.Align Verif.Spec Verif.Spec.NexStar Verif.Telescope64 Verif.Coord64 Printf Net Imu Verif.Linalg64 Verif.Align64
open Verif.Session64 (Ev Seen Known SiderealAt Tells SameSky wire Reports Story nothing Proper)

variable {σ : Type}

/-- The facts about a run that begins with power-up. -/
theorem from_boot {F : Formats} {cfg : Config} {h : List (World σ × Event ℚ)} {s0 s : Sys} {o : List Out} (hb : boot cfg = .ok s0)
    (hr : run F cfg h s0 = .ok (s, o)) (hc : ∀ x ∈ h, Careful x.1) {evs : List (Libm × Align64.Env σ × Ev)} (he : History F cfg s0 h evs)
    (hR : ∀ e ∈ evs, Reasonable e.2.2) : Ok s ∧ Session64.run F.wide cfg.platform evs new = .ok s.scope.core ∧ ∀ e ∈ evs, Session64.Fair e := by
  obtain ⟨hk, hn⟩ := boot_ok hb
  obtain ⟨h1, -, hall⟩ := run_facts h hk hr
  obtain ⟨h2, h3⟩ := hall evs he
  refine ⟨h1, by rw [← hn]; exact h2, fun e hm => ?_⟩
  obtain ⟨⟨x, hx, e1, e2⟩, h4⟩ := h3 e hm
  obtain ⟨c1, c2, c3⟩ := hc x hx
  refine ⟨by rw [← e1]; exact c1, by rw [← e2]; exact c2, by rw [← e2]; exact c3, ?_⟩
  have hre := hR e hm
  cases hev : e.2.2 with
  | turn d =>
    rw [hev] at hre
    obtain ⟨⟨p1, p2, p3⟩, p4⟩ := h4 d hev
    exact ⟨⟨representable_b32_b64 p1, representable_b32_b64 p4⟩, by rw [abs_le]; constructor <;> linarith, hre⟩
  | goto => rw [hev] at hre; exact hre
  | request => rw [hev] at hre; exact hre
  | clear => trivial

/-- The reply to `e` over Bluetooth is what is calculated. -/
theorem bluetooth_reply {F : Formats} {cfg : Config} (W : World σ) {s : Sys} (hi : Inv s) (rest out : List UInt8) (ho : out.length = 18)
    (h : Session64.reply F.wide cfg.platform W.libm s.gnss s.scope.core = .ok out) :
    ∃ s', step F cfg W s (.bluetooth (101 :: rest)) = .ok (s', [.bluetooth out]) := by
  have hb : NexStar.branch (101 :: rest) (101 :: rest).length = .ok .position := NexStar.branch_of_parses (.position rest)
  obtain ⟨k, r, hs, hk, hr⟩ : ∃ k r, NexStar.snprintf s.tx 256 out = .ok (k, r) ∧ k = UInt32.ofNat 18 ∧ readBytes r 18 = .ok out := by
    have hfit : out.take 255 = out := List.take_of_length_le (by omega)
    have hst := Codec.storeSeq_ok (out.take (256 - 1) ++ [0]) s.tx 0 (by simp only [List.length_append, List.length_take, List.length_singleton]; have := hi.1; omega)
    refine ⟨UInt32.ofNat 18, _, by unfold NexStar.snprintf; rw [if_neg (by decide), hst, bind_ok, ho]; rfl, rfl, ?_⟩
    rw [readBytes_eq (by simp; have := hi.1; omega)]
    simp only [hfit, List.take_zero, List.nil_append, List.append_assoc]
    rw [List.take_append_of_le_length (by omega), List.take_of_length_le (by omega)]
  unfold step onBluetoothData handleRequest
  simp only [hb, bind_ok]
  show ∃ s', (((Session64.reply F.wide cfg.platform W.libm s.gnss s.scope.core >>= fun o => pure (some o, s.scope)) >>= _) >>= _) = _
  rw [h]
  simp only [bind_ok, pure_ok]
  rw [hs]
  simp only [bind_ok]
  rw [hk, if_pos (by decide)]
  rw [show (UInt32.ofNat 18).toNat = 18 from rfl, hr]
  exact ⟨_, rfl⟩

theorem hex8_length (u : Nat) : (hex8 u).length = 8 := by simp [hex8]

theorem client_of {s : Sys} {t : Timers} {c : Conn} (h1 : s.net.remote = some c) (h2 : c ∈ s.net.open') : client ({ s with timers := t } : Sys) = some c := by
  have hc : client s ≠ none := client_some.2 ⟨c, h1, h2⟩
  show client s = some c
  unfold client at hc ⊢
  split at hc
  · rename_i h; rw [if_pos h]; exact h1
  · exact absurd rfl hc

theorem visible_of {F : Formats} {cfg : Config} {s : Sys} {tol : ℝ} {star : Seen} (hk : Ok s)
    (h : Reports F.wide cfg.platform s.scope.core tol star) : Visible σ F cfg s tol star := by
  have same : ∀ T : Tel, T.orientation = star.at' → setOrientation T star.at' = T := by
    intro T hT; rw [← hT]; rfl
  refine ⟨fun W rest θ θ' hM hat h1 h2 h3 => ?_, fun W i s' o c b θ θ' hM ht hst hp ho hat h1 h2 h3 => ?_, fun W i s' o c b θ θ' hM ht hst ho hat h1 h2 h3 => ?_,
    fun W i s' o c ht hst hc hm hne hp => ?_, fun W i s' o c hsen ht hst hc hm hnx hav => ?_⟩
  · obtain ⟨-, hr⟩ := h W.libm s.gnss θ θ' s.tx hM h1 h2 h3 (by rw [hk.inv.1])
    rw [same _ hat] at hr
    rcases hr with ⟨u, v, hu, hv, hr, hsame⟩ | ⟨hs, hr⟩
    · obtain ⟨s', hs'⟩ := bluetooth_reply W hk.inv rest _ (by simp [hex8_length]) hr
      exact Or.inl ⟨u, v, s', hu, hv, hs', hsame⟩
    · refine Or.inr ⟨hs, ?_⟩
      have hb : NexStar.branch (101 :: rest) (101 :: rest).length = .ok .position := NexStar.branch_of_parses (.position rest)
      unfold step onBluetoothData handleRequest
      simp only [hb, bind_ok]
      show (((Session64.reply F.wide cfg.platform W.libm s.gnss s.scope.core >>= fun o => pure (some o, s.scope)) >>= _) >>= _) = _
      rw [hr]
      rfl
  · have hst : task100 F cfg W { s with timers := (schedule s.timers i.now).2 } i = .ok (s', o) := by
      unfold step loop at hst
      simp only at hst
      rw [show (schedule s.timers i.now).1 = some .t100ms from ht] at hst
      exact hst
    obtain ⟨-, -, -, -, hrep⟩ := task100_facts (s0 := s) (s := { s with timers := (schedule s.timers i.now).2 }) hk.inv hst ht rfl rfl rfl
    obtain ⟨out, hrep, hb⟩ := hrep hp c b ho
    rw [hat] at hrep
    obtain ⟨-, hr⟩ := h W.libm s.gnss θ θ' s.tx hM h1 h2 h3 (by rw [hk.inv.1])
    rcases hr with ⟨u, v, hu, hv, hr, hsame⟩ | ⟨hs, hr⟩
    · have := hr.symm.trans hrep
      injection this with this
      subst this
      exact ⟨u, v, hu, hv, hb (by simp [hex8_length]), hsame⟩
    · have := hr.symm.trans hrep
      cases this
  · have hst : task500 F cfg W { s with timers := (schedule s.timers i.now).2 } i = .ok (s', o) := by
      unfold step loop at hst
      simp only at hst
      rw [show (schedule s.timers i.now).1 = some .t500ms from ht] at hst
      exact hst
    have hinv : Inv ({ s with timers := (schedule s.timers i.now).2 } : Sys) := hk.inv
    obtain ⟨-, -, -, -, hpk⟩ := task500_facts hinv hst
    have hpk := hpk c b ho
    obtain ⟨hr, -⟩ := h W.libm s'.gnss θ θ' s.tx hM h1 h2 h3 (by rw [hk.inv.1])
    rw [same _ hat] at hr
    rcases hr with ⟨u, v, hu, hv, hr, hsame⟩ | ⟨hs, hr⟩
    · have := hr.symm.trans hpk
      injection this with this
      exact ⟨u, v, hu, hv, this.symm, hsame⟩
    · have := hr.symm.trans hpk
      cases this
  · have hst : task100 F cfg W { s with timers := (schedule s.timers i.now).2 } i = .ok (s', o) := by
      unfold step loop at hst
      simp only at hst
      rw [show (schedule s.timers i.now).1 = some .t100ms from ht] at hst
      exact hst
    exact task100_answers (s := { s with timers := (schedule s.timers i.now).2 }) hk.inv hst (client_of hc hm) hne hp
  · have hst : task500 F cfg W { s with timers := (schedule s.timers i.now).2 } i = .ok (s', o) := by
      unfold step loop at hst
      simp only at hst
      rw [show (schedule s.timers i.now).1 = some .t500ms from ht] at hst
      exact hst
    exact task500_sends (s := { s with timers := (schedule s.timers i.now).2 }) hsen hst (client_of hc hm) hav hnx hk.inv

/-- **C84** One star, from the bytes received to the bytes sent: after any history since power-up that leaves one star, the device, turned back to it, sends numbers
that stand for the star within `2^-26 + 2^-40` (3 milliarcseconds), at every later time, over Bluetooth and TCP and to a planetarium program. -/
theorem C84_one_star (F : Formats) (hL : NexStar.Wide F.wide) (cfg : Config) (h : List (World σ × Event ℚ)) (s0 s : Sys) (o : List Out) (hb : boot cfg = .ok s0)
    (hr : run F cfg h s0 = .ok (s, o)) (hc : ∀ x ∈ h, Careful x.1) (evs : List (Libm × Align64.Env σ × Ev)) (he : History F cfg s0 h evs)
    (hR : ∀ e ∈ evs, Reasonable e.2.2) (K : Known) (hs : Story nothing (evs.map fun e => e.2.2) K) (a : Seen) (hk : K.stars = [a]) :
    Visible σ F cfg s (2⁻¹ ^ 40 + 2⁻¹ ^ 26) a := by
  obtain ⟨h1, h2, h3⟩ := from_boot hb hr hc he hR
  exact visible_of h1 (Session64.C80_one_star F.wide hL cfg.platform evs h3 _ h2 K hs a hk)

/-- **C84** Two stars, the orientations at least `d ≥ 0.01` degrees apart: both within `1 / (2000 d²) + 2^-26`. -/
theorem C84_two_stars (F : Formats) (hL : NexStar.Wide F.wide) (cfg : Config) (h : List (World σ × Event ℚ)) (s0 s : Sys) (o : List Out) (hb : boot cfg = .ok s0)
    (hr : run F cfg h s0 = .ok (s, o)) (hc : ∀ x ∈ h, Careful x.1) (evs : List (Libm × Align64.Env σ × Ev)) (he : History F cfg s0 h evs)
    (hR : ∀ e ∈ evs, Reasonable e.2.2) (K : Known) (hs : Story nothing (evs.map fun e => e.2.2) K) (a b : Seen) (hk : K.stars = [a, b])
    (d : ℚ) (hd : 1 / 100 ≤ d) (hdd : d ^ 2 ≤ Linalg64.dist2 a.at' b.at') (c : Seen) (hcs : c ∈ [a, b]) :
    Visible σ F cfg s (1 / (2000 * d ^ 2) + 2⁻¹ ^ 26) c := by
  obtain ⟨h1, h2, h3⟩ := from_boot hb hr hc he hR
  exact visible_of h1 (Session64.C80_two_stars F.wide hL cfg.platform evs h3 _ h2 K hs a b hk d hd hdd c hcs)

/-- **C84** Three stars, the triangle of the orientations at least `d ≥ 0.001` degrees high: either the triangulation found no triangle, or all are within
`1 / (100000 d²) + 2^-26`. -/
theorem C84_three_stars (F : Formats) (hL : NexStar.Wide F.wide) (cfg : Config) (h : List (World σ × Event ℚ)) (s0 s : Sys) (o : List Out) (hb : boot cfg = .ok s0)
    (hr : run F cfg h s0 = .ok (s, o)) (hc : ∀ x ∈ h, Careful x.1) (evs : List (Libm × Align64.Env σ × Ev)) (he : History F cfg s0 h evs)
    (hR : ∀ e ∈ evs, Reasonable e.2.2) (K : Known) (hs : Story nothing (evs.map fun e => e.2.2) K) (a b c : Seen) (hk : K.stars = [a, b, c])
    (d : ℚ) (hd : 1 / 1000 ≤ d) (hdd : Tall d a.at' b.at' c.at') (e : Seen) (hes : e ∈ [a, b, c]) :
    (∀ z, Align64.getTransformationType s.scope.core.alignment z = .ok .line) ∨ Visible σ F cfg s (1 / (100000 * d ^ 2) + 2⁻¹ ^ 26) e := by
  obtain ⟨h1, h2, h3⟩ := from_boot hb hr hc he hR
  exact (Session64.C80_three_stars F.wide hL cfg.platform evs h3 _ h2 K hs a b c hk d hd hdd e hes).imp id (visible_of h1)

/-- **C84** Any number of stars, well placed at every moment of the history, with the tests of the triangulation as the code calculates them: the triangles are the
Delaunay triangles of the orientations, and every star of a triangle is sent within `1 / (100000 h²) + 2^-26`, `h` the least height of the triangles, at least 1/3 degree. -/
theorem C84_many_stars (F : Formats) (hL : NexStar.Wide F.wide) (cfg : Config) (h : List (World (Option (ℚ × ℚ)) × Event ℚ)) (s0 s : Sys) (o : List Out)
    (hb : boot cfg = .ok s0) (hr : run F cfg h s0 = .ok (s, o)) (hc : ∀ x ∈ h, Careful x.1) (evs : List (Libm × Align64.Env (Option (ℚ × ℚ)) × Ev))
    (he : History F cfg s0 h evs) (hR : ∀ e ∈ evs, Reasonable e.2.2) (hE : ∀ e ∈ evs, IeeeEnv e.1 e.2.1)
    (hP : ∀ l, l <+: evs → ∀ K, Story nothing (l.map fun e => e.2.2) K → Placed (K.stars.map Seen.at'))
    (K : Known) (hs : Story nothing (evs.map fun e => e.2.2) K) (hw : WellPlaced (K.stars.map Seen.at')) :
    Delaunay (K.stars.map Seen.at') s.scope.core.alignment.vertices s.scope.core.alignment.triangles ∧
      ∀ d : ℚ, 1 / 3 ≤ d → (∀ a ∈ K.stars, ∀ b ∈ K.stars, ∀ c ∈ K.stars, a.at' ≠ b.at' → b.at' ≠ c.at' → c.at' ≠ a.at' → Tall d a.at' b.at' c.at') →
        ∀ a ∈ K.stars, ∀ y z, Belong (K.stars.map Seen.at') a.at' y z → Visible (Option (ℚ × ℚ)) F cfg s (1 / (100000 * d ^ 2) + 2⁻¹ ^ 26) a := by
  obtain ⟨h1, h2, h3⟩ := from_boot hb hr hc he hR
  obtain ⟨T, hT, hall⟩ := Session64.C82_evening F.wide hL cfg.platform evs h3 hE hP
  rw [h2] at hT
  injection hT with hT
  subst hT
  obtain ⟨q1, q2⟩ := hall K hs hw
  exact ⟨q1, fun d hd H a ha y z hb => visible_of h1 (q2 d hd H a ha y z hb)⟩

end Verif.Firmware64
