import Verif.Spec.Session64
import Verif.Props.Telescope64
import Verif.Props.Telescope64Demo
import Verif.Props.OneStar64
import Verif.Props.NexStarFields
import Verif.Lemmas.SafetyMain

/-!
# Sessions: from bytes to calls of the telescope, and back
-/

namespace Verif.Session64

open Verif Verif.Align Verif.Linalg64 Verif.Coord64 Verif.Telescope64 Verif.Spec Verif.Spec.NexStar

variable {σ : Type}

/-! ### sidereal time -/

theorem sidereal {L : Fmt} (hL : NexStar.Wide L) {g : Nmea.Gnss} {θ : ℚ} (h : SiderealAt g θ) :
    ∃ r, Helper.localSiderealTime64 L g.utc g.longitude = .ok r ∧ -2⁻¹ ^ 1000 ≤ r ∧ r ≤ 360 ∧ ∃ k : ℤ, |r - (θ + 360 * k)| ≤ 2⁻¹ ^ 22 := by
  obtain ⟨n, d, hv, ht, hn, hn', hy0, hy, ⟨h1, h2, m1, m2, s1, s2⟩, hlon, rfl⟩ := h
  obtain ⟨r, e1, e2, e3, -, k, e4⟩ := Helper.C70_lst L hL n d g.utc g.longitude hv ht hn hn' hy0 hy h1 h2 m1 m2 s1 s2 hlon
  exact ⟨r, e1, e2, e3, k, e4⟩

/-! ### numbers on the wire -/

theorem cast_cases (P : Platform) (q : ℚ) :
    (P.fcast = .strict ∧ castU32 P q = .error (.ub .floatToInt)) ∨ ∃ u : UInt32, castU32 P q = .ok u ∧ ∃ k : ℤ, |(u.toNat : ℚ) - (q + 2 ^ 32 * k)| ≤ 1 := by
  cases h : castU32 P q with
  | ok u =>
    refine Or.inr ⟨u, rfl, ?_⟩
    obtain ⟨k, hk⟩ := NexStar.castU32_mod h
    refine ⟨k, ?_⟩
    have e : (u.toNat : ℚ) = (truncZ q : ℚ) + 2 ^ 32 * k := by exact_mod_cast congrArg (Int.cast : ℤ → ℚ) hk
    rw [e]
    have := NexStar.abs_truncZ q
    rw [abs_le]
    rw [abs_lt] at this
    constructor <;> linarith [this.1, this.2]
  | error e =>
    left
    unfold castU32 castUnsigned at h
    split at h
    · cases h
    · cases hf : P.fcast with
      | strict => rw [hf] at h; cases h; exact ⟨rfl, rfl⟩
      | wrap => rw [hf] at h; cases h

theorem small_eps : 2 ^ 33 / 2 * Helper.eps ≤ 1 / 1000 := by unfold Helper.eps; norm_num

theorem encode_near (P : Platform) {x : ℚ} (hx : Representable b64 x) (hb : |x| ≤ 361) :
    ∃ q : ℚ, Codec.encodeAngle64 P x = castU32 P q ∧ |q - x / 360 * 2 ^ 32| ≤ 0.51 := by
  obtain ⟨b1, b2⟩ := abs_le.1 hb
  have ha : fl b64 (x * 2147483648) = .ok (x * 2147483648) := by
    rw [show x * 2147483648 = x * 2 ^ 31 by norm_num]
    apply Codec.fl_scale hx
    have : ((2 : ℚ) ^ (50 : ℤ)) ≤ (2 : ℚ) ^ b64.emax := zpow_le_zpow_right₀ (by norm_num) (by decide)
    rw [abs_mul, abs_of_pos (by norm_num : (0 : ℚ) < 2 ^ 31)]
    norm_num at this ⊢; linarith
  have hs := small_eps
  obtain ⟨X, hX, eX⟩ := Helper.wide_fl_near NexStar.wide_b64 33 (by norm_num) (x * 2147483648 / 180) (by
    rw [abs_lt]; norm_num; constructor <;> linarith)
  obtain ⟨x1, x2⟩ := abs_le.1 (eX.trans hs)
  obtain ⟨Y, hY, eY⟩ := Helper.wide_fl_near NexStar.wide_b64 33 (by norm_num) (1 / 2 + X) (by
    rw [abs_lt]; norm_num; constructor <;> linarith)
  obtain ⟨y1, y2⟩ := abs_le.1 (eY.trans hs)
  refine ⟨((⌊Y⌋ : ℤ) : ℚ), ?_, ?_⟩
  · unfold Codec.encodeAngle64
    rw [ha, bind_ok, hX, bind_ok, hY, bind_ok]
  · have f1 := Int.floor_le Y
    have f2 := Int.lt_floor_add_one Y
    rw [abs_le]; norm_num; constructor <;> linarith

theorem number_near {L : Fmt} (hL : NexStar.Wide L) (P : Platform) {x : ℚ} (hb : |x| ≤ 361) :
    ∃ q : ℚ, NexStar.positionNumber64 L P x = castU32 P q ∧ |q - x / 360 * 2 ^ 32| ≤ 0.51 := by
  obtain ⟨b1, b2⟩ := abs_le.1 hb
  have hs := small_eps
  obtain ⟨X, hX, eX⟩ := Helper.wide_fl_near hL 1 (by norm_num) (x / 360) (by rw [abs_lt]; norm_num; constructor <;> linarith)
  have hs' : (2 : ℚ) ^ 1 / 2 * Helper.eps * 2 ^ 32 ≤ 1 / 1000 := by unfold Helper.eps; norm_num
  obtain ⟨x1, x2⟩ := abs_le.1 eX
  obtain ⟨Y, hY, eY⟩ := Helper.wide_fl_near hL 33 (by norm_num) (X * 4294967296) (by
    norm_num at hs'
    rw [abs_lt]; norm_num; constructor <;> linarith)
  obtain ⟨y1, y2⟩ := abs_le.1 (eY.trans hs)
  refine ⟨Y, ?_, ?_⟩
  · unfold NexStar.positionNumber64
    rw [hX, bind_ok, hY, bind_ok]
  · norm_num at hs' x1 x2
    rw [abs_le]; norm_num; constructor <;> linarith

/-- The number `n` stands for the angle `x`, up to full turns and 1.6 units. -/
def Near (n : Nat) (x : ℚ) : Prop := ∃ k : ℤ, |wire n - (x + 360 * k)| ≤ 1.6 * 360 / 2 ^ 32

theorem near_of {u : Nat} {q x : ℚ} {k : ℤ} (h1 : |q - x / 360 * 2 ^ 32| ≤ 0.51) (h2 : |(u : ℚ) - (q + 2 ^ 32 * k)| ≤ 1) : Near u x := by
  refine ⟨k, ?_⟩
  rw [abs_le] at h1 h2 ⊢
  unfold wire
  obtain ⟨a, b⟩ := h1
  obtain ⟨c, d⟩ := h2
  norm_num at a b c d ⊢
  constructor <;> linarith

theorem encode_out (P : Platform) {x : ℚ} (hx : Representable b64 x) (hb : |x| ≤ 361) :
    (P.fcast = .strict ∧ Codec.encodeAngle64 P x = .error (.ub .floatToInt)) ∨ ∃ u : UInt32, Codec.encodeAngle64 P x = .ok u ∧ Near u.toNat x := by
  obtain ⟨q, e, h⟩ := encode_near P hx hb
  rw [e]
  rcases cast_cases P q with h' | ⟨u, h1, k, h2⟩
  · exact Or.inl h'
  · exact Or.inr ⟨u, h1, near_of h h2⟩

theorem number_out {L : Fmt} (hL : NexStar.Wide L) (P : Platform) {x : ℚ} (hb : |x| ≤ 361) :
    (P.fcast = .strict ∧ NexStar.positionNumber64 L P x = .error (.ub .floatToInt)) ∨
      ∃ u : UInt32, NexStar.positionNumber64 L P x = .ok u ∧ Near u.toNat x := by
  obtain ⟨q, e, h⟩ := number_near hL P hb
  rw [e]
  rcases cast_cases P q with h' | ⟨u, h1, k, h2⟩
  · exact Or.inl h'
  · exact Or.inr ⟨u, h1, near_of h h2⟩

theorem calibrated_rep {M : Libm} {T : Tel} {lat t ra dec : ℚ} {ty : TType} (h : getCalibratedOrientation M T lat t = .ok (ty, ra, dec)) :
    Representable b64 ra ∧ Representable b64 dec := by
  unfold Telescope64.getCalibratedOrientation at h
  obtain ⟨_, -, h⟩ := bind_eq_ok.1 h
  obtain ⟨_, -, h⟩ := bind_eq_ok.1 h
  obtain ⟨⟨r, d⟩, he, h⟩ := bind_eq_ok.1 h
  cases h
  exact OneStar64.h2e_rep he

theorem packet_out {L : Fmt} {P : Platform} {M : Libm} {g : Nmea.Gnss} {T : Tel} {tx : List UInt8} {t ra dec : ℚ} {ty : TType}
    (ht : Helper.localSiderealTime64 L g.utc g.longitude = .ok t) (hc : getCalibratedOrientation M T g.latitude t = .ok (ty, ra, dec))
    (h1 : |ra| ≤ 361) (h2 : |dec| ≤ 361) (htx : 256 ≤ tx.length) :
    (P.fcast = .strict ∧ packet L P M g T tx = .error (.ub .floatToInt)) ∨
      ∃ u v, u < 2 ^ 32 ∧ v < 2 ^ 32 ∧ packet L P M g T tx = .ok (positionMessage 0 u v) ∧ Near u ra ∧ Near v dec := by
  obtain ⟨r1, r2⟩ := calibrated_rep hc
  unfold packet
  rw [ht, bind_ok, hc, bind_ok]
  simp only
  rw [Codec.pack_bytes64 _ _ _ _ _ _ (by norm_num) htx]
  rcases encode_out P r1 h1 with ⟨f, e⟩ | ⟨u, hu, nu⟩
  · left; rw [e]; exact ⟨f, rfl⟩
  · rcases encode_out P r2 h2 with ⟨f, e⟩ | ⟨v, hv, nv⟩
    · left; rw [hu, bind_ok, e]; exact ⟨f, rfl⟩
    · right
      refine ⟨u.toNat, v.toNat, u.toNat_lt, v.toNat_lt, ?_, nu, nv⟩
      rw [hu, bind_ok, hv, bind_ok]
      simp only [pure_ok, bind_ok]
      rw [Printf.readBytes_eq (by simp [positionMessage, le])]
      rw [List.take_left' (by simp [positionMessage, le])]
      rfl

theorem reply_out {L : Fmt} (hL : NexStar.Wide L) {P : Platform} {M : Libm} {g : Nmea.Gnss} {T : Tel} {t ra dec : ℚ} {ty : TType}
    (ht : Helper.localSiderealTime64 L g.utc g.longitude = .ok t) (hc : getCalibratedOrientation M T g.latitude t = .ok (ty, ra, dec))
    (h1 : |ra| ≤ 361) (h2 : |dec| ≤ 361) :
    (P.fcast = .strict ∧ reply L P M g T = .error (.ub .floatToInt)) ∨
      ∃ u v, u < 2 ^ 32 ∧ v < 2 ^ 32 ∧ reply L P M g T = .ok (hex8 u ++ [44] ++ hex8 v ++ [35]) ∧ Near u ra ∧ Near v dec := by
  unfold reply
  rw [ht, bind_ok, hc, bind_ok]
  unfold NexStar.positionBytes64
  simp only
  rcases number_out hL P h1 with ⟨f, e⟩ | ⟨u, hu, nu⟩
  · left; rw [e]; exact ⟨f, rfl⟩
  · rcases number_out hL P h2 with ⟨f, e⟩ | ⟨v, hv, nv⟩
    · left; rw [hu, bind_ok, e]; exact ⟨f, rfl⟩
    · right
      refine ⟨u.toNat, v.toNat, u.toNat_lt, v.toNat_lt, ?_, nu, nv⟩
      rw [hu, bind_ok, hv, bind_ok, NexStar.fmt08X_hex8, NexStar.fmt08X_hex8]
      rfl

/-! ### from the telescope's numbers to the sky -/

/-- The star as the telescope stores it. -/
structure Match (L : Fmt) (s : Seen) (k : Star) : Prop where
  at_eq : k.at' = s.at'
  ra_eq : k.ra = s.ra
  dec_eq : k.dec = s.dec ∨ k.dec = s.dec - 360
  lat_eq : k.lat = s.fix.latitude
  lst_eq : Helper.localSiderealTime64 L s.fix.utc s.fix.longitude = .ok k.lst

theorem trig_near {x y d : ℚ} {k : ℤ} (h : |x - (y + 360 * k)| ≤ d) : ∃ z : ℝ, Real.cos z = cosd y ∧ Real.sin z = sind y ∧ |Coord.rad x - z| ≤ d * (3.15 / 180) := by
  refine ⟨Coord.rad (y + k * 360), by rw [Coord.cos_rad_turns]; rfl, by rw [Coord.sin_rad_turns]; rfl, ?_⟩
  have : Coord.rad (x : ℝ) - Coord.rad ((y : ℝ) + k * 360) = Coord.rad ((x - (y + 360 * k) : ℚ) : ℝ) := by
    unfold Coord.rad; push_cast; ring
  rw [this]
  exact rad_abs _ _ (by exact_mod_cast h)

/-- Wrong angles, by full turns and a bit. -/
theorem sky_err {e e' a a' d1 d2 : ℚ} {k1 k2 : ℤ} (h1 : |e' - (e + 360 * k1)| ≤ d1) (h2 : |a' - (a + 360 * k2)| ≤ d2) :
    |cosd e' * cosd a' - cosd e * cosd a| ≤ (d1 + d2) * (3.15 / 180) ∧ |cosd e' * sind a' - cosd e * sind a| ≤ (d1 + d2) * (3.15 / 180) ∧
      |sind e' - sind e| ≤ d1 * (3.15 / 180) := by
  obtain ⟨z, c1, s1, n1⟩ := trig_near h1
  obtain ⟨w, c2, s2, n2⟩ := trig_near h2
  obtain ⟨t1, t2, t3⟩ := cc_err n1 n2
  rw [c1, c2] at t1
  rw [c1, s2] at t2
  rw [s1] at t3
  have e : (d1 : ℝ) * (3.15 / 180) + d2 * (3.15 / 180) = (d1 + d2) * (3.15 / 180) := by ring
  rw [e] at t1 t2
  exact ⟨t1, t2, t3⟩

theorem sky_of_place {L : Fmt} {tol : ℝ} {s : Seen} {k : Star} (hm : Match L s k) {ra dec t' θ θ' : ℚ} (h : SamePlace tol k ra dec t')
    {i j : ℤ} (hθ : |k.lst - (θ + 360 * i)| ≤ 2⁻¹ ^ 22) (hθ' : |t' - (θ' + 360 * j)| ≤ 2⁻¹ ^ 22) {u v : Nat} (hu : Near u ra) (hv : Near v dec) :
    SameSky (tol + 2⁻¹ ^ 26) s θ (wire u) (wire v) θ' := by
  obtain ⟨a, ha⟩ := hu
  obtain ⟨b, hb⟩ := hv
  have hd : |k.dec - (s.dec + 360 * (if k.dec = s.dec then 0 else -1 : ℤ))| ≤ 0 := by
    split
    · rename_i h; rw [h]; simp
    · rename_i h
      rw [hm.dec_eq.resolve_left h]; push_cast
      rw [show s.dec - 360 - (s.dec + 360 * -1) = 0 by ring, abs_zero]
  have hh : |(θ' - wire u) - ((t' - ra) + 360 * ((-j - a : ℤ) : ℚ))| ≤ 2⁻¹ ^ 22 + 1.6 * 360 / 2 ^ 32 := by
    rw [abs_le] at ha hθ' ⊢
    push_cast
    constructor <;> linarith [ha.1, ha.2, hθ'.1, hθ'.2]
  have hk : |(k.lst - k.ra) - ((θ - s.ra) + 360 * (i : ℚ))| ≤ 2⁻¹ ^ 22 := by
    rw [hm.ra_eq, show (k.lst - s.ra) - ((θ - s.ra) + 360 * (i : ℚ)) = k.lst - (θ + 360 * i) by ring]; exact hθ
  obtain ⟨p1, p2, p3⟩ := sky_err hb hh
  obtain ⟨q1, q2, q3⟩ := sky_err hd hk
  obtain ⟨r1, r2, r3⟩ := h
  push_cast at p1 p2 p3 q1 q2 q3
  have tri : ∀ {x y z w A B D E : ℝ}, |x - y| ≤ A → |y - z| ≤ B → |z - w| ≤ D → A + B + D ≤ E → |x - w| ≤ E := by
    intro x y z w A B D E h1 h2 h3 h4
    rw [abs_le] at *
    constructor <;> linarith [h1.1, h1.2, h2.1, h2.2, h3.1, h3.2]
  unfold SameSky
  refine ⟨tri p1 r1 q1 ?_, tri p2 r2 q2 ?_, tri p3 r3 q3 ?_⟩ <;> norm_num <;> linarith

/-- What the telescope finds is what is reported. -/
theorem reports_of {L : Fmt} (hL : NexStar.Wide L) {P : Platform} {T : Tel} {tol : ℝ} {s : Seen} {k : Star} (hm : Match L s k) {ty : TType}
    (h : ∀ M, Accurate M → ∀ lst : ℚ, |lst| ≤ 361 → ∃ ra dec, getCalibratedOrientation M (setOrientation T k.at') k.lat lst = .ok (ty, ra, dec) ∧
      -2⁻¹ ^ 1000 ≤ ra ∧ ra ≤ 360 ∧ |dec| ≤ 90 + 2⁻¹ ^ 42 ∧ SamePlace tol k ra dec lst) :
    Reports L P T (tol + 2⁻¹ ^ 26) s := by
  intro M g' θ θ' tx hM hθ hθ' hl htx
  have tiny : (2⁻¹ : ℚ) ^ 1000 ≤ 1 := pow_le_one₀ (by norm_num) (by norm_num)
  have tiny' : (2⁻¹ : ℚ) ^ 42 ≤ 1 := pow_le_one₀ (by norm_num) (by norm_num)
  obtain ⟨t, ht, t1, t2, j, hj⟩ := sidereal hL hθ'
  obtain ⟨t0, ht0, -, -, i, hi⟩ := sidereal hL hθ
  rw [hm.lst_eq] at ht0
  cases ht0
  obtain ⟨ra, dec, hc, a1, a2, a3, hp⟩ := h M hM t (by rw [abs_le]; constructor <;> linarith)
  rw [hm.at_eq, hm.lat_eq, ← hl] at hc
  have hra : |ra| ≤ 361 := by rw [abs_le]; constructor <;> linarith
  have hdec : |dec| ≤ 361 := by linarith
  constructor
  · rcases packet_out (P := P) (tx := tx) ht hc hra hdec htx with h | ⟨u, v, hu, hv, e, nu, nv⟩
    · exact Or.inr h
    · exact Or.inl ⟨u, v, hu, hv, e, sky_of_place hm hp hi hj nu nv⟩
  · rcases reply_out hL (P := P) ht hc hra hdec with h | ⟨u, v, hu, hv, e, nu, nv⟩
    · exact Or.inr h
    · exact Or.inl ⟨u, v, hu, hv, e, sky_of_place hm hp hi hj nu nv⟩

/-! ### from bytes to calls -/

theorem wire_range {n : Nat} (h : n < 2 ^ 32) : 0 ≤ wire n ∧ wire n ≤ 360 - 1 / 2 ^ 24 := by
  unfold wire
  have : (n : ℚ) ≤ 2 ^ 32 - 1 := by
    have : n + 1 ≤ 2 ^ 32 := h
    have : ((n + 1 : ℕ) : ℚ) ≤ ((2 ^ 32 : ℕ) : ℚ) := by exact_mod_cast this
    push_cast at this; linarith
  constructor
  · positivity
  · rw [div_le_iff₀ (by norm_num)]
    linarith [show ((360 : ℚ) - 1 / 2 ^ 24) * 2 ^ 32 = 1546188226304 by norm_num]

theorem tells_step {L : Fmt} (hL : NexStar.Wide L) (P : Platform) {e : Ev} {g : Nmea.Gnss} {u v : Nat} (h : Tells e g u v) (hp : Proper e) :
    (∃ θ, SiderealAt g θ) ∧ |g.latitude| ≤ 361 ∧ u < 2 ^ 32 ∧ v < 2 ^ 32 ∧ ∃ dec, (dec = wire v ∨ dec = wire v - 360) ∧
      ∀ (M : Libm) (env : Align64.Env σ) (T : Tel), step L P M env e T =
        (Helper.localSiderealTime64 L g.utc g.longitude >>= fun t => addReferencePoint M env T (wire u) dec g.latitude t) := by
  cases h with
  | goto _ rx n h1 h2 h3 =>
    obtain ⟨hs, hl, hr⟩ := hp
    have lt4 : ∀ i, leVal (slice rx i 4) < 2 ^ 32 := fun i => by
      have := Codec.leVal_lt (slice rx i 4)
      refine this.trans_le ?_
      have : (slice rx i 4).length ≤ 4 := by simp [slice]
      calc 256 ^ (slice rx i 4).length ≤ 256 ^ 4 := Nat.pow_le_pow_right (by norm_num) this
        _ = 2 ^ 32 := by norm_num
    refine ⟨hs, hl, lt4 12, lt4 16, wire (leVal (slice rx 16 4)), Or.inl rfl, fun M env T => ?_⟩
    show goto L M env g T rx n = _
    unfold goto
    rw [Codec.C66_unpack_exact, Codec.unpack_accepts _ _ _ (by omega) (Or.inr hr), if_pos ⟨h1, h2, h3⟩, bind_ok]
    rfl
  | sync _ b _ _ hb =>
    obtain ⟨hs, hl, -⟩ := hp
    obtain ⟨a, d, sep, rest, ha, hd, rfl, rfl, rfl⟩ := hb
    have hlt : ∀ l : List (Bool × Fin 16), l.length = 8 → hexVal (l.map (·.2)) < 2 ^ 32 := fun l hl => by
      have := NexStar.hexVal_lt (l.map (·.2))
      rw [List.length_map, hl] at this; norm_num at this ⊢; exact this
    have hla : (hexText a).length = 8 := by simp [hexText, ha]
    have hld : (hexText d).length = 8 := by simp [hexText, hd]
    set b := 115 :: (hexText a ++ sep :: (hexText d ++ rest)) with hbdef
    have d1 : b.drop 1 = hexText a ++ (sep :: (hexText d ++ rest)) := by rw [hbdef]; rfl
    have d2 : b.drop 10 = hexText d ++ rest := by
      rw [hbdef]
      show (hexText a ++ sep :: (hexText d ++ rest)).drop 9 = _
      rw [List.drop_append, List.drop_of_length_le (by omega), hla]
      rfl
    have s1 := NexStar.syncAngle_hex (K := ℚ) P b _ 1 a ha d1
    have s2 := NexStar.syncAngle_hex (K := ℚ) P b _ 10 d hd d2
    have lim : ∀ i x l tl, l.length = 8 → b.drop i = hexText l ++ tl → (NexStar.syncAngle P b i : C ℚ) = .ok x → NexStar.syncAngle64 L P b i = .ok x := by
      intro i x l tl hl' hd' hx
      rw [NexStar.syncAngle64_eq hL, hx]
      intro s v e hs hv
      have hlen : (hexText l).length = 8 := by simp [hexText, hl']
      have := NexStar.strncpy_word b (hexText l) tl i hd' (NexStar.hexText_nonzero l)
      rw [hlen, hs] at this
      cases this
      have := Nmea.strtoul_hex P l (by rintro rfl; simp at hl') 0 [] (by decide) (hlt l hl')
      unfold hexText at hv
      rw [this] at hv
      cases hv
      exact hlt l hl'
    have w := NexStar.wrapDec64_eq _ (hlt d hd)
    have e32 : (4294967296 : ℚ) = 2 ^ 32 := by norm_num
    refine ⟨hs, hl, hlt a ha, hlt d hd, NexStar.wrapDec (wire (hexVal (d.map (·.2)))), ?_, fun M env T => ?_⟩
    · unfold NexStar.wrapDec
      split
      · exact Or.inr rfl
      · exact Or.inl rfl
    · show request L P M env g T b = _
      unfold request
      have hb : NexStar.branch b b.length = .ok .sync := NexStar.branch_of_parses (.sync _ _ hla hld sep rest)
      rw [hb, bind_ok]
      show sync L P M env g T b = _
      unfold sync
      rw [lim 1 _ a _ ha d1 s1, bind_ok, lim 10 _ d _ hd d2 s2, bind_ok, w, bind_ok, e32]
      rfl

theorem silent_step {L : Fmt} (P : Platform) {e : Ev} (hp : Proper e) (h1 : ∀ o, e ≠ .turn o) (h2 : e ≠ .clear) (h3 : ∀ g u v, ¬ Tells e g u v)
    (M : Libm) (env : Align64.Env σ) (T : Tel) : step L P M env e T = .ok T := by
  cases e with
  | turn o => exact absurd rfl (h1 o)
  | clear => exact absurd rfl h2
  | goto g rx n =>
    obtain ⟨hs, hl, hr⟩ := hp
    show goto L M env g T rx n = _
    unfold goto
    rw [Codec.C66_unpack_exact, Codec.unpack_accepts _ _ _ (by omega) (Or.inr hr), if_neg (fun h => h3 _ _ _ (.goto g rx n h.1 h.2.1 h.2.2)), bind_ok]
    rfl
  | request g b =>
    obtain ⟨hs, hl, hb⟩ := hp
    show request L P M env g T b = _
    unfold request
    by_cases hc : ∃ c, Parses b c
    · obtain ⟨c, hc⟩ := hc
      rw [NexStar.branch_of_parses hc, bind_ok]
      cases c with
      | sync a d =>
        obtain ⟨u, v, h⟩ := hb a d hc
        exact absurd (.sync g b u v h) (h3 _ _ _)
      | _ => rfl
    · rw [NexStar.branch_of_not_parses (fun c h => hc ⟨c, h⟩), bind_ok]

/-- The session and the calls know the same. -/
structure Related (L : Fmt) (K : Known) (k : Knows) : Prop where
  now_eq : k.now = K.now
  stars : List.Forall₂ (Match L) K.stars k.stars

theorem Related.at_eq {L : Fmt} {K : Known} {k : Knows} (h : Related L K k) : k.stars.map Star.at' = K.stars.map Seen.at' := by
  have : ∀ {l : List Seen} {l' : List Star}, List.Forall₂ (Match L) l l' → l'.map Star.at' = l.map Seen.at' := by
    intro l l' h
    induction h with
    | nil => rfl
    | cons h _ ih => rw [List.map_cons, List.map_cons, h.at_eq, ih]
  exact this h.stars

theorem step_sim {L : Fmt} (hL : NexStar.Wide L) {P : Platform} {M : Libm} {env : Align64.Env σ} {e : Ev} (hF : Fair (M, env, e)) {T T' : Tel}
    (hs : step L P M env e T = .ok T') {K K' : Known} (hl : Learns K e K') {k : Knows} (hr : Related L K k) :
    ∃ l : List (Libm × Align64.Env σ × Op), (∀ e ∈ l, Telescope64.Fair e) ∧ Telescope64.run l T = .ok T' ∧ Related L K' ((calls l).foldl Knows.step k) := by
  obtain ⟨hM, hsort, hst, hp⟩ := hF
  have tell : ∀ {g u v}, Tells e g u v → ∃ k0 : Star, (∀ x ∈ [(M, env, Op.sync k0.ra k0.dec k0.lat k0.lst)], Telescope64.Fair x) ∧
      Telescope64.run [(M, env, Op.sync k0.ra k0.dec k0.lat k0.lst)] T = .ok T' ∧ Match L ⟨K.now, wire u, wire v, g⟩ k0 := by
    intro g u v ht
    obtain ⟨⟨θ, hθ⟩, hlat, hu, hv, dec, hdec, heq⟩ := tells_step (σ := σ) hL P ht hp
    obtain ⟨t, ht1, ht2, ht3, -⟩ := sidereal hL hθ
    rw [heq, ht1, bind_ok] at hs
    obtain ⟨u1, u2⟩ := wire_range hu
    obtain ⟨v1, v2⟩ := wire_range hv
    have tiny : (2⁻¹ : ℚ) ^ 1000 ≤ 1 / 2 ^ 24 := by
      calc (2⁻¹ : ℚ) ^ 1000 ≤ 2⁻¹ ^ 24 := pow_le_pow_of_le_one (by norm_num) (by norm_num) (by norm_num)
        _ = 1 / 2 ^ 24 := by norm_num
    have pos : (0 : ℚ) < 2⁻¹ ^ 1000 := pow_pos (by norm_num) _
    generalize (2⁻¹ : ℚ) ^ 1000 = ε at tiny ht2 pos
    generalize (1 / 2 ^ 24 : ℚ) = η at tiny u2 v2
    refine ⟨⟨K.now, wire u, dec, g.latitude, t⟩, ?_, ?_, ⟨rfl, rfl, hdec, rfl, ht1⟩⟩
    · intro x hx
      rw [List.mem_singleton] at hx
      subst hx
      refine ⟨hM, hsort, hst, ?_, ?_, hlat⟩
      · show |t - wire u| ≤ 360
        rw [abs_le]; constructor <;> linarith
      · show |dec| ≤ 361
        rcases hdec with rfl | rfl <;> rw [abs_le] <;> constructor <;> linarith
    · show (Telescope64.step M env (.sync (wire u) dec g.latitude t) T >>= fun T => Telescope64.run [] T) = _
      show (addReferencePoint M env T (wire u) dec g.latitude t >>= fun T => Telescope64.run [] T) = _
      rw [hs, bind_ok]; rfl
  cases hl with
  | turn o =>
    cases hs
    refine ⟨[(M, env, .orient o)], ?_, rfl, rfl, hr.stars⟩
    intro x hx
    rw [List.mem_singleton] at hx
    subst hx
    exact ⟨hM, hsort, hst, hp⟩
  | clear =>
    cases hs
    refine ⟨[(M, env, .clear)], ?_, rfl, hr.now_eq, .nil⟩
    intro x hx
    rw [List.mem_singleton] at hx
    subst hx
    exact ⟨hM, hsort, hst, trivial⟩
  | other _ h1 h2 h3 =>
    rw [silent_step P hp h1 h2 h3] at hs
    cases hs
    exact ⟨[], by simp, rfl, hr⟩
  | again _ g u v ht hmem =>
    obtain ⟨k0, hf, hrun, hm⟩ := tell ht
    refine ⟨_, hf, hrun, ?_⟩
    show Related L K (Knows.step k (.sync k0.ra k0.dec k0.lat k0.lst))
    unfold Knows.step
    simp only
    rw [hr.at_eq, if_pos (by rw [hr.now_eq]; exact hmem)]
    exact hr
  | full _ g u v ht hmem hlen =>
    obtain ⟨k0, hf, hrun, hm⟩ := tell ht
    refine ⟨_, hf, hrun, ?_⟩
    show Related L _ (Knows.step k (.sync k0.ra k0.dec k0.lat k0.lst))
    unfold Knows.step
    simp only
    rw [hr.at_eq, hr.now_eq, if_neg hmem, if_pos (by rw [← hr.stars.length_eq]; exact hlen)]
    exact ⟨rfl, .nil⟩
  | star _ g u v ht hmem hlen =>
    obtain ⟨k0, hf, hrun, hm⟩ := tell ht
    refine ⟨_, hf, hrun, ?_⟩
    show Related L _ (Knows.step k (.sync k0.ra k0.dec k0.lat k0.lst))
    unfold Knows.step
    simp only
    rw [hr.at_eq, if_neg (by rw [hr.now_eq]; exact hmem), if_neg (by rw [← hr.stars.length_eq]; omega)]
    refine ⟨hr.now_eq, ?_⟩
    refine List.rel_append hr.stars (.cons ?_ .nil)
    exact ⟨hr.now_eq, hm.ra_eq, hm.dec_eq, hm.lat_eq, hm.lst_eq⟩

theorem sim {L : Fmt} (hL : NexStar.Wide L) {P : Platform} : ∀ (hist : List (Libm × Align64.Env σ × Ev)) (_ : ∀ e ∈ hist, Fair e) (T T' : Tel)
    (_ : run L P hist T = .ok T') (K K' : Known) (_ : Story K (hist.map (fun e => e.2.2)) K') (k : Knows) (_ : Related L K k),
    ∃ l : List (Libm × Align64.Env σ × Op), (∀ e ∈ l, Telescope64.Fair e) ∧ Telescope64.run l T = .ok T' ∧ Related L K' ((calls l).foldl Knows.step k)
  | [], _, T, T', hr, K, K', hs, k, hk => by
    cases hr
    cases hs
    exact ⟨[], by simp, rfl, hk⟩
  | (M, env, e) :: h, hF, T, T', hr, K, K', hs, k, hk => by
    obtain ⟨T1, h1, h2⟩ := bind_eq_ok.1 hr
    cases hs with
    | cons hl hs =>
      obtain ⟨l1, f1, r1, k1⟩ := step_sim hL (hF _ List.mem_cons_self) h1 hl hk
      obtain ⟨l2, f2, r2, k2⟩ := sim hL h (fun e he => hF e (List.mem_cons_of_mem _ he)) T1 T' h2 _ K' hs _ k1
      refine ⟨l1 ++ l2, fair_append f1 f2, by rw [run_append, r1, bind_ok, r2], ?_⟩
      unfold calls at k2 ⊢
      rw [List.map_append, List.foldl_append]
      exact k2

end Verif.Session64
