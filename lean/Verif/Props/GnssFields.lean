import Verif.Lemmas.NmeaFields
import Verif.Props.GnssSafety

/-!
# Decoding of well-formed sentences (C16, C17, C18, C19)
-/

namespace Verif.Nmea
open Verif Verif.Spec

theorem fromNMEA_frame (P : Platform) (g : Gnss) (ty rest ending : List UInt8) (hp : PlainText (ty ++ [44] ++ rest)) (he : LineEnd ending)
    (hl : ty.length = 5) :
    fromNMEA P g (frame (ty ++ [44] ++ rest) ending) =
      if ty = [71, 80, 82, 77, 67] then (rmcBody P g (rest ++ ([42] ++ hexByte (xorAll (ty ++ [44] ++ rest)) ++ ending ++ [0]))).map (true, ·)
      else if ty = [71, 80, 71, 71, 65] then (ggaBody P g (rest ++ ([42] ++ hexByte (xorAll (ty ++ [44] ++ rest)) ++ ending ++ [0]))).map (true, ·)
      else if ty = [71, 80, 71, 83, 86] then (gsvBody P g (rest ++ ([42] ++ hexByte (xorAll (ty ++ [44] ++ rest)) ++ ending ++ [0]))).map (true, ·)
      else .ok (false, g) := by
  obtain ⟨hv, hf, hn⟩ := frame_ok P _ ending hp he
  have hfind : ∀ pat : List UInt8, pat.length = 5 → findSub (36 :: pat) (frame (ty ++ [44] ++ rest) ending) =
      if ty = pat then some 0 else none := by
    intro pat hpl
    rw [hf, findSub_head hn]
    congr 1
    rw [List.isPrefixOf_iff_prefix]
    simp only [List.append_assoc, eq_iff_iff]
    constructor
    · intro h
      have := List.prefix_of_prefix_length_le h (List.prefix_append ty _) (by omega)
      exact (this.eq_of_length (by omega)).symm
    · rintro rfl; exact List.prefix_append _ _
  have hdrop : (cStr (frame (ty ++ [44] ++ rest) ending)).drop 7 =
      rest ++ ([42] ++ hexByte (xorAll (ty ++ [44] ++ rest)) ++ ending ++ [0]) := by
    unfold cStr
    rw [hf]
    have : 36 :: (ty ++ [44] ++ rest ++ ([42] ++ hexByte (xorAll (ty ++ [44] ++ rest)) ++ ending)) ++ [0] =
        ([36] ++ ty ++ [44]) ++ (rest ++ ([42] ++ hexByte (xorAll (ty ++ [44] ++ rest)) ++ ending ++ [0])) := by simp
    rw [this]
    exact List.drop_left' (by simp [hl])
  have h1 := hfind [71, 80, 82, 77, 67] rfl
  have h2 := hfind [71, 80, 71, 71, 65] rfl
  have h3 := hfind [71, 80, 71, 83, 86] rfl
  have hmap : ∀ x : C Gnss, (x >>= fun g' => (.ok (true, g') : C (Bool × Gnss))) = x.map (true, ·) := by
    intro x; cases x <;> rfl
  unfold fromNMEA fromRMC fromGGA fromGSV RMC_HEADER GGA_HEADER GSV_HEADER
  rw [h1, h2, h3, hv]
  simp only [bind_ok, if_true, pure_ok]
  by_cases c1 : ty = [71, 80, 82, 77, 67]
  · simp only [if_pos c1, Option.isSome_some, if_true, List.length_cons, List.length_nil]
    rw [hdrop, hmap]
  · simp only [if_neg c1, Option.isSome_none, Bool.false_eq_true, if_false]
    by_cases c2 : ty = [71, 80, 71, 71, 65]
    · simp only [if_pos c2, Option.isSome_some, if_true, List.length_cons, List.length_nil]
      rw [hdrop, hmap]
    · simp only [if_neg c2, Option.isSome_none, Bool.false_eq_true, if_false]
      by_cases c3 : ty = [71, 80, 71, 83, 86]
      · simp only [if_pos c3, Option.isSome_some, if_true, List.length_cons, List.length_nil]
        rw [hdrop, hmap]
      · simp only [if_neg c3, Option.isSome_none, Bool.false_eq_true, if_false]

/-! ## C19 -/

theorem strtol_dig (P : Platform) (d : Fin 10) (r : List UInt8) : strtol P false (dig d :: 44 :: r) = .ok ((d.val : ℤ), 44 :: r) := by
  have := strtol_dec P [d] (by simp) 44 (by decide) r (by simp [natDigits]; omega)
  simpa [natDigits] using this

theorem strtol_dec2 (P : Platform) {n : Nat} (hn : n < 100) (r : List UInt8) :
    strtol P false (dec2 n ++ 44 :: r) = .ok ((n : ℤ), 44 :: r) := by
  rw [dec2_eq, strtol_dec P (d2 n) (by simp [d2]) 44 (by decide) r (by rw [natDigits_d2 hn]; omega), natDigits_d2 hn]

/-- **C19** Every well-formed GSV sentence is accepted, sets the satellites in view to its third field and changes nothing
else. -/
theorem C19_gsv (P : Platform) (g : Gnss) (r : Gsv) (hr : r.WellFormed) (ending : List UInt8) (he : LineEnd ending) :
    fromNMEA P g (frame r.payload ending) = .ok (true, { g with satView := UInt32.ofNat r.inView }) := by
  have hp : r.payload = [71, 80, 71, 83, 86] ++ [44] ++ ([dig r.total] ++ [44] ++ [dig r.index] ++ [44] ++ dec2 r.inView ++ [44] ++ r.tail) := by
    simp [Gsv.payload]
  have hplain : PlainText ([71, 80, 71, 83, 86] ++ [44] ++ ([dig r.total] ++ [44] ++ [dig r.index] ++ [44] ++ dec2 r.inView ++ [44] ++ r.tail)) := by
    simp only [plain_append]
    refine ⟨⟨by unfold PlainText; decide, plain_comma⟩, ?_⟩
    have := plain_digits [r.total]
    have h2 := plain_digits [r.index]
    exact ⟨⟨⟨⟨⟨⟨this, plain_comma⟩, h2⟩, plain_comma⟩, plain_dec2 _⟩, plain_comma⟩, hr.tail⟩
  rw [hp, fromNMEA_frame P g _ _ _ hplain he rfl, if_neg (by decide), if_neg (by decide), if_pos rfl]
  generalize [42] ++ hexByte _ ++ ending ++ [0] = T
  have e : [dig r.total] ++ [44] ++ [dig r.index] ++ [44] ++ dec2 r.inView ++ [44] ++ r.tail ++ T =
      dig r.total :: 44 :: (dig r.index :: 44 :: (dec2 r.inView ++ 44 :: (r.tail ++ T))) := by simp
  rw [e]
  unfold gsvBody
  rw [strtol_dig, bind_ok]
  simp only [List.drop_one, List.tail_cons]
  rw [strtol_dig, bind_ok]
  simp only [List.tail_cons]
  rw [strtol_dec2 P hr.inView, bind_ok]
  simp only [pure_ok, Except.map]
  rw [longToU32_nat (by have := hr.inView; omega)]

/-- The third field of a real GSV sentence. -/
example : (⟨3, 1, 11, ascii "03,03,111,00"⟩ : Gsv).WellFormed ∧ LineEnd (ascii "\r\n") ∧
    frame (⟨3, 1, 11, ascii "03,03,111,00"⟩ : Gsv).payload [] = ascii "$GPGSV,3,1,11,03,03,111,00*4A" := by
  refine ⟨⟨by decide, by unfold PlainText; decide⟩, ⟨by decide, ?_⟩, by decide⟩
  intro c hc
  have : c = 13 := by simpa [ascii] using hc.symm
  subst this; decide

/-! ## Position fields, common to RMC and GGA -/

/-- What the code reads from the four position fields: raw latitude, north flag, raw longitude, east flag. -/
def readPos (P : Platform) (p : Option (Angle × Angle)) : ℚ × Bool × ℚ × Bool :=
  match p with
  | none => (0, false, 0, false)
  | some (lat, lon) =>
    (rt P (((lat.deg : ℤ) : ℚ) * 100 + (lat.min + fracVal lat.frac)), lat.positive,
      rt P (((lon.deg : ℤ) : ℚ) * 100 + (lon.min + fracVal lon.frac)), lon.positive)

/-- Text from the end of the latitude number on. -/
def posRest1 (p : Option (Angle × Angle)) (r : List UInt8) : List UInt8 :=
  match p with
  | none => 44 :: (44 :: 44 :: 44 :: r)
  | some (lat, lon) => 44 :: ((if lat.positive then 78 else 83) :: 44 :: (lon.lonText ++ 44 :: r))

/-- Text from the longitude number on. -/
def posMid (p : Option (Angle × Angle)) (r : List UInt8) : List UInt8 :=
  match p with
  | none => 44 :: 44 :: r
  | some (_, lon) => lon.lonText ++ 44 :: r

/-- Text from the end of the longitude number on. -/
def posRest2 (p : Option (Angle × Angle)) (r : List UInt8) : List UInt8 :=
  match p with
  | none => 44 :: (44 :: r)
  | some (_, lon) => 44 :: ((if lon.positive then 69 else 87) :: 44 :: r)

theorem read_lat (P : Platform) (p : Option (Angle × Angle)) (hp : posValid p) (r : List UInt8) :
    strtof P (posText p ++ 44 :: r) = .ok ((readPos P p).1, posRest1 p r) := by
  match p, hp with
  | none, _ => exact strtof_comma P _
  | some (lat, lon), hp =>
    have h1 : lat.deg < 100 ∧ lat.min < 100 := by rcases hp.1 with h | h <;> omega
    have := strtof_lat P lat h1.1 h1.2 ((if lat.positive then 78 else 83) :: 44 :: (lon.lonText ++ 44 :: r))
    unfold posText Angle.latText posRest1
    simp only [List.append_assoc, List.cons_append, List.nil_append] at this ⊢
    exact this

/-- Reading the hemisphere letter and skipping to the longitude number. -/
theorem read_north (P : Platform) (p : Option (Angle × Angle)) (r : List UInt8) :
    ∃ c, deref ((posRest1 p r).drop 1) = .ok c ∧ (c == 78) = (readPos P p).2.1 ∧
      skipChar ((posRest1 p r).drop 1) = .ok (posMid p r) := by
  match p with
  | none => exact ⟨44, rfl, rfl, rfl⟩
  | some (lat, lon) =>
    cases hpos : lat.positive <;> simp [posRest1, posMid, readPos, hpos, deref, skipChar, bind_ok, pure_ok]

theorem read_lon (P : Platform) (p : Option (Angle × Angle)) (hp : posValid p) (r : List UInt8) :
    strtof P (posMid p r) =
      .ok ((readPos P p).2.2.1, posRest2 p r) := by
  match p, hp with
  | none, _ => exact strtof_comma P _
  | some (lat, lon), hp =>
    have h1 : lon.deg < 1000 ∧ lon.min < 100 := by rcases hp.2 with h | h <;> omega
    have := strtof_lon P lon h1.1 h1.2 ((if lon.positive then 69 else 87) :: 44 :: r)
    unfold posMid Angle.lonText posRest2
    simp only [List.append_assoc, List.cons_append, List.nil_append] at this ⊢
    exact this

theorem read_east (P : Platform) (p : Option (Angle × Angle)) (r : List UInt8) :
    ∃ c, deref ((posRest2 p r).drop 1) = .ok c ∧ (c == 69) = (readPos P p).2.2.2 ∧
      skipChar ((posRest2 p r).drop 1) = .ok r := by
  match p with
  | none => exact ⟨44, rfl, rfl, rfl⟩
  | some (lat, lon) =>
    cases hpos : lon.positive <;> simp [posRest2, readPos, hpos, deref, skipChar, bind_ok, pure_ok]

/-! ## Numbers -/

theorem splitDate_ok (P : Platform) {d m y : Nat} (hd : d < 100) (hm : m < 100) (hy : y < 100) :
    splitDate P (UInt32.ofNat (d * 10000 + m * 100 + y)) = .ok ((d : ℤ), (m : ℤ), (y : ℤ) + 2000) := by
  unfold splitDate
  have hr : ((UInt32.ofNat (d * 10000 + m * 100 + y)).toNat : ℤ) = d * 10000 + m * 100 + y := by
    rw [UInt32.toNat_ofNat', Nat.mod_eq_of_lt (by omega)]; push_cast; ring
  simp only [hr]
  rw [if_neg (by intro h; omega)]
  congr 2
  · omega
  · congr 1 <;> omega

theorem strtol_date (P : Platform) {d m y : Nat} (hd : d < 100) (hm : m < 100) (hy : y < 100) (r : List UInt8) :
    strtol P false (dec2 d ++ dec2 m ++ dec2 y ++ 44 :: r) = .ok (((d * 10000 + m * 100 + y : Nat) : ℤ), 44 :: r) := by
  have e : dec2 d ++ dec2 m ++ dec2 y = (d2 d ++ d2 m ++ d2 y).map dig := by simp [dec2_eq]
  have v : natDigits (d2 d ++ d2 m ++ d2 y) = d * 10000 + m * 100 + y := by
    rw [natDigits_append, natDigits_append, natDigits_d2 hd, natDigits_d2 hm, natDigits_d2 hy]
    simp only [length_d2]; omega
  rw [e, strtol_dec P _ (by simp [d2]) 44 (by decide) r (by rw [v]; omega), v]

theorem optValue_nonneg (d : Option Dec) : 0 ≤ optValue d := by
  cases d with
  | none => exact le_rfl
  | some d =>
    have := fracVal_nonneg d.fp
    unfold optValue Dec.value
    positivity

theorem knots_bounds : (1.94384 : ℚ) ≤ knotsPerMps ∧ |knotsPerMps - 3600 / 1852| ≤ 6 / 10 ^ 8 := by
  unfold knotsPerMps
  constructor <;> decide +kernel

theorem optValue_small (d : Option Dec) (hd : ∀ x, d = some x → x.WellFormed) : optValue d ≤ 10 ^ 10 := by
  cases d with
  | none => simp [optValue]
  | some x =>
    obtain ⟨h1, h2⟩ := hd x rfl
    have h3 : (natDigits x.ip : ℚ) < 10 ^ x.ip.length := by exact_mod_cast natDigits_lt x.ip
    have h4 : (10 : ℚ) ^ x.ip.length ≤ 10 ^ 9 := pow_le_pow_right₀ (by norm_num) h2
    have h5 := fracVal_lt x.fp
    unfold optValue Dec.value
    norm_num at h4 ⊢
    linarith

/-- Stored speed for a speed field of `v` knots. -/
theorem speed_ok (P : Platform) (d : Option Dec) (hd : ∀ x, d = some x → x.WellFormed) :
    ∃ w, fl b32 (rt P (optValue d) / knotsPerMps) = .ok w ∧
      (optValue d ≤ 1024 → |w - optValue d * 1852 / 3600| ≤ 1 / 10 ^ 4) := by
  have h0 := optValue_nonneg d
  have hs := optValue_small d hd
  obtain ⟨k1, k2⟩ := knots_bounds
  have hk0 : (0 : ℚ) < knotsPerMps := by linarith
  have hrt0 : 0 ≤ rt P (optValue d) := by
    have := rt_mono P h0
    rwa [rt_zero] at this
  have hbig : |rt P (optValue d)| ≤ (2 : ℚ) ^ (34 : ℤ) :=
    abs_rt_le P (by rw [abs_of_nonneg h0]; norm_num at hs ⊢; linarith) (by norm_num)
  have hq : |rt P (optValue d) / knotsPerMps| ≤ 10 ^ 20 := by
    rw [abs_div, abs_of_pos hk0, div_le_iff₀ hk0]
    refine hbig.trans ?_
    norm_num at k1 ⊢
    linarith
  refine ⟨_, fl32_small (le_pow100 hq (by norm_num)), fun hv => ?_⟩
  generalize optValue d = v at *
  have e1 := rt_error P (q := v) (k := 10) (by rw [abs_of_nonneg h0]; norm_num; linarith) (by norm_num)
  have h1024 : rt P v ≤ 1024 := by
    have := rt_mono P hv
    have h2 := rt_int P (z := 1024) (by norm_num)
    push_cast at h2
    rwa [h2] at this
  generalize rt P v = r at *
  have hq2 : r / knotsPerMps ≤ 1024 := by
    rw [div_le_iff₀ hk0]; nlinarith
  have hq0 : 0 ≤ r / knotsPerMps := by positivity
  have e2 := rnd_error_le (F := b32) (q := r / knotsPerMps) (k := 10) (by rw [abs_of_nonneg hq0]; norm_num; linarith)
    (by decide) (by decide)
  have c1 : (2 : ℚ) ^ ((10 : ℤ) - (b32.prec : ℤ) - 1) ≤ 32 / 10 ^ 6 := by decide +kernel
  have c2 : (2 : ℚ) ^ ((10 : ℤ) - 25) + (2 : ℚ) ^ ((10 : ℤ) - 54) ≤ 31 / 10 ^ 6 := by norm_num
  have e2' := e2.trans c1
  have e1' := e1.trans c2
  -- r / k against v * 1852 / 3600
  have e3 : |r / knotsPerMps - v * 1852 / 3600| ≤ 66 / 10 ^ 6 := by
    generalize knotsPerMps = k at *
    have hmul : r / k - v * 1852 / 3600 = (r - v * (1852 / 3600 * k)) / k := by field_simp
    rw [hmul, abs_div, abs_of_pos hk0, div_le_iff₀ hk0]
    rw [abs_le] at k2 e1' ⊢
    have b1 : 1852 / 3600 * k - 1 ≤ 4 / 10 ^ 8 := by linarith [k2.2]
    have b2 : -(4 / 10 ^ 8) ≤ 1852 / 3600 * k - 1 := by linarith [k2.1]
    have m1 : v * (1852 / 3600 * k - 1) ≤ 1024 * (4 / 10 ^ 8) := by
      have := mul_le_mul_of_nonneg_left b1 h0
      linarith
    have m2 : -(1024 * (4 / 10 ^ 8)) ≤ v * (1852 / 3600 * k - 1) := by
      have := mul_le_mul_of_nonneg_left b2 h0
      linarith
    constructor <;> linarith [e1'.1, e1'.2]
  rw [abs_le] at e2' e3 ⊢
  constructor <;> linarith [e2'.1, e2'.2, e3.1, e3.2]

theorem rt_abs_error (P : Platform) {q : ℚ} {k : ℤ} {B : ℚ} (h : |q| ≤ (2 : ℚ) ^ k) (hk : -100 ≤ k)
    (hB : (2 : ℚ) ^ (k - 25) + (2 : ℚ) ^ (k - 54) ≤ B) : |rt P q - q| ≤ B := (rt_error P h hk).trans hB

/-! ## C16, C17: RMC -/

theorem rmcBody_ok (P : Platform) (g : Gnss) (r : Rmc) (hr : r.WellFormed) (T : List UInt8) :
    ∃ g', rmcBody P g (r.utc.text ++ [44] ++ [r.status] ++ [44] ++ posText r.pos ++ [44] ++ optText r.speed ++
        [44] ++ optText r.course ++ [44] ++ (dec2 r.day ++ dec2 r.month ++ dec2 r.year) ++ [44] ++ r.tail ++ T) = .ok g' ∧
      (∃ sec : ℤ, g'.utc = ⟨sec, r.utc.min, r.utc.hour, r.day, r.month, r.year + 2000⟩ ∧
        (sec = r.utc.sec ∨ sec = r.utc.sec + 1 ∧ 0.99 < fracVal r.utc.frac)) ∧
      g'.valid = (r.status == 65) ∧
      updateAngle (r.status == 65) (readPos P r.pos).2.1 (readPos P r.pos).1 g.latitude = .ok g'.latitude ∧
      updateAngle (r.status == 65) (readPos P r.pos).2.2.2 (readPos P r.pos).2.2.1 g.longitude = .ok g'.longitude ∧
      g'.north = (readPos P r.pos).2.1 ∧ g'.east = (readPos P r.pos).2.2.2 ∧
      (optValue r.speed ≤ 1024 → |g'.speed - optValue r.speed * 1852 / 3600| ≤ 1 / 10 ^ 4) ∧
      g'.course = rt P (optValue r.course) ∧
      g'.satUsed = g.satUsed ∧ g'.satView = g.satView ∧ g'.dilution = g.dilution ∧ g'.altitude = g.altitude := by
  obtain ⟨sec, hsec, hsec'⟩ := splitTime_utc P r.utc hr.utc
  have hup : ∀ (pos : Bool) (raw old : ℚ), (r.status = 65 → ∃ v, updateAngle true pos raw old = .ok v) →
      ∃ v, updateAngle (r.status == 65) pos raw old = .ok v := by
    intro pos raw old h
    by_cases hs : r.status = 65
    · rw [hs]; exact h hs
    · have : (r.status == 65) = false := by simpa using hs
      rw [this]; exact ⟨old, rfl⟩
  obtain ⟨lat, hlat⟩ : ∃ v, updateAngle (r.status == 65) (readPos P r.pos).2.1 (readPos P r.pos).1 g.latitude = .ok v := by
    apply hup
    intro hs
    have hsome := hr.fix hs
    have hv := hr.pos
    match hpos : r.pos, hsome with
    | some (a, b), _ =>
      rw [hpos] at hv
      obtain ⟨v, h1, _⟩ := updateAngle_lat P a hv.1 g.latitude
      exact ⟨v, h1⟩
  obtain ⟨lon, hlon⟩ : ∃ v, updateAngle (r.status == 65) (readPos P r.pos).2.2.2 (readPos P r.pos).2.2.1 g.longitude = .ok v := by
    apply hup
    intro hs
    have hsome := hr.fix hs
    have hv := hr.pos
    match hpos : r.pos, hsome with
    | some (a, b), _ =>
      rw [hpos] at hv
      obtain ⟨v, h1, _⟩ := updateAngle_lon P b hv.2 g.longitude
      exact ⟨v, h1⟩
  obtain ⟨w, hw, hw'⟩ := speed_ok P r.speed hr.speed
  obtain ⟨R, hR⟩ : ∃ R, R = optText r.speed ++ 44 :: (optText r.course ++ 44 :: (dec2 r.day ++ dec2 r.month ++ dec2 r.year ++ 44 :: (r.tail ++ T))) := ⟨_, rfl⟩
  obtain ⟨cn, n1, n2, n3⟩ := read_north P r.pos R
  obtain ⟨ce, e1, e2, e3⟩ := read_east P r.pos R
  have hst : r.status ≠ 44 := by rcases hr.status with h | h <;> rw [h] <;> decide
  have htext : r.utc.text ++ [44] ++ [r.status] ++ [44] ++ posText r.pos ++ [44] ++ optText r.speed ++
        [44] ++ optText r.course ++ [44] ++ (dec2 r.day ++ dec2 r.month ++ dec2 r.year) ++ [44] ++ r.tail ++ T =
      r.utc.text ++ 44 :: (r.status :: 44 :: (posText r.pos ++ 44 :: R)) := by
    rw [hR]; simp
  refine ⟨{ g with utc := ⟨sec, r.utc.min, r.utc.hour, r.day, r.month, r.year + 2000⟩, valid := r.status == 65, latitude := lat, longitude := lon, north := (readPos P r.pos).2.1, east := (readPos P r.pos).2.2.2, speed := w, course := rt P (optValue r.course) }, ?_, ⟨sec, rfl, hsec'⟩, rfl, hlat, hlon, rfl, rfl, hw', rfl, rfl, rfl, rfl, rfl⟩
  rw [htext]
  unfold rmcBody
  rw [strtof_utc P r.utc hr.utc, bind_ok]
  simp only
  rw [hsec, bind_ok]
  simp only [List.drop_one, List.tail_cons]
  have hd1 : deref (r.status :: 44 :: (posText r.pos ++ 44 :: R)) = .ok r.status := rfl
  have hsk : skipChar (r.status :: 44 :: (posText r.pos ++ 44 :: R)) = .ok (posText r.pos ++ 44 :: R) := by
    unfold skipChar
    rw [hd1, bind_ok, if_neg hst]; rfl
  rw [hd1, bind_ok, hsk, bind_ok, read_lat P r.pos hr.pos R, bind_ok]
  simp only [List.drop_one] at n1 n3 e1 e3
  simp only
  rw [n1, bind_ok]
  simp only [n2]
  rw [hlat, bind_ok, n3, bind_ok, read_lon P r.pos hr.pos R, bind_ok]
  simp only
  rw [e1, bind_ok]
  simp only [e2]
  rw [hlon, bind_ok, e3, bind_ok, hR, strtof_opt P r.speed hr.speed, bind_ok]
  simp only
  rw [hw, bind_ok]
  simp only [List.tail_cons]
  rw [strtof_opt P r.course hr.course, bind_ok]
  simp only [List.tail_cons]
  rw [strtol_date P hr.day hr.month hr.year, bind_ok]
  simp only
  rw [longToU32_nat (by have := hr.day; have := hr.month; have := hr.year; omega), splitDate_ok P hr.day hr.month hr.year, bind_ok]
  rfl

theorem rmc_frame (P : Platform) (g : Gnss) (r : Rmc) (hr : r.WellFormed) (ending : List UInt8) (he : LineEnd ending) :
    ∃ T, fromNMEA P g (frame r.payload ending) =
      (rmcBody P g (r.utc.text ++ [44] ++ [r.status] ++ [44] ++ posText r.pos ++ [44] ++ optText r.speed ++
        [44] ++ optText r.course ++ [44] ++ (dec2 r.day ++ dec2 r.month ++ dec2 r.year) ++ [44] ++ r.tail ++ T)).map (true, ·) := by
  obtain ⟨rest, hrest⟩ : ∃ rest, rest = r.utc.text ++ [44] ++ [r.status] ++ [44] ++ posText r.pos ++ [44] ++ optText r.speed ++
        [44] ++ optText r.course ++ [44] ++ (dec2 r.day ++ dec2 r.month ++ dec2 r.year) ++ [44] ++ r.tail := ⟨_, rfl⟩
  have hp : r.payload = [71, 80, 82, 77, 67] ++ [44] ++ rest := by
    rw [hrest]; simp [Rmc.payload]
  have hplain : PlainText ([71, 80, 82, 77, 67] ++ [44] ++ rest) := by
    rw [hrest]
    simp only [plain_append]
    have hs : PlainText [r.status] := by
      rcases hr.status with h | h <;> rw [h] <;> (unfold PlainText; decide)
    repeat' refine And.intro ?_ ?_
    all_goals first
      | exact plain_comma
      | exact plain_utc _
      | exact plain_pos _
      | exact plain_opt _
      | exact plain_dec2 _
      | exact hs
      | exact hr.tail
      | (unfold PlainText; decide)
  refine ⟨[42] ++ hexByte (xorAll ([71, 80, 82, 77, 67] ++ [44] ++ rest)) ++ ending ++ [0], ?_⟩
  rw [hp, fromNMEA_frame P g _ _ _ hplain he rfl, if_pos rfl, hrest]

/-- **C16** Every well-formed RMC sentence with a valid fix is accepted; the stored hour, minute and date are exactly those of
the sentence, the second is exact unless the fraction exceeds 0.99 (then it may be one more), latitude and longitude are
within 1.3e-5 and 2.5e-5 degrees with the right sign, speed (m/s, up to 1024 knots) and course (up to 512°) within 1e-4 and
2e-5, and nothing else changes. -/
theorem C16_rmc (P : Platform) (g : Gnss) (r : Rmc) (hr : r.WellFormed) (lat lon : Angle) (hpos : r.pos = some (lat, lon))
    (hfix : r.status = 65) (ending : List UInt8) (he : LineEnd ending) :
    ∃ g', fromNMEA P g (frame r.payload ending) = .ok (true, g') ∧
      g'.utc.hour = r.utc.hour ∧ g'.utc.min = r.utc.min ∧
      (g'.utc.sec = r.utc.sec ∨ g'.utc.sec = r.utc.sec + 1 ∧ 0.99 < fracVal r.utc.frac) ∧
      g'.utc.mday = r.day ∧ g'.utc.mon = r.month ∧ g'.utc.year = r.year + 2000 ∧
      g'.valid = true ∧
      |g'.latitude - lat.value| ≤ 13 / 10 ^ 6 ∧ |g'.longitude - lon.value| ≤ 25 / 10 ^ 6 ∧
      g'.north = lat.positive ∧ g'.east = lon.positive ∧
      (optValue r.speed ≤ 1024 → |g'.speed - optValue r.speed * 1852 / 3600| ≤ 1 / 10 ^ 4) ∧
      (optValue r.course ≤ 512 → |g'.course - optValue r.course| ≤ 2 / 10 ^ 5) ∧
      g'.satUsed = g.satUsed ∧ g'.satView = g.satView ∧ g'.dilution = g.dilution ∧ g'.altitude = g.altitude := by
  obtain ⟨T, hT⟩ := rmc_frame P g r hr ending he
  obtain ⟨g', hb, ⟨sec, hutc, hsec⟩, hv, hlat, hlon, hn, hea, hsp, hco, h1, h2, h3, h4⟩ := rmcBody_ok P g r hr T
  have hval := hr.pos
  rw [hpos] at hval hn hea hlat hlon
  have h65 : (r.status == 65) = true := by rw [hfix]; rfl
  rw [h65] at hlat hlon hv
  obtain ⟨v1, u1, w1⟩ := updateAngle_lat P lat hval.1 g.latitude
  obtain ⟨v2, u2, w2⟩ := updateAngle_lon P lon hval.2 g.longitude
  have q1 : g'.latitude = v1 := by
    have := hlat.symm.trans u1; injection this
  have q2 : g'.longitude = v2 := by
    have := hlon.symm.trans u2; injection this
  refine ⟨g', by rw [hT, hb]; rfl, by rw [hutc], by rw [hutc], by rw [hutc]; exact hsec, by rw [hutc], by rw [hutc], by rw [hutc], hv,
    by rw [q1]; exact w1, by rw [q2]; exact w2, hn, hea, hsp, fun hc => ?_, h1, h2, h3, h4⟩
  rw [hco]
  have h0 := optValue_nonneg r.course
  exact rt_abs_error P (k := 9) (by rw [abs_of_nonneg h0]; norm_num; exact hc) (by norm_num) (by norm_num)

/-- **C16** (finding) The extra second does occur: `23:59:59.999` is stored as `23:59:60`. -/
theorem C16_second_sixty :
    (fromNMEA .esp32 (.init 47 8) (ascii "$GPRMC,235959.999,V,,,,,,,070819,,*20")).map (fun r => r.2.utc) =
      .ok ⟨60, 59, 23, 7, 8, 2019⟩ := by decide +kernel

/-- A concrete well-formed sentence: 47°17.11399' N, 8°33.91590' W, 0.13 knots, 309.62°. -/
def exampleRmc : Rmc where
  utc := ⟨9, 27, 25, some [0, 0]⟩
  status := 65
  pos := some (⟨47, 17, some [1, 1, 3, 9, 9], true⟩, ⟨8, 33, some [9, 1, 5, 9, 0], false⟩)
  speed := some ⟨[0], some [1, 3]⟩
  course := some ⟨[3, 0, 9], some [6, 2]⟩
  day := 7
  month := 8
  year := 19
  tail := ascii ",,A"

/-- The hypotheses of `C16_rmc` hold for it, and this is how it looks. -/
example : exampleRmc.WellFormed ∧ LineEnd (ascii "\r\n") ∧
    frame exampleRmc.payload (ascii "\r\n") =
      ascii "$GPRMC,092725.00,A,4717.11399,N,00833.91590,W,0.13,309.62,070819,,,A*46\r\n" := by
  refine ⟨⟨by unfold Utc.Valid; decide, by decide, ⟨Or.inl (by decide), Or.inl (by decide)⟩, by decide, ?_, ?_, by decide, by decide,
    by decide, by unfold PlainText; decide⟩, ⟨by decide, ?_⟩, by decide +kernel⟩
  · intro d hd; injection hd with hd; subst hd; exact ⟨by decide, by decide⟩
  · intro d hd; injection hd with hd; subst hd; exact ⟨by decide, by decide⟩
  · intro c hc
    have : c = 13 := by simpa [ascii] using hc.symm
    subst this; decide

/-- **C17** A well-formed RMC sentence without fix is accepted, clears `valid` and keeps latitude and longitude; the
hemisphere flags follow the (possibly empty) fields. -/
theorem C17_rmc_no_fix (P : Platform) (g : Gnss) (r : Rmc) (hr : r.WellFormed) (hfix : r.status ≠ 65) (ending : List UInt8)
    (he : LineEnd ending) :
    ∃ g', fromNMEA P g (frame r.payload ending) = .ok (true, g') ∧ g'.valid = false ∧
      g'.latitude = g.latitude ∧ g'.longitude = g.longitude ∧
      g'.north = (match r.pos with | none => false | some (lat, _) => lat.positive) ∧
      g'.east = (match r.pos with | none => false | some (_, lon) => lon.positive) := by
  obtain ⟨T, hT⟩ := rmc_frame P g r hr ending he
  obtain ⟨g', hb, _, hv, hlat, hlon, hn, hea, _⟩ := rmcBody_ok P g r hr T
  have h65 : (r.status == 65) = false := by simpa using hfix
  rw [h65] at hlat hlon hv
  refine ⟨g', by rw [hT, hb]; rfl, hv, updateAngle_no_fix hlat, updateAngle_no_fix hlon, ?_, ?_⟩
  · rw [hn]; unfold readPos; cases r.pos <;> rfl
  · rw [hea]; unfold readPos; cases r.pos <;> rfl

/-- **C17** (finding) After a fix north of the equator and east of Greenwich, a no-fix sentence with empty fields leaves the
position but clears both hemisphere flags, which then contradict it. -/
theorem C17_flags_contradict_position :
    ∃ g', fromNMEA .esp32 { Gnss.init 47 8 with valid := true } (ascii "$GPRMC,092725.00,V,,,,,,,070819,,*13") = .ok (true, g') ∧
      g'.latitude = 47 ∧ g'.longitude = 8 ∧ g'.north = false ∧ g'.east = false := by
  refine ⟨{ Gnss.init 47 8 with utc := ⟨25, 27, 9, 7, 8, 2019⟩, north := false, east := false }, ?_, rfl, rfl, rfl, rfl⟩
  decide +kernel

/-! ## C18: GGA -/

theorem strtof_alt (P : Platform) (neg : Bool) (d : Option Dec) (hd : ∀ x, d = some x → x.WellFormed) (r : List UInt8) :
    strtof P ((if neg ∧ d.isSome then [45] else []) ++ optText d ++ 44 :: r) =
      .ok (rt P (if neg then -optValue d else optValue d), 44 :: r) := by
  cases neg with
  | false =>
    rw [if_neg (by simp)]
    exact strtof_opt P d hd r
  | true =>
    cases d with
    | none =>
      rw [if_neg (by simp)]
      have := strtof_opt P none (by simp) r
      simpa [optValue] using this
    | some x =>
      obtain ⟨h1, h2⟩ := hd x rfl
      rw [if_pos (by simp)]
      exact strtof_neg_digits P x.ip h1 h2 x.fp r

theorem ggaBody_ok (P : Platform) (g : Gnss) (r : Gga) (hr : r.WellFormed) (T : List UInt8) :
    ∃ g', ggaBody P g (r.utc.text ++ [44] ++ posText r.pos ++ [44] ++ [dig r.quality] ++ [44] ++ dec2 r.sats ++
        [44] ++ optText r.hdop ++ [44] ++ ((if r.altNeg ∧ r.alt.isSome then [45] else []) ++ optText r.alt) ++ [44] ++ r.tail ++ T) = .ok g' ∧
      (∃ sec : ℤ, g'.utc = ⟨sec, r.utc.min, r.utc.hour, g.utc.mday, g.utc.mon, g.utc.year⟩ ∧
        (sec = r.utc.sec ∨ sec = r.utc.sec + 1 ∧ 0.99 < fracVal r.utc.frac)) ∧
      g'.valid = decide (r.quality ≠ 0) ∧
      updateAngle (decide (r.quality ≠ 0)) (readPos P r.pos).2.1 (readPos P r.pos).1 g.latitude = .ok g'.latitude ∧
      updateAngle (decide (r.quality ≠ 0)) (readPos P r.pos).2.2.2 (readPos P r.pos).2.2.1 g.longitude = .ok g'.longitude ∧
      g'.north = (readPos P r.pos).2.1 ∧ g'.east = (readPos P r.pos).2.2.2 ∧
      g'.satUsed = UInt32.ofNat r.sats ∧ g'.dilution = rt P (optValue r.hdop) ∧ g'.altitude = rt P r.altitude ∧
      g'.satView = g.satView ∧ g'.speed = g.speed ∧ g'.course = g.course := by
  obtain ⟨sec, hsec, hsec'⟩ := splitTime_utc P r.utc hr.utc
  have hup : ∀ (pos : Bool) (raw old : ℚ), (r.quality ≠ 0 → ∃ v, updateAngle true pos raw old = .ok v) →
      ∃ v, updateAngle (decide (r.quality ≠ 0)) pos raw old = .ok v := by
    intro pos raw old h
    by_cases hs : r.quality ≠ 0
    · rw [decide_eq_true hs]; exact h hs
    · rw [decide_eq_false hs]; exact ⟨old, rfl⟩
  obtain ⟨lat, hlat⟩ : ∃ v, updateAngle (decide (r.quality ≠ 0)) (readPos P r.pos).2.1 (readPos P r.pos).1 g.latitude = .ok v := by
    apply hup
    intro hs
    have hsome := hr.fix hs
    have hv := hr.pos
    match hpos : r.pos, hsome with
    | some (a, b), _ =>
      rw [hpos] at hv
      obtain ⟨v, h1, _⟩ := updateAngle_lat P a hv.1 g.latitude
      exact ⟨v, h1⟩
  obtain ⟨lon, hlon⟩ : ∃ v, updateAngle (decide (r.quality ≠ 0)) (readPos P r.pos).2.2.2 (readPos P r.pos).2.2.1 g.longitude = .ok v := by
    apply hup
    intro hs
    have hsome := hr.fix hs
    have hv := hr.pos
    match hpos : r.pos, hsome with
    | some (a, b), _ =>
      rw [hpos] at hv
      obtain ⟨v, h1, _⟩ := updateAngle_lon P b hv.2 g.longitude
      exact ⟨v, h1⟩
  obtain ⟨R, hR⟩ : ∃ R, R = dig r.quality :: 44 :: (dec2 r.sats ++ 44 :: (optText r.hdop ++ 44 :: ((if r.altNeg ∧ r.alt.isSome then [45] else []) ++ optText r.alt ++ 44 :: (r.tail ++ T)))) := ⟨_, rfl⟩
  obtain ⟨cn, n1, n2, n3⟩ := read_north P r.pos R
  obtain ⟨ce, e1, e2, e3⟩ := read_east P r.pos R
  have htext : r.utc.text ++ [44] ++ posText r.pos ++ [44] ++ [dig r.quality] ++ [44] ++ dec2 r.sats ++
        [44] ++ optText r.hdop ++ [44] ++ ((if r.altNeg ∧ r.alt.isSome then [45] else []) ++ optText r.alt) ++ [44] ++ r.tail ++ T =
      r.utc.text ++ 44 :: (posText r.pos ++ 44 :: R) := by
    rw [hR]; simp
  refine ⟨{ g with utc := ⟨sec, r.utc.min, r.utc.hour, g.utc.mday, g.utc.mon, g.utc.year⟩, valid := decide (r.quality ≠ 0), latitude := lat, longitude := lon, north := (readPos P r.pos).2.1, east := (readPos P r.pos).2.2.2, satUsed := UInt32.ofNat r.sats, dilution := rt P (optValue r.hdop), altitude := rt P r.altitude }, ?_, ⟨sec, rfl, hsec'⟩, rfl, hlat, hlon, rfl, rfl, rfl, rfl, rfl, rfl, rfl, rfl⟩
  have hq : decide (longToU32 (r.quality.val : ℤ) > 0) = decide (r.quality ≠ 0) := by
    generalize r.quality = q
    revert q; decide
  rw [htext]
  unfold ggaBody
  rw [strtof_utc P r.utc hr.utc, bind_ok]
  simp only
  rw [hsec, bind_ok]
  simp only [List.drop_one, List.tail_cons]
  rw [read_lat P r.pos hr.pos R, bind_ok]
  simp only [List.drop_one] at n1 n3 e1 e3
  simp only
  rw [n1, bind_ok]
  simp only [n2]
  rw [n3, bind_ok, read_lon P r.pos hr.pos R, bind_ok]
  simp only
  rw [e1, bind_ok]
  simp only [e2]
  rw [e3, bind_ok, hR, strtol_dig, bind_ok]
  simp only [hq]
  rw [hlat, bind_ok, hlon, bind_ok]
  simp only [List.tail_cons]
  rw [strtol_dec2 P hr.sats, bind_ok]
  simp only [List.tail_cons]
  rw [strtof_opt P r.hdop hr.hdop, bind_ok]
  simp only [List.tail_cons]
  rw [strtof_alt P r.altNeg r.alt hr.alt, bind_ok]
  simp only [pure_ok]
  rw [longToU32_nat (by have := hr.sats; omega)]
  rfl

theorem gga_frame (P : Platform) (g : Gnss) (r : Gga) (hr : r.WellFormed) (ending : List UInt8) (he : LineEnd ending) :
    ∃ T, fromNMEA P g (frame r.payload ending) =
      (ggaBody P g (r.utc.text ++ [44] ++ posText r.pos ++ [44] ++ [dig r.quality] ++ [44] ++ dec2 r.sats ++
        [44] ++ optText r.hdop ++ [44] ++ ((if r.altNeg ∧ r.alt.isSome then [45] else []) ++ optText r.alt) ++ [44] ++ r.tail ++ T)).map (true, ·) := by
  obtain ⟨rest, hrest⟩ : ∃ rest, rest = r.utc.text ++ [44] ++ posText r.pos ++ [44] ++ [dig r.quality] ++ [44] ++ dec2 r.sats ++
        [44] ++ optText r.hdop ++ [44] ++ ((if r.altNeg ∧ r.alt.isSome then [45] else []) ++ optText r.alt) ++ [44] ++ r.tail := ⟨_, rfl⟩
  have hp : r.payload = [71, 80, 71, 71, 65] ++ [44] ++ rest := by
    rw [hrest]; simp [Gga.payload]
  have hplain : PlainText ([71, 80, 71, 71, 65] ++ [44] ++ rest) := by
    rw [hrest]
    simp only [plain_append]
    have hs : PlainText [dig r.quality] := plain_digits [r.quality]
    have hm : PlainText (if r.altNeg ∧ r.alt.isSome then [45] else []) := by
      split <;> (unfold PlainText; decide)
    repeat' refine And.intro ?_ ?_
    all_goals first
      | exact plain_comma
      | exact plain_utc _
      | exact plain_pos _
      | exact plain_opt _
      | exact plain_dec2 _
      | exact hs
      | exact hr.tail
      | exact hm
      | (unfold PlainText; decide)
  refine ⟨[42] ++ hexByte (xorAll ([71, 80, 71, 71, 65] ++ [44] ++ rest)) ++ ending ++ [0], ?_⟩
  rw [hp, fromNMEA_frame P g _ _ _ hplain he rfl, if_neg (by decide), if_pos rfl, hrest]

/-- **C18** Every well-formed GGA sentence with a fix is accepted: time (second as in C16), position, fix flag, satellites,
dilution and altitude are those of the sentence within the stated rounding; date, speed, course and satellites in view are
kept. -/
theorem C18_gga (P : Platform) (g : Gnss) (r : Gga) (hr : r.WellFormed) (lat lon : Angle) (hpos : r.pos = some (lat, lon))
    (hfix : r.quality ≠ 0) (ending : List UInt8) (he : LineEnd ending) :
    ∃ g', fromNMEA P g (frame r.payload ending) = .ok (true, g') ∧
      g'.utc.hour = r.utc.hour ∧ g'.utc.min = r.utc.min ∧
      (g'.utc.sec = r.utc.sec ∨ g'.utc.sec = r.utc.sec + 1 ∧ 0.99 < fracVal r.utc.frac) ∧
      g'.utc.mday = g.utc.mday ∧ g'.utc.mon = g.utc.mon ∧ g'.utc.year = g.utc.year ∧
      g'.valid = true ∧
      |g'.latitude - lat.value| ≤ 13 / 10 ^ 6 ∧ |g'.longitude - lon.value| ≤ 25 / 10 ^ 6 ∧
      g'.north = lat.positive ∧ g'.east = lon.positive ∧
      g'.satUsed = UInt32.ofNat r.sats ∧
      (optValue r.hdop ≤ 128 → |g'.dilution - optValue r.hdop| ≤ 4 / 10 ^ 6) ∧
      (optValue r.alt ≤ 16384 → |g'.altitude - r.altitude| ≤ 5 / 10 ^ 4) ∧
      g'.satView = g.satView ∧ g'.speed = g.speed ∧ g'.course = g.course := by
  obtain ⟨T, hT⟩ := gga_frame P g r hr ending he
  obtain ⟨g', hb, ⟨sec, hutc, hsec⟩, hv, hlat, hlon, hn, hea, hsat, hdil, halt, h1, h2, h3⟩ := ggaBody_ok P g r hr T
  have hval := hr.pos
  rw [hpos] at hval hn hea hlat hlon
  rw [decide_eq_true hfix] at hlat hlon hv
  obtain ⟨v1, u1, w1⟩ := updateAngle_lat P lat hval.1 g.latitude
  obtain ⟨v2, u2, w2⟩ := updateAngle_lon P lon hval.2 g.longitude
  have q1 : g'.latitude = v1 := by
    have := hlat.symm.trans u1; injection this
  have q2 : g'.longitude = v2 := by
    have := hlon.symm.trans u2; injection this
  refine ⟨g', by rw [hT, hb]; rfl, by rw [hutc], by rw [hutc], by rw [hutc]; exact hsec, by rw [hutc], by rw [hutc], by rw [hutc], hv,
    by rw [q1]; exact w1, by rw [q2]; exact w2, hn, hea, hsat, fun hc => ?_, fun hc => ?_, h1, h2, h3⟩
  · rw [hdil]
    have h0 := optValue_nonneg r.hdop
    exact rt_abs_error P (k := 7) (by rw [abs_of_nonneg h0]; norm_num; exact hc) (by norm_num) (by norm_num)
  · rw [halt]
    have h0 := optValue_nonneg r.alt
    refine rt_abs_error P (k := 14) ?_ (by norm_num) (by norm_num)
    unfold Gga.altitude
    split
    · rw [abs_neg, abs_of_nonneg h0]; norm_num; exact hc
    · rw [abs_of_nonneg h0]; norm_num; exact hc

/-- **C17** A well-formed GGA sentence with quality 0 is accepted, clears `valid` and keeps latitude and longitude. -/
theorem C17_gga_no_fix (P : Platform) (g : Gnss) (r : Gga) (hr : r.WellFormed) (hfix : r.quality = 0) (ending : List UInt8)
    (he : LineEnd ending) :
    ∃ g', fromNMEA P g (frame r.payload ending) = .ok (true, g') ∧ g'.valid = false ∧
      g'.latitude = g.latitude ∧ g'.longitude = g.longitude ∧
      g'.north = (match r.pos with | none => false | some (lat, _) => lat.positive) ∧
      g'.east = (match r.pos with | none => false | some (_, lon) => lon.positive) := by
  obtain ⟨T, hT⟩ := gga_frame P g r hr ending he
  obtain ⟨g', hb, _, hv, hlat, hlon, hn, hea, _⟩ := ggaBody_ok P g r hr T
  rw [decide_eq_false (by simp [hfix])] at hlat hlon hv
  refine ⟨g', by rw [hT, hb]; rfl, hv, updateAngle_no_fix hlat, updateAngle_no_fix hlon, ?_, ?_⟩
  · rw [hn]; unfold readPos; cases r.pos <;> rfl
  · rw [hea]; unfold readPos; cases r.pos <;> rfl

/-- A concrete well-formed GGA sentence: 47°17.11399' N, 8°33.91590' E, 8 satellites, −4.6 m. -/
def exampleGga : Gga where
  utc := ⟨9, 27, 25, some [0, 0]⟩
  pos := some (⟨47, 17, some [1, 1, 3, 9, 9], true⟩, ⟨8, 33, some [9, 1, 5, 9, 0], true⟩)
  quality := 1
  sats := 8
  hdop := some ⟨[1], some [0, 1]⟩
  altNeg := true
  alt := some ⟨[4], some [6]⟩
  tail := ascii "M,48.0,M,,"

/-- The hypotheses of `C18_gga` hold for it, and this is how it looks. -/
example : exampleGga.WellFormed ∧
    frame exampleGga.payload [] = ascii "$GPGGA,092725.00,4717.11399,N,00833.91590,E,1,08,1.01,-4.6,M,48.0,M,,*76" := by
  refine ⟨⟨by unfold Utc.Valid; decide, ⟨Or.inl (by decide), Or.inl (by decide)⟩, by decide, by decide, ?_, ?_,
    by unfold PlainText; decide⟩, by decide +kernel⟩
  · intro d hd; injection hd with hd; subst hd; exact ⟨by decide, by decide⟩
  · intro d hd; injection hd with hd; subst hd; exact ⟨by decide, by decide⟩

end Verif.Nmea
