import Verif.Model.Gyro32
import Verif.Props.Imu32
import Verif.Lemmas.Helper

/-!
# C83: the gyroscope functions
-/

namespace Verif.Gyro32

open Verif.Imu

/-! ### Storing samples -/

theorem put_ok {a : List ℚ} {i : Nat} {v : ℚ} (h : i < a.length) : put a i v = .ok (a.set i v) := if_pos h

/-- **C83.** A sample is stored if and only if the array has room for it; otherwise memory behind it is overwritten. -/
theorem C83_store (a : List ℚ) (k : Nat) (v : ℚ × ℚ × ℚ) (hk : 3 * k + 2 < 2 ^ 32) :
    (3 * k + 2 < a.length → ∃ a', gyroSample a k v = .ok a' ∧ a'.length = a.length ∧ a'[3 * k]? = some v.1 ∧ a'[3 * k + 1]? = some v.2.1 ∧
      a'[3 * k + 2]? = some v.2.2 ∧ ∀ i, i ≠ 3 * k → i ≠ 3 * k + 1 → i ≠ 3 * k + 2 → a'[i]? = a[i]?) ∧
    (a.length ≤ 3 * k + 2 → gyroSample a k v = .error (.ub .oobWrite)) := by
  have e0 : k * 3 % 2 ^ 32 = 3 * k := by rw [Nat.mod_eq_of_lt (by omega)]; omega
  have e1 : (3 * k + 1) % 2 ^ 32 = 3 * k + 1 := Nat.mod_eq_of_lt (by omega)
  have e2 : (3 * k + 2) % 2 ^ 32 = 3 * k + 2 := Nat.mod_eq_of_lt (by omega)
  unfold gyroSample
  rw [e0, e1, e2]
  constructor
  · intro h
    refine ⟨((a.set (3 * k) v.1).set (3 * k + 1) v.2.1).set (3 * k + 2) v.2.2, ?_, by simp, ?_, ?_, ?_, ?_⟩
    · rw [put_ok (by omega), bind_ok, put_ok (by simp; omega), bind_ok, put_ok (by simp; omega)]
    · rw [List.getElem?_set_ne (by omega), List.getElem?_set_ne (by omega), List.getElem?_set_self (by omega)]
    · rw [List.getElem?_set_ne (by omega), List.getElem?_set_self (by simp; omega)]
    · rw [List.getElem?_set_self (by simp; omega)]
    · intro i h0 h1 h2
      rw [List.getElem?_set_ne (by omega), List.getElem?_set_ne (by omega), List.getElem?_set_ne (by omega)]
  · intro h
    unfold put
    by_cases h0 : 3 * k < a.length
    · rw [if_pos h0, bind_ok, List.length_set]
      by_cases h1 : 3 * k + 1 < a.length
      · rw [if_pos h1, bind_ok, List.length_set, List.length_set, if_neg (by omega)]
      · rw [if_neg h1]; rfl
    · rw [if_neg h0]; rfl

/-- The samples `vs` are in the array from number `k` on. -/
def Stored (a : List ℚ) (k : Nat) (vs : List (ℚ × ℚ × ℚ)) : Prop :=
  ∀ j v, vs[j]? = some v → a[3 * (k + j)]? = some v.1 ∧ a[3 * (k + j) + 1]? = some v.2.1 ∧ a[3 * (k + j) + 2]? = some v.2.2

theorem gather_ok : ∀ (vs : List (ℚ × ℚ × ℚ)) (k : Nat) (a : List ℚ), 3 * (k + vs.length) ≤ a.length → 3 * (k + vs.length) ≤ 2 ^ 32 →
    ∃ a', gather k vs a = .ok a' ∧ a'.length = a.length ∧ Stored a' k vs ∧ ∀ i, i < 3 * k ∨ 3 * (k + vs.length) ≤ i → a'[i]? = a[i]?
  | [], k, a, _, _ => ⟨a, rfl, rfl, fun j v h => by simp at h, fun _ _ => rfl⟩
  | v :: vs, k, a, h, h' => by
    rw [List.length_cons] at h h' ⊢
    obtain ⟨a1, e1, l1, s0, s1, s2, o1⟩ := (C83_store a k v (by omega)).1 (by omega)
    obtain ⟨a2, e2, l2, st, o2⟩ := gather_ok vs (k + 1) a1 (by omega) (by omega)
    refine ⟨a2, ?_, l2.trans l1, ?_, ?_⟩
    · unfold gather; rw [e1, bind_ok, e2]
    · intro j w hj
      cases j with
      | zero =>
        simp only [List.getElem?_cons_zero, Option.some.injEq] at hj
        subst hj
        rw [Nat.add_zero, o2 _ (by omega), o2 _ (by omega), o2 _ (by omega)]
        exact ⟨s0, s1, s2⟩
      | succ j =>
        rw [List.getElem?_cons_succ] at hj
        have := st j w hj
        rw [show k + 1 + j = k + (j + 1) by omega] at this
        exact this
    · intro i hi
      rw [o2 i (by omega), o1 i (by omega) (by omega) (by omega)]

/-! ### The mean -/

theorem fl32_rel {q B : ℚ} (h1 : 1 / 2 ^ 100 ≤ B) (h2 : B ≤ 2 ^ 120) (h : |q| ≤ B) : ∃ r, fl b32 q = .ok r ∧ |r - q| ≤ B / 2 ^ 24 := by
  have hB : 0 < B := lt_of_lt_of_le (by positivity) h1
  have key : |rnd b32 q - q| ≤ B / 2 ^ 24 := by
    by_cases hn : (2 : ℚ) ^ (b32.emin + b32.prec - 1) ≤ |q|
    · refine (rnd_rel hn).trans ?_
      have e : (2 : ℚ) ^ (-(b32.prec : ℤ)) = 1 / 2 ^ 24 := by unfold b32; norm_num
      rw [e, mul_one_div]
      gcongr
    · rw [not_le] at hn
      have hn' : |q| < (2 : ℚ) ^ (-125 : ℤ) := hn.trans_le (zpow_le_zpow_right₀ (by norm_num) (by decide))
      refine (rnd_error_lt (F := b32) hn' (by decide)).trans ?_
      have e : (2 : ℚ) ^ (-125 - (b32.prec : ℤ) - 1) = 1 / 2 ^ 150 := by unfold b32; norm_num
      rw [e]
      refine le_trans ?_ (div_le_div_of_nonneg_right h1 (by positivity))
      norm_num
  refine ⟨rnd b32 q, ?_, key⟩
  unfold fl
  rw [if_pos]
  have := abs_le.1 key
  have := abs_le.1 h
  have hlt : |rnd b32 q| ≤ 2 ^ 121 := by
    have hh : B / 2 ^ 24 ≤ B := div_le_self hB.le (by norm_num)
    rw [abs_le]; constructor <;> linarith
  refine hlt.trans_lt ?_
  show (2 : ℚ) ^ 121 < 2 ^ (128 : ℤ)
  norm_num

/-- One more summand. -/
theorem add_step {B s S x : ℚ} {k : Nat} (h1 : 1 / 2 ^ 100 ≤ B) (h2 : B ≤ 2 ^ 90) (hk : k < 2 ^ 20) (hx : |x| ≤ B) (hS : |S| ≤ k * B)
    (he : |s - S| ≤ k * (k + 1) * B / 2 ^ 24) :
    ∃ s', fl b32 (s + x) = .ok s' ∧ |s' - (S + x)| ≤ (k + 1 : ℕ) * ((k + 1 : ℕ) + 1) * B / 2 ^ 24 ∧ |S + x| ≤ (k + 1 : ℕ) * B := by
  have hB : 0 < B := lt_of_lt_of_le (by positivity) h1
  have hk' : (k : ℚ) + 1 ≤ 2 ^ 20 := by exact_mod_cast hk
  have k0 : (0 : ℚ) ≤ k := Nat.cast_nonneg k
  have hX : |S + x| ≤ (k + 1 : ℕ) * B := by
    push_cast; have := abs_add_le S x; linarith
  have hsx : |s + x| ≤ 2 * ((k + 1) * B) := by
    have e : s + x = (s - S) + (S + x) := by ring
    rw [e]
    refine (abs_add_le _ _).trans ?_
    push_cast at hX
    have : (k : ℚ) * (k + 1) * B / 2 ^ 24 ≤ (k + 1) * B := by
      rw [div_le_iff₀ (by norm_num)]
      have hh : 0 ≤ (k + 1) * B := by positivity
      nlinarith
    linarith
  obtain ⟨s', e, g⟩ := fl32_rel (B := 2 * ((k + 1) * B)) (by nlinarith) (by
    have : (k + 1) * B ≤ 2 ^ 20 * 2 ^ 90 := mul_le_mul hk' h2 hB.le (by norm_num)
    linarith) hsx
  refine ⟨s', e, ?_, hX⟩
  rw [show s' - (S + x) = (s' - (s + x)) + (s - S) by ring]
  refine (abs_add_le _ _).trans ?_
  push_cast
  have : 2 * ((k + 1) * B) / 2 ^ 24 + k * (k + 1) * B / 2 ^ 24 = (k + 1) * (k + 1 + 1) * B / 2 ^ 24 := by ring
  linarith

theorem get_of {a : List ℚ} {n : Nat} {x : ℚ} (hx : a[n]? = some x) : Imu.get a n = .ok x := by
  obtain ⟨hn, hx⟩ := List.getElem?_eq_some_iff.1 hx
  unfold Imu.get; rw [dif_pos hn, hx]

/-- Componentwise. -/
def Each (p : ℚ → ℚ → Prop) (a b : ℚ × ℚ × ℚ) : Prop := p a.1 b.1 ∧ p a.2.1 b.2.1 ∧ p a.2.2 b.2.2

theorem sum_err {B : ℚ} (h1 : 1 / 2 ^ 100 ≤ B) (h2 : B ≤ 2 ^ 90) (a : List ℚ) : ∀ (vs : List (ℚ × ℚ × ℚ)) (k : Nat) (s S : ℚ × ℚ × ℚ),
    k + vs.length ≤ 2 ^ 20 → Stored a k vs → (∀ v ∈ vs, |v.1| ≤ B ∧ |v.2.1| ≤ B ∧ |v.2.2| ≤ B) →
    Each (fun s S => |s - S| ≤ k * (k + 1) * B / 2 ^ 24 ∧ |S| ≤ k * B) s S →
    ∃ r, Imu32.sumLoop a k vs.length s = .ok r ∧ Each (fun r S => |r - S| ≤ (k + vs.length : ℕ) * ((k + vs.length : ℕ) + 1) * B / 2 ^ 24 ∧
      |S| ≤ (k + vs.length : ℕ) * B) r (S.1 + (vsum vs).1, S.2.1 + (vsum vs).2.1, S.2.2 + (vsum vs).2.2)
  | [], k, s, S, _, _, _, h => by
    refine ⟨s, rfl, ?_⟩
    simpa [vsum] using h
  | v :: vs, k, s, S, hl, hst, hv, h => by
    rw [List.length_cons] at hl ⊢
    obtain ⟨⟨x1, x2⟩, ⟨y1, y2⟩, ⟨z1, z2⟩⟩ := h
    obtain ⟨b1, b2, b3⟩ := hv v List.mem_cons_self
    obtain ⟨g1, g2, g3⟩ := hst 0 v rfl
    simp only [Nat.add_zero] at g1 g2 g3
    obtain ⟨sx, ex, ex1, ex2⟩ := add_step h1 h2 (by omega : k < 2 ^ 20) b1 x2 x1
    obtain ⟨sy, ey, ey1, ey2⟩ := add_step h1 h2 (by omega : k < 2 ^ 20) b2 y2 y1
    obtain ⟨sz, ez, ez1, ez2⟩ := add_step h1 h2 (by omega : k < 2 ^ 20) b3 z2 z1
    have hst' : Stored a (k + 1) vs := by
      intro j w hj
      have := hst (j + 1) w (by rw [List.getElem?_cons_succ]; exact hj)
      rw [show k + 1 + j = k + (j + 1) by omega]
      exact this
    obtain ⟨r, hr, hr'⟩ := sum_err h1 h2 a vs (k + 1) (sx, sy, sz) (S.1 + v.1, S.2.1 + v.2.1, S.2.2 + v.2.2) (by omega) hst'
      (fun w hw => hv w (List.mem_cons_of_mem _ hw)) ⟨⟨ex1, ex2⟩, ⟨ey1, ey2⟩, ⟨ez1, ez2⟩⟩
    refine ⟨r, ?_, ?_⟩
    · unfold Imu32.sumLoop
      rw [get_of g1, bind_ok, ex, bind_ok, get_of g2, bind_ok, ey, bind_ok, get_of g3, bind_ok, ez, bind_ok, hr]
    · rw [show k + 1 + vs.length = k + (vs.length + 1) by omega] at hr'
      simp only [vsum, List.map_cons, List.sum_cons] at hr' ⊢
      simp only [add_assoc] at hr' ⊢
      exact hr'

theorem div_step {B r S : ℚ} {n : Nat} (h1 : 1 / 2 ^ 100 ≤ B) (h2 : B ≤ 2 ^ 90) (hn0 : 0 < n) (hn : n ≤ 2 ^ 20)
    (h : |r - S| ≤ n * (n + 1) * B / 2 ^ 24 ∧ |S| ≤ n * B) : ∃ q, fl b32 (r / n) = .ok q ∧ |q - S / n| ≤ (n + 3) * B / 2 ^ 24 := by
  have hB : 0 < B := lt_of_lt_of_le (by positivity) h1
  have n0 : (0 : ℚ) < n := by exact_mod_cast hn0
  have hn' : (n : ℚ) ≤ 2 ^ 20 := by exact_mod_cast hn
  obtain ⟨h, hS⟩ := h
  have d1 : |r / n - S / n| ≤ (n + 1) * B / 2 ^ 24 := by
    rw [← sub_div, abs_div, abs_of_pos n0, div_le_iff₀ n0]
    refine h.trans (le_of_eq ?_)
    ring
  have d2 : |S / n| ≤ B := by
    rw [abs_div, abs_of_pos n0, div_le_iff₀ n0]
    linarith
  have d3 : |r / n| ≤ 2 * B := by
    rw [show r / n = (r / n - S / n) + S / n by ring]
    refine (abs_add_le _ _).trans ?_
    have : (n + 1) * B / 2 ^ 24 ≤ B := by
      rw [div_le_iff₀ (by norm_num)]
      nlinarith
    linarith
  obtain ⟨q, e, g⟩ := fl32_rel (B := 2 * B) (by linarith) (by linarith [show (2 : ℚ) ^ 90 * 2 ≤ 2 ^ 120 by norm_num]) d3
  refine ⟨q, e, ?_⟩
  rw [show q - S / n = (q - r / n) + (r / n - S / n) by ring]
  refine (abs_add_le _ _).trans ?_
  have : 2 * B / 2 ^ 24 + (n + 1) * B / 2 ^ 24 = (n + 3) * B / 2 ^ 24 := by ring
  linarith

/-- **C83.** Any number `n` of samples (up to a million), of magnitude at most `B`, stored one after the other in an array with room for them: the mean
computed in `float` is that of the samples, up to `(n + 3) B / 2^24` in each component, and nothing else in the array is changed. -/
theorem C83_mean (vs : List (ℚ × ℚ × ℚ)) (hne : vs ≠ []) (hn : vs.length ≤ 2 ^ 20) (a : List ℚ) (ha : 3 * vs.length ≤ a.length) (B : ℚ)
    (h1 : 1 / 2 ^ 100 ≤ B) (h2 : B ≤ 2 ^ 90) (hv : ∀ v ∈ vs, |v.1| ≤ B ∧ |v.2.1| ≤ B ∧ |v.2.2| ≤ B) :
    ∃ a' m, gather 0 vs a = .ok a' ∧ Imu32.meanVec3 a' vs.length = .ok m ∧ a'.length = a.length ∧ (∀ i, 3 * vs.length ≤ i → a'[i]? = a[i]?) ∧
      |m.1 - (vs.map (·.1)).sum / vs.length| ≤ (vs.length + 3) * B / 2 ^ 24 ∧
      |m.2.1 - (vs.map (·.2.1)).sum / vs.length| ≤ (vs.length + 3) * B / 2 ^ 24 ∧
      |m.2.2 - (vs.map (·.2.2)).sum / vs.length| ≤ (vs.length + 3) * B / 2 ^ 24 := by
  obtain ⟨a', e, l, st, o⟩ := gather_ok vs 0 a (by omega) (by omega)
  have hn0 : 0 < vs.length := List.length_pos_iff.2 hne
  obtain ⟨r, er, ⟨x, y, z⟩⟩ := sum_err h1 h2 a' vs 0 (0, 0, 0) (0, 0, 0) (by omega) st hv (by norm_num [Each])
  simp only [vsum, zero_add] at x y z
  obtain ⟨mx, ex, gx⟩ := div_step h1 h2 hn0 hn x
  obtain ⟨my, ey, gy⟩ := div_step h1 h2 hn0 hn y
  obtain ⟨mz, ez, gz⟩ := div_step h1 h2 hn0 hn z
  have hfl : fl b32 (vs.length : ℚ) = .ok (vs.length : ℚ) := by
    have := Verif.fl32_int (z := (vs.length : ℤ)) (by rw [abs_of_nonneg (by positivity)]; omega)
    exact_mod_cast this
  refine ⟨a', (mx, my, mz), e, ?_, l, fun i hi => o i (by omega), gx, gy, gz⟩
  unfold Imu32.meanVec3
  rw [er, bind_ok, hfl, bind_ok, ex, bind_ok, ey, bind_ok, ez, bind_ok]
  rfl

/-- The hypotheses are met by a full calibration: 500 samples of at most 5 rad/s, error below 0.0002 rad/s. -/
example : ([(1, -5, 1 / 2)] ++ List.replicate 499 ((1 / 4, 5, 1 / 8) : ℚ × ℚ × ℚ)).length = 500 ∧
    (∀ v ∈ [(1, -5, 1 / 2)] ++ List.replicate 499 ((1 / 4, 5, 1 / 8) : ℚ × ℚ × ℚ), |v.1| ≤ 5 ∧ |v.2.1| ≤ 5 ∧ |v.2.2| ≤ 5) ∧
    ((500 : ℚ) + 3) * 5 / 2 ^ 24 ≤ 2 / 10000 := by
  refine ⟨by rw [List.length_append, List.length_replicate]; rfl, ?_, by norm_num⟩
  intro v hv
  simp only [List.mem_append, List.mem_singleton, List.mem_replicate] at hv
  rcases hv with rfl | ⟨-, rfl⟩ <;> norm_num [abs_of_pos]

/-! ### Noise -/

/-- A `float` between 1/128 and 1 is a multiple of `2^-30`. -/
theorem float_grid {v : ℚ} (h : Representable b32 v) (h1 : 1 / 128 ≤ |v|) : ∃ z : ℤ, v = z / 2 ^ 30 := by
  obtain ⟨m, e, -, hm, rfl⟩ := h
  have he : -30 ≤ e := by
    by_contra hcon
    have he : e ≤ -31 := by omega
    have : |(m : ℚ) * (2 : ℚ) ^ e| < 1 / 128 := by
      rw [abs_mul, abs_of_pos (show (0 : ℚ) < (2 : ℚ) ^ e by positivity)]
      have hm' : |(m : ℚ)| < 2 ^ 24 := by exact_mod_cast hm
      calc |(m : ℚ)| * (2 : ℚ) ^ e ≤ |(m : ℚ)| * (2 : ℚ) ^ (-31 : ℤ) := by
            gcongr
            norm_num
        _ < 2 ^ 24 * (2 : ℚ) ^ (-31 : ℤ) := by
            apply mul_lt_mul_of_pos_right hm' (by positivity)
        _ = 1 / 128 := by norm_num
    linarith
  obtain ⟨n, hn⟩ := Int.eq_ofNat_of_zero_le (by omega : 0 ≤ e + 30)
  refine ⟨m * 2 ^ n, ?_⟩
  rw [show e = (n : ℤ) - 30 by omega, zpow_sub₀ (by norm_num), zpow_natCast]
  push_cast
  norm_num
  ring

theorem limit_eq : ∃ l : ℚ, fl b64 0.01 = .ok l ∧ 10737418 / 2 ^ 30 < l ∧ l < 10737419 / 2 ^ 30 :=
  ⟨rnd b64 0.01, by decide +kernel, by decide +kernel, by decide +kernel⟩

/-- Compared as a `double`, no `float` is between 0.01 and its approximation. -/
theorem over_limit {v l : ℚ} (hv : Representable b32 v) (h0 : 10737418 / 2 ^ 30 < l) (h1 : l < 10737419 / 2 ^ 30) : |v| > l ↔ 1 / 100 < |v| := by
  by_cases h : 1 / 128 ≤ |v|
  · obtain ⟨z, hz⟩ := float_grid hv h
    have e : |v| = (|z| : ℤ) / 2 ^ 30 := by rw [hz, abs_div]; push_cast; norm_num
    rw [e]
    constructor
    · intro hh
      have : (10737418 : ℚ) < (|z| : ℤ) := by
        have := h0.trans hh
        rwa [div_lt_div_iff_of_pos_right (by norm_num)] at this
      have : (10737418 : ℤ) < |z| := by exact_mod_cast this
      have : (10737419 : ℚ) ≤ (|z| : ℤ) := by exact_mod_cast this
      rw [lt_div_iff₀ (by norm_num)]
      refine lt_of_lt_of_le ?_ this
      norm_num
    · intro hh
      rw [lt_div_iff₀ (by norm_num)] at hh
      have : (10737418 : ℚ) < (|z| : ℤ) := lt_trans (by norm_num) hh
      have : (10737418 : ℤ) < |z| := by exact_mod_cast this
      have : (10737419 : ℚ) ≤ (|z| : ℤ) := by exact_mod_cast this
      refine h1.trans_le ?_
      gcongr
  · rw [not_le] at h
    constructor
    · intro hh
      have : (10737418 : ℚ) / 2 ^ 30 < 1 / 128 := h0.trans (hh.trans h)
      norm_num at this
    · intro hh
      have := hh.trans h
      norm_num at this

/-- **C83.** With the `abs` of floating-point numbers, rates of at most 0.01 rad/s become zero and all others are kept. -/
theorem C83_clip_real (v : ℚ) (hv : Representable b32 v) : clip .real v = .ok (if 1 / 100 < |v| then v else 0) := by
  obtain ⟨l, e, h0, h1⟩ := limit_eq
  unfold clip
  rw [show absOf .real v = .ok |v| from rfl, bind_ok, e, bind_ok]
  rw [if_congr (over_limit hv h0 h1) rfl rfl]
  rfl

theorem toInt_abs {v : ℚ} (h : |v| < 2 ^ 31) : ∃ z : ℤ, toInt v = .ok z ∧ (1 ≤ |v| → 1 ≤ |z|) ∧ (|v| < 1 → z = 0) ∧ z ≠ -2 ^ 31 := by
  obtain ⟨ha, hb⟩ := abs_lt.1 h
  unfold toInt
  simp only
  by_cases h0 : 0 ≤ v
  · rw [if_pos h0, abs_of_nonneg h0]
    have f0 : 0 ≤ ⌊v⌋ := Int.floor_nonneg.2 h0
    have f1 : ⌊v⌋ < 2 ^ 31 := by rw [Int.floor_lt]; exact_mod_cast hb
    refine ⟨⌊v⌋, if_pos ⟨by omega, f1⟩, fun h1 => ?_, fun h1 => ?_, by omega⟩
    · rw [abs_of_nonneg f0, Int.le_floor]; exact_mod_cast h1
    · rw [Int.floor_eq_zero_iff]; exact ⟨h0, h1⟩
  · rw [if_neg h0]
    rw [not_le] at h0
    rw [abs_of_neg h0]
    have f0 : ⌈v⌉ ≤ 0 := Int.ceil_nonpos.2 h0.le
    have f1 : -2 ^ 31 < ⌈v⌉ := by rw [Int.lt_ceil]; push_cast; linarith
    refine ⟨⌈v⌉, if_pos ⟨f1.le, by omega⟩, fun h1 => ?_, fun h1 => ?_, by omega⟩
    · rw [abs_of_nonpos f0]
      have : ⌈v⌉ ≤ -1 := by rw [Int.ceil_le]; push_cast; linarith
      omega
    · rw [Int.ceil_eq_zero_iff]; constructor <;> linarith

/-- **C83.** With the `abs` of integers, all rates below 1 rad/s (57 degrees per second) become zero. -/
theorem C83_clip_int (v : ℚ) (hv : |v| < 2 ^ 31) : clip .int v = .ok (if 1 ≤ |v| then v else 0) := by
  obtain ⟨l, e, h0, h1⟩ := limit_eq
  obtain ⟨z, hz, z1, z2, z3⟩ := toInt_abs hv
  have l0 : 0 < l := lt_trans (by norm_num) h0
  have l1 : l < 1 := h1.trans (by norm_num)
  have ha : absOf .int v = .ok ((|z| : ℤ) : ℚ) := by
    show (toInt v >>= fun z => if z = -2 ^ 31 then _ else _) = _
    rw [hz, bind_ok, if_neg z3]; rfl
  unfold clip
  rw [ha, bind_ok, e, bind_ok]
  by_cases h : 1 ≤ |v|
  · have : (1 : ℚ) ≤ (|z| : ℤ) := by exact_mod_cast z1 h
    rw [if_pos h, if_pos (by show l < _; linarith)]; rfl
  · rw [if_neg h, z2 (not_le.1 h), if_neg (by simp; exact l0.le)]; rfl

/-- Half a radian per second is kept by the one and lost by the other. -/
example : clip .real (1 / 2) = .ok (1 / 2) ∧ clip .int (1 / 2) = .ok 0 ∧ clip .int (-3 / 2) = .ok (-3 / 2) ∧ clip .real (1 / 128) = .ok 0 := by
  decide +kernel

/-- **C83.** The three components are treated alike. -/
theorem C83_clip (o : Overload) (v w : ℚ × ℚ × ℚ) (h : clipGyroNoise o v = .ok w) : clip o v.1 = .ok w.1 ∧ clip o v.2.1 = .ok w.2.1 ∧ clip o v.2.2 = .ok w.2.2 := by
  obtain ⟨x, hx, h⟩ := bind_eq_ok.1 h
  obtain ⟨y, hy, h⟩ := bind_eq_ok.1 h
  obtain ⟨z, hz, h⟩ := bind_eq_ok.1 h
  cases h
  exact ⟨hx, hy, hz⟩

/-! ### Calibration -/

/-- **C83.** The calibration does not change the rates. -/
theorem C83_calibrate (v : ℚ × ℚ × ℚ) (h : Representable b32 v.1 ∧ Representable b32 v.2.1 ∧ Representable b32 v.2.2)
    (hb : |v.1| < (2 : ℚ) ^ (128 : ℤ) ∧ |v.2.1| < (2 : ℚ) ^ (128 : ℤ) ∧ |v.2.2| < (2 : ℚ) ^ (128 : ℤ)) : calibrate gyrOffset v = .ok v := by
  unfold calibrate gyrOffset
  simp only [sub_zero]
  rw [Verif.fl_ok h.1 hb.1, bind_ok, Verif.fl_ok h.2.1 hb.2.1, bind_ok, Verif.fl_ok h.2.2 hb.2.2]
  rfl

/-- **C83.** The firmware never reads the gyroscope: the rates it logs are zero, however long it runs. -/
theorem C83_log (n : Nat) : firmwareGyro n = .ok (0, 0, 0) := by
  induction n with
  | zero => rfl
  | succ n ih =>
    unfold firmwareGyro
    rw [ih, bind_ok]
    have h0 : Representable b32 0 := ⟨0, 0, by decide, by decide, by norm_num⟩
    exact C83_calibrate _ ⟨h0, h0, h0⟩ ⟨by norm_num, by norm_num, by norm_num⟩

end Verif.Gyro32
