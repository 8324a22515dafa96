import Verif.Model.SharedWords
import Verif.Lemmas.FloatRep
import Verif.Lemmas.Node

/-!
# A `double` with the words of two others
-/

namespace Verif.Shared

open Verif

/-- The weight of the last bit. -/
def unitExp (v : ℚ) : ℤ := if significand v < 2 ^ 52 then -1074 else ulpExp b64 v

/-- The sign. -/
def sgn (v : ℚ) : ℚ := if v < 0 then -1 else 1

theorem significand_spec {v : ℚ} (h : Representable b64 v) : |v| = significand v * (2 : ℚ) ^ ulpExp b64 v := by
  have hpos : (0 : ℚ) < (2 : ℚ) ^ ulpExp b64 v := by positivity
  have e : v = (roundEven (v / (2 : ℚ) ^ ulpExp b64 v) : ℚ) * (2 : ℚ) ^ ulpExp b64 v := (rnd_of_representable h).symm
  set z := roundEven (v / (2 : ℚ) ^ ulpExp b64 v) with hz
  have e1 : |v| / (2 : ℚ) ^ ulpExp b64 v = (z.natAbs : ℚ) := by
    rw [div_eq_iff hpos.ne']
    conv_lhs => rw [e]
    rw [abs_mul, abs_of_pos hpos, Nat.cast_natAbs, Int.cast_abs]
  unfold significand
  rw [e1, Nat.floor_natCast, ← e1, div_mul_cancel₀ _ hpos.ne']

theorem significand_lt (v : ℚ) : significand v < 2 ^ 53 := by
  unfold significand
  rw [Nat.floor_lt (by positivity), div_lt_iff₀ (by positivity)]
  refine (Node.lt_zpow_log v).trans_le ?_
  have := Node.ulpExp_b64_ge v
  rw [show ((2 ^ 53 : ℕ) : ℚ) = (2 : ℚ) ^ (53 : ℤ) by norm_num, ← zpow_add₀ (by norm_num)]
  exact zpow_le_zpow_right₀ (by norm_num) (by omega)

theorem ulpExp_ge64 (v : ℚ) : -1074 ≤ ulpExp b64 v := le_max_right _ _

theorem unit_spec {v : ℚ} (h : Representable b64 v) : |v| = significand v * (2 : ℚ) ^ unitExp v := by
  unfold unitExp
  split
  · rename_i hn
    by_cases h0 : v = 0
    · subst h0
      have : significand 0 = 0 := by simp [significand]
      rw [this]; simp
    · have e := significand_spec h
      have hlog := Node.zpow_log_le h0
      have hu : ulpExp b64 v = -1074 := by
        by_contra hne
        have h2 : ulpExp b64 v = Int.log 2 |v| - 52 := by
          unfold ulpExp at hne ⊢
          simp only [b64] at hne ⊢
          rcases max_choice (Int.log 2 |v| - ((53 : ℕ) - 1 : ℤ)) (-1074) with h | h
          · rw [h]; push_cast; ring
          · exact absurd h hne
        have h3 : (significand v : ℚ) < 2 ^ 52 := by exact_mod_cast hn
        have h4 : |v| < (2 : ℚ) ^ Int.log 2 |v| := by
          calc |v| = significand v * (2 : ℚ) ^ ulpExp b64 v := e
            _ < 2 ^ 52 * (2 : ℚ) ^ ulpExp b64 v := by gcongr
            _ = (2 : ℚ) ^ Int.log 2 |v| := by
              rw [h2, ← zpow_natCast, ← zpow_add₀ (by norm_num)]
              congr 1; push_cast; ring
        exact absurd hlog (not_le.2 h4)
      rw [← hu]; exact e
  · exact significand_spec h

theorem sgn_abs (v : ℚ) : sgn v * |v| = v := by
  unfold sgn
  split
  · rename_i h; rw [abs_of_neg h]; ring
  · rename_i h; rw [abs_of_nonneg (not_lt.1 h)]; ring

theorem ulp_le {v : ℚ} (h : Representable b64 v) (hv : |v| < (2 : ℚ) ^ (1024 : ℤ)) (hn : ¬ significand v < 2 ^ 52) : ulpExp b64 v ≤ 971 := by
  by_contra hc
  have h1 : (2 : ℚ) ^ 52 ≤ significand v := by exact_mod_cast not_lt.1 hn
  have : (2 : ℚ) ^ (1024 : ℤ) ≤ |v| := by
    rw [significand_spec h]
    calc (2 : ℚ) ^ (1024 : ℤ) ≤ (2 : ℚ) ^ ((52 : ℤ) + ulpExp b64 v) := zpow_le_zpow_right₀ (by norm_num) (by omega)
      _ = 2 ^ 52 * (2 : ℚ) ^ ulpExp b64 v := by rw [zpow_add₀ (by norm_num)]; norm_num
      _ ≤ significand v * (2 : ℚ) ^ ulpExp b64 v := by gcongr
  exact absurd hv (not_lt.2 this)

theorem ofWords_high {v : ℚ} (h : Representable b64 v) (hv : |v| < (2 : ℚ) ^ (1024 : ℤ)) (L : Nat) :
    ofWords (highWord v) L = sgn v * (((significand v / 2 ^ 32 * 2 ^ 32 + L : ℕ) : ℚ) * (2 : ℚ) ^ unitExp v) := by
  have hn := significand_lt v
  have he := ulpExp_ge64 v
  have hE : biased v < 2 ^ 11 := by
    unfold biased
    split
    · norm_num
    · rename_i hc; have := ulp_le h hv hc; omega
  have hsign : highWord v / 2 ^ 31 % 2 = 1 ↔ v < 0 := by
    unfold highWord
    split
    · rename_i hc; simp only [hc, iff_true]; omega
    · rename_i hc; simp only [hc, iff_false]; omega
  have hexp : highWord v / 2 ^ 20 % 2 ^ 11 = biased v := by
    unfold highWord
    split <;> omega
  have hfrac : highWord v % 2 ^ 20 = significand v % 2 ^ 52 / 2 ^ 32 := by
    unfold highWord
    split <;> omega
  have key : (if biased v = 0 then ((significand v % 2 ^ 52 / 2 ^ 32 * 2 ^ 32 + L : ℕ) : ℚ) * (2 : ℚ) ^ (-1074 : ℤ)
      else ((2 ^ 52 + (significand v % 2 ^ 52 / 2 ^ 32 * 2 ^ 32 + L) : ℕ) : ℚ) * (2 : ℚ) ^ ((biased v : ℤ) - 1075)) =
      ((significand v / 2 ^ 32 * 2 ^ 32 + L : ℕ) : ℚ) * (2 : ℚ) ^ unitExp v := by
    unfold biased unitExp
    by_cases hc : significand v < 2 ^ 52
    · simp only [hc, if_true]
      rw [Nat.mod_eq_of_lt hc]
    · simp only [hc, if_false]
      rw [if_neg (by omega)]
      congr 2
      · omega
      · omega
  unfold ofWords
  simp only [hexp, hfrac, key]
  unfold sgn
  by_cases hneg : v < 0
  · rw [if_pos (hsign.2 hneg), if_pos hneg]; ring
  · rw [if_neg (fun h => hneg (hsign.1 h)), if_neg hneg]; ring

theorem torn_eq {v : ℚ} (h : Representable b64 v) (hv : |v| < (2 : ℚ) ^ (1024 : ℤ)) (w : ℚ) :
    torn v w = sgn v * (((significand v / 2 ^ 32 * 2 ^ 32 + significand w % 2 ^ 32 : ℕ) : ℚ) * (2 : ℚ) ^ unitExp v) :=
  ofWords_high h hv _

theorem torn_self {v : ℚ} (h : Representable b64 v) (hv : |v| < (2 : ℚ) ^ (1024 : ℤ)) : torn v v = v := by
  rw [torn_eq h hv, Nat.div_add_mod', ← unit_spec h, sgn_abs]

theorem unit_small {v : ℚ} (h : Representable b64 v) {k : ℤ} (hk : -1021 ≤ k) (hv : |v| < (2 : ℚ) ^ k) : unitExp v ≤ k - 53 := by
  unfold unitExp
  split
  · omega
  · rename_i hc
    by_contra hcon
    have h1 : (2 : ℚ) ^ 52 ≤ significand v := by exact_mod_cast not_lt.1 hc
    have : (2 : ℚ) ^ k ≤ |v| := by
      rw [significand_spec h]
      calc (2 : ℚ) ^ k ≤ (2 : ℚ) ^ ((52 : ℤ) + ulpExp b64 v) := zpow_le_zpow_right₀ (by norm_num) (by omega)
        _ = 2 ^ 52 * (2 : ℚ) ^ ulpExp b64 v := by rw [zpow_add₀ (by norm_num)]; norm_num
        _ ≤ significand v * (2 : ℚ) ^ ulpExp b64 v := by gcongr
    exact absurd hv (not_lt.2 this)

theorem abs_sgn (v : ℚ) : |sgn v| = 1 := by unfold sgn; split <;> simp

/-- The number with a foreign low word is close to the number it has the high word of. -/
theorem torn_close {v : ℚ} (h : Representable b64 v) {k : ℤ} (hk : -1021 ≤ k) (hk' : k ≤ 1024) (hv : |v| < (2 : ℚ) ^ k) (w : ℚ) :
    |torn v w - v| < (2 : ℚ) ^ (k - 21) := by
  have hv' : |v| < (2 : ℚ) ^ (1024 : ℤ) := hv.trans_le (zpow_le_zpow_right₀ (by norm_num) hk')
  have hu := unit_small h hk hv
  have e : v = sgn v * ((significand v : ℚ) * (2 : ℚ) ^ unitExp v) := by rw [← unit_spec h, sgn_abs]
  have hd : (significand v : ℚ) = ((significand v / 2 ^ 32 * 2 ^ 32 + significand v % 2 ^ 32 : ℕ) : ℚ) := by rw [Nat.div_add_mod']
  have hpos : (0 : ℚ) < (2 : ℚ) ^ unitExp v := by positivity
  have e2 : torn v w - v = sgn v * ((((significand w % 2 ^ 32 : ℕ) : ℚ) - ((significand v % 2 ^ 32 : ℕ) : ℚ)) * (2 : ℚ) ^ unitExp v) := by
    have e3 : torn v w - v = torn v w - sgn v * ((significand v : ℚ) * (2 : ℚ) ^ unitExp v) := by rw [← e]
    rw [e3, torn_eq h hv', hd]
    push_cast
    ring
  rw [e2, abs_mul, abs_sgn, one_mul, abs_mul, abs_of_pos hpos]
  have h1 : ((significand w % 2 ^ 32 : ℕ) : ℚ) < 2 ^ 32 := by exact_mod_cast Nat.mod_lt _ (by norm_num)
  have h2 : ((significand v % 2 ^ 32 : ℕ) : ℚ) < 2 ^ 32 := by exact_mod_cast Nat.mod_lt _ (by norm_num)
  have h3 : |((significand w % 2 ^ 32 : ℕ) : ℚ) - ((significand v % 2 ^ 32 : ℕ) : ℚ)| < 2 ^ 32 := by
    rw [abs_lt]
    have a := Nat.cast_nonneg (α := ℚ) (significand w % 2 ^ 32)
    have b := Nat.cast_nonneg (α := ℚ) (significand v % 2 ^ 32)
    constructor <;> linarith
  calc _ < 2 ^ 32 * (2 : ℚ) ^ unitExp v := by gcongr
    _ = (2 : ℚ) ^ (32 + unitExp v) := by rw [zpow_add₀ (by norm_num)]; norm_num
    _ ≤ (2 : ℚ) ^ (k - 21) := zpow_le_zpow_right₀ (by norm_num) (by omega)

theorem torn_abs {v : ℚ} (h : Representable b64 v) (hv : |v| < (2 : ℚ) ^ (1024 : ℤ)) (w : ℚ) :
    |torn v w| = ((significand v / 2 ^ 32 * 2 ^ 32 + significand w % 2 ^ 32 : ℕ) : ℚ) * (2 : ℚ) ^ unitExp v := by
  rw [torn_eq h hv, abs_mul, abs_sgn, one_mul, abs_of_nonneg (mul_nonneg (Nat.cast_nonneg _) (zpow_nonneg (by norm_num) _))]

/-- Small integers are multiples of the unit of the high word: a torn number does not cross them. -/
theorem torn_below {v : ℚ} (h : Representable b64 v) {B : ℕ} (hB : B ≤ 2 ^ 20) (hv : |v| < B) (w : ℚ) : |torn v w| < B := by
  have hB' : |v| < (2 : ℚ) ^ (20 : ℤ) := hv.trans_le (by exact_mod_cast hB)
  have hu := unit_small h (k := 20) (by norm_num) hB'
  have hpos : (0 : ℚ) < (2 : ℚ) ^ unitExp v := by positivity
  obtain ⟨j, hj⟩ : ∃ j : ℕ, -32 - unitExp v = j := ⟨(-32 - unitExp v).toNat, by omega⟩
  have eB : (B : ℚ) = ((B * 2 ^ j * 2 ^ 32 : ℕ) : ℚ) * (2 : ℚ) ^ unitExp v := by
    push_cast
    have : (2 : ℚ) ^ j * 2 ^ 32 * (2 : ℚ) ^ unitExp v = 1 := by
      rw [← zpow_natCast, ← hj, show ((2 : ℚ) ^ 32) = (2 : ℚ) ^ (32 : ℤ) by norm_num, ← zpow_add₀ (by norm_num), ← zpow_add₀ (by norm_num)]
      rw [show -32 - unitExp v + 32 + unitExp v = 0 by ring, zpow_zero]
    calc (B : ℚ) = B * ((2 : ℚ) ^ j * 2 ^ 32 * (2 : ℚ) ^ unitExp v) := by rw [this, mul_one]
      _ = _ := by ring
  rw [torn_abs h (hB'.trans_le (zpow_le_zpow_right₀ (by norm_num) (by norm_num)))]
  rw [unit_spec h, eB] at hv
  rw [eB]
  have h1 : significand v < B * 2 ^ j * 2 ^ 32 := by exact_mod_cast (lt_of_mul_lt_mul_right hv hpos.le)
  have h2 : significand v / 2 ^ 32 < B * 2 ^ j := by rw [Nat.div_lt_iff_lt_mul (by norm_num)]; exact h1
  have h3 : significand w % 2 ^ 32 < 2 ^ 32 := Nat.mod_lt _ (by norm_num)
  have h4 : significand v / 2 ^ 32 * 2 ^ 32 + significand w % 2 ^ 32 < B * 2 ^ j * 2 ^ 32 := by
    generalize B * 2 ^ j = c at *
    omega
  have : ((significand v / 2 ^ 32 * 2 ^ 32 + significand w % 2 ^ 32 : ℕ) : ℚ) < ((B * 2 ^ j * 2 ^ 32 : ℕ) : ℚ) := by exact_mod_cast h4
  gcongr

theorem torn_nonneg {v : ℚ} (h : Representable b64 v) (hv : |v| < (2 : ℚ) ^ (1024 : ℤ)) (h0 : 0 ≤ v) (w : ℚ) : 0 ≤ torn v w := by
  rw [torn_eq h hv, sgn, if_neg (not_lt.2 h0), one_mul]
  exact mul_nonneg (Nat.cast_nonneg _) (zpow_nonneg (by norm_num) _)

end Verif.Shared
