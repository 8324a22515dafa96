import Verif.Lemmas.Printf
import Verif.Spec.Decimal
import Mathlib.Tactic.FieldSimp
import Mathlib.Tactic.Positivity

/-!
# The `printf` conversions denote the values they should
-/

namespace Verif.Printf
open Spec.Decimal

theorem natValue_foldl_zeros (k : Nat) (s : List UInt8) : natValue (List.replicate k 48 ++ s) = natValue s := by
  unfold natValue
  rw [List.foldl_append]
  congr 1
  induction k with
  | zero => rfl
  | succ k ih => rw [List.replicate_succ, List.foldl_cons]; simpa using ih

theorem natValue_padded (w : Nat) (s : List UInt8) : natValue (padded w s) = natValue s := natValue_foldl_zeros _ _

theorem natValue_dec (n : Nat) : natValue (dec n) = n := by
  unfold dec
  split
  · rename_i h; subst h; rfl
  · unfold natValue
    have key : ∀ l : List Nat, (∀ d ∈ l, d < 10) →
        ((l.reverse.map fun d => UInt8.ofNat (48 + d)).foldl (fun n (b : UInt8) => 10 * n + (b.toNat - 48)) 0) = Nat.ofDigits 10 l := by
      intro l hl
      induction l with
      | nil => rfl
      | cons a l ih =>
        rw [List.reverse_cons, List.map_append, List.foldl_append, ih (fun d hd => hl d (by simp [hd])), Nat.ofDigits_cons]
        simp only [List.map_cons, List.map_nil, List.foldl_cons, List.foldl_nil]
        have ha : a < 10 := hl a (by simp)
        have : (UInt8.ofNat (48 + a)).toNat = 48 + a := by
          rw [UInt8.toNat_ofNat']; omega
        rw [this]; omega
    rw [key _ (fun d hd => Nat.digits_lt_base (by norm_num) hd), Nat.ofDigits_digits]

section
variable {K : Type} [Field K] [LinearOrder K] [IsStrictOrderedRing K] [FloorRing K]

/-- `%.pf` prints a number with `p` decimals that is the argument rounded to the nearest multiple of `10^-p`. -/
theorem fmtF_denotes (p : Nat) (x : K) : ∃ v : ℚ, Denotes (fmtF p x) p v ∧ |(v : K) - x| ≤ 1 / 2 / 10 ^ p := by
  set n := (roundEvenK (|x| * 10 ^ p)).toNat with hn
  have hp : (0 : K) < 10 ^ p := by positivity
  have hpN : 0 < 10 ^ p := by positivity
  have hnn : ((n : ℤ)) = roundEvenK (|x| * 10 ^ p) := by
    rw [hn]; exact Int.toNat_of_nonneg (roundEvenK_nonneg (by positivity))
  have hnear : abs ((n : K) / 10 ^ p - |x|) ≤ 1 / 2 / 10 ^ p := by
    have h := roundEvenK_near (|x| * 10 ^ p)
    rw [← hnn] at h
    have e : (n : K) / 10 ^ p - |x| = (((n : ℤ) : K) - |x| * 10 ^ p) / 10 ^ p := by
      push_cast; field_simp
    rw [e, abs_div, abs_of_pos hp]
    exact div_le_div_of_nonneg_right h hp.le
  have hval : ((n / 10 ^ p : Nat) : ℚ) + ((n % 10 ^ p : Nat) : ℚ) / 10 ^ p = (n : ℚ) / 10 ^ p := by
    have := Nat.div_add_mod n (10 ^ p)
    have h2 : (10 ^ p : ℚ) * ((n / 10 ^ p : Nat) : ℚ) + ((n % 10 ^ p : Nat) : ℚ) = n := by exact_mod_cast this
    field_simp
    linarith
  refine ⟨(if x < 0 then -1 else 1) * ((n : ℚ) / 10 ^ p), ?_, ?_⟩
  · refine ⟨decide (x < 0), dec (n / 10 ^ p), if p = 0 then [] else padded p (dec (n % 10 ^ p)), dec_ne_nil _, fun c hc => dec_digit hc, ?_, ?_, ?_, ?_⟩
    · split
      · rename_i h; simp [h]
      · rename_i h
        rw [padded_length]
        have := dec_length_le (Nat.mod_lt n hpN) (by omega)
        omega
    · intro c hc
      split at hc
      · simp at hc
      · exact padded_digit (fun b hb => dec_digit hb) hc
    · unfold fmtF
      simp only [← hn, decide_eq_true_eq]
      by_cases h : p = 0 <;> simp [h]
    · simp only [decide_eq_true_eq, natValue_dec]
      congr 1
      rw [← hval]
      congr 2
      split
      · rename_i h; subst h; simp [natValue, Nat.mod_one]
      · rw [natValue_padded, natValue_dec]
  · split
    · rename_i h
      rw [abs_of_neg h] at hnear
      push_cast
      rw [show (-1 : K) * ((n : K) / 10 ^ p) - x = -((n : K) / 10 ^ p - -x) by ring, abs_neg]
      exact hnear
    · rename_i h
      rw [abs_of_nonneg (not_lt.1 h)] at hnear
      push_cast
      rw [one_mul]
      exact hnear

end
end Verif.Printf
