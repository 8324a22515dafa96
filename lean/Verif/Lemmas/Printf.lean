import Verif.Model.Printf
import Verif.Lemmas.Codec
import Verif.Lemmas.Strto
import Mathlib.Data.Nat.Digits.Lemmas

/-!
# Lemmas about the `printf` conversions
-/

set_option linter.unusedSectionVars false

namespace Verif.Printf
open Codec

theorem dec_ne_nil (n : Nat) : dec n ≠ [] := by
  unfold dec
  split
  · simp
  · rename_i h
    simp only [ne_eq, List.map_eq_nil_iff, List.reverse_eq_nil_iff]
    exact Nat.digits_ne_nil_iff_ne_zero.2 h

theorem dec_length_pos (n : Nat) : 1 ≤ (dec n).length := by
  have := dec_ne_nil n
  cases h : dec n with
  | nil => exact absurd h this
  | cons a t => simp

theorem dec_digit {n : Nat} {b : UInt8} (h : b ∈ dec n) : 48 ≤ b ∧ b ≤ 57 := by
  unfold dec at h
  split at h
  · simp only [List.mem_singleton] at h; subst h; decide
  · simp only [List.mem_map, List.mem_reverse] at h
    obtain ⟨d, hd, rfl⟩ := h
    have := Nat.digits_lt_base (by norm_num) hd
    have key : ∀ d, d < 10 → (48 : UInt8) ≤ UInt8.ofNat (48 + d) ∧ UInt8.ofNat (48 + d) ≤ 57 := by decide
    exact key d this

theorem dec_length_le {n k : Nat} (h : n < 10 ^ k) (hk : 1 ≤ k) : (dec n).length ≤ k := by
  unfold dec
  split
  · simpa using hk
  · rename_i hn
    rw [List.length_map, List.length_reverse]
    exact (Nat.digits_length_le_iff (by norm_num) n).2 h

theorem padded_digit {w : Nat} {s : List UInt8} (hs : ∀ b ∈ s, 48 ≤ b ∧ b ≤ 57) {b : UInt8} (h : b ∈ padded w s) : 48 ≤ b ∧ b ≤ 57 := by
  unfold padded at h
  rcases List.mem_append.1 h with h | h
  · rw [(List.mem_replicate.1 h).2]; decide
  · exact hs b h

theorem padded_length (w : Nat) (s : List UInt8) : (padded w s).length = max w s.length := by
  unfold padded; simp; omega

section
variable {K : Type} [Field K] [LinearOrder K] [IsStrictOrderedRing K] [FloorRing K]

theorem fmtF_length_ge {p : Nat} (hp : p ≠ 0) (x : K) : p + 2 ≤ (fmtF p x).length := by
  unfold fmtF
  simp only [if_neg hp, List.length_append, List.length_cons, padded_length]
  have := dec_length_pos ((roundEvenK (|x| * 10 ^ p)).toNat / 10 ^ p)
  omega

/-- Characters of a formatted number: digits, `-`, `.`. -/
theorem fmtF_chars (p : Nat) (x : K) {b : UInt8} (h : b ∈ fmtF p x) : (48 ≤ b ∧ b ≤ 57) ∨ b = 45 ∨ b = 46 := by
  unfold fmtF at h
  simp only [List.mem_append] at h
  rcases h with (h | h) | h
  · split at h
    · simp only [List.mem_singleton] at h; exact Or.inr (Or.inl h)
    · simp at h
  · exact Or.inl (dec_digit h)
  · split at h
    · simp at h
    · rcases List.mem_cons.1 h with h | h
      · exact Or.inr (Or.inr h)
      · exact Or.inl (padded_digit (fun b => dec_digit) h)

theorem fmtF_ne_zero (p : Nat) (x : K) {b : UInt8} (h : b ∈ fmtF p x) : b ≠ 0 := by
  rcases fmtF_chars p x h with ⟨h, -⟩ | h | h
  · rintro rfl; exact absurd h (by decide)
  · subst h; decide
  · subst h; decide

theorem roundEvenK_near (x : K) : |(roundEvenK x : K) - x| ≤ 1 / 2 := by
  unfold roundEvenK
  have h1 := Int.floor_le x
  have h2 := Int.lt_floor_add_one x
  simp only
  split_ifs with h3 h4 h5
  · rw [abs_le]; constructor <;> linarith
  · push_cast; rw [abs_le]; constructor <;> linarith
  · rw [abs_le]; constructor <;> linarith
  · push_cast; rw [abs_le]; constructor <;> linarith

theorem roundEvenK_nonneg {x : K} (hx : 0 ≤ x) : 0 ≤ roundEvenK x := by
  have hf : 0 ≤ ⌊x⌋ := Int.floor_nonneg.2 hx
  unfold roundEvenK
  simp only
  split_ifs <;> omega

theorem roundEvenK_lt {x : K} {n : Nat} (h : x < n) : (roundEvenK x).toNat ≤ n := by
  have h1 := abs_le.1 (roundEvenK_near x)
  have h2 : (roundEvenK x : K) < n + 1 := by linarith [h1.2]
  have h3 : roundEvenK x < (n : ℤ) + 1 := by exact_mod_cast h2
  omega

/-- Length of a formatted number: sign, `d` digits, point, `p` digits. -/
theorem fmtF_length_le {p d : Nat} {x : K} (hd : 1 ≤ d) (h : |x| < 10 ^ d) : (fmtF p x).length ≤ d + p + 3 := by
  have hx : 0 ≤ |x| * 10 ^ p := by positivity
  have hlt : |x| * 10 ^ p < ((10 ^ (d + p) : Nat) : K) := by
    push_cast
    rw [pow_add]
    exact mul_lt_mul_of_pos_right h (by positivity)
  have hn := roundEvenK_lt hlt
  unfold fmtF
  simp only
  set n := (roundEvenK (|x| * 10 ^ p)).toNat with hn'
  have h1 : (dec (n / 10 ^ p)).length ≤ d + 1 := by
    apply dec_length_le _ (by omega)
    rw [Nat.div_lt_iff_lt_mul (by positivity), ← pow_add]
    calc n ≤ 10 ^ (d + p) := hn
      _ < 10 ^ (d + 1 + p) := Nat.pow_lt_pow_right (by norm_num) (by omega)
  have h2 : (if p = 0 then ([] : List UInt8) else 46 :: padded p (dec (n % 10 ^ p))).length ≤ p + 1 := by
    split
    · simp
    · rename_i hp
      rw [List.length_cons, padded_length]
      have := dec_length_le (Nat.mod_lt n (show 0 < 10 ^ p by positivity)) (by omega)
      omega
  have h3 : (if x < 0 then [(45 : UInt8)] else []).length ≤ 1 := by split <;> simp
  simp only [List.length_append]
  omega

end

/-! ### Buffers -/

theorem snprintf_fits {mem out : List UInt8} {off size : Nat} (hs : out.length < size) (hm : off + out.length < mem.length) :
    snprintfAt mem off size out = .ok (out.length, mem.take off ++ out ++ 0 :: mem.drop (off + out.length + 1)) := by
  unfold snprintfAt
  rw [if_neg (by omega), List.take_of_length_le (by omega), storeSeq_ok _ _ _ (by simp; omega), bind_ok]
  simp only [List.length_append, List.length_singleton, pure_ok, List.append_assoc, List.singleton_append]
  rfl

theorem snprintf_trunc {mem out : List UInt8} {off size : Nat} (h0 : 0 < size) (hs : size ≤ out.length) (hm : off + size ≤ mem.length) :
    snprintfAt mem off size out = .ok (out.length, mem.take off ++ out.take (size - 1) ++ 0 :: mem.drop (off + size)) := by
  unfold snprintfAt
  have hl : (out.take (size - 1) ++ [0]).length = size := by simp; omega
  rw [if_neg (by omega), storeSeq_ok _ _ _ (by omega), bind_ok, hl]
  simp [pure_ok]

theorem storeSeq_oob {mem bs : List UInt8} {i : Nat} (hi : mem.length ≤ i) (hb : bs ≠ []) : storeSeq mem i bs = .error (.ub .oobWrite) := by
  cases bs with
  | nil => exact absurd rfl hb
  | cons b bs =>
    unfold storeSeq storeByte
    rw [if_neg (by omega)]; rfl

theorem snprintf_oob {mem out : List UInt8} {off size : Nat} (h0 : 0 < size) (hm : mem.length ≤ off) :
    snprintfAt mem off size out = .error (.ub .oobWrite) := by
  unfold snprintfAt
  rw [if_neg (by omega), storeSeq_oob hm (by simp)]; rfl

theorem readBytes_eq {mem : List UInt8} {n : Nat} (h : n ≤ mem.length) : readBytes mem n = .ok (mem.take n) := by
  unfold readBytes; rw [if_pos h]

theorem readCString_eq {a b : List UInt8} (ha : (0 : UInt8) ∉ a) : readCString (a ++ 0 :: b) = .ok a := by
  induction a with
  | nil => rfl
  | cons x a ih =>
    simp only [List.mem_cons, not_or] at ha
    simp only [List.cons_append, readCString]
    rw [if_neg (fun h => ha.1 h.symm), ih ha.2, bind_ok, pure_ok]

theorem readCString_none {a : List UInt8} (ha : (0 : UInt8) ∉ a) : readCString a = .error (.ub .oobRead) := by
  induction a with
  | nil => rfl
  | cons x a ih =>
    simp only [List.mem_cons, not_or] at ha
    simp only [readCString]
    rw [if_neg (fun h => ha.1 h.symm), ih ha.2]; rfl

/-- If there is a NUL, the string is what precedes it. -/
theorem readCString_of_mem {l : List UInt8} (h : (0 : UInt8) ∈ l) : readCString l = .ok (l.takeWhile (· ≠ 0)) := by
  induction l with
  | nil => simp at h
  | cons x l ih =>
    simp only [readCString]
    by_cases hx : x = 0
    · rw [if_pos hx, List.takeWhile_cons_of_neg (by simp [hx])]
    · rw [if_neg hx, List.takeWhile_cons_of_pos (by simp [hx]), ih (by simpa [Ne.symm hx] using h), bind_ok, pure_ok]

end Verif.Printf
