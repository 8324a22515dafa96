import Verif.C.Strto
import Verif.Spec.Nmea
import Mathlib.Tactic.Ring
import Mathlib.Tactic.Linarith
import Mathlib.Tactic.FieldSimp
import Mathlib.Tactic.NormNum

/-!
# Lemmas about C string conversions (helpers, not claims)
-/

namespace Verif
open Verif.Spec

theorem bind_ok {α β : Type} (a : α) (f : α → C β) : (Except.ok a >>= f : C β) = f a := rfl
theorem bind_error {α β : Type} (e : Stop) (f : α → C β) : (Except.error e >>= f : C β) = .error e := rfl
theorem pure_ok {α : Type} (a : α) : (pure a : C α) = .ok a := rfl

theorem bind_eq_ok {α β : Type} {x : C α} {f : α → C β} {b : β} :
    (x >>= f) = .ok b ↔ ∃ a, x = .ok a ∧ f a = .ok b := by
  cases x with
  | error e => simp [bind_error]
  | ok a => simp [bind_ok]

/-! ### digits -/

theorem isDigit_dig (d : Fin 10) : isDigit (dig d) = true := by revert d; decide
theorem isHexDigit_dig (d : Fin 10) : isHexDigit (dig d) = true := by revert d; decide
theorem digitVal_dig (d : Fin 10) : digitVal (dig d) = d.val := by revert d; decide
theorem isSpace_dig (d : Fin 10) : isSpace (dig d) = false := by revert d; decide
theorem dig_ne_minus (d : Fin 10) : dig d ≠ 45 := by revert d; decide
theorem dig_ne_plus (d : Fin 10) : dig d ≠ 43 := by revert d; decide
theorem toLower_dig (d : Fin 10) : toLower (dig d) = dig d := by revert d; decide
theorem dig_ne_i (d : Fin 10) : dig d ≠ 105 := by revert d; decide
theorem dig_ne_n (d : Fin 10) : dig d ≠ 110 := by revert d; decide
theorem dig_ne_x (d : Fin 10) : dig d ≠ 120 := by revert d; decide
theorem dig_lt (d : Fin 10) : dig d < 128 := by revert d; decide
theorem dig_ne_star (d : Fin 10) : dig d ≠ 42 := by revert d; decide
theorem dig_ne_dollar (d : Fin 10) : dig d ≠ 36 := by revert d; decide
theorem dig_ne_nl (d : Fin 10) : dig d ≠ 10 := by revert d; decide
theorem dig_ne_comma (d : Fin 10) : dig d ≠ 44 := by revert d; decide

theorem digitsVal_append (base : Nat) (a b : List UInt8) :
    digitsVal base (a ++ b) = digitsVal base a * base ^ b.length + digitsVal base b := by
  have gen : ∀ (l : List UInt8) (acc : Nat),
      l.foldl (fun acc d => acc * base + digitVal d) acc =
        acc * base ^ l.length + l.foldl (fun acc d => acc * base + digitVal d) 0 := by
    intro l
    induction l with
    | nil => intro acc; simp
    | cons x l ih =>
      intro acc
      simp only [List.foldl_cons, List.length_cons]
      rw [ih, ih (0 * base + digitVal x)]; ring
  unfold digitsVal
  rw [List.foldl_append, gen b]

theorem digitsVal_dig (ds : List (Fin 10)) : digitsVal 10 (ds.map dig) = natDigits ds := by
  induction ds with
  | nil => rfl
  | cons d ds ih =>
    rw [List.map_cons, ← List.singleton_append, digitsVal_append, ih, List.length_map]
    simp [natDigits, digitsVal, digitVal_dig]

theorem natDigits_append (a b : List (Fin 10)) : natDigits (a ++ b) = natDigits a * 10 ^ b.length + natDigits b := by
  rw [← digitsVal_dig, List.map_append, digitsVal_append, digitsVal_dig, digitsVal_dig, List.length_map]

theorem fracDigits_eq (ds : List (Fin 10)) : fracDigits ds = (natDigits ds : ℚ) / 10 ^ ds.length := by
  induction ds with
  | nil => simp [fracDigits, natDigits]
  | cons d ds ih =>
    simp only [fracDigits, natDigits, ih, List.length_cons]
    push_cast
    field_simp
    ring

theorem natDigits_lt (ds : List (Fin 10)) : natDigits ds < 10 ^ ds.length := by
  induction ds with
  | nil => simp [natDigits]
  | cons d ds ih =>
    have := d.isLt
    have h : d.val * 10 ^ ds.length ≤ 9 * 10 ^ ds.length := Nat.mul_le_mul_right _ (by omega)
    simp only [natDigits, List.length_cons, pow_succ]
    omega

theorem fracVal_nonneg (f : Option (List (Fin 10))) : 0 ≤ fracVal f := by
  cases f with
  | none => exact le_rfl
  | some ds => rw [fracVal, fracDigits_eq]; positivity

theorem fracVal_lt (f : Option (List (Fin 10))) : fracVal f < 1 := by
  cases f with
  | none => simp [fracVal]
  | some ds =>
    rw [fracVal, fracDigits_eq, div_lt_one (by positivity)]
    exact_mod_cast natDigits_lt ds

theorem takeWhile_digits {p : UInt8 → Bool} (hp : ∀ d : Fin 10, p (dig d) = true) (ds : List (Fin 10)) (c : UInt8)
    (hc : p c = false) (r : List UInt8) :
    (ds.map dig ++ c :: r).takeWhile p = ds.map dig ∧ (ds.map dig ++ c :: r).dropWhile p = c :: r := by
  induction ds with
  | nil => simp [hc]
  | cons d ds ih => simp [hp, ih]

/-- Terminators of a number field: not a digit, not `.`, not an exponent or hexadecimal marker. -/
def Term (c : UInt8) : Prop :=
  isHexDigit c = false ∧ isDigit c = false ∧ c ≠ 46 ∧ toLower c ≠ 101 ∧ toLower c ≠ 120

theorem term_comma : Term 44 := by unfold Term; decide
theorem term_star : Term 42 := by unfold Term; decide

theorem parseMant_dec (ip : List (Fin 10)) (hip : ip ≠ []) (fp : Option (List (Fin 10))) (c : UInt8) (hc : Term c)
    (r : List UInt8) :
    parseMant false (ip.map dig ++ fracText fp ++ c :: r) = .num (natDigits ip + fracVal fp) (c :: r) := by
  obtain ⟨h0, h1, h2, h3, h4⟩ := hc
  have hexp : takeExp 101 (c :: r) = (0, c :: r) := by simp [takeExp, h3]
  cases fp with
  | none =>
    obtain ⟨t1, t2⟩ := takeWhile_digits isDigit_dig ip c h1 r
    have tf : takeFrac isDigit (c :: r) = ([], c :: r) := by
      unfold takeFrac; split
      · rename_i heq; simp at heq; exact absurd heq.1 h2
      · rfl
    simp only [fracText, List.append_nil]
    unfold parseMant
    simp [t1, t2, tf, hexp, hip, digitsVal_dig, fracVal]
  | some fs =>
    obtain ⟨t1, t2⟩ := takeWhile_digits isDigit_dig ip 46 (by decide) (fs.map dig ++ c :: r)
    obtain ⟨t3, t4⟩ := takeWhile_digits isDigit_dig fs c h1 r
    have tf : takeFrac isDigit (46 :: (fs.map dig ++ c :: r)) = (fs.map dig, c :: r) := by
      simp [takeFrac, t3, t4]
    simp only [fracText, List.append_assoc, List.cons_append]
    unfold parseMant
    simp only [Bool.false_eq_true, if_false, t1, t2, tf, hexp]
    simp only [List.isEmpty_map, zpow_zero, mul_one, ← List.map_append,
      digitsVal_dig, fracVal, fracDigits_eq, natDigits_append, List.length_map]
    simp only [Bool.false_and, Bool.false_eq_true, if_false, List.isEmpty_eq_false_iff.2 hip]
    congr 1
    push_cast; field_simp

theorem dec_head (ip : List (Fin 10)) (hip : ip ≠ []) (fp : Option (List (Fin 10))) (c : UInt8) (hc : Term c)
    (r : List UInt8) : ∃ d x t, ip.map dig ++ fracText fp ++ c :: r = dig d :: x :: t ∧ toLower x ≠ 120 := by
  obtain ⟨h0, h1, h2, h3, h4⟩ := hc
  match ip, hip with
  | [d], _ =>
    cases fp with
    | none => exact ⟨d, c, r, rfl, h4⟩
    | some fs => exact ⟨d, 46, fs.map dig ++ c :: r, by simp [fracText], by decide⟩
  | d :: d' :: ds, _ =>
    refine ⟨d, dig d', ds.map dig ++ fracText fp ++ c :: r, by simp, ?_⟩
    rw [toLower_dig]; exact dig_ne_x d'

theorem parseUnsigned_dec (ip : List (Fin 10)) (hip : ip ≠ []) (fp : Option (List (Fin 10))) (c : UInt8) (hc : Term c)
    (r : List UInt8) :
    parseUnsigned (ip.map dig ++ fracText fp ++ c :: r) = .num (natDigits ip + fracVal fp) (c :: r) := by
  have hm := parseMant_dec ip hip fp c hc r
  obtain ⟨d, x, t, he, hx⟩ := dec_head ip hip fp c hc r
  rw [he] at hm ⊢
  unfold parseUnsigned
  rw [if_neg]
  · split
    · rename_i heq
      injection heq with e1 e2
      injection e2 with e2 e3
      subst e2
      rw [if_neg (by simpa using hx)]
      exact hm
    · exact hm
  · simp [toLower_dig, dig_ne_i, dig_ne_n]

theorem parseFloat_dec (ip : List (Fin 10)) (hip : ip ≠ []) (fp : Option (List (Fin 10))) (c : UInt8) (hc : Term c)
    (r : List UInt8) :
    parseFloat (ip.map dig ++ fracText fp ++ c :: r) = .num (natDigits ip + fracVal fp) (c :: r) := by
  have hm := parseUnsigned_dec ip hip fp c hc r
  obtain ⟨d, x, t, he, hx⟩ := dec_head ip hip fp c hc r
  rw [he] at hm ⊢
  unfold parseFloat
  rw [List.dropWhile_cons_of_neg (by simp [isSpace_dig])]
  have : takeSign (dig d :: x :: t) = (false, dig d :: x :: t) := by
    unfold takeSign
    split
    · rename_i heq; injection heq with e1 e2; exact absurd e1 (dig_ne_minus d)
    · rename_i heq; injection heq with e1 e2; exact absurd e1 (dig_ne_plus d)
    · rfl
  rw [this]
  simp only [hm]
  rfl

theorem parseFloat_neg_dec (ip : List (Fin 10)) (hip : ip ≠ []) (fp : Option (List (Fin 10))) (c : UInt8) (hc : Term c)
    (r : List UInt8) :
    parseFloat (45 :: (ip.map dig ++ fracText fp ++ c :: r)) = .num (-(natDigits ip + fracVal fp)) (c :: r) := by
  have hm := parseUnsigned_dec ip hip fp c hc r
  unfold parseFloat
  rw [List.dropWhile_cons_of_neg (by decide)]
  simp only [takeSign, hm]
  rfl

theorem strtof_dec (P : Platform) (ip : List (Fin 10)) (hip : ip ≠ []) (fp : Option (List (Fin 10))) (c : UInt8)
    (hc : Term c) (r : List UInt8) :
    strtof P (ip.map dig ++ fracText fp ++ c :: r) =
      (toFloat P (natDigits ip + fracVal fp)).map (fun v => (v, c :: r)) := by
  have hm := parseFloat_dec ip hip fp c hc r
  obtain ⟨d, x, t, he, hx⟩ := dec_head ip hip fp c hc r
  rw [he] at hm ⊢
  unfold strtof
  simp only [hm]
  cases toFloat P (natDigits ip + fracVal fp) <;> rfl

theorem strtof_neg_dec (P : Platform) (ip : List (Fin 10)) (hip : ip ≠ []) (fp : Option (List (Fin 10))) (c : UInt8)
    (hc : Term c) (r : List UInt8) :
    strtof P (45 :: (ip.map dig ++ fracText fp ++ c :: r)) =
      (toFloat P (-(natDigits ip + fracVal fp))).map (fun v => (v, c :: r)) := by
  have hm := parseFloat_neg_dec ip hip fp c hc r
  unfold strtof
  simp only [hm]
  cases toFloat P (-(natDigits ip + fracVal fp)) <;> rfl

/-- An empty field: nothing is converted, the pointer stays. -/
theorem strtof_comma (P : Platform) (r : List UInt8) : strtof P (44 :: r) = .ok (0, 44 :: r) := by
  have h1 : parseFloat (44 :: r) = .none := by
    unfold parseFloat
    rw [List.dropWhile_cons_of_neg (by decide)]
    have : takeSign (44 :: r) = (false, 44 :: r) := rfl
    rw [this]
    have h2 : parseUnsigned (44 :: r) = .none := by
      unfold parseUnsigned
      rw [if_neg (by simp [toLower])]
      simp [parseMant, takeFrac, isDigit]
    simp [h2]
  simp [strtof, h1]

/-- `strtol` base 10 on a digit field. -/
theorem strtol_dec (P : Platform) (ds : List (Fin 10)) (hds : ds ≠ []) (c : UInt8) (hc : isDigit c = false)
    (r : List UInt8) (hlt : natDigits ds < 2 ^ 31) :
    strtol P false (ds.map dig ++ c :: r) = .ok ((natDigits ds : ℤ), c :: r) := by
  match ds, hds with
  | d :: ds, _ =>
    obtain ⟨t1, t2⟩ := takeWhile_digits isDigit_dig (d :: ds) c hc r
    have e : (d :: ds).map dig ++ c :: r = dig d :: (ds.map dig ++ c :: r) := rfl
    have hs : takeSign (dig d :: (ds.map dig ++ c :: r)) = (false, dig d :: (ds.map dig ++ c :: r)) := by
      unfold takeSign
      split
      · rename_i heq; injection heq with e1 e2; exact absurd e1 (dig_ne_minus d)
      · rename_i heq; injection heq with e1 e2; exact absurd e1 (dig_ne_plus d)
      · rfl
    have hi : strtoInt false ((d :: ds).map dig ++ c :: r) = (false, natDigits (d :: ds), c :: r) := by
      unfold strtoInt
      rw [e, List.dropWhile_cons_of_neg (by simp [isSpace_dig])]
      simp only [hs, Bool.false_eq_true, if_false]
      rw [← e, t1, t2]
      simp [-List.map_cons, digitsVal_dig]
    unfold strtol
    rw [e, ← e, hi]
    simp only [Bool.false_eq_true, if_false]
    have hb : (2 : ℤ) ^ 31 ≤ 2 ^ (P.word.bits - 1) := by cases P.word <;> simp [Word.bits]
    have hl : ((natDigits (d :: ds) : ℤ)) < 2 ^ 31 := by exact_mod_cast hlt
    rw [if_neg (by omega), if_neg (by omega)]
    rfl

end Verif
