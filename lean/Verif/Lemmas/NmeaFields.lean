import Verif.Props.GnssFrame
import Verif.Lemmas.NmeaFloat

/-!
# Lemmas: the field parsers on well-formed fields
-/

namespace Verif.Nmea
open Verif Verif.Spec

/-! ## Digits -/

/-- The digits of a two-digit field. -/
def d2 (n : Nat) : List (Fin 10) := [⟨n / 10 % 10, by omega⟩, ⟨n % 10, by omega⟩]
/-- The digits of a three-digit field. -/
def d3 (n : Nat) : List (Fin 10) := ⟨n / 100 % 10, by omega⟩ :: d2 n

theorem dec2_eq (n : Nat) : dec2 n = (d2 n).map dig := rfl
theorem dec3_eq (n : Nat) : dec3 n = (d3 n).map dig := rfl

theorem natDigits_d2 {n : Nat} (h : n < 100) : natDigits (d2 n) = n := by
  simp [natDigits, d2]; omega
theorem natDigits_d3 {n : Nat} (h : n < 1000) : natDigits (d3 n) = n := by
  simp [natDigits, d3, d2]; omega
theorem length_d2 (n : Nat) : (d2 n).length = 2 := rfl
theorem length_d3 (n : Nat) : (d3 n).length = 3 := rfl

theorem strtof_digits (P : Platform) (ip : List (Fin 10)) (hip : ip ≠ []) (hl : ip.length ≤ 9)
    (fp : Option (List (Fin 10))) (r : List UInt8) :
    strtof P (ip.map dig ++ fracText fp ++ 44 :: r) = .ok (rt P (natDigits ip + fracVal fp), 44 :: r) := by
  rw [strtof_dec P ip hip fp 44 term_comma r, toFloat_small]
  · rfl
  · have h1 := fracVal_nonneg fp
    have h2 := fracVal_lt fp
    have h3 : (natDigits ip : ℚ) < 10 ^ ip.length := by exact_mod_cast natDigits_lt ip
    have h4 : (10 : ℚ) ^ ip.length ≤ 10 ^ 9 := pow_le_pow_right₀ (by norm_num) hl
    apply le_pow100 (B := 10 ^ 10) _ (by norm_num)
    rw [abs_of_nonneg (by positivity)]
    norm_num at h4 ⊢
    linarith

theorem strtof_neg_digits (P : Platform) (ip : List (Fin 10)) (hip : ip ≠ []) (hl : ip.length ≤ 9)
    (fp : Option (List (Fin 10))) (r : List UInt8) :
    strtof P (45 :: (ip.map dig ++ fracText fp ++ 44 :: r)) = .ok (rt P (-(natDigits ip + fracVal fp)), 44 :: r) := by
  rw [strtof_neg_dec P ip hip fp 44 term_comma r, toFloat_small]
  · rfl
  · have h1 := fracVal_nonneg fp
    have h2 := fracVal_lt fp
    have h3 : (natDigits ip : ℚ) < 10 ^ ip.length := by exact_mod_cast natDigits_lt ip
    have h4 : (10 : ℚ) ^ ip.length ≤ 10 ^ 9 := pow_le_pow_right₀ (by norm_num) hl
    apply le_pow100 (B := 10 ^ 10) _ (by norm_num)
    rw [abs_neg, abs_of_nonneg (by positivity)]
    norm_num at h4 ⊢
    linarith

theorem rt_zero (P : Platform) : rt P 0 = 0 := by
  have := rt_int P (z := 0) (by norm_num)
  simpa using this

theorem strtof_opt (P : Platform) (d : Option Dec) (hd : ∀ x, d = some x → x.WellFormed) (r : List UInt8) :
    strtof P (optText d ++ 44 :: r) = .ok (rt P (optValue d), 44 :: r) := by
  cases d with
  | none => simp only [optText, optValue, List.nil_append]; rw [strtof_comma, rt_zero]
  | some x =>
    obtain ⟨h1, h2⟩ := hd x rfl
    exact strtof_digits P x.ip h1 h2 x.fp r

/-! ## Time -/

theorem strtof_utc (P : Platform) (t : Utc) (ht : t.Valid) (r : List UInt8) :
    strtof P (t.text ++ 44 :: r) =
      .ok (rt P (((t.hour * 10000 + t.min * 100 + t.sec : ℤ) : ℚ) + fracVal t.frac), 44 :: r) := by
  obtain ⟨h1, h2, h3⟩ := ht
  have e : t.text = (d2 t.hour ++ d2 t.min ++ d2 t.sec).map dig ++ fracText t.frac := by
    simp [Utc.text, dec2_eq]
  rw [e, strtof_digits P _ (by simp [d2]) (by simp [length_d2])]
  have key : ((natDigits (d2 t.hour ++ d2 t.min ++ d2 t.sec) : ℕ) : ℚ) = ((t.hour * 10000 + t.min * 100 + t.sec : ℤ) : ℚ) := by
    rw [natDigits_append, natDigits_append, natDigits_d2 (by omega), natDigits_d2 (by omega), natDigits_d2 (by omega)]
    simp only [length_d2]
    push_cast
    ring
  rw [key]

/-- The seconds a stored time may show: those of the sentence, or one more if the fraction rounds up. -/
theorem splitTime_utc (P : Platform) (t : Utc) (ht : t.Valid) :
    ∃ s : ℤ, splitTime (rt P (((t.hour * 10000 + t.min * 100 + t.sec : ℤ) : ℚ) + fracVal t.frac)) =
        .ok (t.hour, t.min, s) ∧ (s = t.sec ∨ s = t.sec + 1 ∧ 0.99 < fracVal t.frac) := by
  obtain ⟨h1, h2, h3⟩ := ht
  obtain ⟨N, hN⟩ : ∃ N : ℤ, N = t.hour * 10000 + t.min * 100 + t.sec := ⟨_, rfl⟩
  have f0 := fracVal_nonneg t.frac
  have f1 := fracVal_lt t.frac
  rw [← hN]
  have r1 : (N : ℚ) ≤ rt P ((N : ℚ) + fracVal t.frac) := by
    have := rt_mono P (show ((N : ℤ) : ℚ) ≤ (N : ℚ) + fracVal t.frac by linarith)
    rwa [rt_int P (abs_le.2 ⟨by omega, by omega⟩)] at this
  have r2 : rt P ((N : ℚ) + fracVal t.frac) ≤ N + 1 := by
    have := rt_mono P (show (N : ℚ) + fracVal t.frac ≤ ((N + 1 : ℤ) : ℚ) by push_cast; linarith)
    rw [rt_int P (abs_le.2 ⟨by omega, by omega⟩)] at this
    push_cast at this; exact this
  by_cases hlt : rt P ((N : ℚ) + fracVal t.frac) < N + 1
  · have hf : ⌊rt P ((N : ℚ) + fracVal t.frac)⌋ = N := Int.floor_eq_iff.2 ⟨r1, hlt⟩
    have := splitTime_eq (N := N) (by omega) (by omega) (by omega) (by omega) hf
    refine ⟨t.sec, ?_, Or.inl rfl⟩
    rw [this]
    congr 2
    · omega
    · congr 1 <;> omega
  · have heq : rt P ((N : ℚ) + fracVal t.frac) = N + 1 := le_antisymm r2 (not_lt.1 hlt)
    have hf : ⌊rt P ((N : ℚ) + fracVal t.frac)⌋ = N + 1 := by
      rw [heq]; exact_mod_cast Int.floor_intCast (R := ℚ) (N + 1)
    have := splitTime_eq (N := N + 1) (by omega) (by omega) (by omega) (by omega) hf
    refine ⟨t.sec + 1, ?_, Or.inr ⟨rfl, ?_⟩⟩
    · rw [this]
      congr 2
      · omega
      · congr 1 <;> omega
    · by_contra hc
      have hN0 : (0 : ℚ) ≤ N := by exact_mod_cast (by omega : (0 : ℤ) ≤ N)
      have hN1 : (N : ℚ) ≤ 240000 := by exact_mod_cast (by omega : N ≤ 240000)
      have herr := rt_error P (q := (N : ℚ) + fracVal t.frac) (k := 18)
        (by rw [abs_of_nonneg (by linarith)]; norm_num; linarith) (by norm_num)
      rw [heq, abs_le] at herr
      norm_num at herr hc
      linarith [herr.2]

/-! ## Angles -/

theorem strtof_lat (P : Platform) (a : Angle) (h1 : a.deg < 100) (h2 : a.min < 100) (r : List UInt8) :
    strtof P (dec2 a.deg ++ dec2 a.min ++ fracText a.frac ++ 44 :: r) =
      .ok (rt P (((a.deg : ℤ) : ℚ) * 100 + (a.min + fracVal a.frac)), 44 :: r) := by
  have e : dec2 a.deg ++ dec2 a.min = (d2 a.deg ++ d2 a.min).map dig := by simp [dec2_eq]
  rw [e, strtof_digits P _ (by simp [d2]) (by simp [length_d2])]
  congr 3
  rw [natDigits_append, natDigits_d2 h1, natDigits_d2 h2]
  simp only [length_d2]
  push_cast
  ring

theorem strtof_lon (P : Platform) (a : Angle) (h1 : a.deg < 1000) (h2 : a.min < 100) (r : List UInt8) :
    strtof P (dec3 a.deg ++ dec2 a.min ++ fracText a.frac ++ 44 :: r) =
      .ok (rt P (((a.deg : ℤ) : ℚ) * 100 + (a.min + fracVal a.frac)), 44 :: r) := by
  have e : dec3 a.deg ++ dec2 a.min = (d3 a.deg ++ d2 a.min).map dig := by simp [dec2_eq, dec3_eq]
  rw [e, strtof_digits P _ (by simp [d3]) (by simp [length_d2, length_d3])]
  congr 3
  rw [natDigits_append, natDigits_d3 h1, natDigits_d2 h2]
  simp only [length_d2]
  push_cast
  ring

theorem updateAngle_lat (P : Platform) (a : Angle) (h : a.LatValid) (old : ℚ) :
    ∃ v, updateAngle true a.positive (rt P (((a.deg : ℤ) : ℚ) * 100 + (a.min + fracVal a.frac))) old = .ok v ∧
      |v - a.value| ≤ 13 / 10 ^ 6 := by
  have f0 := fracVal_nonneg a.frac
  have f1 := fracVal_lt a.frac
  have hd : a.deg ≤ 90 := by rcases h with h | h <;> omega
  have hm : (a.min : ℚ) + fracVal a.frac ≤ 60 := by
    rcases h with h | h
    · have : (a.min : ℚ) ≤ 59 := by exact_mod_cast (by omega : a.min ≤ 59)
      linarith
    · rw [h.2.1, h.2.2]; norm_num
  have hdq : (a.deg : ℚ) ≤ 90 := by exact_mod_cast hd
  have hd0 : (0 : ℚ) ≤ a.deg := by positivity
  obtain ⟨v, hv, he⟩ := toDegrees_error P (D := a.deg) (mm := a.min + fracVal a.frac) (kx := 14) (kd := 7)
    (by omega) (by omega) (by positivity) hm (by push_cast; linarith) (by push_cast; linarith)
    (by norm_num) (by norm_num)
  refine ⟨signed a.positive v, ?_, ?_⟩
  · unfold updateAngle; rw [if_pos rfl, hv]; rfl
  · have e1 : |v - a.size| ≤ 13 / 10 ^ 6 := by
      unfold Angle.size
      push_cast at he
      refine he.trans ?_
      norm_num
    unfold signed Angle.value
    split
    · exact e1
    · rw [show -v - -a.size = -(v - a.size) by ring, abs_neg]; exact e1

theorem updateAngle_lon (P : Platform) (a : Angle) (h : a.LonValid) (old : ℚ) :
    ∃ v, updateAngle true a.positive (rt P (((a.deg : ℤ) : ℚ) * 100 + (a.min + fracVal a.frac))) old = .ok v ∧
      |v - a.value| ≤ 25 / 10 ^ 6 := by
  have f0 := fracVal_nonneg a.frac
  have f1 := fracVal_lt a.frac
  have hd : a.deg ≤ 180 := by rcases h with h | h <;> omega
  have hm : (a.min : ℚ) + fracVal a.frac ≤ 60 := by
    rcases h with h | h
    · have : (a.min : ℚ) ≤ 59 := by exact_mod_cast (by omega : a.min ≤ 59)
      linarith
    · rw [h.2.1, h.2.2]; norm_num
  have hdq : (a.deg : ℚ) ≤ 180 := by exact_mod_cast hd
  have hd0 : (0 : ℚ) ≤ a.deg := by positivity
  obtain ⟨v, hv, he⟩ := toDegrees_error P (D := a.deg) (mm := a.min + fracVal a.frac) (kx := 15) (kd := 8)
    (by omega) (by omega) (by positivity) hm (by push_cast; linarith) (by push_cast; linarith)
    (by norm_num) (by norm_num)
  refine ⟨signed a.positive v, ?_, ?_⟩
  · unfold updateAngle; rw [if_pos rfl, hv]; rfl
  · have e1 : |v - a.size| ≤ 25 / 10 ^ 6 := by
      unfold Angle.size
      push_cast at he
      refine he.trans ?_
      norm_num
    unfold signed Angle.value
    split
    · exact e1
    · rw [show -v - -a.size = -(v - a.size) by ring, abs_neg]; exact e1

/-! ## Plain text -/

theorem plain_append {a b : List UInt8} : PlainText (a ++ b) ↔ PlainText a ∧ PlainText b := by
  unfold PlainText
  constructor
  · intro h; exact ⟨fun c hc => h c (by simp [hc]), fun c hc => h c (by simp [hc])⟩
  · rintro ⟨h1, h2⟩ c hc
    rcases List.mem_append.1 hc with hc | hc
    · exact h1 c hc
    · exact h2 c hc

theorem plain_digits (ds : List (Fin 10)) : PlainText (ds.map dig) := by
  intro c hc
  obtain ⟨d, _, rfl⟩ := List.mem_map.1 hc
  exact ⟨dig_lt d, dig_ne_dollar d, dig_ne_star d⟩

theorem plain_frac (f : Option (List (Fin 10))) : PlainText (fracText f) := by
  cases f with
  | none => intro c hc; cases hc
  | some ds =>
    show PlainText ([46] ++ ds.map dig)
    exact plain_append.2 ⟨by unfold PlainText; decide, plain_digits ds⟩

theorem plain_dec2 (n : Nat) : PlainText (dec2 n) := by rw [dec2_eq]; exact plain_digits _
theorem plain_dec3 (n : Nat) : PlainText (dec3 n) := by rw [dec3_eq]; exact plain_digits _

theorem plain_single {c : UInt8} (h1 : c < 128) (h2 : c ≠ 36) (h3 : c ≠ 42) : PlainText [c] := by
  intro x hx; simp at hx; subst hx; exact ⟨h1, h2, h3⟩

theorem plain_comma : PlainText [44] := plain_single (by decide) (by decide) (by decide)

theorem plain_opt (d : Option Dec) : PlainText (optText d) := by
  cases d with
  | none => intro c hc; cases hc
  | some x => exact plain_append.2 ⟨plain_digits _, plain_frac _⟩

theorem plain_utc (t : Utc) : PlainText t.text := by
  unfold Utc.text
  exact plain_append.2 ⟨plain_append.2 ⟨plain_append.2 ⟨plain_dec2 _, plain_dec2 _⟩, plain_dec2 _⟩, plain_frac _⟩

theorem plain_pos (p : Option (Angle × Angle)) : PlainText (posText p) := by
  match p with
  | none => unfold posText PlainText; decide
  | some (lat, lon) =>
    unfold posText Angle.latText Angle.lonText
    simp only [plain_append]
    refine ⟨⟨⟨⟨⟨⟨plain_dec2 _, plain_dec2 _⟩, plain_frac _⟩, plain_comma⟩, ?_⟩, plain_comma⟩,
      ⟨⟨⟨plain_dec3 _, plain_dec2 _⟩, plain_frac _⟩, plain_comma⟩, ?_⟩
    · split <;> (unfold PlainText; decide)
    · split <;> (unfold PlainText; decide)

theorem endOk_of_lineEnd {l : List UInt8} (h : LineEnd l) : EndOk l := by
  intro c hc
  obtain ⟨h1, h2, h3, h4, h5⟩ := h.2 c hc
  refine ⟨?_, h4, h5⟩
  unfold isHexDigit isDigit
  simp only [Bool.or_eq_false_iff, Bool.and_eq_false_iff, decide_eq_false_iff_not]
  tauto

theorem hexByte_ne_dollar (b : UInt8) : 36 ∉ hexByte b := by
  unfold hexByte hexDigit
  have h1 : ∀ n, n < 16 → (if n < 10 then UInt8.ofNat (48 + n) else UInt8.ofNat (55 + n)) ≠ 36 := by decide
  have hb := b.toNat_lt
  simp only [List.mem_cons, List.not_mem_nil, or_false, not_or]
  exact ⟨fun h => h1 _ (by omega) h.symm, fun h => h1 _ (by omega) h.symm⟩

/-- A framed plain payload passes the checksum, and contains no `$` but the first byte. -/
theorem frame_ok (P : Platform) (payload ending : List UInt8) (hp : PlainText payload) (he : LineEnd ending) :
    verifyChecksum P (frame payload ending) = .ok true ∧
    frame payload ending = 36 :: (payload ++ ([42] ++ hexByte (xorAll payload) ++ ending)) ∧
    36 ∉ payload ++ ([42] ++ hexByte (xorAll payload) ++ ending) := by
  refine ⟨C14_built_accepted P payload ending (fun h => (hp 42 h).2.2 rfl) (endOk_of_lineEnd he)
    (Or.inr fun x hx => (hp x hx).1), by simp [frame], ?_⟩
  have h1 : 36 ∉ payload := fun h => (hp 36 h).2.1 rfl
  have h2 := hexByte_ne_dollar (xorAll payload)
  have h3 := he.1
  simp [h1, h2, h3]

end Verif.Nmea
