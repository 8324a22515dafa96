import Verif.Model.Python
import Verif.Spec.Python
import Verif.Lemmas.Node

/-!
# C62: what the Python server makes of a message
-/

namespace Verif.Python
open Verif Verif.Spec Verif.Spec.Python

theorem isSpace_iff (b : UInt8) : isSpace b = true ↔ White b := by
  have h : ∀ n < 256, isSpace (UInt8.ofNat n) = true ↔ White (UInt8.ofNat n) := by
    unfold White; decide +kernel
  have := h b.toNat b.toNat_lt
  rwa [UInt8.ofNat_toNat] at this

theorem unsigned_eq (bs : List UInt8) : unsignedLE bs = (leVal bs : ℤ) := by
  induction bs with
  | nil => rfl
  | cons b bs ih =>
    unfold unsignedLE at ih ⊢
    rw [List.foldr_cons, ih, leVal]; push_cast; ring

theorem signed_eq (bs : List UInt8) : signedLE bs = signed bs.length (leVal bs) := by
  have h : bs.foldr (fun b acc => (b.toNat : ℤ) + 256 * acc) 0 = (leVal bs : ℤ) := unsigned_eq bs
  unfold signedLE signed
  rw [h]
  simp only
  have hc : ((leVal bs : ℤ) < 256 ^ bs.length / 2) ↔ leVal bs < 256 ^ bs.length / 2 := by
    constructor
    · intro h; exact_mod_cast h
    · intro h; exact_mod_cast h
  by_cases hh : leVal bs < 256 ^ bs.length / 2
  · rw [if_pos (hc.2 hh), if_pos hh]
  · rw [if_neg (fun x => hh (hc.1 x)), if_neg hh]

theorem strip_id {d : List UInt8} (h0 : ∀ b, d.head? = some b → ¬ White b) (h1 : ∀ b, d.getLast? = some b → ¬ White b) :
    strip d = d := by
  unfold strip
  have e : ∀ l : List UInt8, (∀ b, l.head? = some b → ¬ White b) → l.dropWhile isSpace = l := by
    intro l h
    cases l with
    | nil => rfl
    | cons a l =>
      have : isSpace a = false := by
        rw [← Bool.not_eq_true, isSpace_iff]; exact h a rfl
      rw [List.dropWhile_cons, this]; rfl
  rw [e d h0, e d.reverse ?_, List.reverse_reverse]
  intro b hb
  rw [List.head?_reverse] at hb
  exact h1 b hb

theorem strip_lt {d : List UInt8} {b : UInt8} (h : d.head? = some b ∨ d.getLast? = some b) (hb : White b) :
    (strip d).length < d.length := by
  have hs : isSpace b = true := (isSpace_iff b).2 hb
  have le1 : ∀ l : List UInt8, (l.dropWhile isSpace).length ≤ l.length := fun l => (List.dropWhile_sublist _).length_le
  have lt1 : ∀ l : List UInt8, l.head? = some b → (l.dropWhile isSpace).length < l.length := by
    intro l hl
    cases l with
    | nil => simp at hl
    | cons a l =>
      simp only [List.head?_cons, Option.some.injEq] at hl
      rw [List.dropWhile_cons, hl, hs]
      have := le1 l
      simp only [if_true, List.length_cons]; omega
  unfold strip
  rw [List.length_reverse]
  have a1 := le1 d
  have a2 := le1 (d.dropWhile isSpace).reverse
  rw [List.length_reverse] at a2
  rcases h with h | h
  · have := lt1 d h; omega
  · by_cases he : d.dropWhile isSpace = []
    · rw [he]
      cases d with
      | nil => simp at h
      | cons a l => simp
    · have hl : (d.dropWhile isSpace).reverse.head? = some b := by
        rw [List.head?_reverse]
        obtain ⟨p, hp⟩ : ∃ p, p ++ d.dropWhile isSpace = d := List.dropWhile_suffix _
        rw [← hp, List.getLast?_append_of_ne_nil _ he] at h
        exact h
      have := lt1 _ hl
      rw [List.length_reverse] at this
      omega

/-- **C62** (decoding). A message of 20 bytes that neither begins nor ends with a white space byte is decoded: the right
ascension exactly in hours, the declination with an error below `2^-45` degrees and its sign. -/
theorem C62_python_decodes (timeOk : ℤ → Bool) (d : List UInt8) (hl : d.length = 20) (h0 : ∀ b, d.head? = some b → ¬ White b)
    (h1 : ∀ b, d.getLast? = some b → ¬ White b) (ht : timeOk (signed 8 (leVal (slice d 4 8))) = true) :
    ∃ m, handle timeOk d = .decoded m ∧
      m.length_bytes = signed 2 (leVal (slice d 0 2)) ∧ m.type = signed 2 (leVal (slice d 2 2)) ∧
      m.time = signed 8 (leVal (slice d 4 8)) ∧
      m.ra_h = (leVal (slice d 12 4) : ℚ) * 24 / 2 ^ 32 ∧
      |m.dec_deg - (Node.signed32 (leVal (slice d 16 4)) : ℚ) * 360 / 2 ^ 32| ≤ 1 / 2 ^ 45 := by
  have hs : ∀ i k, i + k ≤ 20 → (slice d i k).length = k := by
    intro i k h; simp [slice]; omega
  have hlv : ∀ i, i + 4 ≤ 20 → leVal (slice d i 4) < 2 ^ 32 := by
    intro i hi
    have h := Codec.leVal_lt (slice d i 4)
    rw [hs i 4 hi] at h
    exact h
  have hN : leVal (slice d 12 4) < 2 ^ 32 := hlv 12 (by norm_num)
  have hM : leVal (slice d 16 4) < 2 ^ 32 := hlv 16 (by norm_num)
  obtain ⟨N, hNe⟩ : ∃ N, N = leVal (slice d 12 4) := ⟨_, rfl⟩
  obtain ⟨M, hMe⟩ : ∃ M, M = leVal (slice d 16 4) := ⟨_, rfl⟩
  have h8 : signedLE ((d.drop 4).take 8) = signed 8 (leVal (slice d 4 8)) := by
    rw [signed_eq]; congr 1; exact hs 4 8 (by norm_num)
  have h2 : signedLE (d.take 2) = signed 2 (leVal (slice d 0 2)) := by
    rw [signed_eq]; congr 1; simp [hl]
  have h22 : signedLE ((d.drop 2).take 2) = signed 2 (leVal (slice d 2 2)) := by
    rw [signed_eq]; congr 1; exact hs 2 2 (by norm_num)
  have hra : unsignedLE ((d.drop 12).take 4) = (N : ℤ) := by rw [unsigned_eq, hNe]; rfl
  have hdec : signedLE ((d.drop 16).take 4) = Node.signed32 M := by
    rw [signed_eq]
    have : ((d.drop 16).take 4).length = 4 := hs 16 4 (by norm_num)
    rw [this, hMe]
    unfold signed Node.signed32
    norm_num
    rfl
  have hstrip : strip (d.take 1024) = d := by
    rw [List.take_of_length_le (by omega)]; exact strip_id h0 h1
  refine ⟨_, by
    unfold handle
    simp only [hstrip, hl, h8, ht, ge_iff_le, le_refl, if_true]
    rfl, h2, h22, rfl, ?_, ?_⟩
  · show rnd b64 _ = _
    rw [hra, ← hNe]
    have := Verif.Node.decode_ra (n := (N : ℤ)) (by omega) (by rw [hNe]; exact_mod_cast hN)
    unfold Verif.Node.num Verif.Node.raScale Verif.Node.num at this
    rw [this]; push_cast; ring
  · show |rnd b64 _ - _| ≤ _
    rw [hdec, ← hMe]
    have hsc := Verif.Node.decScale_eq
    unfold Verif.Node.decScale Verif.Node.num at hsc
    rw [hsc]
    have hr : -2 ^ 31 ≤ Node.signed32 M ∧ Node.signed32 M < 2 ^ 31 := by
      unfold Node.signed32; rw [hMe]; split <;> omega
    generalize Node.signed32 M = z at hr
    have hz0 : (-2147483648 : ℚ) ≤ z := by exact_mod_cast hr.1
    have hz1 : (z : ℚ) ≤ 2147483648 := by exact_mod_cast hr.2.le
    have e := Verif.Node.num_error (q := (z : ℚ) / (6405119470038039 / 536870912)) (k := 8)
      (by rw [abs_lt]; constructor <;> (norm_num; linarith)) (by norm_num)
    unfold Verif.Node.num at e
    have e2 : |(z : ℚ) / (6405119470038039 / 536870912) - z * 360 / 2 ^ 32| ≤ 1 / 2 ^ 46 := by
      rw [abs_le]; constructor <;> (norm_num; linarith)
    have := abs_sub_le (rnd b64 ((z : ℚ) / (6405119470038039 / 536870912))) ((z : ℚ) / (6405119470038039 / 536870912)) (z * 360 / 2 ^ 32)
    norm_num at e e2 this ⊢
    linarith

/-- **C62** (loss). A message of 20 bytes that begins or ends with a white space byte is reported as too short. -/
theorem C62_python_loses (timeOk : ℤ → Bool) (d : List UInt8) (hl : d.length = 20) (b : UInt8) (hb : White b)
    (h : d.head? = some b ∨ d.getLast? = some b) : handle timeOk d = .tooShort := by
  have := strip_lt h hb
  unfold handle
  simp only
  rw [List.take_of_length_le (by omega), if_neg (by omega)]

/-- **C62** (for the telescope control program). Of all goto messages exactly those are not decoded whose declination lies in
`[12.65625°, 19.6875°)` or `[45°, 46.40625°)`. -/
theorem C62_python_goto (timeOk : ℤ → Bool) (ht : ∀ t, timeOk t = true) (t ra dec : Nat) (hd : dec < 2 ^ 32) :
    (∃ m, handle timeOk (gotoMessage t ra dec) = .decoded m) ↔
      ¬ ((405 / 32 : ℚ) ≤ (Node.signed32 dec : ℚ) * 360 / 2 ^ 32 ∧ (Node.signed32 dec : ℚ) * 360 / 2 ^ 32 < 315 / 16 ∨
         (45 : ℚ) ≤ (Node.signed32 dec : ℚ) * 360 / 2 ^ 32 ∧ (Node.signed32 dec : ℚ) * 360 / 2 ^ 32 < 1485 / 32) := by
  have hl : (gotoMessage t ra dec).length = 20 := by simp [gotoMessage, Codec.le_length]
  have hh : (gotoMessage t ra dec).head? = some 20 := rfl
  have hlast : (gotoMessage t ra dec).getLast? = some (UInt8.ofNat (dec / 2 ^ 24 % 256)) := by
    have : gotoMessage t ra dec = (le 2 20 ++ le 2 0 ++ le 8 t ++ le 4 ra ++ le 3 dec) ++ [UInt8.ofNat (dec / 2 ^ 24 % 256)] := by
      unfold gotoMessage
      have h4 : le 4 dec = le 3 dec ++ [UInt8.ofNat (dec / 2 ^ 24 % 256)] := by
        simp only [le, Nat.div_div_eq_div_mul]; norm_num
      rw [h4]; simp only [List.append_assoc]
    rw [this, List.getLast?_concat]
  have hq : dec / 2 ^ 24 % 256 = dec / 2 ^ 24 := Nat.mod_eq_of_lt (by omega)
  have hw : White (UInt8.ofNat (dec / 2 ^ 24 % 256)) ↔
      (9 * 2 ^ 24 ≤ dec ∧ dec < 14 * 2 ^ 24) ∨ (32 * 2 ^ 24 ≤ dec ∧ dec < 33 * 2 ^ 24) := by
    rw [hq]
    have hk : dec / 2 ^ 24 < 256 := by omega
    have e1 : ∀ k < 256, White (UInt8.ofNat k) ↔ (9 ≤ k ∧ k < 14) ∨ k = 32 := by
      unfold White; decide +kernel
    rw [e1 _ hk]
    omega
  have hiff : ((9 * 2 ^ 24 ≤ dec ∧ dec < 14 * 2 ^ 24) ∨ (32 * 2 ^ 24 ≤ dec ∧ dec < 33 * 2 ^ 24)) ↔
      ((405 / 32 : ℚ) ≤ (Node.signed32 dec : ℚ) * 360 / 2 ^ 32 ∧ (Node.signed32 dec : ℚ) * 360 / 2 ^ 32 < 315 / 16 ∨
         (45 : ℚ) ≤ (Node.signed32 dec : ℚ) * 360 / 2 ^ 32 ∧ (Node.signed32 dec : ℚ) * 360 / 2 ^ 32 < 1485 / 32) := by
    have b1 : (405 / 32 : ℚ) ≤ (Node.signed32 dec : ℚ) * 360 / 2 ^ 32 ↔ 9 * 2 ^ 24 ≤ Node.signed32 dec := by
      rw [le_div_iff₀ (by norm_num)]
      constructor
      · intro h; have : (9 * 2 ^ 24 : ℚ) ≤ Node.signed32 dec := by norm_num at h ⊢; linarith
        exact_mod_cast this
      · intro h; have : (9 * 2 ^ 24 : ℚ) ≤ Node.signed32 dec := by exact_mod_cast h
        norm_num at this ⊢; linarith
    have b2 : (Node.signed32 dec : ℚ) * 360 / 2 ^ 32 < 315 / 16 ↔ Node.signed32 dec < 14 * 2 ^ 24 := by
      rw [div_lt_iff₀ (by norm_num)]
      constructor
      · intro h; have : (Node.signed32 dec : ℚ) < 14 * 2 ^ 24 := by norm_num at h ⊢; linarith
        exact_mod_cast this
      · intro h; have : (Node.signed32 dec : ℚ) < 14 * 2 ^ 24 := by exact_mod_cast h
        norm_num at this ⊢; linarith
    have b3 : (45 : ℚ) ≤ (Node.signed32 dec : ℚ) * 360 / 2 ^ 32 ↔ 32 * 2 ^ 24 ≤ Node.signed32 dec := by
      rw [le_div_iff₀ (by norm_num)]
      constructor
      · intro h; have : (32 * 2 ^ 24 : ℚ) ≤ Node.signed32 dec := by norm_num at h ⊢; linarith
        exact_mod_cast this
      · intro h; have : (32 * 2 ^ 24 : ℚ) ≤ Node.signed32 dec := by exact_mod_cast h
        norm_num at this ⊢; linarith
    have b4 : (Node.signed32 dec : ℚ) * 360 / 2 ^ 32 < 1485 / 32 ↔ Node.signed32 dec < 33 * 2 ^ 24 := by
      rw [div_lt_iff₀ (by norm_num)]
      constructor
      · intro h; have : (Node.signed32 dec : ℚ) < 33 * 2 ^ 24 := by norm_num at h ⊢; linarith
        exact_mod_cast this
      · intro h; have : (Node.signed32 dec : ℚ) < 33 * 2 ^ 24 := by exact_mod_cast h
        norm_num at this ⊢; linarith
    rw [b1, b2, b3, b4]
    unfold Node.signed32
    split <;> omega
  rw [← hiff, ← hw]
  constructor
  · rintro ⟨m, hm⟩ hwhite
    rw [C62_python_loses timeOk _ hl _ hwhite (Or.inr hlast)] at hm
    cases hm
  · intro hwhite
    obtain ⟨m, hm, _⟩ := C62_python_decodes timeOk (gotoMessage t ra dec) hl
      (fun b hb => by rw [hh] at hb; cases hb; unfold White; decide)
      (fun b hb => by rw [hlast] at hb; cases hb; exact hwhite) (ht _)
    exact ⟨m, hm⟩

/-- **C62** (framing). Two goto messages received together are not decoded. -/
theorem C62_python_glued (timeOk : ℤ → Bool) (t ra dec t' ra' dec' : Nat) :
    ∀ m, handle timeOk (gotoMessage t ra dec ++ gotoMessage t' ra' dec') ≠ .decoded m := by
  intro m hm
  have hlen : ∀ t ra dec, (gotoMessage t ra dec).length = 20 := by intro t ra dec; simp [gotoMessage, Codec.le_length]
  unfold handle at hm
  simp only at hm
  rw [List.take_of_length_le (by simp [hlen])] at hm
  -- the first message begins with 20, the second too: at least 21 bytes remain
  have hge : 21 ≤ (strip (gotoMessage t ra dec ++ gotoMessage t' ra' dec')).length := by
    unfold strip
    have e1 : (gotoMessage t ra dec ++ gotoMessage t' ra' dec').dropWhile isSpace = gotoMessage t ra dec ++ gotoMessage t' ra' dec' := rfl
    rw [e1, List.reverse_append]
    have e2 : ∃ r, (gotoMessage t' ra' dec').reverse = r ++ [20] := by
      refine ⟨((gotoMessage t' ra' dec').tail).reverse, ?_⟩
      conv_lhs => rw [show gotoMessage t' ra' dec' = 20 :: (gotoMessage t' ra' dec').tail from rfl]
      rw [List.reverse_cons]
    obtain ⟨r, hr⟩ := e2
    rw [hr, List.length_reverse]
    have e3 : ∀ (r s : List UInt8), s.length + 1 ≤ ((r ++ [20] ++ s).dropWhile isSpace).length := by
      intro r s
      induction r with
      | nil =>
        simp only [List.nil_append, List.singleton_append]
        rw [List.dropWhile_cons, show isSpace 20 = false by decide]
        simp
      | cons a r ih =>
        rw [List.cons_append, List.cons_append, List.dropWhile_cons]
        split
        · exact ih
        · simp only [List.length_cons, List.length_append, List.length_nil]; omega
    have := e3 r (gotoMessage t ra dec).reverse
    rw [List.length_reverse, hlen] at this
    exact this
  rw [if_pos (by omega), if_neg (by omega)] at hm
  cases hm

/-- A concrete goto that meets the hypotheses of `C62_python_decodes`, and one at declination 18° that is lost. -/
example : handle (fun _ => true) (gotoMessage 1642086796 687367419 14257744) =
    .decoded ⟨20, 0, 1642086796, 687367419 * 24 / 2 ^ 32, rnd b64 (14257744 / rnd b64 (1073741824 / 90))⟩ ∧
    handle (fun _ => true) (gotoMessage 1642086796 687367419 214748365) = .tooShort := by decide +kernel

end Verif.Python
