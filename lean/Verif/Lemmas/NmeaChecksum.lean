import Verif.Lemmas.Nmea

/-!
# Lemmas: hexadecimal numbers and the XOR loop of `verifyChecksum`
-/

namespace Verif.Nmea
open Verif Verif.Spec



theorem isHexDigit_hexChar (l : Bool) (d : Fin 16) : isHexDigit (hexChar l d) = true := by
  revert l d; decide
theorem digitVal_hexChar (l : Bool) (d : Fin 16) : digitVal (hexChar l d) = d.val := by
  revert l d; decide

theorem digitsVal_hex (hs : List (Bool × Fin 16)) :
    digitsVal 16 (hs.map fun h => hexChar h.1 h.2) = hexVal (hs.map (·.2)) := by
  induction hs with
  | nil => rfl
  | cons d ds ih =>
    rw [List.map_cons, ← List.singleton_append, digitsVal_append, ih, List.length_map, List.map_cons, hexVal, List.length_map]
    simp [digitsVal, digitVal_hexChar]

theorem takeWhile_hex (hs : List (Bool × Fin 16)) (c : UInt8) (hc : isHexDigit c = false) (r : List UInt8) :
    ((hs.map fun h => hexChar h.1 h.2) ++ c :: r).takeWhile isHexDigit = (hs.map fun h => hexChar h.1 h.2) ∧
    ((hs.map fun h => hexChar h.1 h.2) ++ c :: r).dropWhile isHexDigit = c :: r := by
  induction hs with
  | nil => simp [hc]
  | cons d ds ih => simp [isHexDigit_hexChar, ih.1, ih.2]

theorem hexChar_plain (l : Bool) (d : Fin 16) :
    isSpace (hexChar l d) = false ∧ hexChar l d ≠ 45 ∧ hexChar l d ≠ 43 ∧ hexChar l d ≠ 120 ∧ hexChar l d ≠ 88 := by
  revert l d; decide

theorem strtoInt_hex (hs : List (Bool × Fin 16)) (hne : hs ≠ []) (c : UInt8) (r : List UInt8)
    (hc : isHexDigit c = false ∧ c ≠ 120 ∧ c ≠ 88) :
    strtoInt true ((hs.map fun h => hexChar h.1 h.2) ++ c :: r) = (false, hexVal (hs.map (·.2)), c :: r) := by
  obtain ⟨t1, t2⟩ := takeWhile_hex hs c hc.1 r
  have hv := digitsVal_hex hs
  match hs, hne with
  | h :: hs, _ =>
    obtain ⟨p1, p2, p3, p4, p5⟩ := hexChar_plain h.1 h.2
    have s1 : (((h :: hs).map fun h => hexChar h.1 h.2) ++ c :: r).dropWhile isSpace =
        ((h :: hs).map fun h => hexChar h.1 h.2) ++ c :: r := by
      simp [p1]
    have s2 : takeSign (((h :: hs).map fun h => hexChar h.1 h.2) ++ c :: r) =
        (false, ((h :: hs).map fun h => hexChar h.1 h.2) ++ c :: r) := by
      simp only [List.map_cons, List.cons_append]
      unfold takeSign
      split
      · rename_i e; injection e with e _; exact absurd e p2
      · rename_i e; injection e with e _; exact absurd e p3
      · rfl
    have s3 : skipHexPrefix (((h :: hs).map fun h => hexChar h.1 h.2) ++ c :: r) =
        ((h :: hs).map fun h => hexChar h.1 h.2) ++ c :: r := by
      unfold skipHexPrefix
      split
      · rename_i x d t e
        rw [if_neg]
        intro hx
        simp only [Bool.and_eq_true, Bool.or_eq_true, beq_iff_eq] at hx
        cases hs with
        | nil =>
          simp at e
          rcases hx.1 with h | h
          · exact hc.2.1 (e.2.1.trans h)
          · exact hc.2.2 (e.2.1.trans h)
        | cons h2 hs =>
          simp at e
          obtain ⟨q1, q2, q3, q4, q5⟩ := hexChar_plain h2.1 h2.2
          rcases hx.1 with h | h
          · exact q4 (e.2.1.trans h)
          · exact q5 (e.2.1.trans h)
      · rfl
    unfold strtoInt
    simp only [s1, s2, if_true, s3, t1, t2]
    rw [if_neg (by simp), hv]

theorem strtol_hex (P : Platform) (hs : List (Bool × Fin 16)) (hne : hs ≠ []) (c : UInt8) (r : List UInt8)
    (hc : isHexDigit c = false ∧ c ≠ 120 ∧ c ≠ 88) (hlt : hexVal (hs.map (·.2)) < 2 ^ 31) :
    strtol P true ((hs.map fun h => hexChar h.1 h.2) ++ c :: r) = .ok ((hexVal (hs.map (·.2)) : ℤ), c :: r) := by
  have key := strtoInt_hex hs hne c r hc
  have hnn : ((hs.map fun h => hexChar h.1 h.2) ++ c :: r) ≠ [] := by simp
  unfold strtol
  split
  · rename_i e; exact absurd e hnn
  · rw [key]
    have hb : (2 : ℤ) ^ 31 ≤ 2 ^ (P.word.bits - 1) := by
      cases P.word <;> simp [Word.bits]
    have hlt' : ((hexVal (hs.map (·.2)) : Nat) : ℤ) < 2 ^ 31 := by exact_mod_cast hlt
    simp only [Bool.false_eq_true, if_false]
    rw [if_neg (by omega), if_neg (by omega)]

theorem strtoul_hex (P : Platform) (hs : List (Bool × Fin 16)) (hne : hs ≠ []) (c : UInt8) (r : List UInt8)
    (hc : isHexDigit c = false ∧ c ≠ 120 ∧ c ≠ 88) (hlt : hexVal (hs.map (·.2)) < 2 ^ 32) :
    strtoul P true ((hs.map fun h => hexChar h.1 h.2) ++ c :: r) = .ok (hexVal (hs.map (·.2)), c :: r) := by
  have key := strtoInt_hex hs hne c r hc
  have hnn : ((hs.map fun h => hexChar h.1 h.2) ++ c :: r) ≠ [] := by simp
  unfold strtoul
  split
  · rename_i e; exact absurd e hnn
  · rw [key]
    have hb : 2 ^ 32 ≤ 2 ^ P.word.bits := by
      cases P.word <;> simp [Word.bits]
    simp only [Bool.false_eq_true, if_false]
    rw [if_neg (by omega)]

/-- XOR of the sign- or zero-extended bytes, as the code computes it. -/
theorem charFold_low (P : Platform) (b : List UInt8) (acc : UInt32) (acc8 : UInt8) (h : acc.toUInt8 = acc8) :
    (b.foldl (fun acc b => acc ^^^ charToU32 P b) acc).toUInt8 = b.foldl (· ^^^ ·) acc8 := by
  induction b generalizing acc acc8 with
  | nil => simpa using h
  | cons x t ih =>
    simp only [List.foldl_cons]
    apply ih
    rw [← h]
    unfold charToU32
    split
    · have : ∀ (a : UInt32) (x : UInt8), (a ^^^ (x.toUInt32 + 0xFFFFFF00)).toUInt8 = a.toUInt8 ^^^ x := by
        intro a x
        rw [UInt32.toUInt8_xor, UInt32.toUInt8_add]
        simp
      exact this acc x
    · simp

theorem charFold_ascii (P : Platform) (b : List UInt8) (h : P.charSigned = false ∨ ∀ x ∈ b, x < 128) (acc8 : UInt8) :
    b.foldl (fun acc b => acc ^^^ charToU32 P b) acc8.toUInt32 = (b.foldl (· ^^^ ·) acc8).toUInt32 := by
  induction b generalizing acc8 with
  | nil => rfl
  | cons x t ih =>
    simp only [List.foldl_cons]
    have hx : charToU32 P x = x.toUInt32 := by
      unfold charToU32
      rw [if_neg]
      intro hh
      simp at hh
      rcases h with h | h
      · rw [h] at hh; simp at hh
      · have := h x (by simp)
        have h2 := hh.2
        exact absurd this (UInt8.not_lt.2 h2)
    rw [hx, ← UInt8.toUInt32_xor]
    exact ih (h.imp id fun h y hy => h y (by simp [hy])) _

/-- Exhaustive proof over all 256 bytes. -/
theorem u8_forall {p : UInt8 → Prop} (h : ∀ n : Fin 256, p (UInt8.ofNat n.val)) (x : UInt8) : p x := by
  have := h ⟨x.toNat, x.toNat_lt⟩
  simpa using this

/-- High half of the XOR with signed `char`: non-zero after an odd number of bytes above 127. -/
theorem charFold_high (P : Platform) (hs : P.charSigned = true) (b : List UInt8) (acc : UInt32) :
    (b.foldl (fun acc b => acc ^^^ charToU32 P b) acc) >>> 8 =
      (acc >>> 8) ^^^ (if (b.countP (fun x => 128 ≤ x)) % 2 = 1 then 0xFFFFFF else 0) := by
  induction b generalizing acc with
  | nil => simp
  | cons x t ih =>
    simp only [List.foldl_cons]
    rw [ih, List.countP_cons]
    unfold charToU32
    by_cases hx : (128 : UInt8) ≤ x
    · simp only [hs, hx, decide_true, Bool.and_true, if_true]
      have e1 : (acc ^^^ (x.toUInt32 + 0xFFFFFF00)) >>> 8 = (acc >>> 8) ^^^ 0xFFFFFF := by
        have : (x.toUInt32 + 0xFFFFFF00) >>> 8 = 0xFFFFFF := by
          exact u8_forall (p := fun x => 128 ≤ x → (x.toUInt32 + 0xFFFFFF00) >>> 8 = 0xFFFFFF) (by decide +kernel) x hx
        rw [← this, UInt32.shiftRight_xor]
      rw [e1]
      by_cases hm : t.countP (fun x => decide (128 ≤ x)) % 2 = 1
      · rw [if_pos hm, if_neg (by omega), UInt32.xor_assoc]; simp
      · rw [if_neg hm, if_pos (by omega)]; simp
    · simp only [hx, decide_false, Bool.and_false, Bool.false_eq_true, if_false, Nat.add_zero]
      have e1 : (acc ^^^ x.toUInt32) >>> 8 = acc >>> 8 := by
        have : x.toUInt32 >>> 8 = 0 := u8_forall (p := fun x => x.toUInt32 >>> 8 = 0) (by decide +kernel) x
        rw [UInt32.shiftRight_xor, this]; simp
      rw [e1]

end Verif.Nmea
