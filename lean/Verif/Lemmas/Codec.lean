import Verif.Model.Codec
import Verif.Spec.Codec
import Mathlib.Tactic.Ring
import Mathlib.Tactic.Linarith
import Mathlib.Tactic.Positivity
import Mathlib.Tactic.NormNum

/-!
# Lemmas about the codec model (helpers, not claims)
-/

namespace Verif.Codec
open Verif Verif.Spec

theorem and255 (n : Nat) : n &&& 255 = n % 256 := Nat.and_two_pow_sub_one_eq_mod n 8

theorem u8ext {a b : UInt8} (h : a.toNat = b.toNat) : a = b := UInt8.toNat_inj.mp h

theorem bytes16_le (v : UInt16) : bytes16 v = le 2 v.toNat := by
  simp only [bytes16, le, List.cons.injEq, and_true]
  refine ⟨u8ext ?_, u8ext ?_⟩
  all_goals simp [Nat.shiftRight_eq_div_pow, and255]

theorem bytes32_le (v : UInt32) : bytes32 v = le 4 v.toNat := by
  simp only [bytes32, le, List.cons.injEq, and_true]
  refine ⟨u8ext ?_, u8ext ?_, u8ext ?_, u8ext ?_⟩
  all_goals simp [Nat.shiftRight_eq_div_pow, and255]
  all_goals omega

theorem bytes64_le (v : UInt64) : bytes64 v = le 8 v.toNat := by
  simp only [bytes64, le, List.cons.injEq, and_true]
  refine ⟨u8ext ?_, u8ext ?_, u8ext ?_, u8ext ?_, u8ext ?_, u8ext ?_, u8ext ?_, u8ext ?_⟩
  all_goals simp [Nat.shiftRight_eq_div_pow, and255]
  all_goals omega

theorem le_length (k n : Nat) : (le k n).length = k := by
  induction k generalizing n with
  | zero => rfl
  | succ k ih => simp [le, ih]

theorem leVal_le (k n : Nat) : leVal (le k n) = n % 256 ^ k := by
  induction k generalizing n with
  | zero => simp [le, leVal, Nat.mod_one]
  | succ k ih =>
    simp only [le, leVal, ih, pow_succ]
    have h1 : (UInt8.ofNat (n % 256)).toNat = n % 256 := by simp
    rw [h1, mul_comm (256 ^ k) 256, Nat.mod_mul]

theorem leVal_lt (bs : List UInt8) : leVal bs < 256 ^ bs.length := by
  induction bs with
  | nil => simp [leVal]
  | cons b bs ih =>
    simp only [leVal, List.length_cons, pow_succ]
    have := b.toNat_lt
    omega

theorem le_leVal : ∀ (bs : List UInt8) {k : Nat}, bs.length = k → le k (leVal bs) = bs := by
  intro bs
  induction bs with
  | nil => intro k h; subst h; rfl
  | cons b bs ih =>
    intro k h
    subst h
    simp only [List.length_cons, leVal, le]
    have hb := b.toNat_lt
    have e1 : (b.toNat + 256 * leVal bs) % 256 = b.toNat := by omega
    have e2 : (b.toNat + 256 * leVal bs) / 256 = leVal bs := by omega
    rw [e1, e2, ih rfl]
    simp

theorem assemble32_toNat (a b c d : UInt8) : (assemble32 a b c d).toNat = leVal [a, b, c, d] := by
  have ha := a.toNat_lt; have hb := b.toNat_lt; have hc := c.toNat_lt; have hd := d.toNat_lt
  simp [assemble32, leVal, Nat.shiftLeft_eq]
  omega

theorem assemble64_toNat (a b c d e f g h : UInt8) :
    (assemble64 a b c d e f g h).toNat = leVal [a, b, c, d, e, f, g, h] := by
  have ha := a.toNat_lt; have hb := b.toNat_lt; have hc := c.toNat_lt; have hd := d.toNat_lt
  have he := e.toNat_lt; have hf := f.toNat_lt; have hg := g.toNat_lt; have hh := h.toNat_lt
  simp [assemble64, leVal, Nat.shiftLeft_eq]
  omega

theorem header_toNat (a b : UInt8) : (a.toUInt32 + (b.toUInt32 <<< 8)).toNat = leVal [a, b] := by
  have ha := a.toNat_lt; have hb := b.toNat_lt
  simp [leVal, Nat.shiftLeft_eq]
  omega

theorem storeByte_ok {mem : List UInt8} {i : Nat} (b : UInt8) (h : i < mem.length) :
    storeByte mem i b = .ok (mem.set i b) := by simp [storeByte, h]

/-- Sequential stores inside the object replace exactly that slice. -/
theorem storeSeq_ok (bs : List UInt8) : ∀ (mem : List UInt8) (i : Nat), i + bs.length ≤ mem.length →
    storeSeq mem i bs = .ok (mem.take i ++ bs ++ mem.drop (i + bs.length)) := by
  induction bs with
  | nil => intro mem i h; simp [storeSeq]
  | cons b bs ih =>
    intro mem i h
    simp only [List.length_cons] at h
    have hi : i < mem.length := by omega
    simp only [storeSeq, storeByte_ok b hi]
    show storeSeq (mem.set i b) (i + 1) bs = _
    rw [ih _ _ (by simp; omega)]
    congr 1
    rw [List.set_eq_take_append_cons_drop, if_pos hi]
    have hl : (mem.take i).length = i := by simp; omega
    rw [List.take_append, List.drop_append, hl]
    simp
    have e2 : i + 1 + bs.length - i = bs.length + 1 := by omega
    have e3 : List.drop (i + 1 + bs.length) (List.take i mem) = [] := by
      apply List.drop_eq_nil_of_le; simp; omega
    rw [e2, e3, List.take_of_length_le (by simp)]
    simp
    congr 1; omega

/-- Storing right behind an already written prefix `A`. -/
theorem storeSeq_append {A buffer bs : List UInt8} {i : Nat} (hA : A.length = i)
    (h : i + bs.length ≤ buffer.length) :
    storeSeq (A ++ buffer.drop i) i bs = .ok ((A ++ bs) ++ buffer.drop (i + bs.length)) := by
  rw [storeSeq_ok _ _ _ (by simp; omega)]
  subst hA
  congr 1
  simp [List.drop_append]

theorem readByte_ok {mem : List UInt8} {i : Nat} (h : i < mem.length) : readByte mem i = .ok mem[i] := by
  simp [readByte, h]

theorem slice_cons {mem : List UInt8} {i k : Nat} (h : i < mem.length) :
    slice mem i (k + 1) = mem[i] :: slice mem (i + 1) k := by
  unfold slice; rw [List.drop_eq_getElem_cons h, List.take_succ_cons]

theorem slice_zero (mem : List UInt8) (i : Nat) : slice mem i 0 = [] := by simp [slice]

theorem slice_append_left {a b : List UInt8} {i k : Nat} (h : i + k ≤ a.length) :
    slice (a ++ b) i k = slice a i k := by
  simp only [slice]
  rw [List.drop_append_of_le_length (by omega), List.take_append_of_le_length (by simp; omega)]

section Angle
variable {K : Type} [Field K] [LinearOrder K] [IsStrictOrderedRing K] [FloorRing K]

theorem truncZ_intCast (z : ℤ) : truncZ (K := K) (z : K) = z := by
  unfold truncZ; split <;> simp

theorem encodeAngle_eq (P : Platform) (x : K) :
    encodeAngle P x = (castUnsigned P 32 ⌊(1 / 2 : K) + x * 2147483648 / 180⌋).map UInt32.ofNat := by
  unfold encodeAngle castU32
  rw [truncZ_intCast]
  cases castUnsigned P 32 ⌊(1 / 2 : K) + x * 2147483648 / 180⌋ <;> rfl

theorem isNearest_iff (x : K) (z : ℤ) : IsNearest x z ↔ ⌊(1 / 2 : K) + x⌋ = z := by
  rw [Int.floor_eq_iff]; unfold IsNearest
  constructor
  · rintro ⟨h1, h2⟩; constructor <;> linarith
  · rintro ⟨h1, h2⟩; constructor <;> linarith

end Angle

end Verif.Codec
