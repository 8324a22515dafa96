import Verif.Model.NexStar
import Verif.Spec.NexStar
import Verif.Lemmas.Codec
import Verif.Lemmas.NmeaChecksum

/-!
# Lemmas about the NexStar request dispatcher
-/

set_option linter.unusedSectionVars false

namespace Verif.NexStar
open Verif Verif.Nmea Verif.Spec Verif.Spec.NexStar

/-- Branch and command correspondence. -/
def cmdBranch : Command → Branch
  | .echo _ => .echo
  | .version => .version
  | .deviceVersion => .deviceVersion
  | .model => .model
  | .location => .location
  | .position => .position
  | .time => .time
  | .gotoInProgress => .goto
  | .aligned => .aligned
  | .trackingMode => .tracking
  | .sync _ _ => .sync

theorem cAnd_ok_true (b : C Bool) : cAnd (.ok true) b = b := rfl
theorem cAnd_ok_false (b : C Bool) : cAnd (.ok false) b = .ok false := rfl
theorem cOr_ok_true (b : C Bool) : cOr (.ok true) b = .ok true := rfl
theorem cOr_ok_false (b : C Bool) : cOr (.ok false) b = b := rfl
theorem cAnd_ok (a b : Bool) : cAnd (.ok a) (.ok b) = .ok (a && b) := by cases a <;> rfl
theorem cOr_ok (a b : Bool) : cOr (.ok a) (.ok b) = .ok (a || b) := by cases a <;> rfl

theorem readByte_take {mem : List UInt8} {i n : Nat} (h : i < n) : readByte (mem.take n) i = readByte mem i := by
  unfold readByte
  rw [List.getElem?_take_of_lt h]

theorem byteIs_take {mem : List UInt8} {i n : Nat} {c : UInt8} (h : i < n) : byteIs (mem.take n) i c = byteIs mem i c := by
  unfold byteIs
  rw [readByte_take h]

theorem cmdIs_take {mem : List UInt8} {n k : Nat} (hk : 1 ≤ k) {c : UInt8} : cmdIs (mem.take n) n k c = cmdIs mem n k c := by
  unfold cmdIs
  by_cases h : k ≤ n
  · rw [byteIs_take (by omega)]
  · simp [h, cAnd_ok_false]

theorem cmdIs_false {mem : List UInt8} {n k : Nat} {c : UInt8} (h : ¬ k ≤ n) : cmdIs mem n k c = .ok false := by
  unfold cmdIs; simp [h, cAnd_ok_false]

theorem isDeviceVersion_take {mem : List UInt8} {n : Nat} : isDeviceVersion (mem.take n) n = isDeviceVersion mem n := by
  unfold isDeviceVersion
  rw [cmdIs_take (by omega)]
  by_cases h : 8 ≤ n
  · rw [byteIs_take (by omega), byteIs_take (by omega), byteIs_take (by omega), byteIs_take (by omega), byteIs_take (by omega),
      byteIs_take (by omega), byteIs_take (by omega), byteIs_take (by omega), byteIs_take (by omega), byteIs_take (by omega)]
  · rw [cmdIs_false h]; simp [cAnd_ok_false]

theorem branch_take {mem : List UInt8} {n : Nat} : branch (mem.take n) n = branch mem n := by
  unfold branch
  rw [isDeviceVersion_take]
  simp only [cmdIs_take (le_refl 1), cmdIs_take (show 1 ≤ 2 by omega), cmdIs_take (show 1 ≤ 18 by omega)]

/-- On a completely available request, as a pure decision list on bytes. -/
theorem byteIs_cons (b c : UInt8) (t : List UInt8) : byteIs (b :: t) 0 c = .ok (b == c) := rfl

theorem byteIs_succ (b c : UInt8) (t : List UInt8) (i : Nat) : byteIs (b :: t) (i + 1) c = byteIs t i c := by
  unfold byteIs readByte; simp

theorem firstBranch_cons_false (b : Branch) (l) : firstBranch ((.ok false, b) :: l) = firstBranch l := rfl
theorem firstBranch_cons_true (b : Branch) (l) : firstBranch ((.ok true, b) :: l) = .ok b := rfl

theorem cmdIs_cons (b c : UInt8) (t : List UInt8) (n k : Nat) :
    cmdIs (b :: t) n k c = .ok (decide (k ≤ n) && b == c) := by
  unfold cmdIs; rw [byteIs_cons, cAnd_ok]

/-- A parsed request selects its branch. -/
theorem branch_of_parses {req : List UInt8} {c : Command} (h : Parses req c) : branch req req.length = .ok (cmdBranch c) := by
  cases h with
  | deviceVersion d hd rest =>
    have : isDeviceVersion (80 :: 1 :: d :: 254 :: 0 :: 0 :: 0 :: 2 :: rest)
        (80 :: 1 :: d :: 254 :: 0 :: 0 :: 0 :: 2 :: rest).length = .ok true := by
      unfold isDeviceVersion
      simp only [cmdIs_cons, byteIs_succ, byteIs_cons, cAnd_ok, cOr_ok]
      simp only [List.mem_cons, List.not_mem_nil, or_false] at hd
      rcases hd with rfl | rfl | rfl | rfl <;> simp
    unfold branch
    rw [this]
    simp only [cmdIs_cons]
    simp [firstBranch_cons_false, firstBranch_cons_true, cmdBranch]
  | sync ra dec h1 h2 sep rest =>
    have hl : (18 : Nat) ≤ (115 :: (ra ++ sep :: (dec ++ rest))).length := by simp; omega
    generalize (115 :: (ra ++ sep :: (dec ++ rest))).length = L at hl
    unfold branch isDeviceVersion
    simp only [cmdIs_cons, decide_eq_true hl]
    simp [firstBranch_cons_false, firstBranch_cons_true, cAnd_ok_false, cmdBranch]
  | _ =>
    unfold branch isDeviceVersion
    simp only [cmdIs_cons]
    simp [firstBranch_cons_false, firstBranch_cons_true, cAnd_ok_false, cmdBranch]

theorem byteIs_ok {mem : List UInt8} {i : Nat} (h : i < mem.length) (c : UInt8) : byteIs mem i c = .ok (mem[i] == c) := by
  unfold byteIs readByte
  rw [List.getElem?_eq_getElem h]; rfl

theorem exists_eight {l : List UInt8} (h : 8 ≤ l.length) :
    ∃ a b c d e f g i r, l = a :: b :: c :: d :: e :: f :: g :: i :: r := by
  match l, h with
  | a :: b :: c :: d :: e :: f :: g :: i :: r, _ => exact ⟨_, _, _, _, _, _, _, _, _, rfl⟩

theorem exists_cons {l : List UInt8} (h : 1 ≤ l.length) : ∃ a r, l = a :: r := by
  match l, h with
  | a :: r, _ => exact ⟨_, _, rfl⟩

/-- The branch of a request that is no command. -/
theorem branch_of_not_parses {req : List UInt8} (h : ∀ c, ¬ Parses req c) : branch req req.length = .ok .unknown := by
  cases req with
  | nil =>
    have : isDeviceVersion [] 0 = .ok false := by unfold isDeviceVersion; rw [cmdIs_false (by omega)]; rfl
    unfold branch
    show firstBranch [_, _, (isDeviceVersion [] 0, _), _, _, _, _, _, _, _, _] = _
    rw [this]
    simp [cmdIs_false]
    rfl
  | cons b t =>
    have hne : ∀ c, b ≠ c ∨ b = c := fun c => (em (b = c)).symm
    have hV : (b == 86) = false := by simp; rintro rfl; exact h _ (.version t)
    have hm : (b == 109) = false := by simp; rintro rfl; exact h _ (.model t)
    have hw : (b == 119) = false := by simp; rintro rfl; exact h _ (.location t)
    have he : (b == 101) = false := by simp; rintro rfl; exact h _ (.position t)
    have hh : (b == 104) = false := by simp; rintro rfl; exact h _ (.time t)
    have hL : (b == 76) = false := by simp; rintro rfl; exact h _ (.gotoInProgress t)
    have hJ : (b == 74) = false := by simp; rintro rfl; exact h _ (.aligned t)
    have ht : (b == 116) = false := by simp; rintro rfl; exact h _ (.trackingMode t)
    have hK : (decide (2 ≤ (b :: t).length) && b == 75) = false := by
      by_contra hc
      simp only [Bool.not_eq_false, Bool.and_eq_true, decide_eq_true_eq, beq_iff_eq] at hc
      obtain ⟨h1, rfl⟩ := hc
      obtain ⟨x, r, rfl⟩ := exists_cons (l := t) (by simpa using h1)
      exact h _ (.echo x r)
    have hs : (decide (18 ≤ (b :: t).length) && b == 115) = false := by
      by_contra hc
      simp only [Bool.not_eq_false, Bool.and_eq_true, decide_eq_true_eq, beq_iff_eq] at hc
      obtain ⟨h1, rfl⟩ := hc
      simp only [List.length_cons] at h1
      have e : t = t.take 8 ++ (t.drop 8).head (by intro hc; have := congrArg List.length hc; simp at this; omega) ::
          ((t.drop 9).take 8 ++ t.drop 17) := by
        conv_lhs => rw [← List.take_append_drop 8 t]
        congr 1
        conv_lhs => rw [← List.cons_head_tail (l := t.drop 8) (by intro hc; have := congrArg List.length hc; simp at this; omega)]
        congr 1
        rw [List.tail_drop]
        conv_lhs => rw [← List.take_append_drop 8 (t.drop 9)]
        rw [List.drop_drop]
      rw [e] at h
      exact h _ (.sync _ _ (by simp; omega) (by simp; omega) _ _)
    have hP : isDeviceVersion (b :: t) (b :: t).length = .ok false := by
      unfold isDeviceVersion
      by_cases h8 : 8 ≤ (b :: t).length
      · obtain ⟨a0, a1, a2, a3, a4, a5, a6, a7, r, e⟩ := exists_eight h8
        rw [e] at h ⊢
        simp only [cmdIs_cons, byteIs_succ, byteIs_cons, cAnd_ok, cOr_ok]
        by_contra hc
        have hc' : ∀ x : Bool, ¬ (Except.ok x : C Bool) = .ok false → x = true := by
          intro x hx; cases x <;> simp_all
        have := hc' _ hc
        simp only [Bool.and_eq_true, Bool.or_eq_true, beq_iff_eq, decide_eq_true_eq] at this
        obtain ⟨⟨_, rfl⟩, rfl, h2, rfl, rfl, rfl, rfl, rfl⟩ := this
        exact h _ (.deviceVersion a2 (by simpa using h2) r)
      · rw [cmdIs_false h8]; rfl
    unfold branch
    rw [hP]
    simp only [cmdIs_cons, hV, hm, hw, he, hh, hL, hJ, ht, hK, hs, Bool.and_false]
    rfl

end Verif.NexStar
