import Verif.Model.Gnss
import Verif.Spec.NmeaLines
import Verif.Lemmas.Strto
import Mathlib.Tactic.Linarith
import Mathlib.Tactic.Ring
import Mathlib.Data.List.Infix

/-!
# Lemmas about substring search and the buffer loop
-/

namespace Verif.Nmea
open Verif Verif.Spec

/-! ## Search -/

theorem findSub_eq_some {pat s : List UInt8} {i : Nat} (h : findSub pat s = some i) :
    ∃ a b, s = a ++ pat ++ b ∧ a.length = i := by
  induction s generalizing i with
  | nil =>
    unfold findSub at h
    split at h
    · rename_i hp
      simp at h hp
      exact ⟨[], [], by simp [hp], by simp [h]⟩
    · cases h
  | cons x t ih =>
    unfold findSub at h
    split at h
    · rename_i hp
      obtain ⟨b, hb⟩ := List.isPrefixOf_iff_prefix.1 hp
      cases h
      exact ⟨[], b, by simp [hb], rfl⟩
    · cases hf : findSub pat t with
      | none => rw [hf] at h; cases h
      | some j =>
        rw [hf] at h
        obtain ⟨a, b, e, hl⟩ := ih hf
        simp at h
        exact ⟨x :: a, b, by simp [e], by simp [hl, h]⟩

theorem findSub_single {c : UInt8} {a b : List UInt8} (h : c ∉ a) : findSub [c] (a ++ c :: b) = some a.length := by
  induction a with
  | nil => simp [findSub, List.isPrefixOf]
  | cons x t ih =>
    simp only [List.mem_cons, not_or] at h
    have hb : (c == x) = false := by simpa using h.1
    simp [findSub, List.isPrefixOf, hb, ih h.2]

theorem findSub_single_none {c : UInt8} {s : List UInt8} (h : c ∉ s) : findSub [c] s = none := by
  cases hf : findSub [c] s with
  | none => rfl
  | some i =>
    obtain ⟨a, b, e, _⟩ := findSub_eq_some hf
    rw [e] at h; simp at h

theorem mem_split {c : UInt8} {s : List UInt8} (h : c ∈ s) : ∃ a b, s = a ++ c :: b ∧ c ∉ a := by
  induction s with
  | nil => cases h
  | cons x t ih =>
    by_cases hx : x = c
    · exact ⟨[], t, by simp [hx], by simp⟩
    · rcases List.mem_cons.1 h with h | h
      · exact absurd h.symm hx
      · obtain ⟨a, b, e, hn⟩ := ih h
        exact ⟨x :: a, b, by simp [e], by simp [hn, Ne.symm hx]⟩

/-- Searching a pattern that starts with a byte occurring only at the front. -/
theorem findSub_head {c : UInt8} {pat t : List UInt8} (h : c ∉ t) :
    findSub (c :: pat) (c :: t) = if pat.isPrefixOf t then some 0 else none := by
  have hn : findSub (c :: pat) t = none := by
    cases hf : findSub (c :: pat) t with
    | none => rfl
    | some i =>
      obtain ⟨a, b, e, _⟩ := findSub_eq_some hf
      rw [e] at h; simp at h
  simp [findSub, List.isPrefixOf, hn]

theorem findFrom_single {c : UInt8} {p a b : List UInt8} {n : Nat} (hn : n = p.length) (h : c ∉ a) :
    findFrom [c] (p ++ (a ++ c :: b)) n = some (n + a.length) := by
  unfold findFrom
  rw [if_pos (by simp [hn]), hn, List.drop_left, findSub_single h]
  simp [Nat.add_comm]

theorem findFrom_none {c : UInt8} {s : List UInt8} {n : Nat} (h : c ∉ s.drop n) : findFrom [c] s n = none := by
  unfold findFrom
  split
  · rw [findSub_single_none h]; rfl
  · rfl

theorem findFrom_some {c : UInt8} {s : List UInt8} {n i : Nat} (h : findFrom [c] s n = some i) :
    n ≤ i ∧ i < s.length ∧ s.drop i = c :: s.drop (i + 1) ∧ (s.drop (i + 1)).count c < (s.drop n).count c := by
  unfold findFrom at h
  split at h
  · rename_i hn
    cases hf : findSub [c] (s.drop n) with
    | none => rw [hf] at h; cases h
    | some j =>
      rw [hf] at h
      simp at h
      obtain ⟨a, b, e, hl⟩ := findSub_eq_some hf
      have hi : s.drop i = c :: b := by
        rw [← h, Nat.add_comm, ← List.drop_drop, e, ← hl]; simp
      have hi1 : s.drop (i + 1) = b := by
        rw [← List.drop_drop, hi]; rfl
      refine ⟨by omega, ?_, by rw [hi, hi1], ?_⟩
      · by_contra hc
        rw [List.drop_eq_nil_of_le (by omega)] at hi
        cases hi
      · rw [hi1, e]; simp; omega
  · cases h

end Verif.Nmea
