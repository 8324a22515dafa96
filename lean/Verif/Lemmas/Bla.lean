import Verif.Model.Bla
import Verif.Lemmas.Strto
import Mathlib.Algebra.BigOperators.Intervals
import Mathlib.Algebra.Order.BigOperators.Group.Finset
import Mathlib.LinearAlgebra.Matrix.ToLinearEquiv
import Mathlib.Tactic.Linarith
import Mathlib.Tactic.FieldSimp
import Mathlib.Tactic.Ring

/-!
# Lemmas about the matrix library, all sizes
-/

namespace Verif.Bla

open Finset

/-! ### Loops -/

theorem loop_ok {σ : Type} {lo hi : Nat} {f : Nat → σ → C σ} {s : σ} (I : Nat → σ → Prop) (hle : lo ≤ hi) (h0 : I lo s)
    (hs : ∀ i s, lo ≤ i → i < hi → I i s → ∃ s', f i s = .ok s' ∧ I (i + 1) s') : ∃ s', loop lo hi f s = .ok s' ∧ I hi s' := by
  unfold loop
  obtain ⟨n, rfl⟩ := Nat.exists_eq_add_of_le hle
  rw [Nat.add_sub_cancel_left]
  clear hle
  induction n generalizing lo s with
  | zero => exact ⟨s, rfl, h0⟩
  | succ n ih =>
    rw [List.range'_succ, List.foldlM_cons]
    obtain ⟨s', h1, h2⟩ := hs lo s le_rfl (by omega) h0
    rw [h1]
    have := ih (lo := lo + 1) (s := s') h2 (fun i s a b c => hs i s (by omega) (by omega) c)
    rw [show lo + 1 + n = lo + (n + 1) by ring] at this
    exact this

theorem loopDown_ok {σ : Type} {hi : Nat} {f : Nat → σ → C σ} {s : σ} (I : Nat → σ → Prop) (h0 : I hi s)
    (hs : ∀ i s, i < hi → I (i + 1) s → ∃ s', f i s = .ok s' ∧ I i s') : ∃ s', loopDown hi f s = .ok s' ∧ I 0 s' := by
  unfold loopDown
  induction hi generalizing s with
  | zero => exact ⟨s, rfl, h0⟩
  | succ n ih =>
    rw [List.range_succ, List.reverse_append, List.reverse_singleton, List.singleton_append, List.foldlM_cons]
    obtain ⟨s', h1, h2⟩ := hs n s (by omega) h0
    rw [h1]
    exact ih h2 (fun i s a b => hs i s (by omega) b)

theorem loop_sum {K : Type} [AddCommMonoid K] {lo hi : Nat} {g : Nat → C K} {t : Nat → K} (hle : lo ≤ hi)
    (h : ∀ i, lo ≤ i → i < hi → g i = .ok (t i)) :
    loop lo hi (fun i s => do return s + (← g i)) 0 = .ok (∑ k ∈ Ico lo hi, t k) := by
  obtain ⟨s, h1, h2⟩ := loop_ok (f := fun i (s : K) => do return s + (← g i)) (s := 0) (fun i s => s = ∑ k ∈ Ico lo i, t k) hle (by simp)
    (by
      intro i s a b c
      refine ⟨s + t i, by simp only [h i a b]; rfl, ?_⟩
      rw [c, Finset.sum_Ico_succ_top a])
  rw [h1, h2]

/-! ### Arrays and matrices as functions -/

/-- The array holds the values `w i`, `i < n`. -/
def HoldsV {α : Type} (n : Nat) (a : Arr α) (w : Nat → α) : Prop := a.size = n ∧ ∀ i < n, a.cell i = some (w i)

/-- The array holds the matrix `W` (`rows × cols`). -/
def Holds {K : Type} (rows cols : Nat) (a : Arr K) (W : Nat → Nat → K) : Prop :=
  a.size = rows * cols ∧ ∀ i j, i < rows → j < cols → a.cell (i * cols + j) = some (W i j)

theorem HoldsV.rd {α : Type} {n : Nat} {a : Arr α} {w : Nat → α} (h : HoldsV n a w) {i : Nat} (hi : i < n) : a.rd i = .ok (w i) := by
  unfold Arr.rd
  rw [if_pos (by rw [h.1]; exact hi), h.2 i hi]

theorem HoldsV.wr {α : Type} {n : Nat} {a : Arr α} {w : Nat → α} (h : HoldsV n a w) {i : Nat} (hi : i < n) (x : α) :
    ∃ a', a.wr i x = .ok a' ∧ HoldsV n a' (Function.update w i x) := by
  unfold Arr.wr
  rw [if_pos (by rw [h.1]; exact hi)]
  refine ⟨_, rfl, h.1, fun k hk => ?_⟩
  by_cases hki : k = i
  · subst hki; simp
  · simp [Function.update_of_ne hki, h.2 k hk]

theorem index_lt {rows cols i j : Nat} (hi : i < rows) (hj : j < cols) : i * cols + j < rows * cols := by
  calc i * cols + j < i * cols + cols := by omega
    _ = (i + 1) * cols := by ring
    _ ≤ rows * cols := Nat.mul_le_mul_right _ hi

theorem index_inj {cols i j i' j' : Nat} (hj : j < cols) (hj' : j' < cols) (h : i * cols + j = i' * cols + j') : i = i' ∧ j = j' := by
  have h1 : (i * cols + j) / cols = i := by rw [add_comm, Nat.add_mul_div_right _ _ (by omega), Nat.div_eq_of_lt hj, zero_add]
  have h2 : (i' * cols + j') / cols = i' := by rw [add_comm, Nat.add_mul_div_right _ _ (by omega), Nat.div_eq_of_lt hj', zero_add]
  have : i = i' := by rw [← h1, ← h2, h]
  subst this
  exact ⟨rfl, by omega⟩

/-- One element replaced. -/
def upd {K : Type} (W : Nat → Nat → K) (i j : Nat) (x : K) : Nat → Nat → K := fun a b => if a = i ∧ b = j then x else W a b

theorem Holds.rd {K : Type} {r c : Nat} {a : Arr K} {W : Nat → Nat → K} (h : Holds r c a W) {i j : Nat} (hi : i < r) (hj : j < c) :
    array c a i j = .ok (W i j) := by
  unfold array Arr.rd
  rw [if_pos (by rw [h.1]; exact index_lt hi hj), h.2 i j hi hj]

theorem Holds.set {K : Type} {r c : Nat} {a : Arr K} {W : Nat → Nat → K} (h : Holds r c a W) {i j : Nat} (hi : i < r) (hj : j < c) (x : K) :
    ∃ a', setAt c a i j x = .ok a' ∧ Holds r c a' (upd W i j x) := by
  unfold setAt Arr.wr
  rw [if_pos (by rw [h.1]; exact index_lt hi hj)]
  refine ⟨_, rfl, h.1, fun k l hk hl => ?_⟩
  unfold upd
  by_cases hkl : k = i ∧ l = j
  · obtain ⟨rfl, rfl⟩ := hkl; simp
  · have : k * c + l ≠ i * c + j := fun e => hkl (index_inj hl hj e)
    simp only [Function.update_of_ne this, if_neg hkl, h.2 k l hk hl]

section LU
set_option linter.unusedSectionVars false
variable {K : Type} [Field K] [LinearOrder K] [IsStrictOrderedRing K]

theorem sumTo_ok {n : Nat} {A : Arr K} {W : Nat → Nat → K} (h : Holds n n A W) {i j m : Nat} (hi : i < n) (hj : j < n) (hm : m ≤ n) :
    sumTo n A i j m = .ok (∑ k ∈ range m, W i k * W k j) := by
  unfold sumTo
  have := loop_sum (K := K) (lo := 0) (hi := m) (g := fun k => do return (← array n A i k) * (← array n A k j)) (t := fun k => W i k * W k j)
    (Nat.zero_le _) (by intro k _ hk; simp only [h.rd hi (lt_of_lt_of_le hk hm), h.rd (lt_of_lt_of_le hk hm) hj, bind_ok]; rfl)
  rw [← range_eq_Ico] at this
  rw [← this]
  congr 1
  funext k s
  cases array n A i k with
  | error e => rfl
  | ok x => cases array n A k j with
    | error e => rfl
    | ok y => rfl

/-- Column `j` above the diagonal. -/
theorem betas_ok {n : Nat} {A : Arr K} {W : Nat → Nat → K} (h : Holds n n A W) {j : Nat} (hj : j < n) :
    ∃ A' W', betas n j A = .ok A' ∧ Holds n n A' W' ∧ (∀ a b, b ≠ j ∨ j ≤ a → W' a b = W a b) ∧
      ∀ a < j, W a j = W' a j + ∑ k ∈ range a, W a k * W' k j := by
  have := loop_ok (lo := 0) (hi := j) (s := A) (f := fun i A => do
    let s ← sumTo n A i j i
    setAt n A i j ((← array n A i j) - s)) (fun i A' => ∃ W', Holds n n A' W' ∧ (∀ a b, b ≠ j ∨ i ≤ a → W' a b = W a b) ∧
      ∀ a < i, W a j = W' a j + ∑ k ∈ range a, W a k * W' k j) (Nat.zero_le _) ⟨W, h, fun _ _ _ => rfl, fun a ha => absurd ha (by omega)⟩
    (by
      rintro i A' - hi ⟨W', h1, h2, h3⟩
      simp only [sumTo_ok h1 (i := i) (j := j) (m := i) (by omega) hj (by omega), h1.rd (i := i) (j := j) (by omega) hj, bind_ok]
      obtain ⟨A'', e, h4⟩ := h1.set (i := i) (j := j) (by omega) hj (W' i j - ∑ k ∈ range i, W' i k * W' k j)
      refine ⟨A'', e, _, h4, ?_, ?_⟩
      · intro a b hab
        unfold upd
        rw [if_neg (by omega), h2 a b (by omega)]
      · intro a ha
        have hs : ∀ a ≤ i, ∑ k ∈ range a, W a k * upd W' i j (W' i j - ∑ k ∈ range i, W' i k * W' k j) k j = ∑ k ∈ range a, W a k * W' k j := by
          intro a ha
          apply sum_congr rfl
          intro k hk
          rw [mem_range] at hk
          unfold upd
          rw [if_neg (by omega)]
        rw [hs a (by omega)]
        by_cases hai : a = i
        · subst hai
          unfold upd
          rw [if_pos ⟨rfl, rfl⟩, h2 a j (Or.inr le_rfl)]
          have : ∑ k ∈ range a, W' a k * W' k j = ∑ k ∈ range a, W a k * W' k j := by
            apply sum_congr rfl
            intro k hk
            rw [mem_range] at hk
            rw [h2 a k (Or.inl (by omega))]
          rw [this]; ring
        · unfold upd
          rw [if_neg (by omega)]
          exact h3 a (by omega))
  obtain ⟨A', e, W', h1, h2, h3⟩ := this
  exact ⟨A', W', e, h1, h2, h3⟩

/-- Column `j` from the diagonal on. -/
theorem alphas_ok {n : Nat} {A : Arr K} {W : Nat → Nat → K} (h : Holds n n A W) {j : Nat} (hj : j < n) :
    ∃ A' W', alphas n j A = .ok A' ∧ Holds n n A' W' ∧ (∀ a b, b ≠ j ∨ a < j → W' a b = W a b) ∧
      ∀ a, j ≤ a → a < n → W a j = W' a j + ∑ k ∈ range j, W a k * W k j := by
  have := loop_ok (lo := j) (hi := n) (s := A) (f := fun i A => do
    let s ← sumTo n A i j j
    setAt n A i j ((← array n A i j) - s)) (fun i A' => ∃ W', Holds n n A' W' ∧ (∀ a b, b ≠ j ∨ a < j ∨ i ≤ a → W' a b = W a b) ∧
      ∀ a, j ≤ a → a < i → W a j = W' a j + ∑ k ∈ range j, W a k * W k j) hj.le ⟨W, h, fun _ _ _ => rfl, fun a h1 h2 => absurd h2 (by omega)⟩
    (by
      rintro i A' hji hi ⟨W', h1, h2, h3⟩
      simp only [sumTo_ok h1 (i := i) (j := j) (m := j) (by omega) hj (by omega), h1.rd (i := i) (j := j) (by omega) hj, bind_ok]
      obtain ⟨A'', e, h4⟩ := h1.set (i := i) (j := j) (by omega) hj (W' i j - ∑ k ∈ range j, W' i k * W' k j)
      refine ⟨A'', e, _, h4, ?_, ?_⟩
      · intro a b hab
        unfold upd
        rw [if_neg (by omega), h2 a b (by omega)]
      · intro a hja ha
        by_cases hai : a = i
        · subst hai
          unfold upd
          rw [if_pos ⟨rfl, rfl⟩, h2 a j (Or.inr (Or.inr le_rfl))]
          have : ∑ k ∈ range j, W' a k * W' k j = ∑ k ∈ range j, W a k * W k j := by
            apply sum_congr rfl
            intro k hk
            rw [mem_range] at hk
            rw [h2 a k (Or.inl (by omega)), h2 k j (Or.inr (Or.inl hk))]
          rw [this]; ring
        · unfold upd
          rw [if_neg (by omega)]
          exact h3 a hja (by omega))
  obtain ⟨A', e, W', h1, h2, h3⟩ := this
  exact ⟨A', W', e, h1, fun a b hab => h2 a b (by omega), h3⟩

/-- The pivot row: below row `j`, and with a non-zero element if there is one. -/
theorem pivot_ok {n : Nat} {A : Arr K} {W : Nat → Nat → K} (h : Holds n n A W) {sc : Arr K} {w : Nat → K} (hw : HoldsV n sc w)
    (hpos : ∀ i < n, 0 < w i) {j : Nat} (hj : j < n) :
    ∃ p, pivot n j A sc = .ok p ∧ j ≤ p ∧ p < n ∧ (W p j = 0 → ∀ a, j ≤ a → a < n → W a j = 0) := by
  have := loop_ok (lo := j) (hi := n) (s := ((0 : K), j)) (f := fun i (p : K × Nat) => do
    let e := (← sc.rd i) * |← array n A i j|
    return if p.1 ≤ e then (e, i) else p) (fun i p => j ≤ p.2 ∧ p.2 < n ∧ 0 ≤ p.1 ∧ (p.1 ≠ 0 → W p.2 j ≠ 0) ∧
      ∀ a, j ≤ a → a < i → w a * |W a j| ≤ p.1) hj.le ⟨le_rfl, hj, le_rfl, fun h => absurd rfl h, fun a h1 h2 => by omega⟩
    (by
      rintro i p hji hi ⟨h1, h2, h3, h4, h5⟩
      simp only [hw.rd hi, h.rd hi hj, bind_ok]
      refine ⟨_, rfl, ?_⟩
      split
      · rename_i hle
        refine ⟨hji, hi, h3.trans hle, fun hne h0 => hne (by simp [h0]), fun a ha1 ha2 => ?_⟩
        by_cases hai : a = i
        · subst hai; exact le_rfl
        · exact (h5 a ha1 (by omega)).trans hle
      · rename_i hle
        refine ⟨h1, h2, h3, h4, fun a ha1 ha2 => ?_⟩
        by_cases hai : a = i
        · subst hai; exact (not_le.1 hle).le
        · exact h5 a ha1 (by omega))
  obtain ⟨p, e, h1, h2, h3, h4, h5⟩ := this
  refine ⟨p.2, ?_, h1, h2, fun h0 a ha1 ha2 => ?_⟩
  · unfold pivot
    rw [e]; rfl
  · have hp : p.1 = 0 := by
      by_contra hne
      exact h4 hne h0
    have := h5 a ha1 ha2
    rw [hp] at this
    have hwa := hpos a ha2
    have habs := abs_nonneg (W a j)
    have : |W a j| = 0 := by
      rcases habs.eq_or_lt with h | h
      · exact h.symm
      · have := mul_pos hwa h; linarith
    exact abs_eq_zero.1 this

/-- The index exchanged with `j` and `p`. -/
def sw (j p i : Nat) : Nat := if i = j then p else if i = p then j else i

theorem swapRows_ok {n : Nat} {A : Arr K} {W : Nat → Nat → K} (h : Holds n n A W) {j p : Nat} (hj : j < n) (hp : p < n) :
    ∃ A', swapRows n j p A = .ok A' ∧ Holds n n A' (fun a b => W (sw j p a) b) := by
  have := loop_ok (lo := 0) (hi := n) (s := A) (f := fun k A => do
    let tmp ← array n A p k
    let A ← setAt n A p k (← array n A j k)
    setAt n A j k tmp) (fun k A' => Holds n n A' (fun a b => if b < k then W (sw j p a) b else W a b)) (Nat.zero_le _)
    (by simpa using h)
    (by
      rintro k A' - hk h1
      obtain ⟨A2, e2, h2⟩ := h1.set (i := p) (j := k) hp hk (W j k)
      obtain ⟨A3, e3, h3⟩ := h2.set (i := j) (j := k) hj hk (W p k)
      refine ⟨A3, ?_, h3.1, ?_⟩
      · simp only [h1.rd hp hk, h1.rd hj hk, lt_irrefl, if_false, bind_ok, e2, e3]
      · intro a b ha hb
        rw [h3.2 a b ha hb]
        congr 1
        unfold upd sw
        by_cases hbk : b = k
        · subst hbk
          simp only [and_true, lt_irrefl, if_false, Nat.lt_succ_self, if_true]
          by_cases haj : a = j
          · simp [haj]
          · by_cases hap : a = p
            · simp [hap, show p ≠ j by omega]
            · simp [haj, hap]
        · simp only [hbk, and_false, if_false]
          have : b < k + 1 ↔ b < k := by omega
          simp only [this])
  obtain ⟨A', e, h1⟩ := this
  refine ⟨A', e, h1.1, fun a b ha hb => ?_⟩
  rw [h1.2 a b ha hb]
  simp [hb]

theorem scaleColumn_ok {n : Nat} {A : Arr K} {W : Nat → Nat → K} (h : Holds n n A W) {j : Nat} (hj : j < n) (h0 : W j j ≠ 0) :
    ∃ A', scaleColumn n j A = .ok A' ∧ Holds n n A' (fun a b => if b = j ∧ j < a then W a j * (1 / W j j) else W a b) := by
  have := loop_ok (lo := j + 1) (hi := n) (s := A) (f := fun i A => do setAt n A i j ((← array n A i j) * (1 / W j j)))
    (fun i A' => Holds n n A' (fun a b => if b = j ∧ j < a ∧ a < i then W a j * (1 / W j j) else W a b)) (by omega)
    (by
      refine ⟨h.1, fun a b ha hb => ?_⟩
      beta_reduce; rw [if_neg (by omega)]; exact h.2 a b ha hb)
    (by
      rintro i A' hji hi h1
      have e1 := h1.rd (i := i) (j := j) hi hj
      rw [if_neg (by omega)] at e1
      obtain ⟨A2, e2, h2⟩ := h1.set (i := i) (j := j) hi hj (W i j * (1 / W j j))
      refine ⟨A2, by simp only [e1, bind_ok, e2], h2.1, fun a b ha hb => ?_⟩
      rw [h2.2 a b ha hb]
      congr 1
      unfold upd
      beta_reduce
      by_cases hab : a = i ∧ b = j
      · obtain ⟨rfl, rfl⟩ := hab
        rw [if_pos ⟨rfl, rfl⟩, if_pos ⟨rfl, by omega, by omega⟩]
      · rw [if_neg hab]
        by_cases h3 : b = j ∧ j < a ∧ a < i
        · rw [if_pos h3, if_pos (by omega)]
        · rw [if_neg h3, if_neg (by omega)])
  obtain ⟨A', e, h1⟩ := this
  refine ⟨A', ?_, h1.1, fun a b ha hb => ?_⟩
  · unfold scaleColumn divC
    simp only [h.rd hj hj, bind_ok, if_neg h0, e]
  · rw [h1.2 a b ha hb]
    congr 1
    beta_reduce
    by_cases h3 : b = j ∧ j < a
    · rw [if_pos h3, if_pos (by omega)]
    · rw [if_neg h3, if_neg (by omega)]

/-! ### Row scaling -/

/-- The element stored after row `i`. -/
def next (n : Nat) (W : Nat → Nat → K) (stray : K) (i : Nat) : K := if i + 1 < n then W (i + 1) 0 else stray

/-- Row `i` and the element after it are zero. -/
def RowZero (n : Nat) (W : Nat → Nat → K) (stray : K) (i : Nat) : Prop := (∀ j < n, W i j = 0) ∧ next n W stray i = 0

theorem peek_ok {n : Nat} {A : Arr K} {W : Nat → Nat → K} (h : Holds n n A W) (stray : K) {i j : Nat} (hi : i < n) (hj : j < n + 1) :
    peek n A stray i j = .ok (if j < n then W i j else next n W stray i) := by
  unfold peek
  by_cases hjn : j < n
  · have := index_lt hi hjn
    rw [if_neg (by omega), if_pos hjn, h.rd hi hjn]
  · have hj' : j = n := by omega
    subst hj'
    rw [if_neg (lt_irrefl _)]
    unfold next
    by_cases hi1 : i + 1 < j
    · have h2 := index_lt hi1 (show 0 < j by omega)
      have e : i * j + j = (i + 1) * j + 0 := by ring
      rw [if_pos hi1, if_neg (by omega)]
      have := h.rd hi1 (show 0 < j by omega)
      unfold array at this ⊢
      rw [e]; exact this
    · have : i + 1 = j := by omega
      rw [if_neg hi1, if_pos (by rw [← this]; ring)]

theorem largest_ok {n : Nat} {A : Arr K} {W : Nat → Nat → K} (h : Holds n n A W) (stray : K) {i : Nat} (hi : i < n) :
    ∃ l, largest n A stray i = .ok l ∧ 0 ≤ l ∧ (l = 0 ↔ RowZero n W stray i) := by
  set t : Nat → K := fun j => if j < n then W i j else next n W stray i with ht
  have := loop_ok (lo := 0) (hi := n + 1) (s := (0 : K)) (f := fun j l => do return max |← peek n A stray i j| l)
    (fun j l => 0 ≤ l ∧ (l = 0 ↔ ∀ k < j, t k = 0)) (Nat.zero_le _) ⟨le_rfl, by simp⟩
    (by
      rintro j l - hj ⟨h1, h2⟩
      refine ⟨max |t j| l, by simp only [peek_ok h stray hi hj, bind_ok]; rfl, le_max_of_le_right h1, ?_⟩
      constructor
      · intro hm
        have a1 : |t j| ≤ 0 := by rw [← hm]; exact le_max_left _ _
        have a2 : l ≤ 0 := by rw [← hm]; exact le_max_right _ _
        have a3 := h2.1 (le_antisymm a2 h1)
        intro k hk
        by_cases hkj : k = j
        · subst hkj; exact abs_eq_zero.1 (le_antisymm a1 (abs_nonneg _))
        · exact a3 k (by omega)
      · intro hm
        rw [hm j (by omega), h2.2 (fun k hk => hm k (by omega))]; simp)
  obtain ⟨l, e, h1, h2⟩ := this
  refine ⟨l, e, h1, h2.trans ?_⟩
  constructor
  · intro hk
    refine ⟨fun j hj => ?_, ?_⟩
    · have := hk j (by omega); rw [ht] at this; simpa [hj] using this
    · have := hk n (by omega); rw [ht] at this; simpa using this
  · rintro ⟨a, b⟩ k hk
    rw [ht]
    by_cases hkn : k < n
    · simp [hkn, a k hkn]
    · simp [hkn, b]

theorem scales_ok {n : Nat} {A : Arr K} {W : Nat → Nat → K} (h : Holds n n A W) (stray : K) :
    (scales n A stray = .ok none ∧ ∃ i < n, RowZero n W stray i) ∨
    ∃ sc w, scales n A stray = .ok (some sc) ∧ HoldsV n sc w ∧ (∀ i < n, 0 < w i) ∧ ∀ i < n, ¬ RowZero n W stray i := by
  have := loop_ok (lo := 0) (hi := n) (s := some (Arr.fresh K n)) (f := fun i s =>
    match s with
    | none => pure none
    | some sc => do
      let l ← largest n A stray i
      if l = 0 then pure none else do return some (← sc.wr i (← divC 1 l)))
    (fun i s => (s = none ∧ ∃ a < i, RowZero n W stray a) ∨
      ∃ sc w, s = some sc ∧ sc.size = n ∧ ∀ a < i, sc.cell a = some (w a) ∧ 0 < w a ∧ ¬ RowZero n W stray a) (Nat.zero_le _)
    (Or.inr ⟨_, fun _ => 0, rfl, rfl, fun a ha => absurd ha (by omega)⟩)
    (by
      rintro i s - hi (⟨rfl, a, ha, hz⟩ | ⟨sc, w, rfl, hsz, hc⟩)
      · exact ⟨none, rfl, Or.inl ⟨rfl, a, by omega, hz⟩⟩
      · obtain ⟨l, e, h1, h2⟩ := largest_ok h stray hi
        by_cases hl : l = 0
        · exact ⟨none, by simp only [e, bind_ok, hl, if_true]; rfl, Or.inl ⟨rfl, i, by omega, h2.1 hl⟩⟩
        · have hw : sc.wr i (1 / l) = .ok { sc with cell := Function.update sc.cell i (some (1 / l)) } := by
            unfold Arr.wr; rw [if_pos (by rw [hsz]; exact hi)]
          refine ⟨some { sc with cell := Function.update sc.cell i (some (1 / l)) }, by simp only [e, bind_ok, if_neg hl, divC, hw]; rfl, Or.inr ⟨_, Function.update w i (1 / l), rfl, hsz, ?_⟩⟩
          intro a ha
          by_cases hai : a = i
          · subst hai
            simp only [Function.update_self]
            exact ⟨trivial, one_div_pos.2 (lt_of_le_of_ne h1 (Ne.symm hl)), fun hz => hl (h2.2 hz)⟩
          · simp only [Function.update_of_ne hai]
            exact hc a (by omega))
  obtain ⟨s, e, (⟨rfl, a, ha, hz⟩ | ⟨sc, w, rfl, hsz, hc⟩)⟩ := this
  · exact Or.inl ⟨e, a, ha, hz⟩
  · exact Or.inr ⟨sc, w, e, ⟨hsz, fun i hi => (hc i hi).1⟩, fun i hi => (hc i hi).2.1, fun i hi => (hc i hi).2.2⟩

/-! ### The factors -/

/-- Lower factor stored in `W`. -/
def Lh (W : Nat → Nat → K) (r k : Nat) : K := if k < r then W r k else if r = k then 1 else 0

/-- Upper factor stored in `W`. -/
def Uh (W : Nat → Nat → K) (k c : Nat) : K := if k ≤ c then W k c else 0

/-- One element of the product of the factors. -/
def lu (W : Nat → Nat → K) (r c : Nat) : K := ∑ k ∈ range (min r (c + 1)), W r k * W k c + if r ≤ c then W r c else 0

theorem lh_sum (W : Nat → Nat → K) (f : Nat → K) (r m : Nat) :
    ∑ k ∈ range m, Lh W r k * f k = ∑ k ∈ range (min r m), W r k * f k + if r < m then f r else 0 := by
  induction m with
  | zero => simp
  | succ m ih =>
    rw [sum_range_succ, ih]
    unfold Lh
    rcases lt_trichotomy m r with h | h | h
    · rw [min_eq_right h.le, min_eq_right (by omega), if_neg (by omega), if_pos h, if_neg (by omega), sum_range_succ]; ring
    · subst h
      rw [min_eq_left le_rfl, min_eq_left (by omega), if_neg (by omega), if_neg (by omega), if_pos rfl, if_pos (by omega)]; ring
    · rw [min_eq_left (by omega), min_eq_left (by omega), if_pos h, if_neg (by omega), if_neg (by omega), if_pos (by omega)]; ring

theorem lu_eq (W : Nat → Nat → K) {r c m : Nat} (hc : c < m) : ∑ k ∈ range m, Lh W r k * Uh W k c = lu W r c := by
  rw [lh_sum, lu]
  congr 1
  · have hsub : range (min r (c + 1)) ⊆ range (min r m) := by
      intro k; rw [mem_range, mem_range]; omega
    rw [← sum_subset hsub]
    · apply sum_congr rfl
      intro k hk
      rw [mem_range] at hk
      unfold Uh
      rw [if_pos (by omega)]
    · intro k hk hk'
      rw [mem_range] at hk hk'
      unfold Uh
      rw [if_neg (by omega), mul_zero]
  · unfold Uh
    by_cases h1 : r ≤ c
    · rw [if_pos h1, if_pos (by omega)]
    · rw [if_neg h1]; split <;> rfl

theorem upper_solve (W : Nat → Nat → K) (j : Nat) (hd : ∀ c < j, W c c ≠ 0) (b : Nat → K) :
    ∃ y : Nat → K, ∀ k < j, ∑ c ∈ range j, Uh W k c * y c = b k := by
  induction j generalizing b with
  | zero => exact ⟨fun _ => 0, fun k hk => absurd hk (by omega)⟩
  | succ j ih =>
    obtain ⟨y, hy⟩ := ih (fun c hc => hd c (by omega)) (fun k => b k - Uh W k j * (b j / W j j))
    refine ⟨Function.update y j (b j / W j j), fun k hk => ?_⟩
    rw [sum_range_succ, Function.update_self]
    have hs : ∑ c ∈ range j, Uh W k c * Function.update y j (b j / W j j) c = ∑ c ∈ range j, Uh W k c * y c := by
      apply sum_congr rfl
      intro c hc
      rw [mem_range] at hc
      rw [Function.update_of_ne (by omega)]
    rw [hs]
    by_cases hkj : k = j
    · subst hkj
      have : ∑ c ∈ range k, Uh W k c * y c = 0 := by
        apply sum_eq_zero
        intro c hc
        rw [mem_range] at hc
        unfold Uh
        rw [if_neg (by omega), zero_mul]
      rw [this, zero_add]
      unfold Uh
      rw [if_pos le_rfl, mul_div_cancel₀ _ (hd k (by omega))]
    · rw [hy k (by omega)]; ring

/-- The matrix with the given elements. -/
def mat (n : Nat) (W : Nat → Nat → K) : Matrix (Fin n) (Fin n) K := Matrix.of fun i j => W i j

/-- No pivot in column `j`: the matrix is singular. -/
theorem det_zero {n : Nat} {A0 W : Nat → Nat → K} (σ : Equiv.Perm (Fin n)) {π : Nat → Nat} (hπ : ∀ i : Fin n, π i = σ i) {j : Nat} (hj : j < n)
    (hd : ∀ c < j, W c c ≠ 0) (hrel : ∀ r < n, ∀ c < j, A0 (π r) c = lu W r c)
    (hcol : ∀ r < n, A0 (π r) j = ∑ k ∈ range (min r j), W r k * W k j + if r < j then W r j else 0) : (mat n A0).det = 0 := by
  obtain ⟨y, hy⟩ := upper_solve W j hd (fun k => W k j)
  apply Matrix.exists_mulVec_eq_zero_iff.1
  refine ⟨fun c => if (c : Nat) < j then y c else if (c : Nat) = j then -1 else 0, ?_, ?_⟩
  · intro h0
    have := congrFun h0 ⟨j, hj⟩
    simp at this
  · funext a
    obtain ⟨r, rfl⟩ := σ.surjective a
    simp only [Matrix.mulVec, dotProduct, mat, Matrix.of_apply, Pi.zero_apply]
    rw [← hπ r]
    rw [Finset.sum_fin_eq_sum_range]
    have hr := r.2
    have e1 : ∀ c ∈ range n, (if h : c < n then A0 (π r) c * (if c < j then y c else if c = j then -1 else 0) else 0) =
        A0 (π r) c * (if c < j then y c else if c = j then -1 else 0) := by
      intro c hc
      rw [mem_range] at hc
      rw [dif_pos hc]
    rw [sum_congr rfl e1]
    have hsub : range (j + 1) ⊆ range n := by intro k; rw [mem_range, mem_range]; omega
    rw [← sum_subset hsub (by
      intro c _ hc
      rw [mem_range] at hc
      rw [if_neg (by omega), if_neg (by omega), mul_zero]), sum_range_succ, if_neg (by omega), if_pos rfl]
    have e2 : ∑ c ∈ range j, A0 (π r) c * (if c < j then y c else if c = j then -1 else 0) = ∑ c ∈ range j, ∑ k ∈ range j, Lh W r k * (Uh W k c * y c) := by
      apply sum_congr rfl
      intro c hc
      rw [mem_range] at hc
      rw [if_pos hc, hrel r hr c hc, ← lu_eq W (m := j) hc, sum_mul]
      apply sum_congr rfl
      intro k _; ring
    rw [e2, sum_comm]
    have e3 : ∑ k ∈ range j, ∑ c ∈ range j, Lh W r k * (Uh W k c * y c) = ∑ k ∈ range j, Lh W r k * W k j := by
      apply sum_congr rfl
      intro k hk
      rw [mem_range] at hk
      rw [← mul_sum, hy k hk]
    rw [e3, lh_sum, hcol r hr]; ring

/-! ### The decomposition -/

/-- What holds before column `j` is processed. -/
structure Inv (n : Nat) (A0 : Nat → Nat → K) (j : Nat) (s : Decomp K × Arr K) (W : Nat → Nat → K) (π : Nat → Nat) (σ : Equiv.Perm (Fin n))
    (e : Nat → K) : Prop where
  sing : s.1.singular = false
  holds : Holds n n s.1.A W
  idx : HoldsV n s.1.idx π
  perm : ∀ i : Fin n, π i = σ i
  parity : s.1.parity = ((Equiv.Perm.sign σ : ℤ) : K)
  scale : ∃ w, HoldsV n s.2 w ∧ ∀ i < n, 0 < w i
  rel : ∀ r < n, ∀ c < j, A0 (π r) c + (if r = c then e c else 0) = lu W r c
  rest : ∀ r < n, ∀ c, j ≤ c → c < n → W r c = A0 (π r) c
  diag : ∀ c < j, W c c ≠ 0
  eps : ∀ c, e c = 0 ∨ e c = 1 / 10 ^ 20
  det : ∀ c < j, e c ≠ 0 → (mat n A0).det = 0

theorem fixPivot_ok {n : Nat} {A : Arr K} {W : Nat → Nat → K} (h : Holds n n A W) {j : Nat} (hj : j < n) :
    ∃ A', fixPivot n j A = .ok A' ∧ Holds n n A' (if W j j = 0 then upd W j j (1 / 10 ^ 20) else W) := by
  unfold fixPivot
  simp only [h.rd hj hj, bind_ok]
  split
  · exact h.set hj hj _
  · exact ⟨A, rfl, h⟩

theorem sw_lt {n j p i : Nat} (hj : j < n) (hp : p < n) (hi : i < n) : sw j p i < n := by unfold sw; split_ifs <;> omega

/-- What the exchange of rows does, whether or not it happens. -/
theorem exchange_ok {n : Nat} {d : Decomp K} {sc : Arr K} {W : Nat → Nat → K} {π : Nat → Nat} {w : Nat → K} {j p : Nat} (hj : j < n) (hp : p < n)
    (hA : Holds n n d.A W) (hi : HoldsV n d.idx π) (hs : HoldsV n sc w) :
    ∃ d' sc' w', exchange n j p (d, sc) = .ok (d', sc') ∧ d'.singular = d.singular ∧ Holds n n d'.A (fun a b => W (sw j p a) b) ∧
      HoldsV n d'.idx (fun a => π (sw j p a)) ∧ HoldsV n sc' w' ∧ (∀ i < n, w' i = w i ∨ w' i = w j) ∧
      d'.parity = if j = p then d.parity else -d.parity := by
  unfold exchange
  by_cases hjp : j = p
  · subst hjp
    have e : ∀ a, sw j j a = a := by intro a; unfold sw; split_ifs <;> omega
    simp only [ne_eq, not_true, if_false, e, if_true]
    exact ⟨d, sc, w, rfl, rfl, hA, hi, hs, fun i _ => Or.inl rfl, rfl⟩
  · obtain ⟨A', e1, h1⟩ := swapRows_ok hA hj hp
    obtain ⟨i1, e2, h2⟩ := hi.wr hj (π p)
    obtain ⟨i2, e3, h3⟩ := h2.wr hp (π j)
    obtain ⟨s1, e4, h4⟩ := hs.wr hp (w j)
    simp only [ne_eq, hjp, not_false_eq_true, if_true, if_false, e1, hi.rd hj, hi.rd hp, hs.rd hj, e2, e3, e4, bind_ok]
    refine ⟨_, _, _, rfl, rfl, h1, ?_, h4, ?_, rfl⟩
    · refine ⟨h3.1, fun a ha => ?_⟩
      rw [h3.2 a ha]
      congr 1
      unfold sw
      by_cases haj : a = j
      · subst haj; simp [Function.update_of_ne hjp]
      · by_cases hap : a = p
        · subst hap; simp [haj]
        · simp [haj, hap]
    · intro a ha
      by_cases hap : a = p
      · subst hap; simp
      · simp [hap]

theorem column_ok {n : Nat} {A0 W : Nat → Nat → K} {j : Nat} (hj : j < n) {s : Decomp K × Arr K} {π : Nat → Nat} {σ : Equiv.Perm (Fin n)}
    {e : Nat → K} (h : Inv n A0 j s W π σ e) : ∃ s', column n j s = .ok s' ∧ ∃ W' π' σ' e', Inv n A0 (j + 1) s' W' π' σ' e' := by
  obtain ⟨A1, W1, e1, h1, f1, g1⟩ := betas_ok h.holds hj
  obtain ⟨A2, W2, e2, h2, f2, g2⟩ := alphas_ok h1 hj
  obtain ⟨w, hw, hpos⟩ := h.scale
  obtain ⟨p, e3, p1, p2, p3⟩ := pivot_ok h2 hw hpos hj
  obtain ⟨d', sc', w', e4, q1, q2, q3, q4, q5, q6⟩ := exchange_ok (d := { s.1 with A := A2 }) hj p2 h2 h.idx hw
  obtain ⟨A3, e5, h5⟩ := fixPivot_ok q2 hj
  -- the column before the exchange
  have hf : ∀ a b, b ≠ j → W2 a b = W a b := fun a b hb => by rw [f2 a b (Or.inl hb), f1 a b (Or.inl hb)]
  have hcol : ∀ r < n, A0 (π r) j = W2 r j + ∑ k ∈ range (min r j), W2 r k * W2 k j := by
    intro r hr
    rw [← h.rest r hr j le_rfl hj]
    by_cases hrj : r < j
    · rw [min_eq_left hrj.le, g1 r hrj, f2 r j (Or.inr hrj)]
      congr 1
      apply sum_congr rfl
      intro k hk
      rw [mem_range] at hk
      rw [f2 k j (Or.inr (by omega)), hf r k (by omega)]
    · rw [min_eq_right (by omega), ← f1 r j (Or.inr (by omega)), g2 r (by omega) hr]
      congr 1
      apply sum_congr rfl
      intro k hk
      rw [mem_range] at hk
      rw [f2 k j (Or.inr (by omega)), f2 r k (Or.inl (by omega))]
  -- the products of earlier columns, before the exchange
  have hlu : ∀ r c, c < j → lu W2 r c = lu W r c := by
    intro r c hc
    unfold lu
    rw [hf r c (by omega)]
    congr 1
    apply sum_congr rfl
    intro k hk
    rw [mem_range] at hk
    rw [hf r k (by omega), hf k c (by omega)]
  set W3 : Nat → Nat → K := fun a b => W2 (sw j p a) b with hW3
  have hswlt : ∀ a, a < j → sw j p a = a := by intro a ha; unfold sw; split_ifs <;> omega
  have hswge : ∀ a, j ≤ a → j ≤ sw j p a := by intro a ha; unfold sw; split_ifs <;> omega
  have hlu3 : ∀ r c, c < j → lu W3 r c = lu W (sw j p r) c := by
    intro r c hc
    rw [← hlu _ _ hc]
    by_cases hr : r < j
    · rw [hswlt r hr]
      unfold lu
      rw [hW3]; simp only [hswlt r hr]
      congr 1
      apply sum_congr rfl
      intro k hk
      rw [mem_range] at hk
      rw [hswlt k (by omega)]
    · have := hswge r (by omega)
      unfold lu
      rw [min_eq_right (by omega), min_eq_right (by omega), if_neg (by omega), if_neg (by omega)]
      congr 1
      apply sum_congr rfl
      intro k hk
      rw [mem_range] at hk
      rw [hW3]; simp only [hswlt k (by omega)]
  have hcol3 : ∀ r < n, A0 (π (sw j p r)) j = W3 r j + ∑ k ∈ range (min r j), W3 r k * W3 k j := by
    intro r hr
    rw [hcol _ (sw_lt hj p2 hr)]
    congr 1
    have hm : min (sw j p r) j = min r j := by
      by_cases hr' : r < j
      · rw [hswlt r hr']
      · have := hswge r (by omega); rw [min_eq_right this, min_eq_right (by omega)]
    rw [hm]
    apply sum_congr rfl
    intro k hk
    rw [mem_range] at hk
    rw [hW3]; simp only [hswlt k (by omega)]
  set ej : K := if W3 j j = 0 then 1 / 10 ^ 20 else 0 with hej
  set V : Nat → Nat → K := if W3 j j = 0 then upd W3 j j (1 / 10 ^ 20) else W3 with hV
  have hVjj : V j j = W3 j j + ej := by
    rw [hV, hej]
    by_cases h0 : W3 j j = 0
    · rw [if_pos h0, if_pos h0, h0]; simp [upd]
    · rw [if_neg h0, if_neg h0, add_zero]
  have hV0 : V j j ≠ 0 := by
    rw [hVjj, hej]
    by_cases h0 : W3 j j = 0
    · rw [if_pos h0, h0, zero_add]; positivity
    · rw [if_neg h0, add_zero]; exact h0
  have hVo : ∀ a b, ¬ (a = j ∧ b = j) → V a b = W3 a b := by
    intro a b hab
    rw [hV]; split
    · unfold upd; rw [if_neg hab]
    · rfl
  obtain ⟨A4, e6, h6⟩ := scaleColumn_ok h5 hj hV0
  set X : Nat → Nat → K := fun a b => if b = j ∧ j < a then V a j * (1 / V j j) else V a b with hX
  have hXo : ∀ a b, b ≠ j → X a b = W3 a b := by
    intro a b hb
    rw [hX]; beta_reduce
    rw [if_neg (by omega), hVo a b (by omega)]
  have hXlt : ∀ a, a < j → X a j = W3 a j := by
    intro a ha
    rw [hX]; beta_reduce
    rw [if_neg (by omega), hVo a j (by omega)]
  have hXjj : X j j = W3 j j + ej := by
    rw [hX]; beta_reduce
    rw [if_neg (by omega), hVjj]
  have hXgt : ∀ a, j < a → X a j * X j j = W3 a j := by
    intro a ha
    rw [hXjj, ← hVjj, hX]; beta_reduce
    rw [if_pos ⟨rfl, ha⟩, hVo a j (by omega)]
    field_simp
  have hluX : ∀ r c, c < j → lu X r c = lu W3 r c := by
    intro r c hc
    unfold lu
    rw [hXo r c (by omega)]
    congr 1
    apply sum_congr rfl
    intro k hk
    rw [mem_range] at hk
    rw [hXo r k (by omega), hXo k c (by omega)]
  have hsumX : ∀ r m, m ≤ j → ∑ k ∈ range m, X r k * X k j = ∑ k ∈ range m, W3 r k * W3 k j := by
    intro r m hm
    apply sum_congr rfl
    intro k hk
    rw [mem_range] at hk
    rw [hXo r k (by omega), hXlt k (by omega)]
  have hluj : ∀ r < n, A0 (π (sw j p r)) j + (if r = j then ej else 0) = lu X r j := by
    intro r hr
    rw [hcol3 r hr]
    unfold lu
    rcases lt_trichotomy r j with hrj | hrj | hrj
    · rw [min_eq_left hrj.le, min_eq_left (by omega), if_neg (by omega), if_pos hrj.le, hsumX r r hrj.le, hXlt r hrj]; ring
    · subst hrj
      rw [min_eq_left le_rfl, min_eq_left (by omega), if_pos rfl, if_pos le_rfl, hsumX r r le_rfl, hXjj]; ring
    · rw [min_eq_right hrj.le, min_eq_right (by omega), if_neg (by omega), if_neg (by omega), sum_range_succ, hXgt r hrj, hsumX r j le_rfl]; ring
  refine ⟨({ d' with A := A4 }, sc'), ?_, X, fun a => π (sw j p a), σ * Equiv.swap ⟨j, hj⟩ ⟨p, p2⟩, Function.update e j ej, ?_⟩
  · unfold column
    simp only [e1, e2, e3, e4, e5, e6, bind_ok]
    rfl
  · refine ⟨?_, h6, q3, ?_, ?_, ⟨w', q4, ?_⟩, ?_, ?_, ?_, ?_, ?_⟩
    · rw [← h.sing]; exact q1
    · intro i
      have hsw : sw j p (i : Nat) = ((Equiv.swap (⟨j, hj⟩ : Fin n) ⟨p, p2⟩ i : Fin n) : Nat) := by
        unfold sw
        by_cases hij : i = ⟨j, hj⟩
        · subst hij; simp
        · have hij' : (i : Nat) ≠ j := fun hh => hij (Fin.ext hh)
          by_cases hip : i = ⟨p, p2⟩
          · subst hip; rw [if_neg hij']; simp
          · have hip' : (i : Nat) ≠ p := fun hh => hip (Fin.ext hh)
            rw [if_neg hij', if_neg hip', Equiv.swap_apply_of_ne_of_ne hij hip]
      rw [hsw, h.perm]; rfl
    · show d'.parity = _
      rw [q6]
      simp only [h.parity]
      by_cases hjp : j = p
      · subst hjp; simp
      · rw [if_neg hjp, Equiv.Perm.sign_mul, Equiv.Perm.sign_swap (by intro hh; exact hjp (Fin.mk.inj hh))]; simp
    · intro i hi
      rcases q5 i hi with hh | hh <;> rw [hh]
      · exact hpos i hi
      · exact hpos j hj
    · intro r hr c hc
      by_cases hcj : c = j
      · subst hcj
        rw [Function.update_self]
        exact hluj r hr
      · rw [Function.update_of_ne hcj, hluX r c (by omega), hlu3 r c (by omega), ← h.rel _ (sw_lt hj p2 hr) c (by omega)]
        congr 1
        by_cases hrj : r < j
        · rw [hswlt r hrj]
        · have := hswge r (by omega)
          rw [if_neg (by omega), if_neg (by omega)]
    · intro r hr c hc hcn
      rw [hXo r c (by omega), hW3]; beta_reduce
      rw [hf _ c (by omega), h.rest _ (sw_lt hj p2 hr) c (by omega) hcn]
    · intro c hc
      by_cases hcj : c = j
      · subst hcj; rw [hXjj, ← hVjj]; exact hV0
      · rw [hXo c c hcj, hW3]; beta_reduce
        rw [hswlt c (by omega), hf c c hcj]
        exact h.diag c (by omega)
    · intro c
      by_cases hcj : c = j
      · subst hcj
        rw [Function.update_self, hej]
        split
        · exact Or.inr rfl
        · exact Or.inl rfl
      · rw [Function.update_of_ne hcj]; exact h.eps c
    · intro c hc hne
      by_cases hcj : c = j
      · subst hcj
        rw [Function.update_self, hej] at hne
        have h0 : W3 c c = 0 := by
          by_contra hh
          rw [if_neg hh] at hne
          exact hne rfl
        have hall : ∀ a, c ≤ a → a < n → W2 a c = 0 := by
          apply p3
          have : W3 c c = W2 p c := by rw [hW3]; simp [sw]
          rw [← this, h0]
        by_cases hprev : ∃ c' < c, e c' ≠ 0
        · obtain ⟨c', hc', hne'⟩ := hprev
          exact h.det c' hc' hne'
        · push Not at hprev
          apply det_zero (W := W2) σ h.perm hj
          · intro c' hc'
            rw [hf c' c' (by omega)]; exact h.diag c' hc'
          · intro r hr c' hc'
            rw [hlu r c' hc', ← h.rel r hr c' hc', hprev c' hc']; simp
          · intro r hr
            rw [hcol r hr, add_comm]
            congr 1
            by_cases hrc : r < c
            · rw [if_pos hrc]
            · rw [if_neg hrc, hall r (by omega) hr]
      · rw [Function.update_of_ne hcj] at hne
        exact h.det c (by omega) hne

theorem luDecompose_ok {n : Nat} {A : Arr K} {A0 : Nat → Nat → K} (h : Holds n n A A0) (stray : K) :
    ∃ d, luDecompose n A stray = .ok d ∧
      ((d.singular = true ∧ d.parity = 1 ∧ d.A = A ∧ ∃ i < n, RowZero n A0 stray i) ∨
       ((∀ i < n, ¬ RowZero n A0 stray i) ∧ ∃ sc W π σ e, Inv n A0 n (d, sc) W π σ e)) := by
  obtain ⟨idx, e1, h1⟩ := loop_ok (lo := 0) (hi := n) (s := Arr.fresh Nat n) (f := fun i idx => idx.wr i i)
    (fun i idx => idx.size = n ∧ ∀ a < i, idx.cell a = some a) (Nat.zero_le _) ⟨rfl, fun a ha => absurd ha (by omega)⟩
    (by
      rintro i idx - hi ⟨a1, a2⟩
      refine ⟨{ idx with cell := Function.update idx.cell i (some i) }, by unfold Arr.wr; rw [if_pos (by rw [a1]; exact hi)], a1, fun a ha => ?_⟩
      by_cases hai : a = i
      · subst hai; simp
      · simp only [Function.update_of_ne hai]; exact a2 a (by omega))
  unfold luDecompose
  rw [e1, bind_ok]
  rcases scales_ok h stray with ⟨e2, hz⟩ | ⟨sc, w, e2, hw, hpos, hz⟩
  · rw [e2, bind_ok]
    exact ⟨_, rfl, Or.inl ⟨rfl, rfl, rfl, hz⟩⟩
  · rw [e2, bind_ok]
    obtain ⟨s, e3, W, π, σ, e, hI⟩ := loop_ok (lo := 0) (hi := n) (s := ((⟨false, 1, idx, A⟩ : Decomp K), sc)) (f := column n)
      (fun j s => ∃ W π σ e, Inv n A0 j s W π σ e) (Nat.zero_le _)
      ⟨A0, id, 1, fun _ => 0, rfl, h, h1, fun i => rfl, by simp, ⟨w, hw, hpos⟩, fun r _ c hc => absurd hc (by omega), fun r _ c _ _ => rfl,
        fun c hc => absurd hc (by omega), fun c => Or.inl rfl, fun c hc => absurd hc (by omega)⟩
      (by
        rintro j s - hj ⟨W, π, σ, e, hI⟩
        exact column_ok hj hI)
    refine ⟨s.1, by simp only [e3, bind_ok]; rfl, Or.inr ⟨hz, s.2, W, π, σ, e, hI⟩⟩

/-! ### Solving -/

theorem perm_lt {n : Nat} {π : Nat → Nat} {σ : Equiv.Perm (Fin n)} (h : ∀ i : Fin n, π i = σ i) {a : Nat} (ha : a < n) : π a < n := by
  rw [show a = ((⟨a, ha⟩ : Fin n) : Nat) from rfl, h]; exact Fin.is_lt _

theorem perm_inj {n : Nat} {π : Nat → Nat} {σ : Equiv.Perm (Fin n)} (h : ∀ i : Fin n, π i = σ i) {a b : Nat} (ha : a < n) (hb : b < n)
    (hab : π a = π b) : a = b := by
  have h1 := h ⟨a, ha⟩
  have h2 := h ⟨b, hb⟩
  simp only at h1 h2
  rw [h1, h2] at hab
  exact Fin.mk.inj (σ.injective (Fin.ext hab))

theorem forward_ok {n : Nat} {d : Decomp K} {W : Nat → Nat → K} {π : Nat → Nat} {σ : Equiv.Perm (Fin n)} (hA : Holds n n d.A W)
    (hi : HoldsV n d.idx π) (hσ : ∀ i : Fin n, π i = σ i) {b : View K} {β : Nat → K} (hb : ∀ i < n, b i 0 = .ok (β i)) :
    ∃ (tmp : Arr K) (y : Nat → K), forward n d b = .ok tmp ∧ tmp.size = n ∧ ∀ a < n, tmp.cell (π a) = some (y a) ∧ y a + ∑ k ∈ range a, W a k * y k = β (π a) := by
  obtain ⟨tmp, e, h1, y, h2⟩ := loop_ok (lo := 0) (hi := n) (s := Arr.fresh K n) (f := fun i tmp => do
    let s ← loop 0 i (fun j s => do return s + (← array n d.A i j) * (← tmp.rd (← d.idx.rd j))) 0
    tmp.wr (← d.idx.rd i) ((← b (← d.idx.rd i) 0) - s))
    (fun i tmp => tmp.size = n ∧ ∃ y : Nat → K, ∀ a < i, tmp.cell (π a) = some (y a) ∧ y a + ∑ k ∈ range a, W a k * y k = β (π a)) (Nat.zero_le _)
    ⟨rfl, fun _ => 0, fun a ha => absurd ha (by omega)⟩
    (by
      rintro i tmp - hin ⟨h1, y, h2⟩
      have hrd : ∀ a < i, tmp.rd (π a) = .ok (y a) := by
        intro a ha
        unfold Arr.rd
        rw [if_pos (by rw [h1]; exact perm_lt hσ (by omega)), (h2 a ha).1]
      have hsum := loop_sum (K := K) (lo := 0) (hi := i) (g := fun k => do return (← array n d.A i k) * (← tmp.rd (← d.idx.rd k)))
        (t := fun k => W i k * y k) (Nat.zero_le _)
        (by intro k _ hk; simp only [hA.rd hin (show k < n by omega), hi.rd (show k < n by omega), hrd k hk, bind_ok]; rfl)
      have hsum' : loop 0 i (fun j s => do return s + (← array n d.A i j) * (← tmp.rd (← d.idx.rd j))) 0 = .ok (∑ k ∈ range i, W i k * y k) := by
        rw [← range_eq_Ico] at hsum
        rw [← hsum]
        congr 1
        funext k s
        cases array n d.A i k with
        | error e => rfl
        | ok x => cases d.idx.rd k with
          | error e => rfl
          | ok q => cases hq : tmp.rd q with
            | error e => simp only [bind_ok, hq]; rfl
            | ok z => simp only [bind_ok, hq]; rfl
      set v := β (π i) - ∑ k ∈ range i, W i k * y k with hv
      refine ⟨{ tmp with cell := Function.update tmp.cell (π i) (some v) }, ?_, h1, Function.update y i v, ?_⟩
      · simp only [hsum', hi.rd hin, hb (π i) (perm_lt hσ hin), bind_ok]
        unfold Arr.wr
        rw [if_pos (by rw [h1]; exact perm_lt hσ hin)]
      · intro a ha
        have hs : ∑ k ∈ range a, W a k * Function.update y i v k = ∑ k ∈ range a, W a k * y k := by
          apply sum_congr rfl
          intro k hk
          rw [mem_range] at hk
          rw [Function.update_of_ne (by omega)]
        rw [hs]
        by_cases hai : a = i
        · subst hai
          simp only [Function.update_self]
          exact ⟨trivial, by rw [hv]; ring⟩
        · have hne : π a ≠ π i := fun hh => hai (perm_inj hσ (by omega) hin hh)
          simp only [Function.update_of_ne hne, Function.update_of_ne hai]
          exact h2 a (by omega))
  exact ⟨tmp, y, e, h1, h2⟩

theorem backward_ok {n : Nat} {d : Decomp K} {W : Nat → Nat → K} {π : Nat → Nat} {σ : Equiv.Perm (Fin n)} (hA : Holds n n d.A W)
    (hi : HoldsV n d.idx π) (hσ : ∀ i : Fin n, π i = σ i) (hd : ∀ c < n, W c c ≠ 0) {tmp : Arr K} {y : Nat → K} (ht : tmp.size = n)
    (hy : ∀ a < n, tmp.cell (π a) = some (y a)) :
    ∃ (tmp' : Arr K) (x : Nat → K), backward n d tmp = .ok tmp' ∧ tmp'.size = n ∧ ∀ a < n, tmp'.cell (π a) = some (x a) ∧ ∑ k ∈ Ico a n, W a k * x k = y a := by
  obtain ⟨tmp', e, h1, x, -, h2⟩ := loopDown_ok (hi := n) (s := tmp) (f := fun i tmp => do
    let s ← loop (i + 1) n (fun j s => do return s + (← array n d.A i j) * (← tmp.rd (← d.idx.rd j))) 0
    tmp.wr (← d.idx.rd i) (← divC ((← tmp.rd (← d.idx.rd i)) - s) (← array n d.A i i)))
    (fun i tmp => tmp.size = n ∧ ∃ x : Nat → K, (∀ a < i, a < n → tmp.cell (π a) = some (y a)) ∧
      ∀ a, i ≤ a → a < n → tmp.cell (π a) = some (x a) ∧ ∑ k ∈ Ico a n, W a k * x k = y a)
    ⟨ht, fun _ => 0, fun a _ ha => hy a ha, fun a h1 h2 => absurd h1 (by omega)⟩
    (by
      rintro i tmp hin ⟨h1, x, h2, h3⟩
      have hrd : ∀ a, i < a → a < n → tmp.rd (π a) = .ok (x a) := by
        intro a ha han
        unfold Arr.rd
        rw [if_pos (by rw [h1]; exact perm_lt hσ han), (h3 a ha han).1]
      have hrdi : tmp.rd (π i) = .ok (y i) := by
        unfold Arr.rd
        rw [if_pos (by rw [h1]; exact perm_lt hσ hin), h2 i (by omega) hin]
      have hsum := loop_sum (K := K) (lo := i + 1) (hi := n) (g := fun k => do return (← array n d.A i k) * (← tmp.rd (← d.idx.rd k)))
        (t := fun k => W i k * x k) hin
        (by intro k hk1 hk; simp only [hA.rd hin hk, hi.rd hk, hrd k hk1 hk, bind_ok]; rfl)
      have hsum' : loop (i + 1) n (fun j s => do return s + (← array n d.A i j) * (← tmp.rd (← d.idx.rd j))) 0 =
          .ok (∑ k ∈ Ico (i + 1) n, W i k * x k) := by
        rw [← hsum]
        congr 1
        funext k s
        cases array n d.A i k with
        | error e => rfl
        | ok x => cases d.idx.rd k with
          | error e => rfl
          | ok q => cases hq : tmp.rd q with
            | error e => simp only [bind_ok, hq]; rfl
            | ok z => simp only [bind_ok, hq]; rfl
      set v := (y i - ∑ k ∈ Ico (i + 1) n, W i k * x k) / W i i with hv
      refine ⟨{ tmp with cell := Function.update tmp.cell (π i) (some v) }, ?_, h1, Function.update x i v, ?_, ?_⟩
      · simp only [hsum', hi.rd hin, hrdi, hA.rd hin hin, bind_ok]
        unfold divC
        rw [if_neg (hd i hin), bind_ok]
        unfold Arr.wr
        rw [if_pos (by rw [h1]; exact perm_lt hσ hin)]
      · intro a ha han
        have hne : π a ≠ π i := fun hh => (by omega : a ≠ i) (perm_inj hσ han hin hh)
        simp only [Function.update_of_ne hne]
        exact h2 a (by omega) han
      · intro a ha han
        by_cases hai : a = i
        · subst hai
          simp only [Function.update_self]
          refine ⟨trivial, ?_⟩
          rw [← Finset.sum_Ioo_add_eq_sum_Ico (by omega)]
          have : ∑ k ∈ Ioo a n, W a k * Function.update x a v k = ∑ k ∈ Ico (a + 1) n, W a k * x k := by
            have : Ioo a n = Ico (a + 1) n := by ext k; rw [mem_Ioo, mem_Ico]; omega
            rw [this]
            apply sum_congr rfl
            intro k hk
            rw [mem_Ico] at hk
            rw [Function.update_of_ne (by omega)]
          rw [this, Function.update_self, hv]
          have := hd a hin
          field_simp
          ring
        · have hne : π a ≠ π i := fun hh => hai (perm_inj hσ han hin hh)
          simp only [Function.update_of_ne hne, Function.update_of_ne hai]
          refine ⟨(h3 a (by omega) han).1, ?_⟩
          rw [← (h3 a (by omega) han).2]
          apply sum_congr rfl
          intro k hk
          rw [mem_Ico] at hk
          rw [Function.update_of_ne (by omega)])
  exact ⟨tmp', x, e, h1, fun a ha => h2 a (Nat.zero_le _) ha⟩

theorem luSolve_ok {n : Nat} {d : Decomp K} {W : Nat → Nat → K} {π : Nat → Nat} {σ : Equiv.Perm (Fin n)} (hA : Holds n n d.A W)
    (hi : HoldsV n d.idx π) (hσ : ∀ i : Fin n, π i = σ i) (hd : ∀ c < n, W c c ≠ 0) {b : View K} {β : Nat → K} (hb : ∀ i < n, b i 0 = .ok (β i)) :
    ∃ (x : Arr K) (ξ : Nat → K), luSolve n d b = .ok x ∧ HoldsV n x ξ ∧ ∀ r < n, ∑ c ∈ range n, lu W r c * ξ c = β (π r) := by
  obtain ⟨t1, y, e1, s1, h1⟩ := forward_ok hA hi hσ hb
  obtain ⟨t2, ξ, e2, s2, h2⟩ := backward_ok hA hi hσ hd s1 (fun a ha => (h1 a ha).1)
  obtain ⟨x, e3, h3⟩ := loop_ok (lo := 0) (hi := n) (s := Arr.fresh K n) (f := fun i x => do x.wr i (← t2.rd (← d.idx.rd i)))
    (fun i x => x.size = n ∧ ∀ a < i, x.cell a = some (ξ a)) (Nat.zero_le _) ⟨rfl, fun a ha => absurd ha (by omega)⟩
    (by
      rintro i x - hin ⟨a1, a2⟩
      have hrd : t2.rd (π i) = .ok (ξ i) := by
        unfold Arr.rd
        rw [if_pos (by rw [s2]; exact perm_lt hσ hin), (h2 i hin).1]
      refine ⟨{ x with cell := Function.update x.cell i (some (ξ i)) }, ?_, a1, fun a ha => ?_⟩
      · simp only [hi.rd hin, hrd, bind_ok]
        unfold Arr.wr; rw [if_pos (by rw [a1]; exact hin)]
      · by_cases hai : a = i
        · subst hai; simp
        · simp only [Function.update_of_ne hai]; exact a2 a (by omega))
  refine ⟨x, ξ, ?_, h3, fun r hr => ?_⟩
  · unfold luSolve
    simp only [e1, e2, e3, bind_ok]
  · have hU : ∀ k < n, ∑ c ∈ range n, Uh W k c * ξ c = y k := by
      intro k hk
      rw [← (h2 k hk).2]
      have hsub : Ico k n ⊆ range n := by intro a; rw [mem_Ico, mem_range]; omega
      rw [← sum_subset hsub]
      · apply sum_congr rfl
        intro c hc
        rw [mem_Ico] at hc
        unfold Uh; rw [if_pos hc.1]
      · intro c hc hc'
        rw [mem_range] at hc
        rw [mem_Ico] at hc'
        unfold Uh; rw [if_neg (by omega), zero_mul]
    have e : ∑ c ∈ range n, lu W r c * ξ c = ∑ c ∈ range n, ∑ k ∈ range n, Lh W r k * (Uh W k c * ξ c) := by
      apply sum_congr rfl
      intro c hc
      rw [mem_range] at hc
      rw [← lu_eq W (m := n) hc, sum_mul]
      apply sum_congr rfl
      intro k _; ring
    rw [e, sum_comm]
    have e' : ∑ k ∈ range n, ∑ c ∈ range n, Lh W r k * (Uh W k c * ξ c) = ∑ k ∈ range n, Lh W r k * y k := by
      apply sum_congr rfl
      intro k hk
      rw [mem_range] at hk
      rw [← mul_sum, hU k hk]
    rw [e', lh_sum, ← (h1 r hr).2, min_eq_left hr.le, if_pos hr, add_comm]

end LU

end Verif.Bla
