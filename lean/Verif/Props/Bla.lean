import Verif.Spec.Bla
import Verif.Lemmas.Bla
import Verif.Props.Linalg
import Mathlib.LinearAlgebra.Matrix.Block

/-!
# C72: the matrix library, for all sizes
-/

namespace Verif.Bla

open Finset

/-! ### From matrices to element functions -/

section Ext
set_option linter.unusedSectionVars false
variable {K : Type} [Zero K]

/-- The elements of a matrix, zero outside. -/
def ext {r c : Nat} (M : Matrix (Fin r) (Fin c) K) (i j : Nat) : K := if h : i < r ∧ j < c then M ⟨i, h.1⟩ ⟨j, h.2⟩ else 0

theorem ext_apply {r c : Nat} (M : Matrix (Fin r) (Fin c) K) (i : Fin r) (j : Fin c) : ext M i j = M i j := by
  unfold ext; rw [dif_pos ⟨i.2, j.2⟩]

theorem denotes_iff {r c : Nat} (v : View K) (M : Matrix (Fin r) (Fin c) K) :
    Denotes v M ↔ ∀ i j, i < r → j < c → v i j = .ok (ext M i j) := by
  constructor
  · intro h i j hi hj
    have := h ⟨i, hi⟩ ⟨j, hj⟩
    rw [← ext_apply M] at this; exact this
  · intro h i j
    rw [h i j i.2 j.2, ext_apply]

theorem represents_iff {r c : Nat} (a : Arr K) (M : Matrix (Fin r) (Fin c) K) : Represents a M ↔ Holds r c a (ext M) := by
  constructor
  · rintro ⟨h1, h2⟩
    refine ⟨h1, fun i j hi hj => ?_⟩
    have := (denotes_iff _ _).1 h2 i j hi hj
    unfold array Arr.rd at this
    rw [if_pos (by rw [h1]; exact index_lt hi hj)] at this
    cases hc : a.cell (i * c + j) with
    | none => rw [hc] at this; cases this
    | some x => rw [hc] at this; rw [Except.ok.inj this]
  · intro h
    exact ⟨h.1, (denotes_iff _ _).2 fun i j hi hj => h.rd hi hj⟩

theorem holds_represents {r c : Nat} {a : Arr K} {W : Nat → Nat → K} (h : Holds r c a W) :
    Represents a (Matrix.of fun (i : Fin r) (j : Fin c) => W i j) := by
  refine ⟨h.1, fun i j => ?_⟩
  rw [h.rd i.2 j.2]; rfl

end Ext

/-! ### Loops over all elements -/

section Each
variable {K : Type}

/-- `a'` is `a` with element `k` replaced. -/
def Wrote (a a' : Arr K) (k : Nat) (x : K) : Prop := a'.size = a.size ∧ a'.cell = Function.update a.cell k (some x)

theorem setAt_wrote {c : Nat} {a : Arr K} {i j : Nat} {x : K} (h : i * c + j < a.size) : ∃ a', setAt c a i j x = .ok a' ∧ Wrote a a' (i * c + j) x := by
  unfold setAt Arr.wr
  rw [if_pos h]
  exact ⟨_, rfl, rfl, rfl⟩

/-- The state of the array when element `(i, j)` is reached: new values before it, old ones from it on. -/
def Mid (r c : Nat) (a : Arr K) (g : Nat → Nat → K) (i j : Nat) (a' : Arr K) : Prop :=
  a'.size = r * c ∧ ∀ i' j', i' < r → j' < c → a'.cell (i' * c + j') = if i' < i ∨ i' = i ∧ j' < j then some (g i' j') else a.cell (i' * c + j')

theorem each_ok {r c : Nat} {f : Nat → Nat → Arr K → C (Arr K)} {a : Arr K} (ha : a.size = r * c) (g : Nat → Nat → K)
    (hf : ∀ i j a', i < r → j < c → Mid r c a g i j a' → ∃ a'', f i j a' = .ok a'' ∧ Wrote a' a'' (i * c + j) (g i j)) :
    ∃ a', each r c f a = .ok a' ∧ Holds r c a' g := by
  obtain ⟨a', e, h⟩ := loop_ok (lo := 0) (hi := r) (s := a) (f := fun i a => loop 0 c (fun j a => f i j a) a) (fun i a' => Mid r c a g i 0 a')
    (Nat.zero_le _) ⟨ha, fun i' j' _ _ => by rw [if_neg (by omega)]⟩
    (by
      rintro i s - hi hm
      obtain ⟨s', e, h⟩ := loop_ok (lo := 0) (hi := c) (s := s) (f := fun j a => f i j a) (fun j a' => Mid r c a g i j a') (Nat.zero_le _) hm
        (by
          rintro j s - hj hm
          obtain ⟨s', e, h1, h2⟩ := hf i j s hi hj hm
          refine ⟨s', e, by rw [h1]; exact hm.1, fun i' j' hi' hj' => ?_⟩
          rw [h2]
          by_cases hij : i' = i ∧ j' = j
          · obtain ⟨rfl, rfl⟩ := hij
            rw [Function.update_self, if_pos (by omega)]
          · rw [Function.update_of_ne (fun hh => hij (index_inj hj' hj hh)), hm.2 i' j' hi' hj']
            by_cases h3 : i' < i ∨ i' = i ∧ j' < j
            · rw [if_pos h3, if_pos (by omega)]
            · rw [if_neg h3, if_neg (by omega)])
      refine ⟨s', e, h.1, fun i' j' hi' hj' => ?_⟩
      rw [h.2 i' j' hi' hj']
      by_cases h3 : i' < i ∨ i' = i ∧ j' < c
      · rw [if_pos h3, if_pos (by omega)]
      · rw [if_neg h3, if_neg (by omega)])
  refine ⟨a', e, h.1, fun i j hi hj => ?_⟩
  rw [h.2 i j hi hj, if_pos (Or.inl hi)]

theorem Mid.set {r c : Nat} {a a' : Arr K} {g : Nat → Nat → K} {i j : Nat} (h : Mid r c a g i j a') (hi : i < r) (hj : j < c) (x : K) :
    ∃ a'', setAt c a' i j x = .ok a'' ∧ Wrote a' a'' (i * c + j) x := setAt_wrote (by rw [h.1]; exact index_lt hi hj)

/-- The element reached still has its old value. -/
theorem Mid.rd {r c : Nat} {a a' : Arr K} {g W : Nat → Nat → K} {i j : Nat} (h : Mid r c a g i j a') (ha : Holds r c a W) (hi : i < r) (hj : j < c) :
    array c a' i j = .ok (W i j) := by
  unfold array Arr.rd
  rw [if_pos (by rw [h.1]; exact index_lt hi hj), h.2 i j hi hj, if_neg (by omega), ha.2 i j hi hj]

theorem copy_ok {r c : Nat} {v : View K} {g : Nat → Nat → K} (h : ∀ i j, i < r → j < c → v i j = .ok (g i j)) :
    ∃ a, copy r c v = .ok a ∧ Holds r c a g :=
  each_ok (a := Arr.fresh K (r * c)) rfl g (fun i j a' hi hj hm => by simp only [h i j hi hj, bind_ok]; exact hm.set hi hj _)

theorem assign_ok {r c : Nat} {v : View K} {g : Nat → Nat → K} (h : ∀ i j, i < r → j < c → v i j = .ok (g i j)) {a : Arr K} (ha : a.size = r * c) :
    ∃ a', assign r c (fun _ => v) a = .ok a' ∧ Holds r c a' g :=
  each_ok ha g (fun i j a' hi hj hm => by simp only [h i j hi hj, bind_ok]; exact hm.set hi hj _)

end Each

section Arith
set_option linter.unusedSectionVars false
variable {K : Type} [Field K] [LinearOrder K]

/-- **C72** The views: references to parts, transposes, concatenations, identity, zeros, the triangles stored in one matrix. -/
theorem C72_views {r c r' c' : Nat} {v w : View K} {M : Matrix (Fin r) (Fin c) K} (hv : Denotes v M) :
    Denotes (trans v) M.transpose ∧
    (∀ t l (ht : t + r' ≤ r) (hl : l + c' ≤ c),
      Denotes (reference v t l) (Matrix.of fun (i : Fin r') (j : Fin c') => M ⟨i + t, by omega⟩ ⟨j + l, by omega⟩)) ∧
    (∀ N : Matrix (Fin r) (Fin c') K, Denotes w N →
      Denotes (horzCat c v w) (Matrix.of fun (i : Fin r) (j : Fin (c + c')) => Fin.addCases (M i) (N i) j)) ∧
    (∀ N : Matrix (Fin r') (Fin c) K, Denotes w N →
      Denotes (vertCat r v w) (Matrix.of fun (i : Fin (r + r')) (j : Fin c) => Fin.addCases (fun i => M i j) (fun i => N i j) i)) ∧
    Denotes (eye : View K) (1 : Matrix (Fin r) (Fin r) K) ∧ Denotes (zeros : View K) (0 : Matrix (Fin r) (Fin c) K) := by
  refine ⟨fun i j => hv j i, fun t l ht hl i j => hv ⟨i + t, by omega⟩ ⟨j + l, by omega⟩, fun N hw i j => ?_, fun N hw i j => ?_, fun i j => ?_,
    fun i j => rfl⟩
  · unfold horzCat
    refine Fin.addCases (fun j => ?_) (fun j => ?_) j
    · rw [if_pos (by simp)]; simpa using hv i j
    · rw [if_neg (by simp)]; simpa using hw i j
  · unfold vertCat
    refine Fin.addCases (fun i => ?_) (fun i => ?_) i
    · rw [if_pos (by simp)]; simpa using hv i j
    · rw [if_neg (by simp)]; simpa using hw i j
  · unfold eye
    rw [Matrix.one_apply]
    by_cases h : i = j
    · rw [if_pos h, if_pos (congrArg _ h)]
    · rw [if_neg h, if_neg (fun hh => h (Fin.ext hh))]

theorem of_ext {r c : Nat} {a : Arr K} {W : Nat → Nat → K} (h : Holds r c a W) {M : Matrix (Fin r) (Fin c) K} (he : ∀ (i : Fin r) (j : Fin c), W i j = M i j) :
    Represents a M := by
  have := holds_represents h
  rwa [show (Matrix.of fun (i : Fin r) (j : Fin c) => W i j) = M from Matrix.ext he] at this

/-- **C72** Sums, differences, negation, copies, fills and scalar operations. -/
theorem C72_elementwise {r c : Nat} {v w : View K} {M N : Matrix (Fin r) (Fin c) K} (hv : Denotes v M) (hw : Denotes w N) (k : K) :
    (∃ a, copy r c v = .ok a ∧ Represents a M) ∧
    (∃ a, binary (· + ·) r c v w = .ok a ∧ Represents a (M + N)) ∧ (∃ a, binary (· - ·) r c v w = .ok a ∧ Represents a (M - N)) ∧
    (∃ a, neg r c v = .ok a ∧ Represents a (-M)) ∧
    (∃ a, scalar (fun x y => .ok (x + y)) r c v k = .ok a ∧ Represents a (M + Matrix.of fun _ _ => k)) ∧
    (∃ a, scalar (fun x y => .ok (x - y)) r c v k = .ok a ∧ Represents a (M - Matrix.of fun _ _ => k)) ∧
    (∃ a, scalar (fun x y => .ok (x * y)) r c v k = .ok a ∧ Represents a (k • M)) ∧
    (k ≠ 0 → ∃ a, scalar divC r c v k = .ok a ∧ Represents a (k⁻¹ • M)) := by
  rw [denotes_iff] at hv hw
  obtain ⟨a, e, ha⟩ := copy_ok hv
  have hbin : ∀ op : K → K → K, ∃ b, binary op r c v w = .ok b ∧ Holds r c b (fun i j => op (ext M i j) (ext N i j)) := by
    intro op
    unfold binary
    rw [e, bind_ok]
    exact each_ok ha.1 _ (fun i j a' hi hj hm => by simp only [hm.rd ha hi hj, hw i j hi hj, bind_ok]; exact hm.set hi hj _)
  have hsc : ∀ (op : K → K → C K) (g : K → K), (∀ x, op x k = .ok (g x)) → ∃ b, scalar op r c v k = .ok b ∧ Holds r c b (fun i j => g (ext M i j)) := by
    intro op g hop
    unfold scalar
    rw [e, bind_ok]
    exact each_ok ha.1 _ (fun i j a' hi hj hm => by simp only [hm.rd ha hi hj, hop, bind_ok]; exact hm.set hi hj _)
  refine ⟨⟨a, e, (represents_iff _ _).2 ha⟩, ?_, ?_, ?_, ?_, ?_, ?_, fun hk => ?_⟩
  · obtain ⟨b, e, h⟩ := hbin (· + ·); exact ⟨b, e, of_ext h (fun i j => by simp [ext_apply])⟩
  · obtain ⟨b, e, h⟩ := hbin (· - ·); exact ⟨b, e, of_ext h (fun i j => by simp [ext_apply])⟩
  · obtain ⟨b, e, h⟩ := each_ok (a := Arr.fresh K (r * c)) (f := fun i j a => do setAt c a i j (-(← v i j))) rfl (fun i j => -ext M i j)
      (fun i j a' hi hj hm => by simp only [hv i j hi hj, bind_ok]; exact hm.set hi hj _)
    exact ⟨b, e, of_ext h (fun i j => by simp [ext_apply])⟩
  · obtain ⟨b, e, h⟩ := hsc (fun x y => .ok (x + y)) (fun x => x + k) (fun _ => rfl); exact ⟨b, e, of_ext h (fun i j => by simp [ext_apply])⟩
  · obtain ⟨b, e, h⟩ := hsc (fun x y => .ok (x - y)) (fun x => x - k) (fun _ => rfl); exact ⟨b, e, of_ext h (fun i j => by simp [ext_apply])⟩
  · obtain ⟨b, e, h⟩ := hsc (fun x y => .ok (x * y)) (fun x => x * k) (fun _ => rfl); exact ⟨b, e, of_ext h (fun i j => by simp [ext_apply, mul_comm])⟩
  · obtain ⟨b, e, h⟩ := hsc divC (fun x => x / k) (fun x => by unfold divC; rw [if_neg hk])
    exact ⟨b, e, of_ext h (fun i j => by simp [ext_apply, div_eq_inv_mul])⟩

/-- **C72** The matrix product, of any two views. -/
theorem C72_product {r m c : Nat} {v w : View K} {M : Matrix (Fin r) (Fin m) K} {N : Matrix (Fin m) (Fin c) K} (hm : 0 < m) (hv : Denotes v M)
    (hw : Denotes w N) : ∃ a, product r m c v w = .ok a ∧ Represents a (M * N) := by
  rw [denotes_iff] at hv hw
  obtain ⟨a, e, h⟩ := each_ok (a := Arr.fresh K (r * c)) (f := fun i j a => do
    let a ← if 0 < m then do setAt c a i j ((← v i 0) * (← w 0 j)) else pure a
    loop 1 m (fun k a => do setAt c a i j ((← array c a i j) + (← v i k) * (← w k j))) a) rfl
    (fun i j => ∑ k ∈ range m, ext M i k * ext N k j)
    (fun i j a' hi hj hmid => by
      obtain ⟨a1, e1, s1, c1⟩ := hmid.set hi hj (ext M i 0 * ext N 0 j)
      obtain ⟨a2, e2, s2, c2⟩ := loop_ok (lo := 1) (hi := m) (s := a1) (f := fun k a => do setAt c a i j ((← array c a i j) + (← v i k) * (← w k j)))
        (fun k a2 => Wrote a' a2 (i * c + j) (∑ k ∈ range k, ext M i k * ext N k j)) hm ⟨s1, by rw [c1]; simp⟩
        (by
          rintro k a2 hk1 hk ⟨s2, c2⟩
          have hsz : i * c + j < a2.size := by rw [s2, hmid.1]; exact index_lt hi hj
          have hrd : array c a2 i j = .ok (∑ k ∈ range k, ext M i k * ext N k j) := by
            unfold array Arr.rd
            rw [if_pos hsz, c2, Function.update_self]
          obtain ⟨a3, e3, s3, c3⟩ := setAt_wrote (x := ∑ k ∈ range (k + 1), ext M i k * ext N k j) hsz
          refine ⟨a3, ?_, by rw [s3, s2], ?_⟩
          · simp only [hrd, hv i k hi hk, hw k j hk hj, bind_ok]
            rw [sum_range_succ] at e3; exact e3
          · rw [c3, c2, Function.update_idem])
      refine ⟨a2, ?_, s2, c2⟩
      simp only [if_pos hm, hv i 0 hi hm, hw 0 j hm hj, bind_ok, e1, e2])
  refine ⟨a, e, of_ext h (fun i j => ?_)⟩
  rw [Matrix.mul_apply, ← Fin.sum_univ_eq_sum_range (fun k => ext M i k * ext N k j) m]
  exact Finset.sum_congr rfl fun k _ => by rw [ext_apply, ext_apply]

/-- **C72** The updating operators, also with the matrix itself as operand. -/
theorem C72_update {n c : Nat} {a : Arr K} {w : View K} {M N : Matrix (Fin n) (Fin c) K} (ha : Represents a M) (hw : Denotes w N) :
    (∃ b, assign n c (fun _ => w) a = .ok b ∧ Represents b N) ∧
    (∃ b, updateWith (· + ·) n c (fun _ => w) a = .ok b ∧ Represents b (M + N)) ∧
    (∃ b, updateWith (· - ·) n c (fun _ => w) a = .ok b ∧ Represents b (M - N)) ∧
    (∃ b, updateWith (· + ·) n c (array c) a = .ok b ∧ Represents b (M + M)) ∧
    (∃ b, updateWith (· - ·) n c (array c) a = .ok b ∧ Represents b (M - M)) := by
  rw [denotes_iff] at hw
  rw [represents_iff] at ha
  have hup : ∀ op : K → K → K, ∃ b, updateWith op n c (fun _ => w) a = .ok b ∧ Holds n c b (fun i j => op (ext M i j) (ext N i j)) := fun op =>
    each_ok ha.1 _ (fun i j a' hi hj hm => by simp only [hm.rd ha hi hj, hw i j hi hj, bind_ok]; exact hm.set hi hj _)
  have hself : ∀ op : K → K → K, ∃ b, updateWith op n c (array c) a = .ok b ∧ Holds n c b (fun i j => op (ext M i j) (ext M i j)) := fun op =>
    each_ok ha.1 _ (fun i j a' hi hj hm => by simp only [hm.rd ha hi hj, bind_ok]; exact hm.set hi hj _)
  refine ⟨?_, ?_, ?_, ?_, ?_⟩
  · obtain ⟨b, e, h⟩ := assign_ok hw ha.1; exact ⟨b, e, (represents_iff _ _).2 h⟩
  · obtain ⟨b, e, h⟩ := hup (· + ·); exact ⟨b, e, of_ext h (fun i j => by simp [ext_apply])⟩
  · obtain ⟨b, e, h⟩ := hup (· - ·); exact ⟨b, e, of_ext h (fun i j => by simp [ext_apply])⟩
  · obtain ⟨b, e, h⟩ := hself (· + ·); exact ⟨b, e, of_ext h (fun i j => by simp [ext_apply])⟩
  · obtain ⟨b, e, h⟩ := hself (· - ·); exact ⟨b, e, of_ext h (fun i j => by simp [ext_apply])⟩

/-- **C72** `A *= B` and `A *= A`: the product replaces the left operand. -/
theorem C72_product_into {n : Nat} {a : Arr K} {w : View K} {M N : Matrix (Fin n) (Fin n) K} (ha : Represents a M) (hw : Denotes w N) :
    (∃ b, productInto n a (fun _ => w) = .ok b ∧ Represents b (M * N)) ∧ ∃ b, productInto n a (array n) = .ok b ∧ Represents b (M * M) := by
  have key : ∀ (w : Arr K → View K) (N : Matrix (Fin n) (Fin n) K), Denotes (w a) N → ∃ b, productInto n a w = .ok b ∧ Represents b (M * N) := by
    intro w N hw
    obtain ⟨t, e1, h1⟩ := (C72_elementwise ha.2 ha.2 (0 : K)).1
    unfold productInto
    rw [e1, bind_ok]
    by_cases hn : 0 < n
    · obtain ⟨p, e2, h2⟩ := C72_product hn h1.2 hw
      rw [e2, bind_ok]
      exact (C72_update ha h2.2).1
    · have : n = 0 := by omega
      subst this
      exact ⟨a, rfl, ha.1, fun i => i.elim0⟩
  exact ⟨key _ N hw, key _ M ha.2⟩

/-- **C72** Assigning a matrix its own transpose (`A = ~A`) does not transpose it: the lower triangle is mirrored. -/
theorem C72_self_transpose {n : Nat} {a : Arr K} {M : Matrix (Fin n) (Fin n) K} (ha : Represents a M) :
    ∃ b, assign n n (fun a => trans (array n a)) a = .ok b ∧ Represents b (Matrix.of fun i j => M (max i j) (min i j)) := by
  rw [represents_iff] at ha
  obtain ⟨b, e, h⟩ := each_ok (f := fun i j a => do setAt n a i j (← trans (array n a) i j)) ha.1 (fun i j => ext M (max i j) (min i j))
    (fun i j a' hi hj hm => by
      have : trans (array n a') i j = .ok (ext M (max i j) (min i j)) := by
        unfold trans array Arr.rd
        rw [if_pos (by rw [hm.1]; exact index_lt hj hi), hm.2 j i hj hi]
        by_cases hji : j < i ∨ j = i ∧ i < j
        · rw [if_pos hji, max_comm, min_comm]
        · rw [if_neg hji, ha.2 j i hj hi, max_eq_right (by omega), min_eq_left (by omega)]
      simp only [this, bind_ok]; exact hm.set hi hj _)
  refine ⟨b, e, of_ext h (fun i j => ?_)⟩
  show ext M (max (i : Nat) j) (min (i : Nat) j) = M (max i j) (min i j)
  rw [← ext_apply M]
  rcases le_total i j with hij | hij
  · rw [max_eq_right hij, min_eq_left hij, max_eq_right (by exact_mod_cast hij), min_eq_left (by exact_mod_cast hij)]
  · rw [max_eq_left hij, min_eq_right hij, max_eq_left (by exact_mod_cast hij), min_eq_right (by exact_mod_cast hij)]

/-- **C72** The trace of a square matrix. -/
theorem C72_trace {n : Nat} {v : View K} {M : Matrix (Fin n) (Fin n) K} (hv : Denotes v M) : trace n v = .ok M.trace := by
  rw [denotes_iff] at hv
  unfold trace
  rw [loop_sum (t := fun i => ext M i i) (Nat.zero_le _) (fun i _ hi => hv i i hi hi), ← range_eq_Ico, ← Fin.sum_univ_eq_sum_range (fun i => ext M i i) n]
  exact congrArg _ (Finset.sum_congr rfl fun i _ => ext_apply M i i)

/-- **C72** `Norm` takes the square root of the sum of the squares of all elements. -/
theorem C72_norm {r c : Nat} {v : View K} {M : Matrix (Fin r) (Fin c) K} (hv : Denotes v M) : normSq r c v = .ok (∑ i, ∑ j, M i j ^ 2) := by
  rw [denotes_iff] at hv
  unfold normSq
  obtain ⟨s, h1, h2⟩ := loop_ok (f := fun i (s : K) => loop 0 c (fun j s => do return s + (← v i j) * (← v i j)) s) (s := 0)
    (fun i s => s = ∑ k ∈ range i, ∑ j ∈ range c, ext M k j ^ 2) (Nat.zero_le r) (by simp) (by
      intro i s _ hi hs
      obtain ⟨s', h3, h4⟩ := loop_ok (f := fun j (s : K) => do return s + (← v i j) * (← v i j)) (s := s)
        (fun j s' => s' = s + ∑ k ∈ range j, ext M i k ^ 2) (Nat.zero_le c) (by simp) (by
          intro j s' _ hj hs'
          refine ⟨s' + ext M i j * ext M i j, by simp only [hv i j hi hj]; rfl, ?_⟩
          rw [hs', Finset.sum_range_succ, pow_two]; ring)
      exact ⟨s', h3, by rw [h4, hs, Finset.sum_range_succ]⟩)
  rw [h1, h2, ← Fin.sum_univ_eq_sum_range (fun i => ∑ j ∈ range c, ext M i j ^ 2) r]
  refine congrArg _ (Finset.sum_congr rfl fun i _ => ?_)
  rw [← Fin.sum_univ_eq_sum_range (fun j => ext M i j ^ 2) c]
  exact Finset.sum_congr rfl fun j _ => by rw [ext_apply M i j]

end Arith

section LU
set_option linter.unusedSectionVars false
variable {K : Type} [Field K] [LinearOrder K] [IsStrictOrderedRing K]

theorem rowZero_iff {n : Nat} (A : Matrix (Fin n) (Fin n) K) (stray : K) (i : Fin n) : RowZero n (ext A) stray i ↔ ZeroRow A stray i := by
  unfold RowZero ZeroRow next
  apply and_congr
  · constructor
    · intro h j
      rw [← ext_apply A]; exact h j j.2
    · intro h j hj
      have := h ⟨j, hj⟩
      rw [← ext_apply A] at this; exact this
  · by_cases hi : (i : Nat) + 1 < n
    · rw [if_pos hi, dif_pos hi, ← ext_apply A]
    · rw [if_neg hi, dif_neg hi]

theorem rowZero_exists {n : Nat} (A : Matrix (Fin n) (Fin n) K) (stray : K) : (∃ i < n, RowZero n (ext A) stray i) ↔ ∃ i, ZeroRow A stray i := by
  constructor
  · rintro ⟨i, hi, h⟩; exact ⟨⟨i, hi⟩, (rowZero_iff A stray ⟨i, hi⟩).1 h⟩
  · rintro ⟨i, h⟩; exact ⟨i, i.2, (rowZero_iff A stray i).2 h⟩

theorem mat_ext {n : Nat} (A : Matrix (Fin n) (Fin n) K) : mat n (ext A) = A := by
  ext i j; exact ext_apply A i j

/-- The permutation matrix stored as `idx`. -/
def permMat {n : Nat} (σ : Equiv.Perm (Fin n)) : Matrix (Fin n) (Fin n) K := Matrix.of fun i j => if σ j = i then 1 else 0

theorem permMat_mul {n : Nat} (σ : Equiv.Perm (Fin n)) (X : Matrix (Fin n) (Fin n) K) (r c : Fin n) : ((permMat σ : Matrix (Fin n) (Fin n) K) * X) (σ r) c = X r c := by
  rw [Matrix.mul_apply]
  simp only [permMat, Matrix.of_apply, σ.injective.eq_iff, ite_mul, one_mul, zero_mul]
  simp

/-- What a completed decomposition says about the matrix. -/
theorem inv_facts {n : Nat} {A : Matrix (Fin n) (Fin n) K} {d : Decomp K} {sc : Arr K} {W : Nat → Nat → K} {π : Nat → Nat}
    {σ : Equiv.Perm (Fin n)} {e : Nat → K} (h : Inv n (ext A) n (d, sc) W π σ e) :
    Denotes (permutation d.idx) (permMat σ : Matrix (Fin n) (Fin n) K) ∧ Denotes (lowerOnes (array n d.A)) (mat n (Lh W)) ∧
    Denotes (upperTri (array n d.A)) (mat n (Uh W)) ∧
    ∃ E : Matrix (Fin n) (Fin n) K, Tiny E ∧ (A.det ≠ 0 → E = 0) ∧ (∀ r c, (A + E) (σ r) c = (mat n (Lh W) * mat n (Uh W)) r c) ∧
      ∀ r c : Fin n, lu W r c = (A + E) (σ r) c := by
  refine ⟨fun i j => ?_, fun i j => ?_, fun i j => ?_, Matrix.of fun i j => if σ j = i then e j else 0, ⟨?_, ?_, ?_⟩, ?_, ?_⟩
  · unfold permutation
    rw [h.idx.rd j.2, bind_ok, h.perm j]
    show Except.ok _ = Except.ok _
    congr 1
    simp only [permMat, Matrix.of_apply]
    by_cases hij : σ j = i
    · rw [if_pos hij, if_pos (congrArg _ hij)]
    · rw [if_neg hij, if_neg (fun hh => hij (Fin.ext hh))]
  · unfold lowerOnes
    simp only [mat, Matrix.of_apply, Lh]
    split
    · exact h.holds.rd i.2 j.2
    · split <;> rfl
  · unfold upperTri
    simp only [mat, Matrix.of_apply, Uh]
    split
    · exact h.holds.rd i.2 j.2
    · rfl
  · intro i j
    simp only [Matrix.of_apply]
    split
    · exact h.eps j
    · exact Or.inl rfl
  · intro i j j' h1 h2
    simp only [Matrix.of_apply, ne_eq, ite_eq_right_iff, Classical.not_imp] at h1 h2
    exact σ.injective (h1.1.trans h2.1.symm)
  · intro i i' j h1 h2
    simp only [Matrix.of_apply, ne_eq, ite_eq_right_iff, Classical.not_imp] at h1 h2
    exact h1.1.symm.trans h2.1
  · intro hdet
    ext i j
    simp only [Matrix.of_apply, Matrix.zero_apply, ite_eq_right_iff]
    intro _
    by_contra hne
    exact hdet (by rw [← mat_ext A]; exact h.det j j.2 hne)
  · have key : ∀ r c : Fin n, lu W r c = (A + Matrix.of fun i j => if σ j = i then e j else 0) (σ r) c := by
      intro r c
      rw [← h.rel r r.2 c c.2, Matrix.add_apply, Matrix.of_apply, h.perm r, ext_apply]
      congr 1
      by_cases hrc : r = c
      · subst hrc; rw [if_pos rfl, if_pos rfl]
      · rw [if_neg (fun hh => hrc (Fin.ext hh)), if_neg (fun hh => hrc (σ.injective hh).symm)]
    refine ⟨fun r c => ?_, key⟩
    rw [← key, ← lu_eq W c.2, Matrix.mul_apply, ← Fin.sum_univ_eq_sum_range (fun k => Lh W r k * Uh W k c) n]
    rfl

theorem mul_perm {n : Nat} {σ : Equiv.Perm (Fin n)} {B L U : Matrix (Fin n) (Fin n) K} (h : ∀ r c, B (σ r) c = (L * U) r c) :
    permMat σ * L * U = B := by
  ext i c
  obtain ⟨r, rfl⟩ := σ.surjective i
  rw [Matrix.mul_assoc, permMat_mul, h]

theorem det_ne_rows {n : Nat} {A : Matrix (Fin n) (Fin n) K} (hd : A.det ≠ 0) (stray : K) : ¬ ∃ i, ZeroRow A stray i := by
  rintro ⟨i, h, -⟩
  exact hd (Matrix.det_eq_zero_of_row_eq_zero i h)

/-- **C72** `LUDecompose`, for matrices of every size and whatever value lies behind the array: no access outside the arrays (apart from
that value), no read of unwritten elements, no division by zero.  It reports a singular matrix exactly if some row is zero together with
the element stored after it; otherwise `P() * L() * U()` is the matrix given, up to `10⁻²⁰` in some elements, at most one in each row and
column, and exactly if the matrix is not singular. -/
theorem C72_lu {n : Nat} {a : Arr K} {A : Matrix (Fin n) (Fin n) K} (ha : Represents a A) (stray : K) :
    ∃ d, luDecompose n a stray = .ok d ∧ (d.singular = true ↔ ∃ i, ZeroRow A stray i) ∧
      (d.singular = false → ∃ P L U E : Matrix (Fin n) (Fin n) K, Denotes (permutation d.idx) P ∧ Denotes (lowerOnes (array n d.A)) L ∧
        Denotes (upperTri (array n d.A)) U ∧ P * L * U = A + E ∧ Tiny E ∧ (A.det ≠ 0 → E = 0)) := by
  obtain ⟨d, e1, h⟩ := luDecompose_ok ((represents_iff _ _).1 ha) stray
  refine ⟨d, e1, ?_⟩
  rcases h with ⟨h1, -, -, h2⟩ | ⟨h1, sc, W, π, σ, e, hI⟩
  · exact ⟨⟨fun _ => (rowZero_exists A stray).1 h2, fun _ => h1⟩, fun h => absurd (h.symm.trans h1) Bool.false_ne_true⟩
  · have hs : d.singular = false := hI.sing
    refine ⟨⟨fun h => absurd (hs.symm.trans h) Bool.false_ne_true, fun h => ?_⟩, fun _ => ?_⟩
    · obtain ⟨i, hi, hz⟩ := (rowZero_exists A stray).2 h
      exact absurd hz (h1 i hi)
    · obtain ⟨f1, f2, f3, E, f4, f5, f6, -⟩ := inv_facts hI
      exact ⟨_, _, _, E, f1, f2, f3, mul_perm f6, f4, f5⟩

/-- **C72** `LUSolve` after `LUDecompose` solves every linear system with a non-singular matrix. -/
theorem C72_solve {n : Nat} {a : Arr K} {A : Matrix (Fin n) (Fin n) K} (ha : Represents a A) (hd : A.det ≠ 0) (stray : K) {v : View K}
    {b : Fin n → K} (hb : ∀ i : Fin n, v i 0 = .ok (b i)) :
    ∃ d x, luDecompose n a stray = .ok d ∧ d.singular = false ∧ luSolve n d v = .ok x ∧ x.size = n ∧
      ∃ ξ : Fin n → K, (∀ i : Fin n, x.rd i = .ok (ξ i)) ∧ A.mulVec ξ = b := by
  obtain ⟨d, e1, h⟩ := luDecompose_ok ((represents_iff _ _).1 ha) stray
  rcases h with ⟨-, -, -, h2⟩ | ⟨-, sc, W, π, σ, e, hI⟩
  · exact absurd ((rowZero_exists A stray).1 h2) (det_ne_rows hd stray)
  · obtain ⟨-, -, -, E, -, f5, -, f7⟩ := inv_facts hI
    obtain ⟨x, ξ, e2, h2, h3⟩ := luSolve_ok hI.holds hI.idx hI.perm hI.diag (b := v) (β := fun i => if h : i < n then b ⟨i, h⟩ else 0)
      (by intro i hi; rw [dif_pos hi]; exact hb ⟨i, hi⟩)
    refine ⟨d, x, e1, hI.sing, e2, h2.1, fun i => ξ i, fun i => h2.rd i.2, ?_⟩
    funext i
    obtain ⟨r, rfl⟩ := σ.surjective i
    have := h3 r r.2
    rw [hI.perm r, dif_pos (Fin.is_lt _), ← Fin.sum_univ_eq_sum_range (fun c => lu W r c * ξ c) n] at this
    rw [Matrix.mulVec, dotProduct, ← this]
    apply Finset.sum_congr rfl
    intro c _
    rw [f7, f5 hd, add_zero]

/-- **C72** `Invert(A, out)` for every size: it returns false, leaving `out` alone, exactly if some row is zero together with the element
stored after it; otherwise `out` becomes the two-sided inverse of a matrix that differs from `A` by `10⁻²⁰` in at most one element of each
row and column, and of `A` itself if `A` is not singular. -/
theorem C72_invert {n : Nat} {v : View K} {A : Matrix (Fin n) (Fin n) K} (hv : Denotes v A) (out : Arr K) (ho : out.size = n * n) (stray : K) :
    ((∃ i, ZeroRow A stray i) ∧ invert n v out stray = .ok (false, out)) ∨
    ((¬ ∃ i, ZeroRow A stray i) ∧ ∃ out' R E, invert n v out stray = .ok (true, out') ∧ Represents out' R ∧ (A + E) * R = 1 ∧ R * (A + E) = 1 ∧
      Tiny E ∧ (A.det ≠ 0 → E = 0)) := by
  obtain ⟨a, e0, h0⟩ := copy_ok ((denotes_iff _ _).1 hv)
  obtain ⟨d, e1, h⟩ := luDecompose_ok h0 stray
  rcases h with ⟨h1, -, -, h2⟩ | ⟨h1, sc, W, π, σ, e, hI⟩
  · left
    refine ⟨(rowZero_exists A stray).1 h2, ?_⟩
    unfold invert
    simp only [e0, e1, bind_ok, h1, if_true]; rfl
  · right
    have hs : d.singular = false := hI.sing
    refine ⟨fun h => ?_, ?_⟩
    · obtain ⟨i, hi, hz⟩ := (rowZero_exists A stray).2 h
      exact absurd hz (h1 i hi)
    · obtain ⟨-, -, -, E, f4, f5, -, f7⟩ := inv_facts hI
      obtain ⟨b, e2, h2⟩ := copy_ok (K := K) (r := n) (c := 1) (v := zeros) (g := fun _ _ => 0) (fun _ _ _ _ => rfl)
      obtain ⟨s, e3, h3, h4, R, h5⟩ := loop_ok (lo := 0) (hi := n) (s := (b, out)) (f := fun j (s : Arr K × Arr K) => do
        let b ← setAt 1 s.1 j 0 1
        let x ← luSolve n d (array 1 b)
        let out ← loop 0 n (fun i out => do setAt n out i j (← array 1 x i 0)) s.2
        let b ← setAt 1 b j 0 0
        return (b, out))
        (fun j s => Holds n 1 s.1 (fun _ _ => 0) ∧ s.2.size = n * n ∧ ∃ R : Nat → Nat → K, ∀ c < j, (∀ i < n, s.2.cell (i * n + c) = some (R i c)) ∧
          ∀ r < n, ∑ k ∈ range n, lu W r k * R k c = if π r = c then 1 else 0) (Nat.zero_le _)
        ⟨h2, ho, fun _ _ => 0, fun c hc => absurd hc (by omega)⟩
        (by
          rintro j ⟨b, o⟩ - hj ⟨g1, g2, R, g3⟩
          simp only at g1 g2 g3
          obtain ⟨b1, e4, h4⟩ := g1.set (i := j) (j := 0) hj Nat.one_pos 1
          obtain ⟨x, ξ, e5, h5, h6⟩ := luSolve_ok hI.holds hI.idx hI.perm hI.diag (b := array 1 b1)
            (β := fun i => if i = j then 1 else 0) (by
              intro i hi
              rw [h4.rd hi Nat.one_pos]
              simp [upd])
          obtain ⟨b2, e7, h7⟩ := h4.set (i := j) (j := 0) hj Nat.one_pos 0
          obtain ⟨o', e6, k1, k2⟩ := loop_ok (lo := 0) (hi := n) (s := o) (f := fun i out => do setAt n out i j (← array 1 x i 0))
            (fun i o' => o'.size = n * n ∧ ∀ i' c, i' < n → c < n → o'.cell (i' * n + c) = if c = j ∧ i' < i then some (ξ i') else o.cell (i' * n + c))
            (Nat.zero_le _) ⟨g2, fun i' c _ _ => by rw [if_neg (by omega)]⟩
            (by
              rintro i o' - hi ⟨k1, k2⟩
              have hx : array 1 x i 0 = .ok (ξ i) := by
                unfold array
                rw [Nat.mul_one, Nat.add_zero]; exact h5.rd hi
              obtain ⟨o2, e8, s8, c8⟩ := setAt_wrote (c := n) (a := o') (i := i) (j := j) (x := ξ i) (by rw [k1]; exact index_lt hi hj)
              refine ⟨o2, by simp only [hx, bind_ok, e8], by rw [s8, k1], fun i' c hi' hc => ?_⟩
              rw [c8]
              by_cases hic : i' = i ∧ c = j
              · obtain ⟨rfl, rfl⟩ := hic
                rw [Function.update_self, if_pos ⟨rfl, by omega⟩]
              · rw [Function.update_of_ne (fun hh => hic (index_inj hc hj hh)), k2 i' c hi' hc]
                by_cases hcj : c = j ∧ i' < i
                · rw [if_pos hcj, if_pos (by omega)]
                · rw [if_neg hcj, if_neg (by omega)])
          refine ⟨(b2, o'), by simp only [e4, e5, e6, e7, bind_ok]; rfl, ?_, k1, fun i c => if c = j then ξ i else R i c, fun c hc => ?_⟩
          · refine ⟨h7.1, fun i l hi hl => ?_⟩
            rw [h7.2 i l hi hl]
            have : l = 0 := by omega
            subst this
            simp only [upd, and_true]
            by_cases hij : i = j <;> simp [hij]
          · by_cases hcj : c = j
            · subst hcj
              simp only [if_true]
              refine ⟨fun i hi => by rw [k2 i c hi hj, if_pos ⟨rfl, hi⟩], fun r hr => ?_⟩
              rw [h6 r hr]
            · simp only [if_neg hcj]
              refine ⟨fun i hi => ?_, (g3 c (by omega)).2⟩
              rw [k2 i c hi (by omega), if_neg (by omega)]
              exact (g3 c (by omega)).1 i hi)
      have hR : Represents s.2 (mat n R) := holds_represents ⟨h4, fun i j hi hj => (h5 j hj).1 i hi⟩
      have hmul : (A + E) * mat n R = 1 := by
        ext i c
        obtain ⟨r, rfl⟩ := σ.surjective i
        have := (h5 c c.2).2 r r.2
        rw [← Fin.sum_univ_eq_sum_range (fun k => lu W r k * R k c) n, hI.perm r] at this
        rw [Matrix.mul_apply, Matrix.one_apply]
        have e9 : ∑ k, (A + E) (σ r) k * mat n R k c = ∑ k : Fin n, lu W r k * R k c :=
          Finset.sum_congr rfl fun k _ => by rw [f7]; rfl
        rw [e9, this]
        by_cases hrc : σ r = c
        · rw [if_pos hrc, if_pos (congrArg _ hrc)]
        · rw [if_neg hrc, if_neg (fun hh => hrc (Fin.ext hh))]
      refine ⟨s.2, mat n R, E, ?_, hR, hmul, mul_eq_one_comm.1 hmul, f4, f5⟩
      unfold invert
      simp only [e0, e1, e2, e3, bind_ok, hs]; rfl

/-- **C72** In place (`Invert(A)`): a non-singular matrix is replaced by its inverse. -/
theorem C72_invert_in_place {n : Nat} {a : Arr K} {A : Matrix (Fin n) (Fin n) K} (ha : Represents a A) (hd : A.det ≠ 0) (stray : K) :
    ∃ b R, invertInPlace n a stray = .ok (true, b) ∧ Represents b R ∧ A * R = 1 ∧ R * A = 1 := by
  rcases C72_invert ha.2 a ha.1 stray with ⟨h, -⟩ | ⟨-, b, R, E, h1, h2, h3, h4, -, h5⟩
  · exact absurd h (det_ne_rows hd stray)
  · rw [h5 hd, add_zero] at h3 h4
    exact ⟨b, R, h1, h2, h3, h4⟩

theorem loop_prod {lo hi : Nat} {g : Nat → C K} {t : Nat → K} {s : K} (hle : lo ≤ hi) (h : ∀ i, lo ≤ i → i < hi → g i = .ok (t i)) :
    loop lo hi (fun i s => do return s * (← g i)) s = .ok (s * ∏ k ∈ Ico lo hi, t k) := by
  obtain ⟨r, h1, h2⟩ := loop_ok (f := fun i (s : K) => do return s * (← g i)) (s := s) (fun i r => r = s * ∏ k ∈ Ico lo i, t k) hle (by simp)
    (by
      intro i r a b c
      refine ⟨r * t i, by simp only [h i a b]; rfl, ?_⟩
      rw [c, Finset.prod_Ico_succ_top a, mul_assoc])
  rw [h1, h2]

theorem det_lower {n : Nat} (W : Nat → Nat → K) : (mat n (Lh W)).det = 1 := by
  rw [Matrix.det_of_isLowerTriangular]
  · apply Finset.prod_eq_one
    intro i _
    simp [mat, Lh]
  · intro i j hij
    have : (i : Nat) < j := by exact_mod_cast (show i < j from hij)
    simp only [mat, Matrix.of_apply, Lh]
    rw [if_neg (by omega), if_neg (by omega)]

theorem det_upper {n : Nat} (W : Nat → Nat → K) : (mat n (Uh W)).det = ∏ i : Fin n, W i i := by
  rw [Matrix.det_of_isUpperTriangular]
  · apply Finset.prod_congr rfl
    intro i _
    simp [mat, Uh]
  · intro i j hij
    have : (j : Nat) < i := by exact_mod_cast (show j < i from hij)
    simp only [mat, Matrix.of_apply, Uh]
    rw [if_neg (by omega)]

/-- **C72** `Determinant`: exact for non-singular matrices; for the others it is zero exactly if some row is zero together with the element
stored after it, otherwise the non-zero determinant of a matrix that differs from the given one by `10⁻²⁰` in some elements. -/
theorem C72_determinant {n : Nat} {v : View K} {A : Matrix (Fin n) (Fin n) K} (hv : Denotes v A) (stray : K) :
    ∃ x, determinant n v stray = .ok x ∧ (A.det ≠ 0 → x = A.det) ∧ (x = 0 ↔ ∃ i, ZeroRow A stray i) ∧
      ∃ E, Tiny E ∧ x = (A + E).det := by
  obtain ⟨a, e0, h0⟩ := copy_ok ((denotes_iff _ _).1 hv)
  obtain ⟨d, e1, h⟩ := luDecompose_ok h0 stray
  rcases h with ⟨-, h1, h2, h3⟩ | ⟨h1, sc, W, π, σ, e, hI⟩
  · have hz := (rowZero_exists A stray).1 h3
    obtain ⟨i, hi, hi'⟩ := hz
    have hA0 : A.det = 0 := Matrix.det_eq_zero_of_row_eq_zero i hi
    refine ⟨0, ?_, fun h => absurd hA0 h, ⟨fun _ => ⟨i, hi, hi'⟩, fun _ => rfl⟩, 0, ⟨fun _ _ => Or.inl rfl, fun _ _ _ h => absurd rfl h, fun _ _ _ h => absurd rfl h⟩, ?_⟩
    · unfold determinant
      simp only [e0, e1, bind_ok, h1, h2]
      rw [loop_prod (t := fun i => ext A i i) (Nat.zero_le _) (by
        intro k _ hk
        unfold upperTri
        rw [if_pos le_rfl, h0.rd hk hk])]
      congr 1
      rw [one_mul]
      apply Finset.prod_eq_zero (i := (i : Nat)) (by rw [mem_Ico]; exact ⟨Nat.zero_le _, i.2⟩)
      rw [ext_apply, hi]
    · rw [add_zero, hA0]
  · obtain ⟨-, -, -, E, f4, f5, f6, -⟩ := inv_facts hI
    have hdet : determinant n v stray = .ok (A + E).det := by
      unfold determinant
      simp only [e0, e1, bind_ok]
      rw [loop_prod (t := fun i => W i i) (Nat.zero_le _) (by
        intro k _ hk
        unfold upperTri
        rw [if_pos le_rfl, hI.holds.rd hk hk])]
      congr 1
      have hL := det_lower (n := n) W
      have hU := det_upper (n := n) W
      have hsub : (A + E).submatrix σ id = mat n (Lh W) * mat n (Uh W) := by
        ext r c; exact f6 r c
      have := congrArg Matrix.det hsub
      rw [Matrix.det_permute, Matrix.det_mul, hL, hU, one_mul] at this
      rw [← range_eq_Ico, ← Fin.prod_univ_eq_prod_range (fun i => W i i) n, ← this]
      rw [hI.parity, ← mul_assoc]
      have hsq : (((Equiv.Perm.sign σ : ℤˣ) : ℤ) : K) * (((Equiv.Perm.sign σ : ℤˣ) : ℤ) : K) = 1 := by
        rw [← Int.cast_mul, ← Units.val_mul, Int.units_mul_self]; simp
      rw [hsq, one_mul]
    have hinv : (A + E).det ≠ 0 := by
      intro h0'
      have hprod : ∏ i : Fin n, W i i = 0 := by
        have hsub : (A + E).submatrix σ id = mat n (Lh W) * mat n (Uh W) := by
          ext r c; exact f6 r c
        have := congrArg Matrix.det hsub
        rw [Matrix.det_permute, h0', mul_zero, Matrix.det_mul] at this
        have hL := det_lower (n := n) W
        have hU := det_upper (n := n) W
        rw [hL, hU, one_mul] at this; exact this.symm
      obtain ⟨i, -, hi⟩ := Finset.prod_eq_zero_iff.1 hprod
      exact hI.diag i i.2 hi
    refine ⟨(A + E).det, hdet, fun h => by rw [f5 h, add_zero], ⟨fun h => absurd h hinv, fun h => ?_⟩, E, f4, rfl⟩
    obtain ⟨i, hi, hz⟩ := (rowZero_exists A stray).2 h
    exact absurd hz (h1 i hi)

/-- **C72** The 3×3 inversion of `Model/Linalg.lean`, on which the alignment rests, is the library's for `dim = 3`: same return value for
every matrix, same result for every non-singular one. -/
theorem C72_instance (A : Linalg.Mat3 K) {a : Arr K} (ha : Represents a A.toMatrix) (stray : K) :
    (Linalg.invert A stray = none ↔ invertInPlace 3 a stray = .ok (false, a)) ∧
    (A.toMatrix.det ≠ 0 → ∃ b R, Linalg.invert A stray = some R ∧ invertInPlace 3 a stray = .ok (true, b) ∧ Represents b R.toMatrix) := by
  have hz : (∃ i, ZeroRow A.toMatrix stray i) ↔ Linalg.invert A stray = none := by
    rw [Linalg.C38_invert_false_iff]
    constructor
    · rintro ⟨i, h1, h2⟩
      fin_cases i
      · exact Or.inl ⟨h1 0, h1 1, h1 2, by simpa [Linalg.Mat3.toMatrix, Linalg.Mat3.get] using h2⟩
      · exact Or.inr (Or.inl ⟨h1 0, h1 1, h1 2, by simpa [Linalg.Mat3.toMatrix, Linalg.Mat3.get] using h2⟩)
      · exact Or.inr (Or.inr ⟨h1 0, h1 1, h1 2, by simpa [Linalg.Mat3.toMatrix, Linalg.Mat3.get] using h2⟩)
    · rintro (⟨h0, h1, h2, h3⟩ | ⟨h0, h1, h2, h3⟩ | ⟨h0, h1, h2, h3⟩)
      · exact ⟨0, fun j => by fin_cases j <;> assumption, by simpa [Linalg.Mat3.toMatrix, Linalg.Mat3.get] using h3⟩
      · exact ⟨1, fun j => by fin_cases j <;> assumption, by simpa [Linalg.Mat3.toMatrix, Linalg.Mat3.get] using h3⟩
      · exact ⟨2, fun j => by fin_cases j <;> assumption, by simpa [Linalg.Mat3.toMatrix, Linalg.Mat3.get] using h3⟩
  constructor
  · rw [← hz]
    rcases C72_invert ha.2 a ha.1 stray with ⟨h, e⟩ | ⟨h, b, R, E, e, -⟩
    · exact ⟨fun _ => e, fun _ => h⟩
    · refine ⟨fun h' => absurd h' h, fun h' => ?_⟩
      have := e.symm.trans h'
      exact absurd (congrArg Prod.fst (Except.ok.inj this)) (by simp)
  · intro hd
    obtain ⟨b, R, e, h1, h2, -⟩ := C72_invert_in_place ha hd stray
    obtain ⟨R', e', h2', h3'⟩ := Linalg.C38_invert_exact A stray hd
    refine ⟨b, R', e', e, ?_⟩
    have : R = R'.toMatrix := by
      calc R = R'.toMatrix * A.toMatrix * R := by rw [h3', Matrix.one_mul]
        _ = R'.toMatrix := by rw [Matrix.mul_assoc, h2, Matrix.mul_one]
    rw [← this]; exact h1

end LU

section Fill
variable {K : Type}

/-- **C72** The constructor from a list of elements (`FillRowMajor`): a full list gives the matrix read row by row; a shorter one fills the
END of the matrix and leaves the elements before alone. -/
theorem C72_fill {r c : Nat} (l : List K) (hl : l.length ≤ r * c) (a : Arr K) (ha : a.size = r * c) :
    ∃ b, fillRowMajor r c l a = .ok b ∧ b.size = r * c ∧
      ∀ k, k < r * c → b.cell k = if k + l.length < r * c then a.cell k else l[k + l.length - r * c]? := by
  induction l generalizing a with
  | nil => exact ⟨a, rfl, ha, fun k hk => by rw [if_pos (by simpa using hk)]⟩
  | cons x l ih =>
    rw [List.length_cons] at hl
    have hpos : (r * c - l.length - 1) / c * c + (r * c - l.length - 1) % c = r * c - l.length - 1 := Nat.div_add_mod' _ _
    obtain ⟨a1, e1, s1, c1⟩ := setAt_wrote (c := c) (a := a) (i := (r * c - l.length - 1) / c) (j := (r * c - l.length - 1) % c) (x := x)
      (by rw [hpos, ha]; omega)
    rw [hpos] at c1
    obtain ⟨b, e2, s2, c2⟩ := ih (by omega) a1 (by rw [s1, ha])
    refine ⟨b, by simp only [fillRowMajor, e1, bind_ok, e2], s2, fun k hk => ?_⟩
    rw [c2 k hk, List.length_cons]
    by_cases h1 : k + l.length < r * c
    · rw [if_pos h1, c1]
      by_cases h2 : k = r * c - l.length - 1
      · rw [h2, Function.update_self, if_neg (by omega), show r * c - l.length - 1 + (l.length + 1) - r * c = 0 by omega]; rfl
      · rw [Function.update_of_ne h2, if_pos (by omega)]
    · rw [if_neg h1, if_neg (by omega), show k + (l.length + 1) - r * c = (k + l.length - r * c) + 1 by omega]; rfl

end Fill

/-! ### Concrete cases -/

/-- An array with the given elements. -/
def ofList (l : List ℚ) : Arr ℚ := ⟨l.length, fun i => l[i]?⟩

/-- The elements of an array. -/
def toList (a : Arr ℚ) : List (Option ℚ) := (List.range a.size).map a.cell

/-- A 4×4 matrix that needs row exchanges: the hypotheses of the theorems are met, and the library's result is its inverse. -/
example : Represents (ofList [0, 2, 0, 0, 1, 0, 0, 1, 0, 0, 3, 1, 0, 1, 1, 0]) !![0, 2, 0, 0; 1, 0, 0, 1; 0, 0, 3, 1; 0, 1, 1, (0 : ℚ)] ∧
    (!![0, 2, 0, 0; 1, 0, 0, 1; 0, 0, 3, 1; 0, 1, 1, (0 : ℚ)]).det ≠ 0 := by
  refine ⟨⟨rfl, ?_⟩, ?_⟩
  · intro i j
    fin_cases i <;> fin_cases j <;> rfl
  · simp [Matrix.det_succ_row_zero, Fin.sum_univ_succ, Fin.succAbove]

example : (invertInPlace 4 (ofList [0, 2, 0, 0, 1, 0, 0, 1, 0, 0, 3, 1, 0, 1, 1, 0]) 5).map (fun r => (r.1, toList r.2)) =
    .ok (true, [-3 / 2, 1, -1, 3, 1 / 2, 0, 0, 0, -1 / 2, 0, 0, 1, 3 / 2, 0, 1, -3].map some) := by decide +kernel

/-- A singular matrix whose "determinant" is not zero. -/
example : (!![1, 1; 1, (1 : ℚ)]).det = 0 ∧ ∃ x, determinant 2 (array 2 (ofList [1, 1, 1, 1])) 0 = .ok x ∧ x ≠ 0 := by
  have hv : Denotes (array 2 (ofList [1, 1, 1, 1])) !![1, 1; 1, (1 : ℚ)] := by intro i j; fin_cases i <;> fin_cases j <;> rfl
  obtain ⟨x, e, -, h, -⟩ := C72_determinant hv 0
  refine ⟨by simp [Matrix.det_fin_two], x, e, fun h0 => ?_⟩
  obtain ⟨i, hi, -⟩ := h.1 h0
  have := hi 0
  fin_cases i <;> simp at this

/-- A zero row. -/
example : determinant 2 (array 2 (ofList [0, 0, 0, 1])) 0 = .ok (0 : ℚ) ∧
    (invertInPlace 2 (ofList [0, 0, 0, 1]) 0).map Prod.fst = .ok false := by decide +kernel

/-- `A = ~A` gives a symmetric matrix. -/
example : (assign 2 2 (fun a => trans (array 2 a)) (ofList [1, 2, 3, 4])).map toList = .ok [some 1, some 3, some 3, some 4] := by decide +kernel

/-- `Matrix<2, 2> m(7)` sets the last element only. -/
example : (fillRowMajor 2 2 [7] (Arr.fresh ℚ 4)).map toList = .ok [none, none, none, some 7] := by decide +kernel

end Verif.Bla
