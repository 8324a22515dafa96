import Verif.Lemmas.SharedRely

/-!
# Positions while the alignment is reset or a star is synchronised
-/

namespace Verif.Shared

open Verif.Align Linalg

variable {K σ : Type} [Field K] [LinearOrder K] [IsStrictOrderedRing K]

set_option linter.unusedSectionVars false

/-! ### Resets -/

/-- Only the orientation changes, and the alignment may be reset. -/
def resets (m : Mem K) (xs ys : List K) : Volatile K := fun l => match l with
  | .az => fun v => v ∈ xs
  | .alt => fun v => v ∈ ys
  | .numV => fun v => v = 0 ∨ m .numV = some v
  | .numT => fun v => v = 0 ∨ m .numT = some v
  | .tri i k => fun v => m (.tri i k) = some v
  | .vert i f => fun v => m (.vert i f) = some v
  | .mat i r c => fun v => m (.mat i r c) = some v

theorem inside_resets {m : Mem K} {xs ys : List K} (hm : WellFormed m) (hx : ∃ x ∈ xs, m .az = some x) (hy : ∃ y ∈ ys, m .alt = some y) :
    Inside (resets m xs ys) m := by
  intro l hl
  cases l with
  | az => obtain ⟨x, hx, e⟩ := hx; exact ⟨x, e, hx⟩
  | alt => obtain ⟨y, hy, e⟩ := hy; exact ⟨y, e, hy⟩
  | numV => obtain ⟨n, e, -⟩ := hm.numV; exact ⟨n, e, Or.inr e⟩
  | numT => obtain ⟨n, e, -⟩ := hm.numT; exact ⟨n, e, Or.inr e⟩
  | tri i k => obtain ⟨v, hv⟩ := hl; exact ⟨v, hv, hv⟩
  | vert i k => obtain ⟨v, hv⟩ := hl; exact ⟨v, hv, hv⟩
  | mat i r c => obtain ⟨v, hv⟩ := hl; exact ⟨v, hv, hv⟩

section Resets
variable {β : Type} {S : Prop} {m : Mem K} {xs ys : List K} {s : State K} {p : Pt K} {Q : β → Prop}

theorem resets_numT {f : Int → Prog K β} {n : Nat} (hn : m .numT = some (n : Int)) (h0 : rwp (resets m xs ys) S (f 0) Q)
    (h1 : rwp (resets m xs ys) S (f n) Q) : rwp (resets m xs ys) S (rd .numT >>= f) Q := by
  refine rwp_rd rfl ⟨0, Or.inl rfl⟩ fun v hv => ?_
  rcases hv with rfl | hv
  · exact h0
  · rw [hn] at hv; rw [← Option.some.inj hv]; exact h1

theorem resets_numV {f : Nat → Prog K β} {n : Nat} (hn : m .numV = some n) (h0 : rwp (resets m xs ys) S (f 0) Q)
    (h1 : rwp (resets m xs ys) S (f n) Q) : rwp (resets m xs ys) S (rd .numV >>= f) Q := by
  refine rwp_rd rfl ⟨0, Or.inl rfl⟩ fun v hv => ?_
  rcases hv with rfl | hv
  · exact h0
  · rw [hn] at hv; rw [← Option.some.inj hv]; exact h1

theorem resets_rdTri {i : Nat} {f : Tri → Prog K β} (hm : WellFormed m) (h : Holds m s p) (h1 : i < s.triangles.length)
    (hf : ∀ t, corner t 0 ≤ 65 → corner t 1 ≤ 65 → corner t 2 ≤ 65 → rwp (resets m xs ys) S (f t) Q) :
    rwp (resets m xs ys) S (rdTri i >>= f) Q := by
  have hb192 : s.triangles.length ≤ 192 := h.tris.bound hm
  have ht := h.tri i _ (List.getElem?_eq_getElem h1)
  have hv : ∀ k, (Loc.tri (i : Int) k).valid = true := valid_tri (by omega) (by omega)
  unfold rdTri
  simp only [bind_assoc', pure_bind']
  refine rwp_rd (hv _) ⟨_, ht 0⟩ fun a ha => ?_
  refine rwp_rd (hv _) ⟨_, ht 1⟩ fun b hb => ?_
  refine rwp_rd (hv _) ⟨_, ht 2⟩ fun c hc => ?_
  exact hf _ (hm.tri _ _ _ ha) (hm.tri _ _ _ hb) (hm.tri _ _ _ hc)

theorem resets_rdPt {i : Nat} {f : Pt K → Prog K β} (hm : WellFormed m) (h1 : i < 67)
    (hf : ∀ q, rwp (resets m xs ys) S (f q) Q) : rwp (resets m xs ys) S (rdPt i >>= f) Q := by
  unfold rdPt
  simp only [bind_assoc', pure_bind']
  obtain ⟨v0, e0⟩ := hm.vert i 0 h1
  obtain ⟨v1, e1⟩ := hm.vert i 1 h1
  refine rwp_rd (valid_vert h1 _) ⟨v0, e0⟩ fun a _ => ?_
  refine rwp_rd (valid_vert h1 _) ⟨v1, e1⟩ fun b _ => ?_
  exact hf _

theorem resets_entry {i : Nat} {M : Mat3 K} {r c : Fin 3} {f : K → Prog K β} (h1 : i < 192)
    (hM : m (.mat i r c) = some (M.get r c)) (h : rwp (resets m xs ys) S (f (M.get r c)) Q) :
    rwp (resets m xs ys) S (rd (.mat i r c) >>= f) Q := by
  refine rwp_rd (valid_mat h1 _ _) ⟨_, hM⟩ fun v hv => ?_
  change m (.mat i r c) = some v at hv
  rw [hM] at hv
  rw [← Option.some.inj hv]; exact h

theorem resets_rdMat {i : Nat} {M : Mat3 K} {f : Mat3 K → Prog K β} (h1 : i < 192)
    (hM : ∀ r c, m (.mat i r c) = some (M.get r c)) (h : rwp (resets m xs ys) S (f M) Q) : rwp (resets m xs ys) S (rdMat i >>= f) Q := by
  unfold rdMat
  simp only [bind_assoc', pure_bind']
  refine resets_entry h1 (hM 0 0) ?_
  refine resets_entry h1 (hM 0 1) ?_
  refine resets_entry h1 (hM 0 2) ?_
  refine resets_entry h1 (hM 1 0) ?_
  refine resets_entry h1 (hM 1 1) ?_
  refine resets_entry h1 (hM 1 2) ?_
  refine resets_entry h1 (hM 2 0) ?_
  refine resets_entry h1 (hM 2 1) ?_
  refine resets_entry h1 (hM 2 2) ?_
  exact h

/-- The outcomes of the tests: a single or two stars are seen only if there are stars. -/
theorem resets_branch {f : Branch → Prog K β} (h : Holds m s p) (hn : rwp (resets m xs ys) S (f .none) Q)
    (ht : 1 ≤ s.triangles.length → rwp (resets m xs ys) S (f .tris) Q)
    (hp : 1 ≤ s.numVertices → rwp (resets m xs ys) S (f .point) Q ∧ rwp (resets m xs ys) S (f .line) Q) :
    rwp (resets m xs ys) S (branchP >>= f) Q := by
  -- the last test
  have last : rwp (resets m xs ys) S (rd .numT >>= fun n => (if 1 ≤ n then pure Branch.tris else pure Branch.none) >>= f) Q := by
    refine resets_numT h.numT ?_ ?_
    · exact hn
    · by_cases h1 : (1 : Int) ≤ (s.triangles.length : Int)
      · rw [if_pos h1]; exact ht (by omega)
      · rw [if_neg h1]; exact hn
  have mid : rwp (resets m xs ys) S ((emptyAnd fun k => decide (2 ≤ k)) >>= fun two =>
      (if two then pure Branch.line else rd .numT >>= fun n => if 1 ≤ n then pure Branch.tris else pure Branch.none) >>= f) Q := by
    unfold emptyAnd
    simp only [bind_assoc']
    have sub : rwp (resets m xs ys) S (rd .numV >>= fun k => pure (decide (2 ≤ k)) >>= fun two =>
      (if two then pure Branch.line else rd .numT >>= fun n => if 1 ≤ n then pure Branch.tris else pure Branch.none) >>= f) Q := by
      refine resets_numV h.numV ?_ ?_
      · show rwp _ S ((rd .numT >>= fun n => if 1 ≤ n then pure Branch.tris else pure Branch.none) >>= f) Q
        rw [bind_assoc']; exact last
      · rw [pure_bind']
        by_cases h2 : 2 ≤ s.numVertices
        · simp only [h2, decide_true, if_true]; exact (hp (by omega)).2
        · simp only [h2, decide_false, Bool.false_eq_true, if_false, bind_assoc']; exact last
    refine resets_numT h.numT ?_ ?_
    · rw [if_pos rfl]; simp only [bind_assoc']; exact sub
    · by_cases h0 : (s.triangles.length : Int) = 0
      · rw [if_pos h0]; simp only [bind_assoc']; exact sub
      · rw [if_neg h0, pure_bind']; simp only [Bool.false_eq_true, if_false, bind_assoc']; exact last
  unfold branchP
  simp only [bind_assoc']
  conv => arg 3; unfold emptyAnd
  simp only [bind_assoc']
  refine resets_numT h.numT ?_ ?_
  · rw [if_pos rfl]
    simp only [bind_assoc']
    refine resets_numV h.numV ?_ ?_
    · rw [pure_bind']; simp only [Nat.zero_ne_one, decide_false, Bool.false_eq_true, if_false, bind_assoc']; exact mid
    · rw [pure_bind']
      by_cases h1 : s.numVertices = 1
      · simp only [h1, decide_true, if_true]; exact (hp (by omega)).1
      · simp only [h1, decide_false, Bool.false_eq_true, if_false, bind_assoc']; exact mid
  · by_cases h0 : (s.triangles.length : Int) = 0
    · rw [if_pos h0]
      simp only [bind_assoc']
      refine resets_numV h.numV ?_ ?_
      · rw [pure_bind']; simp only [Nat.zero_ne_one, decide_false, Bool.false_eq_true, if_false, bind_assoc']; exact mid
      · rw [pure_bind']
        by_cases h1 : s.numVertices = 1
        · simp only [h1, decide_true, if_true]; exact (hp (by omega)).1
        · simp only [h1, decide_false, Bool.false_eq_true, if_false, bind_assoc']; exact mid
    · rw [if_neg h0, pure_bind']; simp only [Bool.false_eq_true, if_false, bind_assoc']; exact mid

theorem resets_first {env : Env K σ} {q : Pt K} (hm : WellFormed m) (h : Holds m s p) :
    ∀ (fuel i : Nat) (f : Option Nat → Prog K β), S → rwp (resets m xs ys) S (f none) Q →
      (∀ j, j < s.triangles.length → rwp (resets m xs ys) S (f (some j)) Q) → rwp (resets m xs ys) S (firstP env q fuel i >>= f) Q := by
  intro fuel
  induction fuel with
  | zero => intro i f hS _ _; exact hS
  | succ fuel ih =>
    intro i f hS h0 h1
    simp only [firstP, bind_assoc']
    refine resets_numT h.numT ?_ ?_
    · rw [if_neg (by omega)]; exact h0
    · by_cases hi : (i : Int) < (s.triangles.length : Int)
      · rw [if_pos hi]
        simp only [bind_assoc']
        refine resets_rdTri hm h (by omega) fun t b0 b1 b2 => ?_
        refine resets_rdPt hm (by show t.p1 < 67; exact Nat.lt_of_le_of_lt b0 (by omega)) fun _ => ?_
        refine resets_rdPt hm (by show t.p2 < 67; exact Nat.lt_of_le_of_lt b1 (by omega)) fun _ => ?_
        refine resets_rdPt hm (by show t.p3 < 67; exact Nat.lt_of_le_of_lt b2 (by omega)) fun _ => ?_
        split
        · exact h1 i (by omega)
        · exact ih _ _ hS h0 h1
      · rw [if_neg hi]; exact h0

theorem resets_nearest {env : Env K σ} {q : Pt K} (hm : WellFormed m) (h : Holds m s p) :
    ∀ (fuel i : Nat) (best : Option (K × Nat)) (f : Option (K × Nat) → Prog K β), S → (∀ b, best = some b → b.2 < s.triangles.length) →
      rwp (resets m xs ys) S (f none) Q → (∀ d j, j < s.triangles.length → rwp (resets m xs ys) S (f (some (d, j))) Q) →
      rwp (resets m xs ys) S (nearestP env q fuel i best >>= f) Q := by
  intro fuel
  induction fuel with
  | zero => intro i best f hS _ _ _; exact hS
  | succ fuel ih =>
    intro i best f hS hb h0 h1
    have out : rwp (resets m xs ys) S (f best) Q := by
      cases best with
      | none => exact h0
      | some b => exact h1 b.1 b.2 (hb b rfl)
    simp only [nearestP, bind_assoc']
    refine resets_numT h.numT ?_ ?_
    · rw [if_neg (by omega)]; exact out
    · by_cases hi : (i : Int) < (s.triangles.length : Int)
      · rw [if_pos hi]
        simp only [bind_assoc']
        refine resets_rdTri hm h (by omega) fun t b0 b1 b2 => ?_
        refine resets_rdPt hm (by show t.p1 < 67; exact Nat.lt_of_le_of_lt b0 (by omega)) fun _ => ?_
        refine resets_rdPt hm (by show t.p2 < 67; exact Nat.lt_of_le_of_lt b1 (by omega)) fun _ => ?_
        refine resets_rdPt hm (by show t.p3 < 67; exact Nat.lt_of_le_of_lt b2 (by omega)) fun _ => ?_
        refine ih _ _ _ hS ?_ h0 h1
        intro b hb'
        split at hb'
        · rw [← Option.some.inj hb']; show i < _; omega
        · exact hb b hb'
      · rw [if_neg hi]; exact out

/-- The matrices a position may use have been computed. -/
def Computed (s : State K) : Prop := ∀ i, (i = 0 ∧ 1 ≤ s.numVertices ∨ i < s.triangles.length) → ∃ M, s.matrices[i]? = some (some M)

theorem resets_matrix {env : Env K σ} {q : Pt K} {fuel : Nat} {f : Mat3 K → Prog K β} (hm : WellFormed m) (h : Holds m s p)
    (hml : s.matrices.length = 192) (hc : Computed s) (hS : S) (h0 : rwp (resets m xs ys) S (f identity) Q)
    (h1 : ∀ (i : Nat) (M : Mat3 K), s.matrices[i]? = some (some M) → rwp (resets m xs ys) S (f M) Q) :
    rwp (resets m xs ys) S (matrixP env fuel q >>= f) Q := by
  have key : ∀ i, (i = 0 ∧ 1 ≤ s.numVertices ∨ i < s.triangles.length) → rwp (resets m xs ys) S (rdMat i >>= f) Q := by
    intro i hi
    obtain ⟨M, hM⟩ := hc i hi
    have hlt := (List.getElem?_eq_some_iff.1 hM).1
    exact resets_rdMat (by omega) (h.mat i M hM) (h1 i M hM)
  unfold matrixP
  simp only [bind_assoc']
  refine resets_branch h h0 (fun _ => ?_) (fun hv => ⟨key 0 (Or.inl ⟨rfl, hv⟩), key 0 (Or.inl ⟨rfl, hv⟩)⟩)
  simp only [bind_assoc']
  refine resets_first hm h fuel 0 _ hS ?_ ?_
  · simp only [bind_assoc']
    refine resets_nearest hm h fuel 0 none _ hS (by simp) h0 ?_
    intro d j hj
    exact key j (Or.inr hj)
  · intro j hj
    exact key j (Or.inr hj)

theorem resets_type {env : Env K σ} {q : Pt K} {fuel : Nat} {f : TType → Prog K β} (hm : WellFormed m) (h : Holds m s p)
    (hS : S) (h1 : ∀ ty, rwp (resets m xs ys) S (f ty) Q) : rwp (resets m xs ys) S (typeP env fuel q >>= f) Q := by
  unfold typeP
  simp only [bind_assoc']
  refine resets_branch h (h1 _) (fun _ => ?_) (fun _ => ⟨h1 _, h1 _⟩)
  simp only [bind_assoc']
  exact resets_first hm h fuel 0 _ hS (h1 _) (fun _ _ => h1 _)

theorem resets_position {env : Env K σ} {fuel : Nat} {f : Reading K → Prog K β} (hm : WellFormed m) (h : Holds m s p)
    (hml : s.matrices.length = 192) (hc : Computed s) (hS : S) (hx : xs ≠ []) (hy : ys ≠ [])
    (hw : ∀ x ∈ xs, ∀ y ∈ ys, ∀ ty M, (M = identity ∨ ∃ i : Nat, s.matrices[i]? = some (some M)) →
      rwp (resets m xs ys) S (f ⟨ty, ⟨x, y⟩, M⟩) Q) :
    rwp (resets m xs ys) S (positionP env fuel >>= f) Q := by
  obtain ⟨x0, hx0⟩ := List.exists_mem_of_ne_nil _ hx
  obtain ⟨y0, hy0⟩ := List.exists_mem_of_ne_nil _ hy
  unfold positionP
  simp only [bind_assoc']
  refine rwp_rd rfl ⟨x0, hx0⟩ fun x' hx' => ?_
  refine rwp_rd rfl ⟨y0, hy0⟩ fun y' hy' => ?_
  refine resets_type hm h hS fun ty => ?_
  refine rwp_rd rfl ⟨x0, hx0⟩ fun x hx => ?_
  refine rwp_rd rfl ⟨y0, hy0⟩ fun y hy => ?_
  refine resets_matrix hm h hml hc hS ?_ ?_
  · exact hw x hx y hy ty _ (Or.inl rfl)
  · intro i M hM; exact hw x hx y hy ty M (Or.inr ⟨i, hM⟩)

end Resets

/-! ### Synchronising -/

/-- Reads that are safe whatever the other task does to a well-formed object: `N` triangles are known to have been written. -/
def rsafe {α : Type} (xs ys : List K) : Prog K α → Int → (α → Int → Prop) → Prop
  | .ret a, N, Q => Q a N
  | .spin, _, _ => True
  | .fail _, _, _ => False
  | .get l k, N, Q => match l, k with
    | .numV, k => ∀ v, rsafe xs ys (k v) N Q
    | .numT, k => ∀ v : Int, v ≤ 192 → rsafe xs ys (k v) (max N v) Q
    | .tri i _, k => 0 ≤ i ∧ i < N ∧ ∀ v : Nat, v ≤ 65 → rsafe xs ys (k v) N Q
    | .vert i _, k => i < 67 ∧ ∀ v, rsafe xs ys (k v) N Q
    | .mat i _ _, k => i < 192 ∧ ∀ v, rsafe xs ys (k v) N Q
    | .az, k => ∀ v, rsafe xs ys (k v) N Q
    | .alt, k => ∀ v, rsafe xs ys (k v) N Q
  | .put l v k, N, Q => match l, v with
    | .az, v => v ∈ xs ∧ rsafe xs ys k N Q
    | .alt, v => v ∈ ys ∧ rsafe xs ys k N Q
    | _, _ => False

section Safe
variable {α β : Type} {xs ys : List K} {N : Int}

theorem rsafe_bind {p : Prog K α} {f : α → Prog K β} {Q : β → Int → Prop} (h : rsafe xs ys p N fun a N' => rsafe xs ys (f a) N' Q) :
    rsafe xs ys (p >>= f) N Q := by
  show rsafe xs ys (p.bind f) N Q
  induction p generalizing N with
  | ret a => exact h
  | spin => trivial
  | fail e => exact h.elim
  | get l k ih =>
    cases l with
    | numV => exact fun v => ih v (h v)
    | numT => exact fun v hv => ih v (h v hv)
    | tri i j => exact ⟨h.1, h.2.1, fun v hv => ih v (h.2.2 v hv)⟩
    | vert i j => exact ⟨h.1, fun v => ih v (h.2 v)⟩
    | mat i r c => exact ⟨h.1, fun v => ih v (h.2 v)⟩
    | az => exact fun v => ih v (h v)
    | alt => exact fun v => ih v (h v)
  | put l v k ih =>
    cases l with
    | az => exact ⟨h.1, ih h.2⟩
    | alt => exact ⟨h.1, ih h.2⟩
    | numV => exact h.elim
    | numT => exact h.elim
    | tri i j => exact h.elim
    | vert i j => exact h.elim
    | mat i r c => exact h.elim

theorem rsafe_mono {p : Prog K α} {Q Q' : α → Int → Prop} (h : rsafe xs ys p N Q) (hq : ∀ a N', N ≤ N' → Q a N' → Q' a N') :
    rsafe xs ys p N Q' := by
  induction p generalizing N with
  | ret a => exact hq _ _ le_rfl h
  | spin => trivial
  | fail e => exact h.elim
  | get l k ih =>
    cases l with
    | numV => exact fun v => ih v (h v) hq
    | numT => exact fun v hv => ih v (h v hv) fun a N' hN => hq a N' (le_trans (le_max_left _ _) hN)
    | tri i j => exact ⟨h.1, h.2.1, fun v hv => ih v (h.2.2 v hv) hq⟩
    | vert i j => exact ⟨h.1, fun v => ih v (h.2 v) hq⟩
    | mat i r c => exact ⟨h.1, fun v => ih v (h.2 v) hq⟩
    | az => exact fun v => ih v (h v) hq
    | alt => exact fun v => ih v (h v) hq
  | put l v k ih =>
    cases l with
    | az => exact ⟨h.1, ih h.2 hq⟩
    | alt => exact ⟨h.1, ih h.2 hq⟩
    | numV => exact h.elim
    | numT => exact h.elim
    | tri i j => exact h.elim
    | vert i j => exact h.elim
    | mat i r c => exact h.elim

variable {Q : β → Int → Prop}

theorem rsafe_rdTri {i : Int} {f : Tri → Prog K β} (h0 : 0 ≤ i) (h1 : i < N)
    (hf : ∀ t, t.p1 < 67 → t.p2 < 67 → t.p3 < 67 → rsafe xs ys (f t) N Q) : rsafe xs ys (rdTri i >>= f) N Q :=
  ⟨h0, h1, fun a ha => ⟨h0, h1, fun b hb => ⟨h0, h1, fun c hc => hf ⟨a, b, c⟩ (by simp only; omega) (by simp only; omega) (by simp only; omega)⟩⟩⟩

theorem rsafe_rdPt {i : Nat} {f : Pt K → Prog K β} (h : i < 67) (hf : ∀ q, rsafe xs ys (f q) N Q) : rsafe xs ys (rdPt i >>= f) N Q :=
  ⟨h, fun a => ⟨h, fun b => hf ⟨a, b⟩⟩⟩

theorem rsafe_rdMat {i : Nat} {f : Mat3 K → Prog K β} (h : i < 192) (hf : ∀ q, rsafe xs ys (f q) N Q) : rsafe xs ys (rdMat i >>= f) N Q :=
  ⟨h, fun a => ⟨h, fun b => ⟨h, fun c => ⟨h, fun d => ⟨h, fun e => ⟨h, fun g => ⟨h, fun j => ⟨h, fun k => ⟨h, fun l =>
    hf ⟨a, b, c, d, e, g, j, k, l⟩⟩⟩⟩⟩⟩⟩⟩⟩⟩

theorem rsafe_branch {f : Branch → Prog K β} (h : ∀ b N', N ≤ N' → rsafe xs ys (f b) N' Q) : rsafe xs ys (branchP >>= f) N Q := by
  have last : ∀ N', N ≤ N' → rsafe xs ys (rd .numT >>= fun n => (if 1 ≤ n then pure Branch.tris else pure Branch.none) >>= f) N' Q := by
    intro N' hN v _
    show rsafe xs ys ((if 1 ≤ v then pure Branch.tris else pure Branch.none) >>= f) (max N' v) Q
    split <;> exact h _ _ (le_trans hN (le_max_left _ _))
  have mid : ∀ N', N ≤ N' → rsafe xs ys ((emptyAnd fun k => decide (2 ≤ k)) >>= fun two =>
      (if two then pure Branch.line else rd .numT >>= fun n => if 1 ≤ n then pure Branch.tris else pure Branch.none) >>= f) N' Q := by
    intro N' hN
    unfold emptyAnd
    simp only [bind_assoc']
    intro v _
    have hN' : N ≤ max N' v := le_trans hN (le_max_left _ _)
    show rsafe xs ys ((if v = 0 then _ else _) >>= _) (max N' v) Q
    split
    · simp only [bind_assoc']
      intro k
      show rsafe xs ys ((if decide (2 ≤ k) = true then _ else _) >>= _) (max N' v) Q
      split
      · exact h _ _ hN'
      · simp only [bind_assoc']; exact last _ hN'
    · rw [pure_bind']
      simp only [Bool.false_eq_true, if_false, bind_assoc']; exact last _ hN'
  unfold branchP
  simp only [bind_assoc']
  conv => arg 3; unfold emptyAnd
  simp only [bind_assoc']
  intro v _
  have hN' : N ≤ max N v := le_max_left _ _
  show rsafe xs ys ((if v = 0 then _ else _) >>= _) (max N v) Q
  split
  · simp only [bind_assoc']
    intro k
    show rsafe xs ys ((if decide (k = 1) = true then _ else _) >>= _) (max N v) Q
    split
    · exact h _ _ hN'
    · simp only [bind_assoc']; exact mid _ hN'
  · rw [pure_bind']
    simp only [Bool.false_eq_true, if_false, bind_assoc']; exact mid _ hN'

theorem rsafe_first {env : Env K σ} {q : Pt K} : ∀ (fuel i : Nat) (N : Int) (f : Option Nat → Prog K β),
    (∀ N', N ≤ N' → rsafe xs ys (f none) N' Q) → (∀ N' j, N ≤ N' → j < 192 → rsafe xs ys (f (some j)) N' Q) →
      rsafe xs ys (firstP env q fuel i >>= f) N Q := by
  intro fuel
  induction fuel with
  | zero => intro i N f _ _; trivial
  | succ fuel ih =>
    intro i N f h0 h1
    simp only [firstP, bind_assoc']
    intro v hv
    have hN' : N ≤ max N v := le_max_left _ _
    show rsafe xs ys ((if (i : Int) < v then _ else _) >>= f) (max N v) Q
    split
    · rename_i hi
      simp only [bind_assoc']
      refine rsafe_rdTri (by omega) (lt_of_lt_of_le hi (le_max_right _ _)) fun t b0 b1 b2 => ?_
      refine rsafe_rdPt b0 fun _ => ?_
      refine rsafe_rdPt b1 fun _ => ?_
      refine rsafe_rdPt b2 fun _ => ?_
      split
      · exact h1 _ i hN' (by omega)
      · exact ih _ _ _ (fun N'' hN => h0 _ (le_trans hN' hN)) (fun N'' j hN hj => h1 _ j (le_trans hN' hN) hj)
    · exact h0 _ hN'

theorem rsafe_nearest {env : Env K σ} {q : Pt K} : ∀ (fuel i : Nat) (best : Option (K × Nat)) (N : Int)
    (f : Option (K × Nat) → Prog K β), (∀ b, best = some b → b.2 < 192) →
    (∀ N' b, N ≤ N' → (∀ c, b = some c → c.2 < 192) → rsafe xs ys (f b) N' Q) →
      rsafe xs ys (nearestP env q fuel i best >>= f) N Q := by
  intro fuel
  induction fuel with
  | zero => intro i best N f _ _; trivial
  | succ fuel ih =>
    intro i best N f hb h1
    simp only [nearestP, bind_assoc']
    intro v hv
    have hN' : N ≤ max N v := le_max_left _ _
    show rsafe xs ys ((if (i : Int) < v then _ else _) >>= f) (max N v) Q
    split
    · rename_i hi
      simp only [bind_assoc']
      refine rsafe_rdTri (by omega) (lt_of_lt_of_le hi (le_max_right _ _)) fun t b0 b1 b2 => ?_
      refine rsafe_rdPt b0 fun _ => ?_
      refine rsafe_rdPt b1 fun _ => ?_
      refine rsafe_rdPt b2 fun _ => ?_
      refine ih _ _ _ _ ?_ (fun N'' b hN hb => h1 _ b (le_trans hN' hN) hb)
      intro b hb'
      split at hb'
      · rw [← Option.some.inj hb']; show i < 192; omega
      · exact hb b hb'
    · exact h1 _ _ hN' hb

theorem rsafe_matrix {env : Env K σ} {q : Pt K} {fuel : Nat} {f : Mat3 K → Prog K β}
    (h : ∀ M N', N ≤ N' → rsafe xs ys (f M) N' Q) : rsafe xs ys (matrixP env fuel q >>= f) N Q := by
  unfold matrixP
  simp only [bind_assoc']
  refine rsafe_branch fun b N1 h1 => ?_
  cases b with
  | point => exact rsafe_rdMat (by omega) fun M => h M _ h1
  | line => exact rsafe_rdMat (by omega) fun M => h M _ h1
  | none => exact h _ _ h1
  | tris =>
    simp only [bind_assoc']
    refine rsafe_first fuel 0 N1 _ (fun N2 h2 => ?_) (fun N2 j h2 hj => rsafe_rdMat hj fun M => h M _ (le_trans h1 h2))
    simp only [bind_assoc']
    refine rsafe_nearest fuel 0 none N2 _ (by simp) fun N3 b h3 hb => ?_
    cases b with
    | none => exact h _ _ (le_trans (le_trans h1 h2) h3)
    | some d => exact rsafe_rdMat (hb d rfl) fun M => h M _ (le_trans (le_trans h1 h2) h3)

theorem rsafe_type {env : Env K σ} {q : Pt K} {fuel : Nat} {f : TType → Prog K β}
    (h : ∀ ty N', N ≤ N' → rsafe xs ys (f ty) N' Q) : rsafe xs ys (typeP env fuel q >>= f) N Q := by
  unfold typeP
  simp only [bind_assoc']
  refine rsafe_branch fun b N1 h1 => ?_
  cases b with
  | point => exact h _ _ h1
  | line => exact h _ _ h1
  | none => exact h _ _ h1
  | tris =>
    simp only [bind_assoc']
    exact rsafe_first fuel 0 N1 _ (fun N2 h2 => h _ _ (le_trans h1 h2)) (fun N2 j h2 hj => h _ _ (le_trans h1 h2))

theorem rsafe_position {env : Env K σ} {fuel : Nat} {f : Reading K → Prog K β} (h : ∀ r N', N ≤ N' → rsafe xs ys (f r) N' Q) :
    rsafe xs ys (positionP env fuel >>= f) N Q := by
  unfold positionP
  simp only [bind_assoc']
  intro x y
  refine rsafe_type fun ty N1 h1 => ?_
  intro x y
  refine rsafe_matrix fun M N2 h2 => ?_
  exact h _ _ (le_trans h1 h2)

theorem rsafe_orient {q : Pt K} {f : Unit → Prog K β} (hx : q.x ∈ xs) (hy : q.y ∈ ys) (h : rsafe xs ys (f ()) N Q) :
    rsafe xs ys (orientP q >>= f) N Q := ⟨hx, hy, h⟩

/-! ### The two tasks together -/

/-- Triangles known to have been written. -/
def Known (m : Mem K) (N : Int) : Prop := N ≤ 192 ∧ ∀ i k, 0 ≤ i → i < N → ∃ v, m (.tri i k) = some v

theorem Known.put {m : Mem K} (h : Known m N) (l : Loc) (v : l.Ty K) : Known (Function.update m l (some v)) N := by
  refine ⟨h.1, fun i k h0 h1 => ?_⟩
  by_cases hl : Loc.tri i k = l
  · subst hl; exact ⟨v, upd_same _ _⟩
  · rw [upd_ne _ hl]; exact h.2 i k h0 h1

theorem Known.numT {m : Mem K} (h : Known m N) (hm : WellFormed m) {v : Int} (hv : m .numT = some v) : v ≤ 192 ∧ Known m (max N v) := by
  obtain ⟨n, e, hn, ht⟩ := hm.numT
  rw [hv] at e
  have := Option.some.inj e
  subst this
  refine ⟨hn, max_le h.1 hn, fun i k h0 h1 => ?_⟩
  rcases lt_max_iff.1 h1 with h1 | h1
  · exact h.2 i k h0 h1
  · exact ht i k h0 h1

/-- The orientation may be written by the other task. -/
def vol (xs ys : List K) : Volatile K := fun l => match l with
  | .az => fun v => v ∈ xs
  | .alt => fun v => v ∈ ys
  | .numV => fun _ => False
  | .numT => fun _ => False
  | .tri _ _ => fun _ => False
  | .vert _ _ => fun _ => False
  | .mat _ _ _ => fun _ => False

theorem vol_quiet (xs ys : List K) : Quiet (vol xs ys) := by
  intro l v h
  cases l <;> first | exact Or.inl rfl | exact Or.inr rfl | exact h.elim

/-- The memory and what the first task thinks it is: they differ in the orientation only, which the other task has written. -/
def Agree (xs ys : List K) (view m : Mem K) : Prop :=
  (∀ l, l ≠ .az → l ≠ .alt → m l = view l) ∧ (m .az = view .az ∨ ∃ x ∈ xs, m .az = some x) ∧
    (m .alt = view .alt ∨ ∃ y ∈ ys, m .alt = some y)

theorem Agree.read {view m : Mem K} (h : Agree xs ys view m) (l : Loc) {v : l.Ty K} (hv : view l = some v) :
    m l = some v ∨ ∃ w, vol xs ys l w ∧ m l = some w := by
  cases l with
  | az =>
    rcases h.2.1 with e | ⟨x, hx, e⟩
    · exact Or.inl (e.trans hv)
    · exact Or.inr ⟨x, hx, e⟩
  | alt =>
    rcases h.2.2 with e | ⟨x, hx, e⟩
    · exact Or.inl (e.trans hv)
    · exact Or.inr ⟨x, hx, e⟩
  | numV => exact Or.inl ((h.1 _ (by simp) (by simp)).trans hv)
  | numT => exact Or.inl ((h.1 _ (by simp) (by simp)).trans hv)
  | tri i k => exact Or.inl ((h.1 _ (by simp) (by simp)).trans hv)
  | vert i k => exact Or.inl ((h.1 _ (by simp) (by simp)).trans hv)
  | mat i r c => exact Or.inl ((h.1 _ (by simp) (by simp)).trans hv)

theorem Agree.put {view m : Mem K} (h : Agree xs ys view m) (l : Loc) (v : l.Ty K) :
    Agree xs ys (Function.update view l (some v)) (Function.update m l (some v)) := by
  refine ⟨fun l' h1 h2 => ?_, ?_, ?_⟩
  · by_cases hl : l' = l
    · subst hl; rw [upd_same, upd_same]
    · rw [upd_ne _ hl, upd_ne _ hl]; exact h.1 l' h1 h2
  · by_cases hl : Loc.az = l
    · subst hl; rw [upd_same, upd_same]; exact Or.inl rfl
    · rw [upd_ne _ hl, upd_ne _ hl]; exact h.2.1
  · by_cases hl : Loc.alt = l
    · subst hl; rw [upd_same, upd_same]; exact Or.inl rfl
    · rw [upd_ne _ hl, upd_ne _ hl]; exact h.2.2

theorem Agree.wellFormed {view m : Mem K} (h : Agree xs ys view m) (hv : WellFormed view) : WellFormed m where
  numV := by rw [h.1 _ (by simp) (by simp)]; exact hv.numV
  numT := by
    obtain ⟨n, e, hn, ht⟩ := hv.numT
    refine ⟨n, by rw [h.1 _ (by simp) (by simp)]; exact e, hn, fun i k h0 h1 => ?_⟩
    rw [h.1 _ (by simp) (by simp)]; exact ht i k h0 h1
  tri i k v hv' := by rw [h.1 _ (by simp) (by simp)] at hv'; exact hv.tri i k v hv'
  vert i f hi := by rw [h.1 _ (by simp) (by simp)]; exact hv.vert i f hi
  mat i r c hi := by rw [h.1 _ (by simp) (by simp)]; exact hv.mat i r c hi
  az := by
    rcases h.2.1 with e | ⟨x, -, e⟩
    · rw [e]; exact hv.az
    · exact ⟨x, e⟩
  alt := by
    rcases h.2.2 with e | ⟨x, -, e⟩
    · rw [e]; exact hv.alt
    · exact ⟨x, e⟩

/-- A step of the first task. -/
theorem step_wp {p : Prog K α} {view m : Mem K} {Q : α → Mem K → Prop} (ha : Agree xs ys view m)
    (h : wp (vol xs ys) WellFormed True p view Q) :
    ∃ p' m' view', step p m = .ok (p', m') ∧ Agree xs ys view' m' ∧ wp (vol xs ys) WellFormed True p' view' Q ∧
      (∀ N, Known m N → Known m' N) := by
  cases p with
  | ret a => exact ⟨_, _, view, rfl, ha, h, fun _ h => h⟩
  | spin => exact ⟨_, _, view, rfl, ha, h, fun _ h => h⟩
  | fail e => exact h.elim
  | get l k =>
    obtain ⟨-, h2, ⟨v, hv, h3⟩, h4⟩ := h
    rcases ha.read l hv with e | ⟨w, hw, e⟩
    · exact ⟨k v, m, view, by simp only [step, h2, if_true, e], ha, h3, fun _ h => h⟩
    · exact ⟨k w, m, view, by simp only [step, h2, if_true, e], ha, h4 w hw, fun _ h => h⟩
  | put l v k =>
    exact ⟨k, _, _, by simp only [step, h.2.1, if_true], ha.put l v, h.2.2, fun N hN => hN.put l v⟩

/-- A step of the second task. -/
theorem step_rsafe {p : Prog K α} {view m : Mem K} {Q : α → Int → Prop} (ha : Agree xs ys view m) (hv : WellFormed view)
    (hk : Known m N) (h : rsafe xs ys p N Q) :
    ∃ p' m' N', step p m = .ok (p', m') ∧ Agree xs ys view m' ∧ Known m' N' ∧ rsafe xs ys p' N' Q := by
  have hm := ha.wellFormed hv
  cases p with
  | ret a => exact ⟨_, _, N, rfl, ha, hk, h⟩
  | spin => exact ⟨_, _, N, rfl, ha, hk, h⟩
  | fail e => exact h.elim
  | get l k =>
    cases l with
    | numV =>
      obtain ⟨v, e, -⟩ := hm.numV
      exact ⟨k v, m, N, by simp only [step, Loc.valid, if_true, e], ha, hk, h v⟩
    | numT =>
      obtain ⟨v, e, -⟩ := hm.numT
      obtain ⟨b, hk'⟩ := hk.numT hm e
      exact ⟨k v, m, _, by simp only [step, Loc.valid, if_true, e], ha, hk', h v b⟩
    | tri i j =>
      obtain ⟨v, e⟩ := hk.2 i j h.1 h.2.1
      have hb := hk.1
      have h1 := h.1
      have h2 := h.2.1
      exact ⟨k v, m, N, by simp only [step, valid_tri h1 (by omega : i < 192), if_true, e], ha, hk, h.2.2 v (hm.tri i j v e)⟩
    | vert i j =>
      obtain ⟨v, e⟩ := hm.vert i j h.1
      exact ⟨k v, m, N, by simp only [step, valid_vert h.1, if_true, e], ha, hk, h.2 v⟩
    | mat i r c =>
      obtain ⟨v, e⟩ := hm.mat i r c h.1
      exact ⟨k v, m, N, by simp only [step, valid_mat h.1, if_true, e], ha, hk, h.2 v⟩
    | az =>
      obtain ⟨v, e⟩ := hm.az
      exact ⟨k v, m, N, by simp only [step, Loc.valid, if_true, e], ha, hk, h v⟩
    | alt =>
      obtain ⟨v, e⟩ := hm.alt
      exact ⟨k v, m, N, by simp only [step, Loc.valid, if_true, e], ha, hk, h v⟩
  | put l v k =>
    cases l with
    | az =>
      refine ⟨k, _, N, by simp only [step, Loc.valid, if_true]; rfl, ?_, hk.put _ _, h.2⟩
      refine ⟨fun l h1 h2 => by rw [upd_ne _ h1]; exact ha.1 l h1 h2, Or.inr ⟨v, h.1, upd_same _ _⟩, ?_⟩
      rw [upd_ne _ (by simp)]; exact ha.2.2
    | alt =>
      refine ⟨k, _, N, by simp only [step, Loc.valid, if_true]; rfl, ?_, hk.put _ _, h.2⟩
      refine ⟨fun l h1 h2 => by rw [upd_ne _ h2]; exact ha.1 l h1 h2, ?_, Or.inr ⟨v, h.1, upd_same _ _⟩⟩
      rw [upd_ne _ (by simp)]; exact ha.2.1
    | numV => exact h.elim
    | numT => exact h.elim
    | tri i j => exact h.elim
    | vert i j => exact h.elim
    | mat i r c => exact h.elim

/-- A program that is safe next to a writer is also safe next to a program that only writes orientations. -/
theorem wp_of_rsafe {p : Prog K α} {m : Mem K} {Q : α → Int → Prop} (hm : WellFormed m) (hk : Known m N) (h : rsafe xs ys p N Q) :
    wp (vol xs ys) WellFormed True p m fun _ m' => (∀ l, l ≠ .az → l ≠ .alt → m' l = m l) ∧
      (m' .az = m .az ∨ ∃ x ∈ xs, m' .az = some x) ∧ (m' .alt = m .alt ∨ ∃ y ∈ ys, m' .alt = some y) := by
  induction p generalizing m N with
  | ret a => exact ⟨hm, fun _ _ _ => rfl, Or.inl rfl, Or.inl rfl⟩
  | spin => exact ⟨hm, trivial⟩
  | fail e => exact h.elim
  | get l k ih =>
    cases l with
    | numV =>
      obtain ⟨v, e, -⟩ := hm.numV
      exact ⟨hm, rfl, ⟨v, e, ih v hm hk (h v)⟩, fun w hw => hw.elim⟩
    | numT =>
      obtain ⟨v, e, -⟩ := hm.numT
      obtain ⟨b, hk'⟩ := hk.numT hm e
      exact ⟨hm, rfl, ⟨v, e, ih v hm hk' (h v b)⟩, fun w hw => hw.elim⟩
    | tri i j =>
      obtain ⟨v, e⟩ := hk.2 i j h.1 h.2.1
      have hb := hk.1
      have h1 := h.1
      have h2 := h.2.1
      exact ⟨hm, valid_tri h1 (by omega) _, ⟨v, e, ih v hm hk (h.2.2 v (hm.tri i j v e))⟩, fun w hw => hw.elim⟩
    | vert i j =>
      obtain ⟨v, e⟩ := hm.vert i j h.1
      exact ⟨hm, valid_vert h.1 _, ⟨v, e, ih v hm hk (h.2 v)⟩, fun w hw => hw.elim⟩
    | mat i r c =>
      obtain ⟨v, e⟩ := hm.mat i r c h.1
      exact ⟨hm, valid_mat h.1 _ _, ⟨v, e, ih v hm hk (h.2 v)⟩, fun w hw => hw.elim⟩
    | az =>
      obtain ⟨v, e⟩ := hm.az
      exact ⟨hm, rfl, ⟨v, e, ih v hm hk (h v)⟩, fun w hw => ih w hm hk (h w)⟩
    | alt =>
      obtain ⟨v, e⟩ := hm.alt
      exact ⟨hm, rfl, ⟨v, e, ih v hm hk (h v)⟩, fun w hw => ih w hm hk (h w)⟩
  | put l v k ih =>
    cases l with
    | az =>
      refine ⟨hm, rfl, wp_mono (ih (hm.put_az v) (hk.put _ _) h.2) ?_⟩
      rintro a m' - ⟨h1, h2, h3⟩
      refine ⟨fun l ha hb => by rw [h1 l ha hb, upd_ne _ ha], ?_, ?_⟩
      · rcases h2 with e | e
        · rw [upd_same] at e; exact Or.inr ⟨v, h.1, e⟩
        · exact Or.inr e
      · rcases h3 with e | e
        · rw [upd_ne _ (by simp)] at e; exact Or.inl e
        · exact Or.inr e
    | alt =>
      refine ⟨hm, rfl, wp_mono (ih (hm.put_alt v) (hk.put _ _) h.2) ?_⟩
      rintro a m' - ⟨h1, h2, h3⟩
      refine ⟨fun l ha hb => by rw [h1 l ha hb, upd_ne _ hb], ?_, ?_⟩
      · rcases h2 with e | e
        · rw [upd_ne _ (by simp)] at e; exact Or.inl e
        · exact Or.inr e
      · rcases h3 with e | e
        · rw [upd_same] at e; exact Or.inr ⟨v, h.1, e⟩
        · exact Or.inr e
    | numV => exact h.elim
    | numT => exact h.elim
    | tri i j => exact h.elim
    | vert i j => exact h.elim
    | mat i r c => exact h.elim

end Safe

end Verif.Shared
