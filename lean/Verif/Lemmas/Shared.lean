import Mathlib.Tactic.Linarith
import Verif.Spec.Shared
import Verif.Lemmas.Align
import Verif.Lemmas.Triangulate

/-!
# Programs of single accesses: weakest preconditions
-/

namespace Verif.Shared

open Verif.Align Linalg

section General
variable {K σ : Type}

/-- Values a read may deliver although the task's own view of the memory says otherwise: the other task may write them. -/
abbrev Volatile (K : Type) := (l : Loc) → l.Ty K → Prop

/-- Running `p` from `m`, every intermediate memory satisfies `I`, no access fails, and the end satisfies `Q`; `S` says whether a loop
may run out of its bound. -/
def wp {α : Type} (A : Volatile K) (I : Mem K → Prop) (S : Prop) : Prog K α → Mem K → (α → Mem K → Prop) → Prop
  | .ret a, m, Q => I m ∧ Q a m
  | .spin, m, _ => I m ∧ S
  | .fail _, _, _ => False
  | .get l k, m, Q => I m ∧ l.valid = true ∧ (∃ v, m l = some v ∧ wp A I S (k v) m Q) ∧ ∀ v, A l v → wp A I S (k v) m Q
  | .put l v k, m, Q => I m ∧ l.valid = true ∧ wp A I S k (Function.update m l (some v)) Q

variable {A : Volatile K} {I : Mem K → Prop} {S : Prop} {α β : Type}

theorem wp_inv {p : Prog K α} {m : Mem K} {Q} (h : wp A I S p m Q) : I m := by
  cases p with
  | fail e => exact h.elim
  | ret a => exact h.1
  | spin => exact h.1
  | get l k => exact h.1
  | put l v k => exact h.1

theorem wp_mono {p : Prog K α} {m : Mem K} {Q Q' : α → Mem K → Prop} (h : wp A I S p m Q) (hq : ∀ a m, I m → Q a m → Q' a m) :
    wp A I S p m Q' := by
  induction p generalizing m with
  | ret a => exact ⟨h.1, hq _ _ h.1 h.2⟩
  | spin => exact h
  | fail e => exact h.elim
  | get l k ih =>
    obtain ⟨h1, h2, ⟨v, hv, h3⟩, h4⟩ := h
    exact ⟨h1, h2, ⟨v, hv, ih v h3⟩, fun w hw => ih w (h4 w hw)⟩
  | put l v k ih => exact ⟨h.1, h.2.1, ih h.2.2⟩

theorem wp_bind {p : Prog K α} {f : α → Prog K β} {m : Mem K} {Q : β → Mem K → Prop}
    (h : wp A I S p m (fun a m' => wp A I S (f a) m' Q)) : wp A I S (p >>= f) m Q := by
  show wp A I S (p.bind f) m Q
  induction p generalizing m with
  | ret a => exact h.2
  | spin => exact h
  | fail e => exact h.elim
  | get l k ih =>
    obtain ⟨h1, h2, ⟨v, hv, h3⟩, h4⟩ := h
    exact ⟨h1, h2, ⟨v, hv, ih v h3⟩, fun w hw => ih w (h4 w hw)⟩
  | put l v k ih => exact ⟨h.1, h.2.1, ih h.2.2⟩

theorem bind_assoc' {γ : Type} (p : Prog K α) (f : α → Prog K β) (g : β → Prog K γ) : (p >>= f) >>= g = p >>= fun a => f a >>= g := by
  show (p.bind f).bind g = p.bind fun a => (f a).bind g
  induction p with
  | ret a => rfl
  | spin => rfl
  | fail e => rfl
  | get l k ih => simp only [Prog.bind]; congr 1; funext v; exact ih v
  | put l v k ih => simp only [Prog.bind, ih]

theorem pure_bind' (a : α) (f : α → Prog K β) : (pure a >>= f : Prog K β) = f a := rfl
theorem ret_bind' (a : α) (f : α → Prog K β) : ((Prog.ret a : Prog K α) >>= f : Prog K β) = f a := rfl
theorem ofC_ok_bind (a : α) (f : α → Prog K β) : ((ofC (.ok a) : Prog K α) >>= f : Prog K β) = f a := rfl
theorem spin_bind (f : α → Prog K β) : ((Prog.spin : Prog K α) >>= f : Prog K β) = .spin := rfl

theorem wp_ret {a : α} {m : Mem K} {Q : α → Mem K → Prop} (hI : I m) (h : Q a m) : wp A I S (.ret a) m Q := ⟨hI, h⟩

theorem wp_pure {a : α} {m : Mem K} {Q : α → Mem K → Prop} (hI : I m) (h : Q a m) : wp A I S (pure a : Prog K α) m Q := ⟨hI, h⟩

theorem wp_rd {l : Loc} {f : l.Ty K → Prog K β} {m : Mem K} {Q : β → Mem K → Prop} {v : l.Ty K} (hI : I m) (hl : l.valid = true)
    (hv : m l = some v) (hA : ∀ w, ¬ A l w) (h : wp A I S (f v) m Q) : wp A I S (rd l >>= f) m Q :=
  ⟨hI, hl, ⟨v, hv, h⟩, fun w hw => absurd hw (hA w)⟩

theorem wp_rd_any {l : Loc} {f : l.Ty K → Prog K β} {m : Mem K} {Q : β → Mem K → Prop} {v : l.Ty K} (hI : I m) (hl : l.valid = true)
    (hv : m l = some v) (h : ∀ w, (w = v ∨ A l w) → wp A I S (f w) m Q) : wp A I S (rd l >>= f) m Q :=
  ⟨hI, hl, ⟨v, hv, h v (Or.inl rfl)⟩, fun w hw => h w (Or.inr hw)⟩

theorem wp_wr {l : Loc} {v : l.Ty K} {f : Unit → Prog K β} {m : Mem K} {Q : β → Mem K → Prop} (hI : I m) (hl : l.valid = true)
    (h : wp A I S (f ()) (Function.update m l (some v)) Q) : wp A I S (wr l v >>= f) m Q := ⟨hI, hl, h⟩

theorem wp_wr_last {l : Loc} {v : l.Ty K} {m : Mem K} {Q : Unit → Mem K → Prop} (hI : I m) (hl : l.valid = true)
    (hI' : I (Function.update m l (some v))) (h : Q () (Function.update m l (some v))) : wp A I S (wr l v) m Q := ⟨hI, hl, hI', h⟩

/-- Without volatile members and without bounds running out, the program run alone ends as `wp` says. -/
theorem exec_of_wp {p : Prog K α} {m : Mem K} {Q : α → Mem K → Prop} (h : wp A I False p m Q) :
    ∃ a m', exec p m = .ok (some a, m') ∧ I m' ∧ Q a m' := by
  induction p generalizing m with
  | ret a => exact ⟨a, m, rfl, h.1, h.2⟩
  | spin => exact h.2.elim
  | fail e => exact h.elim
  | get l k ih =>
    obtain ⟨h1, h2, ⟨v, hv, h3⟩, -⟩ := h
    obtain ⟨a, m', e, r⟩ := ih v h3
    refine ⟨a, m', ?_, r⟩
    simp only [exec, h2, if_true, hv, e]
  | put l v k ih =>
    obtain ⟨a, m', e, r⟩ := ih h.2.2
    refine ⟨a, m', ?_, r⟩
    simp only [exec, h.2.1, if_true, e]

end General

/-! ### Members that stay well-formed -/

section Wf
variable {K : Type} {m : Mem K}

theorem upd_same (l : Loc) (v : Option (l.Ty K)) : Function.update m l v l = v := Function.update_self ..

theorem upd_ne {l l' : Loc} (v : Option (l.Ty K)) (h : l' ≠ l) : Function.update m l v l' = m l' := Function.update_of_ne h ..

/-- Writing a member of well-formed value. -/
theorem WellFormed.put_vert (h : WellFormed m) (i : Nat) (f : Fin 4) (v : K) : WellFormed (Function.update m (.vert i f) (some v)) where
  numV := by rw [upd_ne _ (by simp)]; exact h.numV
  numT := by
    obtain ⟨n, e, hn, ht⟩ := h.numT
    refine ⟨n, by rw [upd_ne _ (by simp)]; exact e, hn, fun i k h0 h1 => ?_⟩
    rw [upd_ne _ (by simp)]; exact ht i k h0 h1
  tri i k v hv := by rw [upd_ne _ (by simp)] at hv; exact h.tri i k v hv
  vert j g hj := by
    by_cases hl : Loc.vert j g = .vert i f
    · injection hl with h1 h2; subst h1; subst h2; exact ⟨v, upd_same _ _⟩
    · rw [upd_ne _ hl]; exact h.vert j g hj
  mat j r c hj := by rw [upd_ne _ (by simp)]; exact h.mat j r c hj
  az := by rw [upd_ne _ (by simp)]; exact h.az
  alt := by rw [upd_ne _ (by simp)]; exact h.alt

theorem WellFormed.put_mat (h : WellFormed m) (i : Nat) (r c : Fin 3) (v : K) : WellFormed (Function.update m (.mat i r c) (some v)) where
  numV := by rw [upd_ne _ (by simp)]; exact h.numV
  numT := by
    obtain ⟨n, e, hn, ht⟩ := h.numT
    refine ⟨n, by rw [upd_ne _ (by simp)]; exact e, hn, fun i k h0 h1 => ?_⟩
    rw [upd_ne _ (by simp)]; exact ht i k h0 h1
  tri i k v hv := by rw [upd_ne _ (by simp)] at hv; exact h.tri i k v hv
  vert j g hj := by rw [upd_ne _ (by simp)]; exact h.vert j g hj
  mat j r' c' hj := by
    by_cases hl : Loc.mat j r' c' = .mat i r c
    · injection hl with h1 h2 h3; subst h1; subst h2; subst h3; exact ⟨v, upd_same _ _⟩
    · rw [upd_ne _ hl]; exact h.mat j r' c' hj
  az := by rw [upd_ne _ (by simp)]; exact h.az
  alt := by rw [upd_ne _ (by simp)]; exact h.alt

theorem WellFormed.put_tri (h : WellFormed m) (i : Int) (k : Fin 3) (v : Nat) (hv : v ≤ 65) :
    WellFormed (Function.update m (.tri i k) (some v)) where
  numV := by rw [upd_ne _ (by simp)]; exact h.numV
  numT := by
    obtain ⟨n, e, hn, ht⟩ := h.numT
    refine ⟨n, by rw [upd_ne _ (by simp)]; exact e, hn, fun j k' h0 h1 => ?_⟩
    by_cases hl : Loc.tri j k' = .tri i k
    · injection hl with h1 h2; subst h1; subst h2; exact ⟨v, upd_same _ _⟩
    · rw [upd_ne _ hl]; exact ht j k' h0 h1
  tri j k' w hw := by
    by_cases hl : Loc.tri j k' = .tri i k
    · injection hl with h1 h2; subst h1; subst h2
      rw [upd_same] at hw; exact Option.some.inj hw ▸ hv
    · rw [upd_ne _ hl] at hw; exact h.tri j k' w hw
  vert j g hj := by rw [upd_ne _ (by simp)]; exact h.vert j g hj
  mat j r' c' hj := by rw [upd_ne _ (by simp)]; exact h.mat j r' c' hj
  az := by rw [upd_ne _ (by simp)]; exact h.az
  alt := by rw [upd_ne _ (by simp)]; exact h.alt

theorem WellFormed.put_numV (h : WellFormed m) (n : Nat) (hn : n ≤ 63) : WellFormed (Function.update m .numV (some n)) where
  numV := ⟨n, upd_same _ _, hn⟩
  numT := by
    obtain ⟨n, e, hn, ht⟩ := h.numT
    refine ⟨n, by rw [upd_ne _ (by simp)]; exact e, hn, fun i k h0 h1 => ?_⟩
    rw [upd_ne _ (by simp)]; exact ht i k h0 h1
  tri i k v hv := by rw [upd_ne _ (by simp)] at hv; exact h.tri i k v hv
  vert j g hj := by rw [upd_ne _ (by simp)]; exact h.vert j g hj
  mat j r' c' hj := by rw [upd_ne _ (by simp)]; exact h.mat j r' c' hj
  az := by rw [upd_ne _ (by simp)]; exact h.az
  alt := by rw [upd_ne _ (by simp)]; exact h.alt

theorem WellFormed.put_numT (h : WellFormed m) (n : Int) (hn : n ≤ 192) (ht : ∀ i k, 0 ≤ i → i < n → ∃ v, m (.tri i k) = some v) :
    WellFormed (Function.update m .numT (some n)) where
  numV := by rw [upd_ne _ (by simp)]; exact h.numV
  numT := by
    refine ⟨n, upd_same _ _, hn, fun i k h0 h1 => ?_⟩
    rw [upd_ne _ (by simp)]; exact ht i k h0 h1
  tri i k v hv := by rw [upd_ne _ (by simp)] at hv; exact h.tri i k v hv
  vert j g hj := by rw [upd_ne _ (by simp)]; exact h.vert j g hj
  mat j r' c' hj := by rw [upd_ne _ (by simp)]; exact h.mat j r' c' hj
  az := by rw [upd_ne _ (by simp)]; exact h.az
  alt := by rw [upd_ne _ (by simp)]; exact h.alt

theorem WellFormed.put_az (h : WellFormed m) (v : K) : WellFormed (Function.update m .az (some v)) where
  numV := by rw [upd_ne _ (by simp)]; exact h.numV
  numT := by
    obtain ⟨n, e, hn, ht⟩ := h.numT
    refine ⟨n, by rw [upd_ne _ (by simp)]; exact e, hn, fun i k h0 h1 => ?_⟩
    rw [upd_ne _ (by simp)]; exact ht i k h0 h1
  tri i k v hv := by rw [upd_ne _ (by simp)] at hv; exact h.tri i k v hv
  vert j g hj := by rw [upd_ne _ (by simp)]; exact h.vert j g hj
  mat j r' c' hj := by rw [upd_ne _ (by simp)]; exact h.mat j r' c' hj
  az := ⟨v, upd_same _ _⟩
  alt := by rw [upd_ne _ (by simp)]; exact h.alt

theorem WellFormed.put_alt (h : WellFormed m) (v : K) : WellFormed (Function.update m .alt (some v)) where
  numV := by rw [upd_ne _ (by simp)]; exact h.numV
  numT := by
    obtain ⟨n, e, hn, ht⟩ := h.numT
    refine ⟨n, by rw [upd_ne _ (by simp)]; exact e, hn, fun i k h0 h1 => ?_⟩
    rw [upd_ne _ (by simp)]; exact ht i k h0 h1
  tri i k v hv := by rw [upd_ne _ (by simp)] at hv; exact h.tri i k v hv
  vert j g hj := by rw [upd_ne _ (by simp)]; exact h.vert j g hj
  mat j r' c' hj := by rw [upd_ne _ (by simp)]; exact h.mat j r' c' hj
  az := by rw [upd_ne _ (by simp)]; exact h.az
  alt := ⟨v, upd_same _ _⟩

/-- Only the orientation is volatile. -/
def Quiet (A : Volatile K) : Prop := ∀ l v, A l v → l = .az ∨ l = .alt

end Wf

/-! ### Structures -/

section Structs
variable {K : Type} {m : Mem K} {A : Volatile K} {S : Prop} {β : Type} {Q : β → Mem K → Prop}

theorem wp_get (hq : Quiet A) {l : Loc} {f : l.Ty K → Prog K β} {v : l.Ty K} (hm : WellFormed m) (h1 : l ≠ .az) (h2 : l ≠ .alt)
    (hl : l.valid = true) (hv : m l = some v) (h : wp A WellFormed S (f v) m Q) : wp A WellFormed S (rd l >>= f) m Q :=
  wp_rd hm hl hv (fun w hw => by rcases hq l w hw with e | e <;> contradiction) h

theorem valid_tri {i : Int} (h0 : 0 ≤ i) (h1 : i < 192) (k : Fin 3) : (Loc.tri i k).valid = true := by simp [Loc.valid, h0, h1]

theorem valid_vert {i : Nat} (h1 : i < 67) (k : Fin 4) : (Loc.vert i k).valid = true := by simp [Loc.valid, h1]

theorem valid_mat {i : Nat} (h1 : i < 192) (r c : Fin 3) : (Loc.mat i r c).valid = true := by simp [Loc.valid, h1]

theorem wp_numT (hq : Quiet A) {f : Int → Prog K β} {v : Int} (hm : WellFormed m) (hv : m .numT = some v)
    (h : wp A WellFormed S (f v) m Q) : wp A WellFormed S (rd .numT >>= f) m Q :=
  wp_get hq hm (by simp) (by simp) rfl hv h

theorem wp_numV (hq : Quiet A) {f : Nat → Prog K β} {v : Nat} (hm : WellFormed m) (hv : m .numV = some v)
    (h : wp A WellFormed S (f v) m Q) : wp A WellFormed S (rd .numV >>= f) m Q :=
  wp_get hq hm (by simp) (by simp) rfl hv h

theorem wp_rdTri (hq : Quiet A) {i : Int} {t : Tri} {f : Tri → Prog K β} (hm : WellFormed m) (h0 : 0 ≤ i) (h1 : i < 192)
    (ht : ∀ k, m (.tri i k) = some (corner t k)) (h : wp A WellFormed S (f t) m Q) : wp A WellFormed S (rdTri i >>= f) m Q := by
  unfold rdTri
  simp only [bind_assoc', pure_bind']
  refine wp_get hq hm (by simp) (by simp) (valid_tri h0 h1 _) (ht 0) ?_
  refine wp_get hq hm (by simp) (by simp) (valid_tri h0 h1 _) (ht 1) ?_
  refine wp_get hq hm (by simp) (by simp) (valid_tri h0 h1 _) (ht 2) ?_
  exact h

theorem wp_rdPt (hq : Quiet A) {i : Nat} {p : Pt K} {f : Pt K → Prog K β} (hm : WellFormed m) (h1 : i < 67)
    (hx : m (.vert i 0) = some p.x) (hy : m (.vert i 1) = some p.y) (h : wp A WellFormed S (f p) m Q) :
    wp A WellFormed S (rdPt i >>= f) m Q := by
  unfold rdPt
  simp only [bind_assoc', pure_bind']
  refine wp_get hq hm (by simp) (by simp) (valid_vert h1 _) hx ?_
  refine wp_get hq hm (by simp) (by simp) (valid_vert h1 _) hy ?_
  exact h

theorem wp_rdVertex (hq : Quiet A) {i : Nat} {v : VertexPair K} {f : VertexPair K → Prog K β} (hm : WellFormed m) (h1 : i < 67)
    (hv : ∀ f, m (.vert i f) = some (field v f)) (h : wp A WellFormed S (f v) m Q) :
    wp A WellFormed S (rdVertex i >>= f) m Q := by
  unfold rdVertex
  simp only [bind_assoc', pure_bind']
  refine wp_get hq hm (by simp) (by simp) (valid_vert h1 _) (hv 0) ?_
  refine wp_get hq hm (by simp) (by simp) (valid_vert h1 _) (hv 1) ?_
  refine wp_get hq hm (by simp) (by simp) (valid_vert h1 _) (hv 2) ?_
  refine wp_get hq hm (by simp) (by simp) (valid_vert h1 _) (hv 3) ?_
  exact h

theorem wp_copyTri (hq : Quiet A) {i j : Int} {t : Tri} {f : Unit → Prog K β} (hm : WellFormed m) (h0 : 0 ≤ i) (h1 : i < 192)
    (h2 : 0 ≤ j) (h3 : j < 192) (ht : ∀ k, m (.tri j k) = some (corner t k))
    (h : ∀ m', WellFormed m' → (∀ k, m' (.tri i k) = some (corner t k)) → (∀ l, (∀ k, l ≠ .tri i k) → m' l = m l) →
      wp A WellFormed S (f ()) m' Q) :
    wp A WellFormed S (copyTri i j >>= f) m Q := by
  unfold copyTri
  simp only [bind_assoc']
  have b : ∀ k, corner t k ≤ 65 := fun k => hm.tri _ _ _ (ht k)
  refine wp_get hq hm (by simp) (by simp) (valid_tri h2 h3 _) (ht 0) ?_
  refine wp_wr hm (valid_tri h0 h1 _) ?_
  have hm1 := hm.put_tri i 0 (corner t 0) (b 0)
  refine wp_get hq hm1 (by simp) (by simp) (valid_tri h2 h3 _) (v := corner t 1) (by rw [upd_ne _ (by simp)]; exact ht 1) ?_
  refine wp_wr hm1 (valid_tri h0 h1 _) ?_
  have hm2 := hm1.put_tri i 1 (corner t 1) (b 1)
  refine wp_get hq hm2 (by simp) (by simp) (valid_tri h2 h3 _) (v := corner t 2)
    (by rw [upd_ne _ (by simp), upd_ne _ (by simp)]; exact ht 2) ?_
  refine wp_wr hm2 (valid_tri h0 h1 _) ?_
  have hm3 := hm2.put_tri i 2 (corner t 2) (b 2)
  refine h _ hm3 ?_ ?_
  · intro k
    match k with
    | 0 => rw [upd_ne _ (by simp), upd_ne _ (by simp), upd_same]
    | 1 => rw [upd_ne _ (by simp), upd_same]
    | 2 => rw [upd_same]
  · intro l hl
    rw [upd_ne _ (hl 2), upd_ne _ (hl 1), upd_ne _ (hl 0)]

/-- Reading a matrix. -/
theorem wp_rdMat (hq : Quiet A) {i : Nat} {M : Mat3 K} {f : Mat3 K → Prog K β} (hm : WellFormed m) (h1 : i < 192)
    (hM : ∀ r c, m (.mat i r c) = some (M.get r c)) (h : wp A WellFormed S (f M) m Q) : wp A WellFormed S (rdMat i >>= f) m Q := by
  unfold rdMat
  simp only [bind_assoc', pure_bind']
  refine wp_get hq hm (by simp) (by simp) (valid_mat h1 _ _) (hM 0 0) ?_
  refine wp_get hq hm (by simp) (by simp) (valid_mat h1 _ _) (hM 0 1) ?_
  refine wp_get hq hm (by simp) (by simp) (valid_mat h1 _ _) (hM 0 2) ?_
  refine wp_get hq hm (by simp) (by simp) (valid_mat h1 _ _) (hM 1 0) ?_
  refine wp_get hq hm (by simp) (by simp) (valid_mat h1 _ _) (hM 1 1) ?_
  refine wp_get hq hm (by simp) (by simp) (valid_mat h1 _ _) (hM 1 2) ?_
  refine wp_get hq hm (by simp) (by simp) (valid_mat h1 _ _) (hM 2 0) ?_
  refine wp_get hq hm (by simp) (by simp) (valid_mat h1 _ _) (hM 2 1) ?_
  refine wp_get hq hm (by simp) (by simp) (valid_mat h1 _ _) (hM 2 2) ?_
  exact h

/-- Writing a matrix. -/
theorem wp_wrMat {i : Nat} {M : Mat3 K} {f : Unit → Prog K β} (hm : WellFormed m) (h1 : i < 192)
    (h : ∀ m', WellFormed m' → (∀ r c, m' (.mat i r c) = some (M.get r c)) → (∀ l, (∀ r c, l ≠ .mat i r c) → m' l = m l) →
      wp A WellFormed S (f ()) m' Q) :
    wp A WellFormed S (wrMat i M >>= f) m Q := by
  unfold wrMat
  simp only [bind_assoc']
  have g0 := hm.put_mat i 0 0 M.a00
  have g1 := g0.put_mat i 0 1 M.a01
  have g2 := g1.put_mat i 0 2 M.a02
  have g3 := g2.put_mat i 1 0 M.a10
  have g4 := g3.put_mat i 1 1 M.a11
  have g5 := g4.put_mat i 1 2 M.a12
  have g6 := g5.put_mat i 2 0 M.a20
  have g7 := g6.put_mat i 2 1 M.a21
  have g8 := g7.put_mat i 2 2 M.a22
  refine wp_wr hm (valid_mat h1 _ _) ?_
  refine wp_wr g0 (valid_mat h1 _ _) ?_
  refine wp_wr g1 (valid_mat h1 _ _) ?_
  refine wp_wr g2 (valid_mat h1 _ _) ?_
  refine wp_wr g3 (valid_mat h1 _ _) ?_
  refine wp_wr g4 (valid_mat h1 _ _) ?_
  refine wp_wr g5 (valid_mat h1 _ _) ?_
  refine wp_wr g6 (valid_mat h1 _ _) ?_
  refine wp_wr g7 (valid_mat h1 _ _) ?_
  refine h _ g8 ?_ ?_
  · intro r c
    match r, c with
    | 0, 0 => simp [Mat3.get, Function.update_of_ne]
    | 0, 1 => simp [Mat3.get, Function.update_of_ne]
    | 0, 2 => simp [Mat3.get, Function.update_of_ne]
    | 1, 0 => simp [Mat3.get, Function.update_of_ne]
    | 1, 1 => simp [Mat3.get, Function.update_of_ne]
    | 1, 2 => simp [Mat3.get, Function.update_of_ne]
    | 2, 0 => simp [Mat3.get, Function.update_of_ne]
    | 2, 1 => simp [Mat3.get, Function.update_of_ne]
    | 2, 2 => simp [Mat3.get]
  · intro l hl
    repeat rw [upd_ne _ (hl _ _)]

end Structs

end Verif.Shared
