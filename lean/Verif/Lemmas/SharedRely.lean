import Verif.Lemmas.SharedSync

/-!
# Two tasks, access by access: rules for what the other task may do
-/

namespace Verif.Shared

open Verif.Align Linalg

variable {K σ : Type} [Field K] [LinearOrder K] [IsStrictOrderedRing K]

set_option linter.unusedSectionVars false

/-! ### Values a member may hold -/

section Rwp
variable {α β : Type} {R : Volatile K} {S : Prop}

/-- Whatever values in `R` the reads deliver, no access fails, only values in `R` are written, and the result satisfies `Q`; `S` says
whether a loop may run out of its bound. -/
def rwp (R : Volatile K) (S : Prop) : Prog K α → (α → Prop) → Prop
  | .ret a, Q => Q a
  | .spin, _ => S
  | .fail _, _ => False
  | .get l k, Q => l.valid = true ∧ (∃ v, R l v) ∧ ∀ v, R l v → rwp R S (k v) Q
  | .put l v k, Q => l.valid = true ∧ R l v ∧ rwp R S k Q

theorem rwp_bind {p : Prog K α} {f : α → Prog K β} {Q : β → Prop} (h : rwp R S p fun a => rwp R S (f a) Q) : rwp R S (p >>= f) Q := by
  show rwp R S (p.bind f) Q
  induction p with
  | ret a => exact h
  | spin => exact h
  | fail e => exact h.elim
  | get l k ih => exact ⟨h.1, h.2.1, fun v hv => ih v (h.2.2 v hv)⟩
  | put l v k ih => exact ⟨h.1, h.2.1, ih h.2.2⟩

theorem rwp_mono {p : Prog K α} {Q Q' : α → Prop} (h : rwp R S p Q) (hq : ∀ a, Q a → Q' a) : rwp R S p Q' := by
  induction p with
  | ret a => exact hq _ h
  | spin => exact h
  | fail e => exact h.elim
  | get l k ih => exact ⟨h.1, h.2.1, fun v hv => ih v (h.2.2 v hv)⟩
  | put l v k ih => exact ⟨h.1, h.2.1, ih h.2.2⟩

theorem rwp_rd {l : Loc} {f : l.Ty K → Prog K β} {Q : β → Prop} (hl : l.valid = true) (he : ∃ v, R l v)
    (h : ∀ v, R l v → rwp R S (f v) Q) : rwp R S (rd l >>= f) Q := ⟨hl, he, h⟩

theorem rwp_wr {l : Loc} {v : l.Ty K} {f : Unit → Prog K β} {Q : β → Prop} (hl : l.valid = true) (he : R l v)
    (h : rwp R S (f ()) Q) : rwp R S (wr l v >>= f) Q := ⟨hl, he, h⟩

/-- Members that `R` allows to be read hold a value in `R`. -/
def Inside (R : Volatile K) (m : Mem K) : Prop := ∀ l, (∃ v, R l v) → ∃ v, m l = some v ∧ R l v

theorem Inside.put {m : Mem K} (h : Inside R m) {l : Loc} {v : l.Ty K} (hv : R l v) : Inside R (Function.update m l (some v)) := by
  intro l' he
  by_cases hl : l' = l
  · subst hl; exact ⟨v, upd_same _ _, hv⟩
  · rw [upd_ne _ hl]; exact h l' he

theorem step_rwp {p : Prog K α} {m : Mem K} {Q : α → Prop} (hm : Inside R m) (h : rwp R S p Q) :
    ∃ p' m', step p m = .ok (p', m') ∧ Inside R m' ∧ rwp R S p' Q := by
  cases p with
  | ret a => exact ⟨_, _, rfl, hm, h⟩
  | spin => exact ⟨_, _, rfl, hm, h⟩
  | fail e => exact h.elim
  | get l k =>
    obtain ⟨v, hv, hr⟩ := hm l h.2.1
    exact ⟨k v, m, by simp only [step, h.1, if_true, hv], hm, h.2.2 v hr⟩
  | put l v k => exact ⟨k, _, by simp only [step, h.1, if_true], hm.put h.2.1, h.2.2⟩

theorem par_rwp {Q : Race.Task → α → Prop} : ∀ (sched : List Race.Task) (ps : Race.Task → Prog K α) (m : Mem K), Inside R m →
    (∀ t, rwp R S (ps t) (Q t)) → ∃ ps' m', par sched ps m = .ok (ps', m') ∧ Inside R m' ∧ ∀ t, rwp R S (ps' t) (Q t) := by
  intro sched
  induction sched with
  | nil => intro ps m hm h; exact ⟨ps, m, rfl, hm, h⟩
  | cons t sched ih =>
    intro ps m hm h
    obtain ⟨p', m', e, hm', h'⟩ := step_rwp hm (h t)
    simp only [par, e, bind_ok]
    refine ih _ m' hm' fun u => ?_
    by_cases hu : u = t
    · subst hu; rw [Function.update_self]; exact h'
    · rw [Function.update_of_ne hu]; exact h u

theorem exec_rwp {p : Prog K α} {m : Mem K} {Q : α → Prop} (hm : Inside R m) (h : rwp R False p Q) :
    ∃ a m', exec p m = .ok (some a, m') ∧ Q a ∧ ∀ l, m' l = m l ∨ ∃ v, R l v ∧ m' l = some v := by
  induction p generalizing m with
  | ret a => exact ⟨a, m, rfl, h, fun l => Or.inl rfl⟩
  | spin => exact h.elim
  | fail e => exact h.elim
  | get l k ih =>
    obtain ⟨v, hv, hr⟩ := hm l h.2.1
    obtain ⟨a, m', e, r⟩ := ih v hm (h.2.2 v hr)
    exact ⟨a, m', by simp only [exec, h.1, if_true, hv, e], r⟩
  | put l v k ih =>
    obtain ⟨a, m', e, hq, ho⟩ := ih (hm.put h.2.1) h.2.2
    refine ⟨a, m', by simp only [exec, h.1, if_true, e], hq, fun l' => ?_⟩
    rcases ho l' with h' | h'
    · by_cases hl : l' = l
      · subst hl; rw [upd_same] at h'; exact Or.inr ⟨v, h.2.1, h'⟩
      · rw [upd_ne _ hl] at h'; exact Or.inl h'
    · exact Or.inr h'

end Rwp

/-! ### Only the orientation changes -/

/-- Everything but the orientation keeps its value. -/
def still (m : Mem K) (xs ys : List K) : Volatile K := fun l => match l with
  | .az => fun v => v ∈ xs
  | .alt => fun v => v ∈ ys
  | .numV => fun v => m .numV = some v
  | .numT => fun v => m .numT = some v
  | .tri i k => fun v => m (.tri i k) = some v
  | .vert i f => fun v => m (.vert i f) = some v
  | .mat i r c => fun v => m (.mat i r c) = some v

theorem still_eq {m : Mem K} {xs ys : List K} {l : Loc} (h1 : l ≠ .az) (h2 : l ≠ .alt) (v : l.Ty K) :
    still m xs ys l v ↔ m l = some v := by
  cases l <;> first | rfl | contradiction

theorem inside_still {m : Mem K} {xs ys : List K} (hx : ∃ x ∈ xs, m .az = some x) (hy : ∃ y ∈ ys, m .alt = some y) :
    Inside (still m xs ys) m := by
  intro l hl
  by_cases h1 : l = .az
  · subst h1; obtain ⟨x, hx, e⟩ := hx; exact ⟨x, e, hx⟩
  by_cases h2 : l = .alt
  · subst h2; obtain ⟨y, hy, e⟩ := hy; exact ⟨y, e, hy⟩
  obtain ⟨v, hv⟩ := hl
  exact ⟨v, (still_eq h1 h2 v).1 hv, hv⟩

section Still
variable {β : Type} {S : Prop} {m : Mem K} {xs ys : List K} {s : State K} {p : Pt K} {Q : β → Prop}

theorem still_rd {l : Loc} {f : l.Ty K → Prog K β} {v : l.Ty K} (h1 : l ≠ .az) (h2 : l ≠ .alt) (hl : l.valid = true)
    (hv : m l = some v) (h : rwp (still m xs ys) S (f v) Q) : rwp (still m xs ys) S (rd l >>= f) Q := by
  refine rwp_rd hl ⟨v, (still_eq h1 h2 v).2 hv⟩ fun w hw => ?_
  have := (still_eq h1 h2 w).1 hw
  rw [hv] at this
  rw [← Option.some.inj this]; exact h

theorem still_numT {f : Int → Prog K β} {v : Int} (hv : m .numT = some v) (h : rwp (still m xs ys) S (f v) Q) :
    rwp (still m xs ys) S (rd .numT >>= f) Q := still_rd (by simp) (by simp) rfl hv h

theorem still_numV {f : Nat → Prog K β} {v : Nat} (hv : m .numV = some v) (h : rwp (still m xs ys) S (f v) Q) :
    rwp (still m xs ys) S (rd .numV >>= f) Q := still_rd (by simp) (by simp) rfl hv h

theorem still_rdTri {i : Int} {t : Tri} {f : Tri → Prog K β} (h0 : 0 ≤ i) (h1 : i < 192)
    (ht : ∀ k, m (.tri i k) = some (corner t k)) (h : rwp (still m xs ys) S (f t) Q) : rwp (still m xs ys) S (rdTri i >>= f) Q := by
  unfold rdTri
  simp only [bind_assoc', pure_bind']
  refine still_rd (by simp) (by simp) (valid_tri h0 h1 _) (ht 0) ?_
  refine still_rd (by simp) (by simp) (valid_tri h0 h1 _) (ht 1) ?_
  refine still_rd (by simp) (by simp) (valid_tri h0 h1 _) (ht 2) ?_
  exact h

theorem still_rdPt {i : Nat} {v : VertexPair K} {f : Pt K → Prog K β} (h1 : i < 67) (hv : ∀ f, m (.vert i f) = some (field v f))
    (h : rwp (still m xs ys) S (f v.actual) Q) : rwp (still m xs ys) S (rdPt i >>= f) Q := by
  unfold rdPt
  simp only [bind_assoc', pure_bind']
  refine still_rd (by simp) (by simp) (valid_vert h1 _) (hv 0) ?_
  refine still_rd (by simp) (by simp) (valid_vert h1 _) (hv 1) ?_
  exact h

theorem still_rdMat {i : Nat} {M : Mat3 K} {f : Mat3 K → Prog K β} (h1 : i < 192)
    (hM : ∀ r c, m (.mat i r c) = some (M.get r c)) (h : rwp (still m xs ys) S (f M) Q) : rwp (still m xs ys) S (rdMat i >>= f) Q := by
  unfold rdMat
  simp only [bind_assoc', pure_bind']
  refine still_rd (by simp) (by simp) (valid_mat h1 _ _) (hM 0 0) ?_
  refine still_rd (by simp) (by simp) (valid_mat h1 _ _) (hM 0 1) ?_
  refine still_rd (by simp) (by simp) (valid_mat h1 _ _) (hM 0 2) ?_
  refine still_rd (by simp) (by simp) (valid_mat h1 _ _) (hM 1 0) ?_
  refine still_rd (by simp) (by simp) (valid_mat h1 _ _) (hM 1 1) ?_
  refine still_rd (by simp) (by simp) (valid_mat h1 _ _) (hM 1 2) ?_
  refine still_rd (by simp) (by simp) (valid_mat h1 _ _) (hM 2 0) ?_
  refine still_rd (by simp) (by simp) (valid_mat h1 _ _) (hM 2 1) ?_
  refine still_rd (by simp) (by simp) (valid_mat h1 _ _) (hM 2 2) ?_
  exact h

theorem still_branch {f : Branch → Prog K β} (h : Holds m s p) (hw : rwp (still m xs ys) S (f (branchOf s)) Q) :
    rwp (still m xs ys) S (branchP >>= f) Q := by
  unfold branchP emptyAnd
  simp only [bind_assoc']
  unfold branchOf at hw
  refine still_numT h.numT ?_
  cases hts : s.triangles with
  | nil =>
    rw [hts] at hw
    simp only [List.length_nil, Nat.cast_zero, if_true, bind_assoc']
    refine still_numV h.numV ?_
    rw [pure_bind']
    by_cases h1 : s.numVertices = 1
    · rw [if_pos h1] at hw
      simp only [h1, decide_true, if_true]
      exact hw
    · rw [if_neg h1] at hw
      simp only [h1, decide_false, Bool.false_eq_true, if_false, bind_assoc']
      have hn := h.numT
      rw [hts] at hn
      refine still_numT hn ?_
      simp only [List.length_nil, Nat.cast_zero, if_true, bind_assoc']
      refine still_numV h.numV ?_
      rw [pure_bind']
      by_cases h2 : 2 ≤ s.numVertices
      · rw [if_pos h2] at hw
        simp only [h2, decide_true, if_true]
        exact hw
      · rw [if_neg h2] at hw
        simp only [h2, decide_false, Bool.false_eq_true, if_false, bind_assoc']
        refine still_numT hn ?_
        simp only [List.length_nil, Nat.cast_zero]
        exact hw
  | cons t ts =>
    rw [hts] at hw
    have h0 : ¬ (((t :: ts).length : Int) = 0) := by simp; omega
    have h1 : (1 : Int) ≤ ((t :: ts).length : Int) := by simp
    have hn := h.numT
    rw [hts] at hn
    rw [if_neg h0]
    simp only [pure_bind', Bool.false_eq_true, if_false, bind_assoc']
    refine still_numT hn ?_
    rw [if_neg h0]
    simp only [pure_bind', Bool.false_eq_true, if_false, bind_assoc']
    refine still_numT hn ?_
    rw [if_pos h1]
    exact hw

theorem still_first {env : Env K σ} {q : Pt K} (hm : WellFormed m) (h : Holds m s p) (hl : s.vertices.length = 67) :
    ∀ (ts done : List Tri) (fuel : Nat) (o : Option Nat) (f : Option Nat → Prog K β), s.triangles = done ++ ts → (S ∨ ts.length < fuel) →
      firstContaining env s q done.length ts = .ok o → rwp (still m xs ys) S (f o) Q →
      rwp (still m xs ys) S (firstP env q fuel done.length >>= f) Q := by
  have hb192 : s.triangles.length ≤ 192 := h.tris.bound hm
  intro ts
  induction ts with
  | nil =>
    intro done fuel o f ht hS hr hw
    cases fuel with
    | zero => exact hS.resolve_right (by simp)
    | succ fuel =>
      simp only [firstContaining, Except.ok.injEq] at hr
      subst hr
      simp only [firstP, bind_assoc']
      refine still_numT h.numT ?_
      rw [ht, if_neg (by simp)]
      exact hw
  | cons t ts ih =>
    intro done fuel o f ht hS hr hw
    cases fuel with
    | zero => exact hS.resolve_right (by simp)
    | succ fuel =>
      simp only [firstContaining] at hr
      obtain ⟨b, hb, hr⟩ := bind_eq_ok.1 hr
      unfold inTri at hb
      obtain ⟨u, hu, hb⟩ := bind_eq_ok.1 hb
      obtain ⟨v, hv, hb⟩ := bind_eq_ok.1 hb
      obtain ⟨w, hw', hb⟩ := bind_eq_ok.1 hb
      simp only [pure, Except.pure, Except.ok.injEq] at hb
      simp only [firstP, bind_assoc']
      refine still_numT h.numT ?_
      rw [ht, if_pos (by simp)]
      simp only [bind_assoc']
      have hget : s.triangles[done.length]? = some t := by rw [ht]; simp
      have hi : done.length < 192 := by rw [ht] at hb192; simp at hb192; omega
      refine still_rdTri (t := t) (by omega) (by omega) (h.tri _ t hget) ?_
      have b1 := (List.getElem?_eq_some_iff.1 (vertex_get hu)).1
      have b2 := (List.getElem?_eq_some_iff.1 (vertex_get hv)).1
      have b3 := (List.getElem?_eq_some_iff.1 (vertex_get hw')).1
      refine still_rdPt (by omega) (h.vert _ u (vertex_get hu)) ?_
      refine still_rdPt (by omega) (h.vert _ v (vertex_get hv)) ?_
      refine still_rdPt (by omega) (h.vert _ w (vertex_get hw')) ?_
      rw [hb]
      cases b with
      | true =>
        simp only [Except.ok.injEq] at hr
        subst hr
        exact hw
      | false =>
        simp only [Bool.false_eq_true, if_false]
        have hd : (done ++ [t]).length = done.length + 1 := by simp
        have := ih (done ++ [t]) fuel o f (by rw [List.append_assoc]; exact ht) (hS.imp id (by simp)) (by rw [hd]; exact hr) hw
        rw [hd] at this
        exact this

theorem still_nearest {env : Env K σ} {q : Pt K} (hm : WellFormed m) (h : Holds m s p) (hl : s.vertices.length = 67) :
    ∀ (ts done : List Tri) (fuel : Nat) (best o : Option (K × Nat)) (f : Option (K × Nat) → Prog K β), s.triangles = done ++ ts →
      (S ∨ ts.length < fuel) → nearestLoop env s q done.length ts best = .ok o → rwp (still m xs ys) S (f o) Q →
      rwp (still m xs ys) S (nearestP env q fuel done.length best >>= f) Q := by
  have hb192 : s.triangles.length ≤ 192 := h.tris.bound hm
  intro ts
  induction ts with
  | nil =>
    intro done fuel best o f ht hS hr hw
    cases fuel with
    | zero => exact hS.resolve_right (by simp)
    | succ fuel =>
      simp only [nearestLoop, Except.ok.injEq] at hr
      subst hr
      simp only [nearestP, bind_assoc']
      refine still_numT h.numT ?_
      rw [ht, if_neg (by simp)]
      exact hw
  | cons t ts ih =>
    intro done fuel best o f ht hS hr hw
    cases fuel with
    | zero => exact hS.resolve_right (by simp)
    | succ fuel =>
      simp only [nearestLoop] at hr
      obtain ⟨d, hb, hr⟩ := bind_eq_ok.1 hr
      unfold centreDistance at hb
      obtain ⟨u, hu, hb⟩ := bind_eq_ok.1 hb
      obtain ⟨v, hv, hb⟩ := bind_eq_ok.1 hb
      obtain ⟨w, hw', hb⟩ := bind_eq_ok.1 hb
      simp only [pure, Except.pure, Except.ok.injEq] at hb
      simp only [nearestP, bind_assoc']
      refine still_numT h.numT ?_
      rw [ht, if_pos (by simp)]
      simp only [bind_assoc']
      have hget : s.triangles[done.length]? = some t := by rw [ht]; simp
      have hi : done.length < 192 := by rw [ht] at hb192; simp at hb192; omega
      refine still_rdTri (t := t) (by omega) (by omega) (h.tri _ t hget) ?_
      have b1 := (List.getElem?_eq_some_iff.1 (vertex_get hu)).1
      have b2 := (List.getElem?_eq_some_iff.1 (vertex_get hv)).1
      have b3 := (List.getElem?_eq_some_iff.1 (vertex_get hw')).1
      refine still_rdPt (by omega) (h.vert _ u (vertex_get hu)) ?_
      refine still_rdPt (by omega) (h.vert _ v (vertex_get hv)) ?_
      refine still_rdPt (by omega) (h.vert _ w (vertex_get hw')) ?_
      rw [hb]
      have hd : (done ++ [t]).length = done.length + 1 := by simp
      have := ih (done ++ [t]) fuel _ o f (by rw [List.append_assoc]; exact ht) (hS.imp id (by simp)) (by rw [hd]; exact hr) hw
      rw [hd] at this
      exact this

theorem matrixAt_get {s : State K} {i : Nat} {M : Mat3 K} (h : matrixAt s i = .ok M) : s.matrices[i]? = some (some M) := by
  unfold matrixAt at h
  split at h
  · rename_i e; injection h with h; rw [e, h]
  · cases h
  · cases h

theorem still_matrix {env : Env K σ} {q : Pt K} {fuel : Nat} {M : Mat3 K} {f : Mat3 K → Prog K β} (hm : WellFormed m) (h : Holds m s p)
    (hl : s.vertices.length = 67) (hml : s.matrices.length = 192) (hS : S ∨ 192 < fuel) (hr : getTransformationMatrix env s q = .ok M)
    (hw : rwp (still m xs ys) S (f M) Q) : rwp (still m xs ys) S (matrixP env fuel q >>= f) Q := by
  have hb192 : s.triangles.length ≤ 192 := h.tris.bound hm
  have key : ∀ i, matrixAt s i = .ok M → rwp (still m xs ys) S (rdMat i >>= f) Q := by
    intro i hi
    have hg := matrixAt_get hi
    have hlt := (List.getElem?_eq_some_iff.1 hg).1
    exact still_rdMat (by omega) (h.mat i M hg) hw
  unfold matrixP
  simp only [bind_assoc']
  refine still_branch h ?_
  unfold branchOf
  unfold getTransformationMatrix at hr
  cases hts : s.triangles with
  | nil =>
    rw [hts] at hr
    simp only [] at hr ⊢
    by_cases h1 : s.numVertices = 1
    · rw [if_pos h1]
      rw [if_pos (by omega)] at hr
      exact key 0 hr
    · rw [if_neg h1]
      by_cases h2 : 2 ≤ s.numVertices
      · rw [if_pos h2]
        rw [if_pos (by omega)] at hr
        exact key 0 hr
      · rw [if_neg h2]
        rw [if_neg (by omega)] at hr
        injection hr with hr
        subst hr
        exact hw
  | cons t ts =>
    rw [hts] at hr
    simp only [] at hr ⊢
    obtain ⟨o, ho, hr⟩ := bind_eq_ok.1 hr
    simp only [bind_assoc']
    have hlen : (t :: ts).length ≤ 192 := by rw [← hts]; exact hb192
    refine still_first hm h hl (t :: ts) [] fuel o _ hts (hS.imp id (by omega)) ho ?_
    cases o with
    | some i => exact key i hr
    | none =>
      simp only [] at hr ⊢
      unfold nearestMatrix nearestTriangle at hr
      obtain ⟨w, hn, hr⟩ := bind_eq_ok.1 hr
      obtain ⟨b, hb, hn⟩ := bind_eq_ok.1 hn
      simp only [pure, Except.pure, Except.ok.injEq] at hn
      rw [hts] at hb
      simp only [bind_assoc']
      refine still_nearest hm h hl (t :: ts) [] fuel none b _ hts (hS.imp id (by omega)) hb ?_
      cases b with
      | none =>
        subst hn
        injection hr with hr
        subst hr
        exact hw
      | some d =>
        subst hn
        exact key d.2 hr

theorem still_type {env : Env K σ} {q : Pt K} {fuel : Nat} {ty : TType} {f : TType → Prog K β} (hm : WellFormed m) (h : Holds m s p)
    (hl : s.vertices.length = 67) (hS : S ∨ 192 < fuel) (hr : getTransformationType env s q = .ok ty)
    (hw : rwp (still m xs ys) S (f ty) Q) : rwp (still m xs ys) S (typeP env fuel q >>= f) Q := by
  have hb192 : s.triangles.length ≤ 192 := h.tris.bound hm
  unfold typeP
  simp only [bind_assoc']
  refine still_branch h ?_
  unfold branchOf
  unfold getTransformationType at hr
  cases hts : s.triangles with
  | nil =>
    rw [hts] at hr
    simp only [Except.ok.injEq] at hr ⊢
    by_cases h1 : s.numVertices = 1
    · rw [if_pos h1] at hr ⊢
      subst hr
      exact hw
    · rw [if_neg h1] at hr ⊢
      by_cases h2 : 2 ≤ s.numVertices
      · rw [if_pos h2] at hr ⊢
        subst hr
        exact hw
      · rw [if_neg h2] at hr ⊢
        subst hr
        exact hw
  | cons t ts =>
    rw [hts] at hr
    simp only [] at hr ⊢
    obtain ⟨o, ho, hr⟩ := bind_eq_ok.1 hr
    simp only [bind_assoc']
    have hlen : (t :: ts).length ≤ 192 := by rw [← hts]; exact hb192
    refine still_first hm h hl (t :: ts) [] fuel o _ hts (hS.imp id (by omega)) ho ?_
    cases o with
    | some i => injection hr with hr; subst hr; exact hw
    | none => injection hr with hr; subst hr; exact hw

/-- A position while only the orientation changes. -/
theorem still_position {env : Env K σ} {fuel : Nat} {f : Reading K → Prog K β} (hm : WellFormed m) (h : Holds m s p)
    (hl : s.vertices.length = 67) (hml : s.matrices.length = 192) (hS : S ∨ 192 < fuel) (hx : xs ≠ []) (hy : ys ≠ [])
    (hr : ∀ x ∈ xs, ∀ y ∈ ys, ∃ M ty, getTransformationMatrix env s ⟨x, y⟩ = .ok M ∧ getTransformationType env s ⟨x, y⟩ = .ok ty)
    (hw : ∀ x ∈ xs, ∀ y ∈ ys, ∀ x' ∈ xs, ∀ y' ∈ ys, ∀ M ty, getTransformationMatrix env s ⟨x, y⟩ = .ok M →
      getTransformationType env s ⟨x', y'⟩ = .ok ty → rwp (still m xs ys) S (f ⟨ty, ⟨x, y⟩, M⟩) Q) :
    rwp (still m xs ys) S (positionP env fuel >>= f) Q := by
  obtain ⟨x0, hx0⟩ := List.exists_mem_of_ne_nil _ hx
  obtain ⟨y0, hy0⟩ := List.exists_mem_of_ne_nil _ hy
  unfold positionP
  simp only [bind_assoc']
  refine rwp_rd rfl ⟨x0, hx0⟩ fun x' hx' => ?_
  refine rwp_rd rfl ⟨y0, hy0⟩ fun y' hy' => ?_
  obtain ⟨-, ty, -, hty⟩ := hr x' hx' y' hy'
  refine still_type hm h hl hS hty ?_
  refine rwp_rd rfl ⟨x0, hx0⟩ fun x hx => ?_
  refine rwp_rd rfl ⟨y0, hy0⟩ fun y hy => ?_
  obtain ⟨M, -, hM, -⟩ := hr x hx y hy
  refine still_matrix hm h hl hml hS hM ?_
  exact hw x hx y hy x' hx' y' hy' M ty hM hty

end Still

end Verif.Shared
