import Mathlib.Data.List.Perm.Basic
import Mathlib.Data.List.Perm.Subperm
import Mathlib.Tactic.Linarith
import Verif.Model.Triangulate
import Verif.Lemmas.Strto

/-!
# The loops of the triangulation, for arbitrary geometric tests
-/

namespace Verif.Align

section Loops
variable {K σ : Type}

/-- The three directed edges of a triangle. -/
def Tri.edges (t : Tri) : List Edge := [(t.p1, t.p2), (t.p2, t.p3), (t.p3, t.p1)]

theorem moveLast_perm {α : Type} (l : List α) : (moveLast l).Perm l := by
  unfold moveLast
  cases h : l.getLast? with
  | none => rw [List.getLast?_eq_none_iff.1 h]
  | some a =>
    have hne : l ≠ [] := by rintro rfl; simp at h
    have : l = l.dropLast ++ [a] := by
      conv_lhs => rw [← List.dropLast_append_getLast hne]
      rw [List.getLast?_eq_some_getLast hne] at h
      rw [Option.some.inj h]
    conv_rhs => rw [this]
    exact (List.perm_append_singleton a l.dropLast).symm

theorem moveLast_length {α : Type} (l : List α) : (moveLast l).length = l.length := (moveLast_perm l).length_eq

theorem pushEdges_ok (edges : List Edge) (emax : Nat) (t : Tri) (h : edges.length ≤ emax) :
    ∃ m, pushEdges edges emax t = .ok (edges ++ t.edges, m) ∧ (edges ++ t.edges).length ≤ m ∧ emax ≤ m := by
  unfold pushEdges
  simp only [Tri.edges, List.length_append, List.length_cons, List.length_nil]
  split
  · rw [if_pos (by omega)]
    exact ⟨_, rfl, by omega, by omega⟩
  · rw [if_pos (by omega)]
    exact ⟨_, rfl, by omega, le_refl _⟩

/-- What one pass over the triangles does, whatever the tests answer: some triangles are removed, their edges are appended,
the others stay. -/
theorem scan_spec (test : Test K σ) (mem : List (VertexPair K)) (p : Pt K) :
    ∀ (fuel : Nat) (todo : List (Tri × Bool)) (s s' : ScanSt σ), todo.length ≤ fuel → s.edges.length ≤ s.emax →
      scan test mem p fuel todo s = .ok s' →
      ∃ R : List Tri, s'.edges = s.edges ++ R.flatMap Tri.edges ∧ s'.edges.length ≤ s'.emax ∧ s.emax ≤ s'.emax ∧
        (s'.done.map Prod.fst ++ R).Perm (s.done.map Prod.fst ++ todo.map Prod.fst) := by
  intro fuel
  induction fuel with
  | zero =>
    intro todo s s' hl he h
    have : todo = [] := List.length_eq_zero_iff.1 (by omega)
    subst this
    simp only [scan, Except.ok.injEq] at h
    subst h
    exact ⟨[], by simp, he, le_refl _, by simp⟩
  | succ fuel ih =>
    intro todo s s' hl he h
    match todo, hl, h with
    | [], _, h =>
      simp only [scan, Except.ok.injEq] at h
      subst h
      exact ⟨[], by simp, he, le_refl _, by simp⟩
    | (t, true) :: rest, hl, h =>
      simp only [scan] at h
      obtain ⟨R, h1, h2, h3, h4⟩ := ih rest { s with done := s.done ++ [(t, true)] } s' (by simpa using hl) he h
      refine ⟨R, h1, h2, h3, h4.trans ?_⟩
      simp
    | (t, false) :: rest, hl, h =>
      simp only [scan] at h
      obtain ⟨a, ha, h⟩ := bind_eq_ok.1 h
      cases hin : a.inside with
      | true =>
        rw [hin] at h
        simp only at h
        obtain ⟨m, hm, hml, hmm⟩ := pushEdges_ok s.edges s.emax t he
        rw [hm] at h
        obtain ⟨R, h1, h2, h3, h4⟩ := ih (moveLast rest) ⟨s.done, s.edges ++ t.edges, m, a.next⟩ s'
          (by rw [moveLast_length]; simpa using hl) hml h
        refine ⟨t :: R, by rw [h1]; simp, h2, le_trans hmm h3, ?_⟩
        simp only [List.map_cons]
        refine (List.perm_middle).trans ?_
        refine ((h4.trans ?_).cons t).trans List.perm_middle.symm
        exact ((moveLast_perm rest).map Prod.fst).append_left _
      | false =>
        rw [hin] at h
        simp only at h
        obtain ⟨R, h1, h2, h3, h4⟩ := ih rest { s with done := s.done ++ [(t, a.completes)], st := a.next } s'
          (by simpa using hl) he h
        refine ⟨R, h1, h2, h3, h4.trans ?_⟩
        simp

/-- Tagging only ever removes edges. -/
theorem tagOne_mem (e : Option Edge) (l : List (Option Edge)) (f : Edge) :
    ((tagOne e l).1 = some f → e = some f) ∧ (some f ∈ (tagOne e l).2 → some f ∈ l) := by
  induction l generalizing e with
  | nil => simp [tagOne]
  | cons g l ih =>
    simp only [tagOne]
    obtain ⟨h1, h2⟩ := ih (if sameEdge e g then none else e)
    constructor
    · intro h
      have := h1 h
      split at this
      · cases this
      · exact this
    · intro h
      rcases List.mem_cons.1 h with h | h
      · split at h
        · cases h
        · rw [h]; exact List.mem_cons_self
      · exact List.mem_cons_of_mem _ (h2 h)

theorem tagOne_length (e : Option Edge) (l : List (Option Edge)) : (tagOne e l).2.length = l.length := by
  induction l generalizing e with
  | nil => rfl
  | cons g l ih => simp [tagOne, ih]

theorem tagAll_mem (fuel : Nat) (l : List (Option Edge)) (f : Edge) (h : some f ∈ tagAll fuel l) : some f ∈ l := by
  induction fuel generalizing l with
  | zero => exact h
  | succ n ih =>
    match l with
    | [] => exact h
    | e :: l =>
      simp only [tagAll] at h
      obtain ⟨h1, h2⟩ := tagOne_mem e l f
      rcases List.mem_cons.1 h with h | h
      · rw [h1 h.symm]; exact List.mem_cons_self
      · exact List.mem_cons_of_mem _ (h2 (ih _ h))

/-- The triangles formed from a list of edges. -/
def newTris (i : Nat) (es : List (Option Edge)) : List Tri := (es.filterMap id).map (fun e => ⟨e.1, e.2, i⟩)

theorem formTris_spec (nv i : Nat) (es : List (Option Edge)) (tris out : List (Tri × Bool))
    (h : formTris nv i es tris = .ok out) : out = tris ++ (newTris i es).map (fun t => (t, false)) := by
  induction es generalizing tris with
  | nil => simp only [formTris, Except.ok.injEq] at h; simp [newTris, h]
  | cons e es ih =>
    cases e with
    | none => simp only [formTris] at h; rw [ih _ h]; simp [newTris]
    | some e =>
      simp only [formTris] at h
      obtain ⟨t, ht, h⟩ := bind_eq_ok.1 h
      unfold pushTri at ht
      split at ht
      · cases ht; rw [ih _ h]; simp [newTris]
      · cases ht

/-- Forming triangles succeeds when the result fits into the arrays. -/
theorem formTris_ok (nv i : Nat) (es : List (Option Edge)) (tris : List (Tri × Bool))
    (h : tris.length + (newTris i es).length ≤ 192) (h' : tris.length + (newTris i es).length ≤ 4 * nv) :
    formTris nv i es tris = .ok (tris ++ (newTris i es).map (fun t => (t, false))) := by
  induction es generalizing tris with
  | nil => simp [formTris, newTris]
  | cons e es ih =>
    cases e with
    | none =>
      have hn : newTris i (none :: es) = newTris i es := by simp [newTris]
      rw [hn] at h h' ⊢
      exact ih tris h h'
    | some e =>
      have hn : newTris i (some e :: es) = ⟨e.1, e.2, i⟩ :: newTris i es := by simp [newTris]
      rw [hn] at h h' ⊢
      simp only [List.length_cons] at h h'
      have hp : pushTri nv tris ⟨e.1, e.2, i⟩ = .ok (tris ++ [(⟨e.1, e.2, i⟩, false)]) := by
        unfold pushTri; rw [if_pos ⟨by omega, by omega⟩]
      simp only [formTris, hp, bind_ok]
      rw [ih _ (by simp only [List.length_append, List.length_cons, List.length_nil]; omega)
        (by simp only [List.length_append, List.length_cons, List.length_nil]; omega)]
      simp

/-- The corners of a triangle are different and each of them is one of the first `i` points or a supertriangle corner. -/
def TriOK (nv i : Nat) (t : Tri) : Prop :=
  (t.p1 < i ∨ nv ≤ t.p1 ∧ t.p1 < nv + 3) ∧ (t.p2 < i ∨ nv ≤ t.p2 ∧ t.p2 < nv + 3) ∧
  (t.p3 < i ∨ nv ≤ t.p3 ∧ t.p3 < nv + 3) ∧ t.p1 ≠ t.p2 ∧ t.p2 ≠ t.p3 ∧ t.p3 ≠ t.p1

theorem TriOK.mono {nv i : Nat} {t : Tri} (h : TriOK nv i t) : TriOK nv (i + 1) t := by
  obtain ⟨h1, h2, h3, h4⟩ := h
  exact ⟨by omega, by omega, by omega, h4⟩

theorem insertPoint_ok (test : Test K σ) (nv : Nat) (mem : List (VertexPair K)) (w w' : Work σ) (i : Nat) (hi : i < nv)
    (hw : ∀ t ∈ w.tris, TriOK nv i t.1) (h : insertPoint test nv mem w i = .ok w') :
    ∀ t ∈ w'.tris, TriOK nv (i + 1) t.1 := by
  unfold insertPoint at h
  obtain ⟨p, hp, h⟩ := bind_eq_ok.1 h
  obtain ⟨s, hs, h⟩ := bind_eq_ok.1 h
  obtain ⟨ts, hts, h⟩ := bind_eq_ok.1 h
  simp only [pure, Except.pure, Except.ok.injEq] at h
  subst h
  obtain ⟨R, hR, _, _, hperm⟩ := scan_spec test mem p _ _ _ _ (le_refl _) (Nat.zero_le _) hs
  simp only [List.nil_append, List.map_nil] at hR hperm
  have hold : ∀ t ∈ s.done.map Prod.fst ++ R, TriOK nv i t := by
    intro t ht
    obtain ⟨u, hu, rfl⟩ := List.mem_map.1 (hperm.subset ht)
    exact hw u hu
  rw [formTris_spec nv i _ _ _ hts]
  intro t ht
  simp only at ht
  rcases List.mem_append.1 ht with ht | ht
  · exact (hold t.1 (List.mem_append_left _ (List.mem_map_of_mem ht))).mono
  · obtain ⟨u, hu, rfl⟩ := List.mem_map.1 ht
    obtain ⟨e, he, rfl⟩ := List.mem_map.1 hu
    have he' : some e ∈ tagAll s.edges.length (s.edges.map some) := by
      obtain ⟨a, ha, hae⟩ := List.mem_filterMap.1 he
      simp only [id] at hae
      rwa [hae] at ha
    have hm := tagAll_mem _ _ _ he'
    obtain ⟨e', he', hee⟩ := List.mem_map.1 hm
    cases hee
    rw [hR] at he'
    obtain ⟨r, hr, her⟩ := List.mem_flatMap.1 he'
    have hok := hold r (List.mem_append_right _ hr)
    obtain ⟨h1, h2, h3, h4, h5, h6⟩ := hok
    simp only [Tri.edges, List.mem_cons, List.not_mem_nil, or_false] at her
    rcases her with rfl | rfl | rfl
    · exact ⟨by simp only; omega, by simp only; omega, by simp only; omega, h4, by simp only; omega, by simp only; omega⟩
    · exact ⟨by simp only; omega, by simp only; omega, by simp only; omega, h5, by simp only; omega, by simp only; omega⟩
    · exact ⟨by simp only; omega, by simp only; omega, by simp only; omega, h6, by simp only; omega, by simp only; omega⟩

theorem insertAll_ok (test : Test K σ) (nv : Nat) (mem : List (VertexPair K)) :
    ∀ (k i : Nat) (w w' : Work σ), i + k ≤ nv → (∀ t ∈ w.tris, TriOK nv i t.1) →
      insertAll test nv mem (List.range' i k) w = .ok w' → ∀ t ∈ w'.tris, TriOK nv (i + k) t.1 := by
  intro k
  induction k with
  | zero =>
    intro i w w' _ hw h
    simp only [List.range'_zero, insertAll, Except.ok.injEq] at h
    subst h; exact hw
  | succ k ih =>
    intro i w w' hik hw h
    simp only [List.range'_succ, insertAll] at h
    obtain ⟨v, hv, h⟩ := bind_eq_ok.1 h
    have h1 := insertPoint_ok test nv mem w v i (by omega) hw hv
    have h2 := ih (i + 1) v w' (by omega) h1 h
    have : i + 1 + k = i + (k + 1) := by omega
    rwa [this] at h2

/-- The clean-up keeps exactly the triangles without a supertriangle corner. -/
theorem purge_perm (nv : Nat) : ∀ (fuel : Nat) (todo done : List Tri), todo.length ≤ fuel →
    (purge nv fuel todo done).Perm (done ++ todo.filter (fun t => t.p1 < nv ∧ t.p2 < nv ∧ t.p3 < nv)) := by
  intro fuel
  induction fuel with
  | zero =>
    intro todo done h
    have : todo = [] := List.length_eq_zero_iff.1 (by omega)
    subst this
    simp [purge]
  | succ fuel ih =>
    intro todo done h
    match todo, h with
    | [], _ => simp [purge]
    | t :: rest, h =>
      simp only [purge]
      split
      · rename_i hc
        refine (ih _ _ (by rw [moveLast_length]; simpa using h)).trans ?_
        rw [List.filter_cons_of_neg (by simp only [decide_eq_true_eq]; omega)]
        exact ((moveLast_perm rest).filter _).append_left _
      · rename_i hc
        refine (ih _ _ (by simpa using h)).trans ?_
        rw [List.filter_cons_of_pos (by simp only [decide_eq_true_eq]; omega)]
        simp

/-- With tests that always answer, reads inside the vertex array and an edge array that can grow, a pass cannot fail. -/
theorem scan_total (test : Test K σ) (htest : ∀ st p a b c, ∃ r, test st p a b c = .ok r) (mem : List (VertexPair K))
    (p : Pt K) : ∀ (fuel : Nat) (todo : List (Tri × Bool)) (s : ScanSt σ), s.edges.length ≤ s.emax →
      (∀ t ∈ todo, t.1.p1 < mem.length ∧ t.1.p2 < mem.length ∧ t.1.p3 < mem.length) →
      ∃ s', scan test mem p fuel todo s = .ok s' := by
  intro fuel
  induction fuel with
  | zero => intro todo s _ _; exact ⟨_, rfl⟩
  | succ fuel ih =>
    intro todo s he hm
    match todo, hm with
    | [], _ => exact ⟨_, rfl⟩
    | (t, true) :: rest, hm =>
      simp only [scan]
      exact ih rest { s with done := s.done ++ [(t, true)] } he (fun u hu => hm u (List.mem_cons_of_mem _ hu))
    | (t, false) :: rest, hm =>
      simp only [scan]
      obtain ⟨m1, m2, m3⟩ := hm _ List.mem_cons_self
      simp only at m1 m2 m3
      obtain ⟨a, ha⟩ : ∃ a, ask test mem p s.st t = .ok a := by
        unfold ask readPt
        rw [List.getElem?_eq_getElem m1, List.getElem?_eq_getElem m2, List.getElem?_eq_getElem m3]
        exact htest _ _ _ _ _
      rw [ha, bind_ok]
      have hm' : ∀ u ∈ rest, u.1.p1 < mem.length ∧ u.1.p2 < mem.length ∧ u.1.p3 < mem.length :=
        fun u hu => hm u (List.mem_cons_of_mem _ hu)
      cases a.inside with
      | true =>
        simp only
        obtain ⟨m, hpe, hml, _⟩ := pushEdges_ok s.edges s.emax t he
        rw [hpe, bind_ok]
        exact ih (moveLast rest) ⟨s.done, s.edges ++ t.edges, m, a.next⟩ hml
          (fun u hu => hm' u ((moveLast_perm rest).subset hu))
      | false =>
        exact ih rest { s with done := s.done ++ [(t, a.completes)], st := a.next } he hm'

theorem formTris_total (nv i : Nat) (es : List (Option Edge)) (tris : List (Tri × Bool)) :
    (∃ r, formTris nv i es tris = .ok r) ∨ formTris nv i es tris = .error (.ub .oobWrite) := by
  induction es generalizing tris with
  | nil => exact Or.inl ⟨_, rfl⟩
  | cons e es ih =>
    cases e with
    | none => exact ih tris
    | some e =>
      simp only [formTris, pushTri]
      split
      · exact ih _
      · exact Or.inr rfl

theorem insertAll_total (test : Test K σ) (htest : ∀ st p a b c, ∃ r, test st p a b c = .ok r) (nv : Nat)
    (mem : List (VertexPair K)) (hmem : nv + 3 ≤ mem.length) :
    ∀ (k i : Nat) (w : Work σ), i + k ≤ nv → (∀ t ∈ w.tris, TriOK nv i t.1) →
      (∃ w', insertAll test nv mem (List.range' i k) w = .ok w') ∨
        insertAll test nv mem (List.range' i k) w = .error (.ub .oobWrite) := by
  intro k
  induction k with
  | zero => intro i w _ _; exact Or.inl ⟨_, rfl⟩
  | succ k ih =>
    intro i w hik hw
    simp only [List.range'_succ, insertAll]
    have hins : (∃ w', insertPoint test nv mem w i = .ok w') ∨ insertPoint test nv mem w i = .error (.ub .oobWrite) := by
      unfold insertPoint
      have hr : ∃ p, readPt mem i = .ok p := by
        unfold readPt; rw [List.getElem?_eq_getElem (by omega)]; exact ⟨_, rfl⟩
      obtain ⟨p, hp⟩ := hr
      rw [hp, bind_ok]
      obtain ⟨s, hs⟩ := scan_total test htest mem p w.tris.length w.tris ⟨[], [], w.emax, w.st⟩ (Nat.zero_le _) (by
        intro t ht
        obtain ⟨h1, h2, h3, _⟩ := hw t ht
        exact ⟨by omega, by omega, by omega⟩)
      rw [hs, bind_ok]
      rcases formTris_total nv i (tagAll s.edges.length (s.edges.map some)) s.done with ⟨r, hr⟩ | hr
      · left; exact ⟨_, by simp only [hr, bind_ok]; rfl⟩
      · right; simp only [hr, bind_error]
    rcases hins with ⟨w', hw'⟩ | he
    · rw [hw', bind_ok]
      exact ih (i + 1) w' (by omega) (insertPoint_ok test nv mem w w' i (by omega) hw hw')
    · right; rw [he, bind_error]

end Loops

section Memory
variable {K : Type} [Field K] [LinearOrder K] [IsStrictOrderedRing K]

set_option linter.unusedSectionVars false

theorem writePt_ok (mem : List (VertexPair K)) (i : Nat) (p : Pt K) (h : i < mem.length) :
    ∃ mem', writePt mem i p = .ok mem' ∧ mem'.length = mem.length ∧ readPt mem' i = .ok p ∧
      (∀ j : Nat, j ≠ i → mem'[j]? = mem[j]?) ∧ ∀ j : Nat, mem'[j]?.map VertexPair.reference = mem[j]?.map VertexPair.reference := by
  refine ⟨mem.set i ⟨p, mem[i].reference⟩, ?_, ?_, ?_, ?_, ?_⟩
  · unfold writePt; rw [List.getElem?_eq_getElem h]
  · simp
  · unfold readPt; rw [List.getElem?_set_self h]
  · intro j hj; rw [List.getElem?_set_ne (Ne.symm hj)]
  · intro j
    by_cases hj : j = i
    · subst hj; rw [List.getElem?_set_self h, List.getElem?_eq_getElem h]; rfl
    · rw [List.getElem?_set_ne (Ne.symm hj)]

theorem readPt_congr {mem mem' : List (VertexPair K)} {i : Nat} (h : mem'[i]? = mem[i]?) : readPt mem' i = readPt mem i := by
  unfold readPt; rw [h]

theorem withSuper_ok (nv : Nat) (mem : List (VertexPair K)) (h1 : 1 ≤ nv) (h : nv + 3 ≤ mem.length) :
    ∃ mem' p ps, (mem.take nv).map VertexPair.actual = p :: ps ∧ withSuper nv mem = .ok mem' ∧ mem'.length = mem.length ∧
      (∀ j : Nat, ¬ (nv ≤ j ∧ j < nv + 3) → mem'[j]? = mem[j]?) ∧
      (∀ j : Nat, mem'[j]?.map VertexPair.reference = mem[j]?.map VertexPair.reference) ∧
      readPt mem' nv = .ok (superPts p ps).1 ∧ readPt mem' (nv + 1) = .ok (superPts p ps).2.1 ∧
      readPt mem' (nv + 2) = .ok (superPts p ps).2.2 := by
  cases hl : (mem.take nv).map VertexPair.actual with
  | nil =>
    have := congrArg List.length hl
    simp only [List.length_map, List.length_take, List.length_nil] at this
    omega
  | cons p ps =>
    obtain ⟨m1, e1, l1, r1, o1, f1⟩ := writePt_ok mem nv (superPts p ps).1 (by omega)
    obtain ⟨m2, e2, l2, r2, o2, f2⟩ := writePt_ok m1 (nv + 1) (superPts p ps).2.1 (by omega)
    obtain ⟨m3, e3, l3, r3, o3, f3⟩ := writePt_ok m2 (nv + 2) (superPts p ps).2.2 (by omega)
    refine ⟨m3, p, ps, rfl, ?_, by omega, ?_, ?_, ?_, ?_, r3⟩
    · unfold withSuper
      rw [hl]
      simp only [e1, bind_ok, e2, e3]
    · intro j hj
      rw [o3 j (by omega), o2 j (by omega), o1 j (by omega)]
    · intro j; rw [f3, f2, f1]
    · rw [readPt_congr (o3 nv (by omega)), readPt_congr (o2 nv (by omega)), r1]
    · rw [readPt_congr (o3 (nv + 1) (by omega)), r2]

theorem pushTri_first (nv : Nat) (h1 : 1 ≤ nv) (t : Tri) : pushTri nv [] t = .ok [(t, false)] := by
  unfold pushTri
  rw [if_pos ⟨by simp, by simpa using by omega⟩]
  rfl

theorem super_triOK (nv : Nat) : ∀ t ∈ [((⟨nv, nv + 1, nv + 2⟩ : Tri), false)], TriOK nv 0 t.1 := by
  intro t ht
  rw [List.mem_singleton.1 ht]
  exact ⟨by simp only; omega, by simp only; omega, by simp only; omega, by simp only; omega, by simp only; omega,
    by simp only; omega⟩

/-- Everything about `triangulate` that does not depend on the tests. -/
theorem triangulate_spec {σ : Type} (test : Test K σ) (init : σ) (nv : Nat) (mem mem' : List (VertexPair K))
    (ts : List Tri) (h1 : 1 ≤ nv) (h : triangulate test init nv mem = .ok (mem', ts)) :
    withSuper nv mem = .ok mem' ∧ ∃ w, insertAll test nv mem' (List.range' 0 nv) ⟨[(⟨nv, nv + 1, nv + 2⟩, false)], 200, init⟩
      = .ok w ∧ (∀ t ∈ w.tris, TriOK nv nv t.1) ∧
      ts.Perm ((w.tris.map Prod.fst).filter (fun t => t.p1 < nv ∧ t.p2 < nv ∧ t.p3 < nv)) := by
  unfold triangulate at h
  obtain ⟨m, hm, h⟩ := bind_eq_ok.1 h
  rw [pushTri_first nv h1, bind_ok] at h
  obtain ⟨w, hw, h⟩ := bind_eq_ok.1 h
  simp only [pure, Except.pure, Except.ok.injEq, Prod.mk.injEq] at h
  obtain ⟨rfl, rfl⟩ := h
  rw [List.range_eq_range'] at hw
  refine ⟨hm, w, hw, ?_, ?_⟩
  · have := insertAll_ok test nv m nv 0 _ w (by omega) (super_triOK nv) hw
    rwa [Nat.zero_add] at this
  · simpa using purge_perm nv _ (w.tris.map Prod.fst) [] (le_refl _)

theorem triangulate_indices {σ : Type} (test : Test K σ) (init : σ) (nv : Nat) (mem mem' : List (VertexPair K))
    (ts : List Tri) (h1 : 1 ≤ nv) (h : triangulate test init nv mem = .ok (mem', ts)) :
    ∀ t ∈ ts, t.p1 < nv ∧ t.p2 < nv ∧ t.p3 < nv ∧ t.p1 ≠ t.p2 ∧ t.p2 ≠ t.p3 ∧ t.p3 ≠ t.p1 := by
  obtain ⟨_, w, _, hok, hp⟩ := triangulate_spec test init nv mem mem' ts h1 h
  intro t ht
  have hf := hp.subset ht
  obtain ⟨hm, hd⟩ := List.mem_filter.1 hf
  simp only [decide_eq_true_eq] at hd
  obtain ⟨u, hu, rfl⟩ := List.mem_map.1 hm
  exact ⟨hd.1, hd.2.1, hd.2.2, (hok u hu).2.2.2⟩

end Memory

end Verif.Align
