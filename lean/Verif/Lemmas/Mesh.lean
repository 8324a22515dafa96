import Verif.Lemmas.Plane
import Verif.Lemmas.Tagging

/-!
# The invariant of the triangulation and its preservation
-/

namespace Verif.Align

variable {K : Type} [Field K] [LinearOrder K] [IsStrictOrderedRing K]

set_option linter.unusedSectionVars false

/-- Sum of an edge function over the boundary of a triangle. -/
def bd (f : Edge → ℤ) (t : Tri) : ℤ := f (t.p1, t.p2) + f (t.p2, t.p3) + f (t.p3, t.p1)

theorem bd_eq (f : Edge → ℤ) (t : Tri) : bd f t = (t.edges.map f).sum := by simp [bd, Tri.edges]; ring

/-- An index in use: one of the first `i` points or a corner of the supertriangle. -/
def Vtx (nv i j : Nat) : Prop := j < i ∨ nv ≤ j ∧ j < nv + 3

/-- The supertriangle. -/
def superTri (nv : Nat) : Tri := ⟨nv, nv + 1, nv + 2⟩

/-- The corners of a triangle in any rotation. -/
def Tri.Rot (t : Tri) (a b c : Nat) : Prop := t = ⟨a, b, c⟩ ∨ t = ⟨c, a, b⟩ ∨ t = ⟨b, c, a⟩

theorem mem_edges {t : Tri} {a b : Nat} : (a, b) ∈ t.edges ↔ ∃ c, t.Rot a b c := by
  obtain ⟨x, y, z⟩ := t
  unfold Tri.edges Tri.Rot
  simp only [List.mem_cons, Prod.mk.injEq, List.not_mem_nil, or_false, Tri.mk.injEq]
  constructor
  · rintro (⟨rfl, rfl⟩ | ⟨rfl, rfl⟩ | ⟨rfl, rfl⟩)
    · exact ⟨z, Or.inl ⟨rfl, rfl, rfl⟩⟩
    · exact ⟨x, Or.inr (Or.inl ⟨rfl, rfl, rfl⟩)⟩
    · exact ⟨y, Or.inr (Or.inr ⟨rfl, rfl, rfl⟩)⟩
  · rintro ⟨c, ⟨rfl, rfl, rfl⟩ | ⟨rfl, rfl, rfl⟩ | ⟨rfl, rfl, rfl⟩⟩
    · exact Or.inl ⟨rfl, rfl⟩
    · exact Or.inr (Or.inl ⟨rfl, rfl⟩)
    · exact Or.inr (Or.inr ⟨rfl, rfl⟩)

/-- Clockwise. -/
def Tri.CW (P : Nat → Pt K) (t : Tri) : Prop := orient (P t.p1) (P t.p2) (P t.p3) < 0

/-- The circle passes through the corners. -/
def Tri.Through (P : Nat → Pt K) (t : Tri) (o : Circle K) : Prop := o.Through (P t.p1) (P t.p2) (P t.p3)

/-- Strictly inside the triangle. -/
def Tri.Contains (P : Nat → Pt K) (t : Tri) (q : Pt K) : Prop := Inside q (P t.p1) (P t.p2) (P t.p3)

theorem Tri.Rot.cw {P : Nat → Pt K} {t : Tri} {a b c : Nat} (h : t.Rot a b c) : t.CW P ↔ orient (P a) (P b) (P c) < 0 := by
  rcases h with rfl | rfl | rfl
  · rfl
  · unfold Tri.CW; simp only; rw [← orient_cycle (P c)]
  · unfold Tri.CW; simp only; rw [← orient_cycle (P a)]

theorem Tri.Rot.through {P : Nat → Pt K} {t : Tri} {a b c : Nat} (h : t.Rot a b c) (o : Circle K) :
    t.Through P o ↔ o.Through (P a) (P b) (P c) := by
  rcases h with rfl | rfl | rfl
  · rfl
  · exact ⟨fun h => h.cycle, fun h => h.cycle.cycle⟩
  · exact ⟨fun h => h.cycle.cycle, fun h => h.cycle⟩

theorem Tri.Rot.contains {P : Nat → Pt K} {t : Tri} {a b c : Nat} (h : t.Rot a b c) (q : Pt K) :
    t.Contains P q ↔ Inside q (P a) (P b) (P c) := by
  rcases h with rfl | rfl | rfl
  · rfl
  · exact ⟨fun h => h.cycle, fun h => h.cycle.cycle⟩
  · exact ⟨fun h => h.cycle.cycle, fun h => h.cycle⟩

/-- The invariant after the points `0 .. i-1`. -/
structure Mesh (P : Nat → Pt K) (nv i : Nat) (ts : List Tri) : Prop where
  /-- the corners are points in use -/
  vtx : ∀ t ∈ ts, ∀ a b c, t.Rot a b c → Vtx nv i a
  /-- all triangles are clockwise, none is degenerate -/
  cw : ∀ t ∈ ts, t.CW P
  /-- together they have the boundary of the supertriangle -/
  chain : ∀ f, Anti f → (ts.map (bd f)).sum = bd f (superTri nv)
  /-- the circumcircles contain no point in use -/
  empty : ∀ t ∈ ts, ∀ o : Circle K, t.Through P o → ∀ j, Vtx nv i j → 0 ≤ o.pow (P j)

/-- How often the triangle covers `q`. -/
def Tri.cover (P : Nat → Pt K) (q : Pt K) (t : Tri) : ℤ := Align.cover q (P t.p1) (P t.p2) (P t.p3)

theorem sum_sublist {α : Type} (g : α → ℤ) {l l' : List α} (h : l.Sublist l') (h0 : ∀ x ∈ l', 0 ≤ g x) : (l.map g).sum ≤ (l'.map g).sum := by
  induction h with
  | slnil => exact le_refl _
  | cons a h ih =>
    rw [List.map_cons, List.sum_cons]
    have := h0 a List.mem_cons_self
    have := ih (fun x hx => h0 x (List.mem_cons_of_mem _ hx))
    omega
  | cons_cons a h ih =>
    rw [List.map_cons, List.sum_cons, List.map_cons, List.sum_cons]
    have := ih (fun x hx => h0 x (List.mem_cons_of_mem _ hx))
    omega

/-- Triangles with the boundary of a clockwise triangle that are all clockwise do not overlap. -/
theorem disjoint_of {P : Nat → Pt K} {nv : Nat} {ts : List Tri} (hs : (superTri nv).CW P) (hcw : ∀ t ∈ ts, t.CW P)
    (hch : ∀ f, Anti f → (ts.map (bd f)).sum = bd f (superTri nv)) :
    ts.Pairwise (fun t u => ∀ q, ¬ (t.Contains P q ∧ u.Contains P q)) := by
  rw [List.pairwise_iff_forall_sublist]
  intro t u htu q ⟨ht, hu⟩
  have h := hch (fun e => crossing q (P e.1) (P e.2)) (fun e => crossing_anti q _ _)
  have e : bd (fun e => crossing q (P e.1) (P e.2)) = Tri.cover P q := by
    funext t; rfl
  rw [e] at h
  have h1 := sum_sublist (Tri.cover P q) htu (fun x hx => (cover_bounds q (hcw x hx)).1)
  have h2 : Tri.cover P q t = 1 := cover_inside ht
  have h3 : Tri.cover P q u = 1 := cover_inside hu
  have h4 : Tri.cover P q (superTri nv) ≤ 1 := (cover_bounds q hs).2
  simp only [List.map_cons, List.map_nil, List.sum_cons, List.sum_nil, h2, h3] at h1
  omega

/-- Every directed edge occurs at most once. -/
theorem edges_nodup {P : Nat → Pt K} {ts : List Tri} (hcw : ∀ t ∈ ts, t.CW P)
    (hd : ts.Pairwise (fun t u => ∀ q, ¬ (t.Contains P q ∧ u.Contains P q))) : (ts.flatMap Tri.edges).Nodup := by
  rw [List.nodup_flatMap]
  constructor
  · intro t ht
    have h := hcw t ht
    unfold Tri.CW at h
    have n1 : t.p1 ≠ t.p2 := by intro e; rw [e] at h; unfold orient at h; simp at h
    have n2 : t.p2 ≠ t.p3 := by
      intro e; rw [e] at h
      have : orient (P t.p1) (P t.p3) (P t.p3) = 0 := by unfold orient; ring
      linarith
    have n3 : t.p3 ≠ t.p1 := by intro e; rw [e] at h; unfold orient at h; simp at h
    unfold Tri.edges
    simp only [List.nodup_cons, List.mem_cons, Prod.mk.injEq, List.not_mem_nil, or_false, not_or, not_and, not_false_eq_true,
      List.nodup_nil, and_true]
    exact ⟨⟨fun h => absurd h n1, fun h => absurd h.symm n3⟩, fun h => absurd h n2⟩
  · have hcw' : ts.Pairwise (fun t u => t.CW P ∧ u.CW P) := by
      rw [List.pairwise_iff_forall_sublist]
      intro t u h
      exact ⟨hcw t (h.subset (by simp)), hcw u (h.subset (by simp))⟩
    refine (hd.and hcw').imp ?_
    rintro t u ⟨hno, ht, hu⟩
    simp only [Function.onFun]
    rw [List.disjoint_left]
    rintro ⟨a, b⟩ h1 h2
    obtain ⟨c, hc⟩ := mem_edges.1 h1
    obtain ⟨d, hd⟩ := mem_edges.1 h2
    obtain ⟨q, q1, q2⟩ := overlap_edge (hc.cw.1 ht) (hd.cw.1 hu)
    exact hno q ⟨(hc.contains q).2 q1, (hd.contains q).2 q2⟩

theorem sum_bd (f : Edge → ℤ) (ts : List Tri) : (ts.map (bd f)).sum = ((ts.flatMap Tri.edges).map f).sum := by
  induction ts with
  | nil => rfl
  | cons t ts ih => rw [List.map_cons, List.sum_cons, ih, List.flatMap_cons, List.map_append, List.sum_append, bd_eq]

theorem cw_ne {P : Nat → Pt K} {t : Tri} (h : t.CW P) {a b : Nat} (he : (a, b) ∈ t.edges) : a ≠ b := by
  obtain ⟨c, hc⟩ := mem_edges.1 he
  have := hc.cw.1 h
  rintro rfl
  unfold orient at this
  simp at this

/-- An edge without a partner belongs to the supertriangle. -/
theorem outer_edge {P : Nat → Pt K} {nv : Nat} {ts : List Tri} (hcw : ∀ t ∈ ts, t.CW P)
    (hch : ∀ f, Anti f → (ts.map (bd f)).sum = bd f (superTri nv)) {a b : Nat} (h : (a, b) ∈ ts.flatMap Tri.edges)
    (hn : (b, a) ∉ ts.flatMap Tri.edges) : (a, b) ∈ (superTri nv).edges := by
  obtain ⟨t, ht, hab⟩ := List.mem_flatMap.1 h
  have hne : a ≠ b := cw_ne (hcw t ht) hab
  set f : Edge → ℤ := fun e => (if e = (a, b) then 1 else 0) - (if e = (b, a) then 1 else 0) with hf
  have hanti : Anti f := by
    intro e
    obtain ⟨x, y⟩ := e
    simp only [hf, Prod.swap_prod_mk, Prod.mk.injEq]
    by_cases h1 : x = a ∧ y = b
    · obtain ⟨rfl, rfl⟩ := h1; simp [hne, Ne.symm hne]
    · by_cases h2 : x = b ∧ y = a
      · obtain ⟨rfl, rfl⟩ := h2; simp [hne, Ne.symm hne]
      · have h3 : ¬ (y = a ∧ x = b) := fun h => h2 ⟨h.2, h.1⟩
        have h4 : ¬ (y = b ∧ x = a) := fun h => h1 ⟨h.2, h.1⟩
        simp [h1, h2, h3, h4]
  have hsum := hch f hanti
  rw [sum_bd] at hsum
  have hpos : 1 ≤ ((ts.flatMap Tri.edges).map f).sum := by
    have h0 : ∀ x ∈ ts.flatMap Tri.edges, 0 ≤ f x := by
      intro x hx
      simp only [hf]
      rw [if_neg (show ¬ x = (b, a) by rintro rfl; exact hn hx)]
      split <;> norm_num
    have := sum_sublist f (List.singleton_sublist.2 h) h0
    have hfab : f (a, b) = 1 := by
      simp only [hf]
      rw [if_pos trivial, if_neg (by simp [hne])]; norm_num
    simpa [hfab] using this
  rw [hsum, bd_eq] at hpos
  by_contra hcon
  have hle : ((superTri nv).edges.map f).sum ≤ 0 := by
    have key : ∀ l : List Edge, (a, b) ∉ l → (l.map f).sum ≤ 0 := by
      intro l
      induction l with
      | nil => simp
      | cons e l ih =>
        intro hl
        rw [List.map_cons, List.sum_cons]
        have h1 := ih (fun h => hl (List.mem_cons_of_mem _ h))
        have h2 : f e ≤ 0 := by
          simp only [hf]
          rw [if_neg (show ¬ e = (a, b) by rintro rfl; exact hl List.mem_cons_self)]
          split <;> norm_num
        omega
    exact key _ hcon
  omega

/-- **Insertion of a point keeps the invariant.** -/
theorem Mesh.insert {P : Nat → Pt K} {nv i : Nat} {ts Q R : List Tri} (hm : Mesh P nv i ts) (hs : (superTri nv).CW P)
    (hin : (superTri nv).Contains P (P i))
    (hall : ∀ a b c, (superTri nv).Rot a b c → ∀ j, Vtx nv i j → orient (P a) (P b) (P j) ≤ 0)
    (hperm : (Q ++ R).Perm ts)
    (hR : ∀ t ∈ R, ∃ o : Circle K, t.Through P o ∧ o.pow (P i) ≤ 0) (hQ : ∀ t ∈ Q, ∃ o : Circle K, t.Through P o ∧ 0 < o.pow (P i)) :
    Mesh P nv (i + 1) (Q ++ ((R.flatMap Tri.edges).filter (fun e => e.swap ∉ R.flatMap Tri.edges)).map (fun e => ⟨e.1, e.2, i⟩)) := by
  set E := R.flatMap Tri.edges with hE
  set B := E.filter (fun e => e.swap ∉ E) with hB
  have hQt : ∀ t ∈ Q, t ∈ ts := fun t ht => hperm.subset (List.mem_append_left _ ht)
  have hRt : ∀ t ∈ R, t ∈ ts := fun t ht => hperm.subset (List.mem_append_right _ ht)
  have hdis := disjoint_of hs hm.cw hm.chain
  have hnd := edges_nodup hm.cw hdis
  have hpe : (Q.flatMap Tri.edges ++ E).Perm (ts.flatMap Tri.edges) := by
    rw [hE, ← List.flatMap_append]; exact hperm.flatMap_right _
  have hEnd : E.Nodup := (List.nodup_append.1 (hpe.nodup_iff.2 hnd)).2.1
  -- an edge of the cavity: the triangle it comes from, the circle, the neighbour
  have hedge : ∀ a b, (a, b) ∈ B → ∃ (c : Nat) (o : Circle K), o.Through (P a) (P b) (P c) ∧ orient (P a) (P b) (P c) < 0 ∧ o.pow (P i) ≤ 0 ∧
      (∀ j, Vtx nv i j → 0 ≤ o.pow (P j)) ∧ Vtx nv i a ∧ Vtx nv i b ∧ Vtx nv i c ∧
      (((a, b) ∈ (superTri nv).edges) ∨ ∃ o' : Circle K, o'.pow (P a) = 0 ∧ o'.pow (P b) = 0 ∧ 0 < o'.pow (P i) ∧ (∀ j, Vtx nv i j → 0 ≤ o'.pow (P j))) := by
    intro a b hab
    obtain ⟨habE, hsw⟩ := List.mem_filter.1 hab
    simp only [Prod.swap_prod_mk, decide_eq_true_eq] at hsw
    obtain ⟨t, ht, hte⟩ := List.mem_flatMap.1 habE
    obtain ⟨c, hc⟩ := mem_edges.1 hte
    obtain ⟨o, ho, hop⟩ := hR t ht
    have r2 : t.Rot b c a := by
      rcases hc with rfl | rfl | rfl
      · exact Or.inr (Or.inl rfl)
      · exact Or.inr (Or.inr rfl)
      · exact Or.inl rfl
    have r3 : t.Rot c a b := by
      rcases hc with rfl | rfl | rfl
      · exact Or.inr (Or.inr rfl)
      · exact Or.inl rfl
      · exact Or.inr (Or.inl rfl)
    refine ⟨c, o, (hc.through o).1 ho, hc.cw.1 (hm.cw t (hRt t ht)), hop, hm.empty t (hRt t ht) o ho, hm.vtx t (hRt t ht) _ _ _ hc,
      hm.vtx t (hRt t ht) _ _ _ r2, hm.vtx t (hRt t ht) _ _ _ r3, ?_⟩
    by_cases hba : (b, a) ∈ ts.flatMap Tri.edges
    · right
      have : (b, a) ∈ Q.flatMap Tri.edges := by
        rcases List.mem_append.1 (hpe.symm.subset hba) with h | h
        · exact h
        · exact absurd h hsw
      obtain ⟨u, hu, hue⟩ := List.mem_flatMap.1 this
      obtain ⟨d, hd⟩ := mem_edges.1 hue
      obtain ⟨o', ho', hop'⟩ := hQ u hu
      have th := (hd.through o').1 ho'
      exact ⟨o', th.2.1, th.1, hop', hm.empty u (hQt u hu) o' ho'⟩
    · left
      exact outer_edge hm.cw hm.chain (hpe.subset (List.mem_append_right _ habE)) hba
  have houter : ∀ a b, (a, b) ∈ (superTri nv).edges → orient (P a) (P b) (P i) < 0 := by
    intro a b hab
    obtain ⟨c, hc⟩ := mem_edges.1 hab
    exact ((hc.contains _).1 hin).1
  have hcwB : ∀ a b, (a, b) ∈ B → orient (P a) (P b) (P i) < 0 := by
    intro a b hab
    obtain ⟨c, o, ho, hc, hop, hoe, va, vb, vc, hnb⟩ := hedge a b hab
    rcases hnb with h | ⟨o', h1, h2, h3, h4⟩
    · exact houter a b h
    · by_contra hcon
      push Not at hcon
      have := neighbour_covers ho h1 h2 hc (h4 c vc) hcon hop
      linarith
  refine ⟨?_, ?_, ?_, ?_⟩
  · intro t ht a b c hr
    rcases List.mem_append.1 ht with ht | ht
    · rcases hm.vtx t (hQt t ht) a b c hr with h | h
      · exact Or.inl (by omega)
      · exact Or.inr h
    · obtain ⟨⟨x, y⟩, he, rfl⟩ := List.mem_map.1 ht
      obtain ⟨c', o, -, -, -, -, va, vb, -, -⟩ := hedge x y he
      have hx : Vtx nv (i + 1) x := by rcases va with h | h; exact Or.inl (by omega); exact Or.inr h
      have hy : Vtx nv (i + 1) y := by rcases vb with h | h; exact Or.inl (by omega); exact Or.inr h
      have hi : Vtx nv (i + 1) i := Or.inl (by omega)
      unfold Tri.Rot at hr
      simp only [Tri.mk.injEq] at hr
      rcases hr with ⟨rfl, -, -⟩ | ⟨-, rfl, -⟩ | ⟨-, -, rfl⟩
      · exact hx
      · exact hy
      · exact hi
  · intro t ht
    rcases List.mem_append.1 ht with ht | ht
    · exact hm.cw t (hQt t ht)
    · obtain ⟨⟨x, y⟩, he, rfl⟩ := List.mem_map.1 ht
      exact hcwB x y he
  · intro f hf
    rw [← hm.chain f hf, ← (hperm.map (bd f)).sum_eq, List.map_append, List.sum_append, List.map_append, List.sum_append]
    congr 1
    rw [List.map_map]
    have e1 : (B.map (bd f ∘ fun e => (⟨e.1, e.2, i⟩ : Tri))) = B.map (fun e => f e + (f (e.2, i) - f (e.1, i))) := by
      apply List.map_congr_left
      intro e _
      have : f (i, e.1) = -f (e.1, i) := hf (e.1, i)
      simp only [Function.comp, bd, this]; ring
    have e2 : ∀ (l : List Edge) (g h : Edge → ℤ), (l.map (fun e => g e + h e)).sum = (l.map g).sum + (l.map h).sum := by
      intro l g h
      induction l with
      | nil => rfl
      | cons x l ih => simp only [List.map_cons, List.sum_cons, ih]; ring
    rw [e1, e2, sum_kept E hEnd f hf, sum_kept E hEnd (fun e => f (e.2, i) - f (e.1, i)) (fun e => by simp), ← sum_bd, ← sum_bd]
    have e3 : (R.map (bd fun e => f (e.2, i) - f (e.1, i))).sum = 0 := by
      have : (R.map (bd fun e => f (e.2, i) - f (e.1, i))) = R.map (fun _ => 0) := by
        apply List.map_congr_left
        intro t _
        simp only [bd]; ring
      rw [this]; simp
    rw [e3, add_zero]
  · intro t ht o ho j hj
    rcases List.mem_append.1 ht with htQ | ht
    · by_cases hji : j = i
      · rw [hji]
        obtain ⟨o', ho', hp⟩ := hQ t htQ
        have hne : orient (P t.p1) (P t.p2) (P t.p3) ≠ 0 := (hm.cw t (hQt t htQ)).ne
        rw [pow_unique ho' ho hne]; exact hp.le
      · exact hm.empty t (hQt t htQ) o ho j (by rcases hj with h | h; exact Or.inl (by omega); exact Or.inr h)
    · obtain ⟨⟨x, y⟩, he, rfl⟩ := List.mem_map.1 ht
      have ho' : o.Through (P x) (P y) (P i) := ho
      obtain ⟨c, o1, ho1, hc, hop, hoe, va, vb, vc, hnb⟩ := hedge x y he
      by_cases hji : j = i
      · subst hji; rw [ho'.2.2]
      · have hj' : Vtx nv i j := by rcases hj with h | h; exact Or.inl (by omega); exact Or.inr h
        rcases le_or_gt (orient (P x) (P y) (P j)) 0 with hw | hw
        · exact new_empty_near ho1 ho' (hcwB x y he) hop hw (hoe j hj')
        · rcases hnb with h | ⟨o', h1, h2, h3, h4⟩
          · obtain ⟨c', hc'⟩ := mem_edges.1 h
            have := hall x y c' hc' j hj'
            linarith
          · exact new_empty_far h1 h2 ho' (hcwB x y he) h3.le hw.le (h4 j hj')

end Verif.Align
