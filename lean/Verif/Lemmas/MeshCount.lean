import Verif.Lemmas.Mesh
import Mathlib.Data.List.Perm.Subperm
import Mathlib.Data.List.Nodup

/-!
# Counting the triangles

In every triangle one corner is the middle one in lexicographic order.  Two triangles that do not overlap differ in this corner
or in the side on which the opposite edge passes it.
-/

namespace Verif.Align

variable {K : Type} [Field K] [LinearOrder K] [IsStrictOrderedRing K]

set_option linter.unusedSectionVars false

/-- Lexicographic order. -/
def Lex (a b : Pt K) : Prop := a.x < b.x ∨ a.x = b.x ∧ a.y < b.y

theorem Lex.total {a b : Pt K} (h : a ≠ b) : Lex a b ∨ Lex b a := by
  unfold Lex
  rcases lt_trichotomy a.x b.x with h1 | h1 | h1
  · exact Or.inl (Or.inl h1)
  · rcases lt_trichotomy a.y b.y with h2 | h2 | h2
    · exact Or.inl (Or.inr ⟨h1, h2⟩)
    · exact absurd (Pt.ext h1 h2) h
    · exact Or.inr (Or.inr ⟨h1.symm, h2⟩)
  · exact Or.inr (Or.inl h1)

theorem Lex.trans {a b c : Pt K} (h : Lex a b) (h' : Lex b c) : Lex a c := by
  rcases h with h | ⟨h, g⟩ <;> rcases h' with h' | ⟨h', g'⟩
  · exact Or.inl (lt_trans h h')
  · exact Or.inl (h' ▸ h)
  · exact Or.inl (h ▸ h')
  · exact Or.inr ⟨h.trans h', lt_trans g g'⟩

theorem Lex.irrefl {a : Pt K} (h : Lex a a) : False := by
  rcases h with h | ⟨_, h⟩ <;> exact lt_irrefl _ h

/-- A direction that is just left of "upwards". -/
theorem Lex.tilt {a b : Pt K} (h : Lex a b) : ∃ e : K, 0 < e ∧ ∀ d, 0 < d → d ≤ e → 0 < (b.x - a.x) + d * (b.y - a.y) := by
  rcases h with h | ⟨h, g⟩
  · have hp : 0 < |b.y - a.y| + 1 := by positivity
    refine ⟨(b.x - a.x) / (2 * (|b.y - a.y| + 1)), by apply div_pos <;> linarith, ?_⟩
    intro d d0 de
    rw [le_div_iff₀ (by linarith)] at de
    have h1 : -(|b.y - a.y|) ≤ b.y - a.y := neg_abs_le _
    nlinarith
  · refine ⟨1, one_pos, ?_⟩
    intro d d0 _
    rw [h, sub_self, zero_add]
    exact mul_pos d0 (sub_pos.2 g)

/-- The corner `b` is the middle one of `a`, `b`, `c`, passed in ascending (`true`) or descending order. -/
def Mid (P : Nat → Pt K) (t : Tri) (k : Nat × Bool) : Prop :=
  ∃ a c, t.Rot a k.1 c ∧ (k.2 = true ∧ Lex (P a) (P k.1) ∧ Lex (P k.1) (P c) ∨ k.2 = false ∧ Lex (P c) (P k.1) ∧ Lex (P k.1) (P a))

theorem Tri.Rot.cycle {t : Tri} {a b c : Nat} (h : t.Rot a b c) : t.Rot b c a := by
  rcases h with rfl | rfl | rfl
  · exact Or.inr (Or.inl rfl)
  · exact Or.inr (Or.inr rfl)
  · exact Or.inl rfl

theorem exists_mid {P : Nat → Pt K} {t : Tri} (h : t.CW P) : ∃ k, Mid P t k := by
  have h0 : t.Rot t.p1 t.p2 t.p3 := Or.inl rfl
  have n1 : P t.p1 ≠ P t.p2 := by
    intro e; unfold Tri.CW orient at h; rw [e] at h; simp at h
  have n2 : P t.p2 ≠ P t.p3 := by
    intro e; have := h0.cycle.cw.1 h; unfold orient at this; rw [e] at this; simp at this
  have n3 : P t.p3 ≠ P t.p1 := by
    intro e; have := h0.cycle.cycle.cw.1 h; unfold orient at this; rw [e] at this; simp at this
  rcases Lex.total n1 with l1 | l1 <;> rcases Lex.total n2 with l2 | l2 <;> rcases Lex.total n3 with l3 | l3
  · exact absurd (l1.trans (l2.trans l3)) Lex.irrefl
  · exact ⟨(t.p2, true), _, _, h0, Or.inl ⟨rfl, l1, l2⟩⟩
  · exact ⟨(t.p1, true), _, _, h0.cycle.cycle, Or.inl ⟨rfl, l3, l1⟩⟩
  · exact ⟨(t.p3, false), _, _, h0.cycle, Or.inr ⟨rfl, l3, l2⟩⟩
  · exact ⟨(t.p3, true), _, _, h0.cycle, Or.inl ⟨rfl, l2, l3⟩⟩
  · exact ⟨(t.p1, false), _, _, h0.cycle.cycle, Or.inr ⟨rfl, l1, l3⟩⟩
  · exact ⟨(t.p2, false), _, _, h0, Or.inr ⟨rfl, l2, l1⟩⟩
  · exact absurd (l1.trans (l3.trans l2)) Lex.irrefl

/-- Two clockwise triangles with the same middle corner and the same direction overlap near this corner. -/
theorem mid_overlap {P : Nat → Pt K} {t u : Tri} {k : Nat × Bool} (ht : t.CW P) (hu : u.CW P) (hm : Mid P t k) (hm' : Mid P u k) :
    ∃ q, t.Contains P q ∧ u.Contains P q := by
  obtain ⟨a, c, hr, h⟩ := hm
  obtain ⟨a', c', hr', h'⟩ := hm'
  obtain ⟨b, up⟩ := k
  simp only at hr hr' h h'
  have o1 := hr.cw.1 ht
  have o2 := hr'.cw.1 hu
  have key : ∃ d : Pt K, (0 < ((P a).x - (P b).x) * d.y - ((P a).y - (P b).y) * d.x) ∧ (((P c).x - (P b).x) * d.y - ((P c).y - (P b).y) * d.x < 0) ∧
      (0 < ((P a').x - (P b).x) * d.y - ((P a').y - (P b).y) * d.x) ∧ (((P c').x - (P b).x) * d.y - ((P c').y - (P b).y) * d.x < 0) := by
    rcases h with ⟨hk, l1, l2⟩ | ⟨hk, l1, l2⟩ <;> rcases h' with ⟨hk', l1', l2'⟩ | ⟨hk', l1', l2'⟩
    · obtain ⟨e1, p1, q1⟩ := l1.tilt
      obtain ⟨e2, p2, q2⟩ := l2.tilt
      obtain ⟨e3, p3, q3⟩ := l1'.tilt
      obtain ⟨e4, p4, q4⟩ := l2'.tilt
      set e := min (min e1 e2) (min e3 e4) with he
      have e0 : 0 < e := lt_min (lt_min p1 p2) (lt_min p3 p4)
      have s1 := q1 e e0 (le_trans (min_le_left _ _) (min_le_left _ _))
      have s2 := q2 e e0 (le_trans (min_le_left _ _) (min_le_right _ _))
      have s3 := q3 e e0 (le_trans (min_le_right _ _) (min_le_left _ _))
      have s4 := q4 e e0 (le_trans (min_le_right _ _) (min_le_right _ _))
      refine ⟨⟨e, -1⟩, ?_, ?_, ?_, ?_⟩ <;> simp only <;> linarith
    · rw [hk] at hk'; cases hk'
    · rw [hk] at hk'; cases hk'
    · obtain ⟨e1, p1, q1⟩ := l1.tilt
      obtain ⟨e2, p2, q2⟩ := l2.tilt
      obtain ⟨e3, p3, q3⟩ := l1'.tilt
      obtain ⟨e4, p4, q4⟩ := l2'.tilt
      set e := min (min e1 e2) (min e3 e4) with he
      have e0 : 0 < e := lt_min (lt_min p1 p2) (lt_min p3 p4)
      have s1 := q1 e e0 (le_trans (min_le_left _ _) (min_le_left _ _))
      have s2 := q2 e e0 (le_trans (min_le_left _ _) (min_le_right _ _))
      have s3 := q3 e e0 (le_trans (min_le_right _ _) (min_le_left _ _))
      have s4 := q4 e e0 (le_trans (min_le_right _ _) (min_le_right _ _))
      refine ⟨⟨-e, 1⟩, ?_, ?_, ?_, ?_⟩ <;> simp only <;> linarith
  obtain ⟨d, k1, k2, k3, k4⟩ := key
  have c1 : orient (P c) (P a) (P b) < 0 := by rw [← orient_cycle]; exact o1
  have c2 : orient (P c') (P a') (P b) < 0 := by rw [← orient_cycle]; exact o2
  obtain ⟨s, s0, s1, f1, f2⟩ := exists_small (orient (P c) (P a) ⟨(P b).x + d.x, (P b).y + d.y⟩) (orient (P c') (P a') ⟨(P b).x + d.x, (P b).y + d.y⟩) c1 c2
  have sgn : ∀ X : K, X < 0 → s * X < 0 := fun X hX => mul_neg_of_pos_of_neg s0 hX
  refine ⟨⟨(P b).x + s * d.x, (P b).y + s * d.y⟩, (hr.contains _).2 ⟨?_, ?_, ?_⟩, (hr'.contains _).2 ⟨?_, ?_, ?_⟩⟩
  · have := sgn _ (neg_neg_of_pos k1); unfold orient; simp only; nlinarith
  · have := sgn _ k2; unfold orient; simp only; nlinarith
  · unfold orient at f1 ⊢; simp only at f1 ⊢; nlinarith
  · have := sgn _ (neg_neg_of_pos k3); unfold orient; simp only; nlinarith
  · have := sgn _ k4; unfold orient; simp only; nlinarith
  · unfold orient at f2 ⊢; simp only at f2 ⊢; nlinarith

/-- The keys of triangles that do not overlap are different. -/
theorem count_le {P : Nat → Pt K} {ts : List Tri} (hcw : ∀ t ∈ ts, t.CW P)
    (hd : ts.Pairwise (fun t u => ∀ q, ¬ (t.Contains P q ∧ u.Contains P q))) (keys : List (Nat × Bool))
    (hk : ∀ t ∈ ts, ∀ k, Mid P t k → k ∈ keys) : ts.length ≤ keys.length := by
  classical
  have hch : ∀ t : Tri, ∃ k, t.CW P → Mid P t k := by
    intro t
    by_cases h : t.CW P
    · obtain ⟨k, hk⟩ := exists_mid h; exact ⟨k, fun _ => hk⟩
    · exact ⟨(0, true), fun h' => absurd h' h⟩
  choose g hg using hch
  have hcw' : ts.Pairwise (fun t u => t.CW P ∧ u.CW P) := by
    rw [List.pairwise_iff_forall_sublist]
    intro t u h
    exact ⟨hcw t (h.subset (by simp)), hcw u (h.subset (by simp))⟩
  have hnd : (ts.map g).Nodup := by
    rw [List.Nodup, List.pairwise_map]
    refine (hd.and hcw').imp ?_
    rintro t u ⟨hno, ht, hu⟩ heq
    obtain ⟨q, hq⟩ := mid_overlap ht hu (hg t ht) (heq ▸ hg u hu)
    exact hno q hq
  have hsub : ts.map g ⊆ keys := by
    intro k hkm
    obtain ⟨t, ht, rfl⟩ := List.mem_map.1 hkm
    exact hk t ht _ (hg t (hcw t ht))
  have := (hnd.subperm hsub).length_le
  simpa using this

/-- The keys of the triangles of a mesh of `i` points: both directions for each point, one for the top of the supertriangle. -/
def keysOf (nv i : Nat) : List (Nat × Bool) := (List.range i).map (fun j => (j, true)) ++ (List.range i).map (fun j => (j, false)) ++ [(nv + 1, true)]

theorem Mesh.count {P : Nat → Pt K} {nv i : Nat} {ts : List Tri} (hm : Mesh P nv i ts) (hs : (superTri nv).CW P)
    (hleft : ∀ j, Vtx nv i j → j ≠ nv → (P nv).x < (P j).x) (hright : ∀ j, Vtx nv i j → j ≠ nv + 2 → (P j).x < (P (nv + 2)).x)
    (htop : ∀ j, Vtx nv i j → (P j).y ≤ (P (nv + 1)).y) : ts.length ≤ 2 * i + 1 := by
  have hk : ts.length ≤ (keysOf nv i).length := by
    refine count_le hm.cw (disjoint_of hs hm.cw hm.chain) _ ?_
    rintro t ht ⟨b, up⟩ ⟨a, c, hr, h⟩
    simp only at hr h
    have va := hm.vtx t ht _ _ _ hr
    have vb := hm.vtx t ht _ _ _ hr.cycle
    have vc := hm.vtx t ht _ _ _ hr.cycle.cycle
    have hcw := hr.cw.1 (hm.cw t ht)
    have noleft : ∀ x, Vtx nv i x → Lex (P x) (P nv) → False := by
      intro x hx hl
      by_cases e : x = nv
      · rw [e] at hl; exact hl.irrefl
      · have := hleft x hx e
        rcases hl with hl | ⟨hl, -⟩ <;> linarith
    have noright : ∀ x, Vtx nv i x → Lex (P (nv + 2)) (P x) → False := by
      intro x hx hl
      by_cases e : x = nv + 2
      · rw [e] at hl; exact hl.irrefl
      · have := hright x hx e
        rcases hl with hl | ⟨hl, -⟩ <;> linarith
    unfold keysOf
    rcases vb with vb | vb
    · cases up <;> simp [vb]
    · have hb : b = nv ∨ b = nv + 1 ∨ b = nv + 2 := by omega
      rcases hb with rfl | rfl | rfl
      · exfalso
        rcases h with ⟨_, l, _⟩ | ⟨_, l, _⟩
        · exact noleft _ va l
        · exact noleft _ vc l
      · rcases h with ⟨rfl, _, _⟩ | ⟨rfl, l1, l2⟩
        · simp
        · exfalso
          have y1 := htop _ va
          have y2 := htop _ vc
          have x1 : (P c).x ≤ (P (nv + 1)).x := by rcases l1 with l | ⟨l, -⟩ <;> linarith
          have x2 : (P (nv + 1)).x ≤ (P a).x := by rcases l2 with l | ⟨l, -⟩ <;> linarith
          have : 0 ≤ orient (P a) (P (nv + 1)) (P c) := by
            rw [← orient_cycle]
            unfold orient
            nlinarith [mul_nonneg (sub_nonneg.2 x1) (sub_nonneg.2 y1), mul_nonneg (sub_nonneg.2 y2) (sub_nonneg.2 x2)]
          linarith
      · exfalso
        rcases h with ⟨_, _, l⟩ | ⟨_, _, l⟩
        · exact noright _ vc l
        · exact noright _ va l
  refine le_trans hk (le_of_eq ?_)
  unfold keysOf
  simp
  omega

end Verif.Align
