import Verif.Lemmas.Circum
import Verif.Lemmas.MeshCount

/-!
# One step of the triangulation keeps the invariant
-/

namespace Verif.Align

variable {K : Type} [Field K] [LinearOrder K] [IsStrictOrderedRing K]

set_option linter.unusedSectionVars false

/-- What the triangulation needs to know about the vertex array with the supertriangle. -/
structure Ready (P : Nat → Pt K) (nv : Nat) (mem : List (VertexPair K)) : Prop where
  read : ∀ j < nv + 3, readPt mem j = .ok (P j)
  sep : ∀ j < nv + 3, ∀ k < nv + 3, AltSep (P j) (P k)
  sorted : ∀ j k, j ≤ k → k < nv → (P j).x ≤ (P k).x
  cw : (superTri nv).CW P
  inside : ∀ j < nv, (superTri nv).Contains P (P j)
  left : ∀ j < nv + 3, j ≠ nv → (P nv).x < (P j).x
  right : ∀ j < nv + 3, j ≠ nv + 2 → (P j).x < (P (nv + 2)).x
  top : ∀ j < nv + 3, (P j).y ≤ (P (nv + 1)).y

/-- No point from the `i`-th on is in the circumcircle. -/
def Finished (P : Nat → Pt K) (nv i : Nat) (t : Tri) : Prop :=
  ∃ o : Circle K, t.Through P o ∧ ∀ j, i ≤ j → j < nv → 0 < o.pow (P j)

/-- Tests that answer right: for every proper triangle of earlier points and corners of the supertriangle they find out whether the new point is in the
circumcircle, and they call a triangle complete only if no further point is in its circumcircle. -/
def Faithful {σ : Type} (test : Test K σ) (P : Nat → Pt K) (nv : Nat) : Prop :=
  ∀ i < nv, ∀ t : Tri, t.CW P → Vtx nv i t.p1 → Vtx nv i t.p2 → Vtx nv i t.p3 → ∀ st,
    ∃ (o : Circle K) (ans : Answer σ), t.Through P o ∧ test st (P i) (P t.p1) (P t.p2) (P t.p3) = .ok ans ∧
      (ans.inside = true ↔ o.pow (P i) ≤ 0) ∧
      (ans.inside = false → ans.completes = true → ∀ j, i ≤ j → j < nv → 0 < o.pow (P j))

theorem Vtx.lt {nv i j : Nat} (h : Vtx nv i j) (hi : i ≤ nv) : j < nv + 3 := by rcases h with h | h <;> omega

theorem Ready.faithful {P : Nat → Pt K} {nv : Nat} {mem : List (VertexPair K)} (hr : Ready P nv mem) : Faithful exactTest P nv := by
  intro i hi t hcw v1 v2 v3 st
  obtain ⟨o, ho, hans⟩ := exactTest_exact (ne_of_lt hcw) (hr.sep _ (v1.lt hi.le) _ (v2.lt hi.le)) (hr.sep _ (v2.lt hi.le) _ (v3.lt hi.le)) st (P i)
  exact ⟨o, _, ho, hans, covers_iff o _, fun _ hl j hj hjn => leftOf_sound hl (hr.sorted i j hj hjn)⟩

theorem scan_faithful {σ : Type} {test : Test K σ} {P : Nat → Pt K} {nv i : Nat} {mem : List (VertexPair K)}
    (hread : ∀ j < nv + 3, readPt mem j = .ok (P j)) (hT : Faithful test P nv) (hi : i < nv) :
    ∀ (fuel : Nat) (todo : List (Tri × Bool)) (s : ScanSt σ), todo.length ≤ fuel → s.edges.length ≤ s.emax →
      (∀ t ∈ todo, t.1.CW P ∧ Vtx nv i t.1.p1 ∧ Vtx nv i t.1.p2 ∧ Vtx nv i t.1.p3) →
      (∀ t ∈ todo, t.2 = true → Finished P nv i t.1) →
      (∀ t ∈ s.done, (∃ o : Circle K, t.1.Through P o ∧ 0 < o.pow (P i)) ∧ (t.2 = true → Finished P nv i t.1)) →
      ∃ s' R, scan test mem (P i) fuel todo s = .ok s' ∧ s'.edges = s.edges ++ R.flatMap Tri.edges ∧
        s'.edges.length ≤ s'.emax ∧
        (s'.done.map Prod.fst ++ R).Perm (s.done.map Prod.fst ++ todo.map Prod.fst) ∧
        (∀ t ∈ R, ∃ o : Circle K, t.Through P o ∧ o.pow (P i) ≤ 0) ∧
        (∀ t ∈ s'.done, (∃ o : Circle K, t.1.Through P o ∧ 0 < o.pow (P i)) ∧ (t.2 = true → Finished P nv i t.1)) := by
  intro fuel
  induction fuel with
  | zero =>
    intro todo s h he hg hf hd
    have : todo = [] := List.length_eq_zero_iff.1 (by omega)
    subst this
    refine ⟨_, [], rfl, by simp, ?_, ?_, by simp, ?_⟩
    · simpa using he
    · simp
    · simpa using hd
  | succ fuel ih =>
    intro todo s h he hg hf hd
    match todo with
    | [] => exact ⟨s, [], rfl, by simp, he, by simp, by simp, hd⟩
    | (t, true) :: rest =>
      simp only [scan]
      have hfin := hf _ List.mem_cons_self rfl
      obtain ⟨s', R, h1, h2, h3, h4, h5, h6⟩ := ih rest { s with done := s.done ++ [(t, true)] } (by simpa using h) he
        (fun u hu => hg u (List.mem_cons_of_mem _ hu)) (fun u hu => hf u (List.mem_cons_of_mem _ hu)) (by
          intro u hu
          rcases List.mem_append.1 hu with hu | hu
          · exact hd u hu
          · rw [List.mem_singleton.1 hu]
            obtain ⟨o, ho, hp⟩ := hfin
            exact ⟨⟨o, ho, hp i le_rfl hi⟩, fun _ => ⟨o, ho, hp⟩⟩)
      refine ⟨s', R, h1, h2, h3, ?_, h5, h6⟩
      simpa using h4
    | (t, false) :: rest =>
      obtain ⟨hcw, r1, r2, r3⟩ := hg _ List.mem_cons_self
      simp only at hcw r1 r2 r3
      obtain ⟨o, ans, ho, hans, hin, hcomp⟩ := hT i hi t hcw r1 r2 r3 s.st
      have hask : ask test mem (P i) s.st t = .ok ans := by
        unfold ask
        rw [hread _ (r1.lt hi.le), bind_ok, hread _ (r2.lt hi.le), bind_ok, hread _ (r3.lt hi.le), bind_ok, hans]
      simp only [scan]
      rw [hask, bind_ok]
      cases hc : ans.inside with
      | true =>
        obtain ⟨m, e1, e2, -⟩ := pushEdges_ok s.edges s.emax t he
        simp only
        rw [e1, bind_ok]
        obtain ⟨s', R, h1, h2, h3, h4, h5, h6⟩ := ih (moveLast rest) { s with edges := s.edges ++ t.edges, emax := m, st := ans.next }
          (by rw [moveLast_length]; simpa using h) e2
          (fun u hu => hg u (List.mem_cons_of_mem _ ((moveLast_perm rest).subset hu)))
          (fun u hu => hf u (List.mem_cons_of_mem _ ((moveLast_perm rest).subset hu))) hd
        refine ⟨s', t :: R, h1, ?_, h3, ?_, ?_, h6⟩
        · rw [h2, List.flatMap_cons, List.append_assoc]
        · have := (moveLast_perm rest).map Prod.fst
          calc (s'.done.map Prod.fst ++ t :: R).Perm (t :: (s'.done.map Prod.fst ++ R)) := List.perm_middle
            _ |>.Perm (t :: (s.done.map Prod.fst ++ (moveLast rest).map Prod.fst)) := h4.cons _
            _ |>.Perm (t :: (s.done.map Prod.fst ++ rest.map Prod.fst)) := ((this.append_left _).cons _)
            _ |>.Perm (s.done.map Prod.fst ++ ((t, false) :: rest).map Prod.fst) := List.perm_middle.symm
        · intro u hu
          rcases List.mem_cons.1 hu with rfl | hu
          · exact ⟨o, ho, hin.1 hc⟩
          · exact h5 u hu
      | false =>
        have hout : 0 < o.pow (P i) := by
          by_contra hcon
          rw [hin.2 (not_lt.1 hcon)] at hc
          cases hc
        obtain ⟨s', R, h1, h2, h3, h4, h5, h6⟩ := ih rest { s with done := s.done ++ [(t, ans.completes)], st := ans.next } (by simpa using h) he
          (fun u hu => hg u (List.mem_cons_of_mem _ hu)) (fun u hu => hf u (List.mem_cons_of_mem _ hu)) (by
            intro u hu
            rcases List.mem_append.1 hu with hu | hu
            · exact hd u hu
            · rw [List.mem_singleton.1 hu]
              exact ⟨⟨o, ho, hout⟩, fun hl => ⟨o, ho, hcomp hc hl⟩⟩)
        refine ⟨s', R, h1, h2, h3, ?_, h5, h6⟩
        simpa using h4

theorem Ready.side {P : Nat → Pt K} {nv i : Nat} {mem : List (VertexPair K)} (hr : Ready P nv mem) (hi : i ≤ nv) (a b c : Nat)
    (h : (superTri nv).Rot a b c) (j : Nat) (hj : Vtx nv i j) : orient (P a) (P b) (P j) ≤ 0 := by
  rcases hj with hj | hj
  · exact ((h.contains _).1 (hr.inside j (by omega))).1.le
  · have hc := h.cw.1 hr.cw
    have e0 : orient (P a) (P b) (P a) = 0 := by unfold orient; ring
    have e1 : orient (P a) (P b) (P b) = 0 := by unfold orient; ring
    have : j = a ∨ j = b ∨ j = c := by
      unfold Tri.Rot superTri at h
      simp only [Tri.mk.injEq] at h
      omega
    rcases this with rfl | rfl | rfl
    · exact e0.le
    · exact e1.le
    · exact hc.le

/-- The supertriangle alone is a mesh. -/
theorem Mesh.super {P : Nat → Pt K} {nv : Nat} : (superTri nv).CW P → Mesh P nv 0 [superTri nv] := by
  intro hcw
  refine ⟨?_, ?_, ?_, ?_⟩
  · intro t ht a b c hr
    rw [List.mem_singleton.1 ht] at hr
    unfold Tri.Rot superTri at hr
    simp only [Tri.mk.injEq] at hr
    exact Or.inr (by omega)
  · intro t ht; rw [List.mem_singleton.1 ht]; exact hcw
  · intro f _; simp
  · intro t ht o ho j hj
    rw [List.mem_singleton.1 ht] at ho
    have : j = nv ∨ j = nv + 1 ∨ j = nv + 2 := by rcases hj with hj | hj <;> omega
    obtain ⟨h1, h2, h3⟩ := ho
    simp only [superTri] at h1 h2 h3
    rcases this with rfl | rfl | rfl
    · exact h1.ge
    · exact h2.ge
    · exact h3.ge

/-- The state between two points. -/
structure WorkOK {σ : Type} (P : Nat → Pt K) (nv i : Nat) (w : Work σ) : Prop where
  mesh : Mesh P nv i (w.tris.map Prod.fst)
  flags : ∀ t ∈ w.tris, t.2 = true → Finished P nv i t.1

theorem insertPoint_faithful {σ : Type} {test : Test K σ} {P : Nat → Pt K} {nv i : Nat} {mem : List (VertexPair K)} (hr : Ready P nv mem)
    (hT : Faithful test P nv) (hi : i < nv) (h64 : nv ≤ 64) (w : Work σ) (hw : WorkOK P nv i w) :
    ∃ w', insertPoint test nv mem w i = .ok w' ∧ WorkOK P nv (i + 1) w' := by
  have hm := hw.mesh
  have hg : ∀ t ∈ w.tris, t.1.CW P ∧ Vtx nv i t.1.p1 ∧ Vtx nv i t.1.p2 ∧ Vtx nv i t.1.p3 := by
    intro t ht
    have ht' : t.1 ∈ w.tris.map Prod.fst := List.mem_map_of_mem ht
    have r : t.1.Rot t.1.p1 t.1.p2 t.1.p3 := Or.inl rfl
    exact ⟨hm.cw _ ht', hm.vtx _ ht' _ _ _ r, hm.vtx _ ht' _ _ _ r.cycle, hm.vtx _ ht' _ _ _ r.cycle.cycle⟩
  obtain ⟨s, R, h1, h2, h3, h4, h5, h6⟩ := scan_faithful hr.read hT hi w.tris.length w.tris ⟨[], [], w.emax, w.st⟩ le_rfl (by simp) hg hw.flags (by simp)
  simp only [List.nil_append, List.map_nil] at h2 h4
  have hRt : ∀ t ∈ R, t ∈ w.tris.map Prod.fst := fun t ht => h4.subset (List.mem_append_right _ ht)
  have hnd : (R.flatMap Tri.edges).Nodup := by
    have := edges_nodup hm.cw (disjoint_of hr.cw hm.cw hm.chain)
    have hp : (List.flatMap Tri.edges (s.done.map Prod.fst) ++ R.flatMap Tri.edges).Perm ((w.tris.map Prod.fst).flatMap Tri.edges) := by
      rw [← List.flatMap_append]; exact h4.flatMap_right _
    exact (List.nodup_append.1 (hp.nodup_iff.2 this)).2.1
  have hloop : ∀ e ∈ R.flatMap Tri.edges, e.1 ≠ e.2 := by
    intro e he
    obtain ⟨t, ht, hte⟩ := List.mem_flatMap.1 he
    exact cw_ne (hm.cw t (hRt t ht)) hte
  have hmesh := hm.insert hr.cw (hr.inside i hi) (fun a b c h j hj => hr.side hi.le a b c h j hj) h4 h5 (by
    intro t ht
    obtain ⟨u, hu, rfl⟩ := List.mem_map.1 ht
    exact (h6 u hu).1)
  have hnew : newTris i (tagAll s.edges.length (s.edges.map some)) =
      ((R.flatMap Tri.edges).filter (fun e => e.swap ∉ R.flatMap Tri.edges)).map (fun e => ⟨e.1, e.2, i⟩) := by
    unfold newTris
    rw [h2, tagAll_kept _ hnd hloop]
  have hlen := hmesh.count hr.cw (fun j hj => hr.left j (hj.lt (by omega))) (fun j hj => hr.right j (hj.lt (by omega)))
    (fun j hj => hr.top j (hj.lt (by omega)))
  rw [← hnew, List.length_append, List.length_map] at hlen
  have hform := formTris_ok nv i (tagAll s.edges.length (s.edges.map some)) s.done (by omega) (by omega)
  refine ⟨⟨s.done ++ (newTris i (tagAll s.edges.length (s.edges.map some))).map (fun t => (t, false)), s.emax, s.st⟩, ?_, ?_, ?_⟩
  · unfold insertPoint
    rw [hr.read i (by omega), bind_ok, h1, bind_ok]
    simp only
    rw [hform, bind_ok]
    rfl
  · simp only [List.map_append, List.map_map]
    rw [hnew]
    convert hmesh using 2
    rw [List.map_map]
    rfl
  · intro t ht htrue
    rcases List.mem_append.1 ht with ht | ht
    · obtain ⟨o, ho, hp⟩ := (h6 t ht).2 htrue
      exact ⟨o, ho, fun j hj hjn => hp j (by omega) hjn⟩
    · obtain ⟨u, _, rfl⟩ := List.mem_map.1 ht
      cases htrue

theorem insertAll_faithful {σ : Type} {test : Test K σ} {P : Nat → Pt K} {nv : Nat} {mem : List (VertexPair K)} (hr : Ready P nv mem)
    (hT : Faithful test P nv) (h64 : nv ≤ 64) :
    ∀ (k i : Nat) (w : Work σ), i + k ≤ nv → WorkOK P nv i w →
      ∃ w', insertAll test nv mem (List.range' i k) w = .ok w' ∧ WorkOK P nv (i + k) w' := by
  intro k
  induction k with
  | zero => intro i w _ hw; exact ⟨w, rfl, hw⟩
  | succ k ih =>
    intro i w hik hw
    obtain ⟨w1, h1, hw1⟩ := insertPoint_faithful hr hT (by omega) h64 w hw
    obtain ⟨w2, h2, hw2⟩ := ih (i + 1) w1 (by omega) hw1
    refine ⟨w2, ?_, by rw [show i + (k + 1) = i + 1 + k by omega]; exact hw2⟩
    rw [List.range'_succ]
    simp only [insertAll]
    rw [h1, bind_ok, h2]

end Verif.Align
