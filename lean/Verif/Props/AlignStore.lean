import Verif.Lemmas.Align
import Verif.Spec.AlignDemo

/-!
# C31, C32, C33, C41: the point store of the alignment and the triangulation indices

`ledger` (in `Spec/Align.lean`) says which points an alignment should hold after a history of calls.
-/

namespace Verif.Align

variable {K σ : Type} [Field K] [LinearOrder K] [IsStrictOrderedRing K]

set_option linter.unusedSectionVars false

/-- **C31** In every state, `addVertexPair` with the actual position of a stored point returns false and changes nothing. -/
theorem C31_duplicate_rejected (s : State K) (env : Env K σ) (a r : Pt K) (hd : ∃ v ∈ s.used, v.actual = a) :
    addVertexPair env s a r = .ok (false, s) := by
  obtain ⟨v, hv, rfl⟩ := hd
  unfold addVertexPair
  rw [if_pos]
  exact (any_iff _ _).2 (List.mem_map_of_mem hv)

/-- **C31** With any other actual position it returns true, never fails, and stores the point (unless it is the 64th, C32). -/
theorem C31_new_accepted (h : List (Env K σ × Op K)) (hs : ∀ e ∈ h, IsSort e.1.sort) (bs : List Bool) (s : State K)
    (hr : run h fresh = .ok (bs, s)) (env : Env K σ) (he : IsSort env.sort) (a r : Pt K)
    (hd : ¬ ∃ v ∈ s.used, v.actual = a) :
    ∃ s', addVertexPair env s a r = .ok (true, s') ∧
      (s.numVertices < 63 → s'.numVertices = s.numVertices + 1 ∧ ∃ v ∈ s'.used, StandsFor v (a, r)) := by
  obtain ⟨_, hI⟩ := run_refines h hs _ _ Inv.fresh bs s hr
  generalize (h.map Prod.snd).foldl ledgerStep [] = L at hI
  have hn : a ∉ L.map Prod.fst := by
    intro hc
    obtain ⟨v, hv, rfl⟩ := List.mem_map.1 (hI.stores.actual.mem_iff.2 hc)
    exact hd ⟨v, hv, rfl⟩
  obtain ⟨s', h1, h2, _⟩ := add_refines env he s L hI a r
  have hans : answer L (.add a r) = true := by simp [answer, hn]
  rw [hans] at h1
  refine ⟨s', h1, fun h63 => ?_⟩
  have hL : ledgerStep L (.add a r) = L ++ [(a, r)] := by
    simp only [ledgerStep, hn, if_false]
    rw [if_neg (by have := hI.num; omega)]
  rw [hL] at h2
  refine ⟨by rw [h2.num, hI.num]; simp, ?_⟩
  exact h2.stores.mem (by simp)

/-- **C31** The stored actual positions are pairwise different after every history. -/
theorem C31_distinct (h : List (Env K σ × Op K)) (hs : ∀ e ∈ h, IsSort e.1.sort) (bs : List Bool) (s : State K)
    (hr : run h fresh = .ok (bs, s)) : (s.used.map VertexPair.actual).Nodup := by
  obtain ⟨_, hI⟩ := run_refines h hs _ _ Inv.fresh bs s hr
  exact hI.stores.actual.nodup_iff.2 hI.nodup

/-- **C32** The number of stored points is always below 64, the vertex array keeps its 67 elements, and a further
`addVertexPair` never writes outside it. -/
theorem C32_capacity (h : List (Env K σ × Op K)) (hs : ∀ e ∈ h, IsSort e.1.sort) (bs : List Bool) (s : State K)
    (hr : run h fresh = .ok (bs, s)) :
    s.numVertices < 64 ∧ s.vertices.length = 67 ∧ s.used.length = s.numVertices ∧
      ∀ (env : Env K σ), IsSort env.sort → ∀ a r, ∃ b s', addVertexPair env s a r = .ok (b, s') := by
  obtain ⟨_, hI⟩ := run_refines h hs _ _ Inv.fresh bs s hr
  refine ⟨by rw [hI.num]; exact hI.cap, hI.len, by rw [hI.stores.length, hI.num], fun env he a r => ?_⟩
  obtain ⟨s', h1, _⟩ := add_refines env he s _ hI a r
  exact ⟨_, s', h1⟩

/-- Number of accepted `addVertexPair` calls since the last `clearAll`, from the return values. -/
def acceptedSince (c : Nat) : List (Op K) → List Bool → Nat
  | .add _ _ :: ops, b :: bs => acceptedSince (if b then c + 1 else c) ops bs
  | .clear :: ops, _ :: bs => acceptedSince 0 ops bs
  | .triangulate :: ops, _ :: bs => acceptedSince c ops bs
  | _, _ => c

theorem acceptedSince_mod (ops : List (Op K)) : ∀ (c : Nat) (L : List (Pt K × Pt K)), L.length < 64 → L.length = c % 64 →
    acceptedSince c ops (answers L ops) % 64 = (ops.foldl ledgerStep L).length := by
  induction ops with
  | nil => intro c L _ h; simp [acceptedSince, h]
  | cons op ops ih =>
    intro c L hl hc
    cases op with
    | add a r =>
      simp only [answers, acceptedSince, List.foldl_cons]
      by_cases hd : a ∈ L.map Prod.fst
      · have : answer L (.add a r) = false := by simp [answer, hd]
        rw [this]
        have e : ledgerStep L (.add a r) = L := by simp only [ledgerStep, hd, if_true]
        rw [e]
        exact ih _ _ hl hc
      · have : answer L (.add a r) = true := by simp [answer, hd]
        rw [this]
        simp only [if_true]
        by_cases h63 : L.length = 63
        · have e : ledgerStep L (.add a r) = [] := by simp only [ledgerStep, hd, if_false, h63, if_true]
          rw [e]
          exact ih _ _ (by simp) (by simp only [List.length_nil]; omega)
        · have e : ledgerStep L (.add a r) = L ++ [(a, r)] := by simp only [ledgerStep, hd, if_false, h63]
          rw [e]
          exact ih _ _ (by simp only [List.length_append, List.length_singleton]; omega)
            (by simp only [List.length_append, List.length_singleton]; omega)
    | clear => simp only [answers, acceptedSince, List.foldl_cons, ledgerStep]; exact ih 0 [] (by simp) (by simp)
    | triangulate => simp only [answers, acceptedSince, List.foldl_cons, ledgerStep]; exact ih _ _ hl hc

/-- **C32** The number of stored points is the number of accepted points since the last reset, modulo 64: the 64th accepted
point discards all points. -/
theorem C32_modulo (h : List (Env K σ × Op K)) (hs : ∀ e ∈ h, IsSort e.1.sort) (bs : List Bool) (s : State K)
    (hr : run h fresh = .ok (bs, s)) : s.numVertices = acceptedSince 0 (h.map Prod.snd) bs % 64 := by
  obtain ⟨hb, hI⟩ := run_refines h hs _ _ Inv.fresh bs s hr
  rw [hb, acceptedSince_mod _ 0 [] (by simp) (by simp), hI.num]

/-- **C33** After every history the stored vertices are exactly the accepted (actual, reference) pairs since the last reset
or overflow, in some order that is ascending in the actual azimuth; each reference azimuth is the given one, up to one
full turn. -/
theorem C33_faithful (h : List (Env K σ × Op K)) (hs : ∀ e ∈ h, IsSort e.1.sort) (bs : List Bool) (s : State K)
    (hr : run h fresh = .ok (bs, s)) :
    Stores s.used (ledger (h.map Prod.snd)) ∧ s.used.Pairwise (fun u v => u.actual.x ≤ v.actual.x) ∧
      bs = answers [] (h.map Prod.snd) := by
  obtain ⟨hb, hI⟩ := run_refines h hs _ _ Inv.fresh bs s hr
  exact ⟨hI.stores, hI.sorted, hb⟩

/-- **C33** The reference stored for a newly accepted point differs by at most 180 degrees from the reference of the vertex
that is first at that moment, provided the given one differs from it by at most 540 degrees; the very first reference is
stored as given. -/
theorem C33_wrap (env : Env K σ) (hs : IsSort env.sort) (s s' : State K) (a r : Pt K) (hlen : s.vertices.length = 67)
    (hn : s.numVertices < 63) (h : addVertexPair env s a r = .ok (true, s')) :
    ∃ v ∈ s'.used, v.actual = a ∧ v.reference.y = r.y ∧
      (s.used = [] → v.reference = r) ∧
      ∀ f rest, s.used = f :: rest → |f.reference.x - r.x| ≤ 540 → |f.reference.x - v.reference.x| ≤ 180 := by
  unfold addVertexPair at h
  split at h
  · cases h
  · have hlt : s.numVertices < s.vertices.length := by omega
    have hw : writeVertex s.vertices s.numVertices ⟨a, wrapFor s r⟩
        = .ok (s.vertices.set s.numVertices ⟨a, wrapFor s r⟩) := by unfold writeVertex; rw [if_pos hlt]
    simp only [hw, bind_ok] at h
    cases h
    have hz : (s.numVertices + 1) % maxVertices = s.numVertices + 1 := Nat.mod_eq_of_lt (by unfold maxVertices; omega)
    refine ⟨⟨a, wrapFor s r⟩, ?_, rfl, ?_, ?_, ?_⟩
    · unfold State.used
      simp only [hz, take_set_self _ _ _ hlt]
      obtain ⟨hp, _⟩ := hs (List.take s.numVertices s.vertices ++ [⟨a, wrapFor s r⟩])
      have hl : (env.sort (List.take s.numVertices s.vertices ++ [⟨a, wrapFor s r⟩])).length = s.numVertices + 1 := by
        rw [hp.length_eq, List.length_append, List.length_take, List.length_singleton]; omega
      rw [List.take_left' hl]
      exact hp.symm.subset (by simp)
    · exact (standsFor_wrapFor s a r).2.1
    · intro hu; simp only [wrapFor, hu]
    · intro f rest hu hb; simp only [wrapFor, hu]; exact wrapRef_near f r hb

/-- Four accepted points with references 10, 200, 30 and 359 degrees. -/
def driftHistory : List (Env ℚ (Option (Circle ℚ)) × Op ℚ) :=
  [(demoEnv, .add ⟨100, 0⟩ ⟨10, 0⟩), (demoEnv, .add ⟨90, 0⟩ ⟨200, 0⟩), (demoEnv, .add ⟨80, 0⟩ ⟨30, 0⟩),
   (demoEnv, .add ⟨85, 1⟩ ⟨359, 0⟩)]

/-- **C33** (finding) Because later points can become the first vertex, the base of the wrapping can drift: after four
accepted points with references in [0, 360) the stored references of the first vertex and of another one differ by more than
180 degrees, although the given ones (30 and 359 degrees) are only 31 degrees apart. -/
theorem C33_drift : ∃ bs s f v,
    run driftHistory fresh = .ok (bs, s) ∧
    s.used.head? = some f ∧ v ∈ s.used ∧ StandsFor f (⟨80, 0⟩, ⟨30, 0⟩) ∧ StandsFor v (⟨85, 1⟩, ⟨359, 0⟩) ∧
    |f.reference.x - v.reference.x| = 329 := by
  have h : (run driftHistory fresh).map (fun r => r.2.used)
      = .ok [⟨⟨80, 0⟩, ⟨-330, 0⟩⟩, ⟨⟨85, 1⟩, ⟨-1, 0⟩⟩, ⟨⟨90, 0⟩, ⟨-160, 0⟩⟩, ⟨⟨100, 0⟩, ⟨10, 0⟩⟩] := by decide +kernel
  cases hr : run driftHistory fresh with
  | error e => rw [hr] at h; cases h
  | ok r =>
    obtain ⟨bs, s⟩ := r
    rw [hr] at h
    have hu : s.used = [⟨⟨80, 0⟩, ⟨-330, 0⟩⟩, ⟨⟨85, 1⟩, ⟨-1, 0⟩⟩, ⟨⟨90, 0⟩, ⟨-160, 0⟩⟩, ⟨⟨100, 0⟩, ⟨10, 0⟩⟩] := by
      simpa [Except.map] using h
    refine ⟨bs, s, ⟨⟨80, 0⟩, ⟨-330, 0⟩⟩, ⟨⟨85, 1⟩, ⟨-1, 0⟩⟩, rfl, by rw [hu]; rfl, by rw [hu]; simp, ?_, ?_, ?_⟩
    · refine ⟨rfl, rfl, Or.inr (Or.inr ?_)⟩; norm_num
    · refine ⟨rfl, rfl, Or.inr (Or.inr ?_)⟩; norm_num
    · norm_num [abs_of_neg]

/-- **C41** Whatever the geometric tests answer (hence for any floating-point arithmetic), every triangle a run of the
triangulation delivers has three different corners, all of them stored points; the stored points and all references are
unchanged. -/
theorem C41_indices (test : Test K σ) (init : σ) (nv : Nat) (mem mem' : List (VertexPair K)) (ts : List Tri) (h1 : 1 ≤ nv)
    (hmem : nv + 3 ≤ mem.length) (h : triangulate test init nv mem = .ok (mem', ts)) :
    (∀ t ∈ ts, t.p1 < nv ∧ t.p2 < nv ∧ t.p3 < nv ∧ t.p1 ≠ t.p2 ∧ t.p2 ≠ t.p3 ∧ t.p3 ≠ t.p1) ∧
      mem'.length = mem.length ∧ mem'.take nv = mem.take nv ∧
      mem'.map VertexPair.reference = mem.map VertexPair.reference := by
  obtain ⟨hws, _⟩ := triangulate_spec test init nv mem mem' ts h1 h
  obtain ⟨m, p, ps, _, hm, hml, hsame, href, _⟩ := withSuper_ok nv mem h1 hmem
  rw [hws] at hm
  cases hm
  refine ⟨triangulate_indices test init nv mem mem' ts h1 h, hml, ?_, ?_⟩
  · apply List.ext_getElem?
    intro j
    rw [List.getElem?_take, List.getElem?_take]
    split
    · exact hsame j (by omega)
    · rfl
  · apply List.ext_getElem?
    intro j
    rw [List.getElem?_map, List.getElem?_map]
    exact href j

/-- **C41** Whatever the geometric tests answer, the triangulation reads no vertex outside the array and never overruns its
edge array: the only way it can fail is a full triangle or flag array (excluded for exact arithmetic by C42). -/
theorem C41_reads_safe (test : Test K σ) (htest : ∀ st p a b c, ∃ r, test st p a b c = .ok r) (init : σ) (nv : Nat)
    (mem : List (VertexPair K)) (h1 : 1 ≤ nv) (hmem : nv + 3 ≤ mem.length) :
    (∃ r, triangulate test init nv mem = .ok r) ∨ triangulate test init nv mem = .error (.ub .oobWrite) := by
  obtain ⟨m, p, ps, _, hm, hml, _⟩ := withSuper_ok nv mem h1 hmem
  unfold triangulate
  rw [hm, bind_ok, pushTri_first nv h1, bind_ok, List.range_eq_range']
  rcases insertAll_total test htest nv m (by omega) nv 0 ⟨_, 200, init⟩ (by omega) (super_triOK nv) with ⟨w, hw⟩ | hw
  · left; rw [hw, bind_ok]; exact ⟨_, rfl⟩
  · right; rw [hw, bind_error]

/-- The hypotheses of the history theorems are met by a history with a duplicate, a reset and a triangulation. -/
example : (run ((demoEnv, .add ⟨1, 1⟩ ⟨2, 2⟩) :: (demoEnv, .clear) :: (demoSync ⟨10, 5⟩ ⟨11, 6⟩ ++ demoSync ⟨5, 1⟩ ⟨355, 2⟩ ++
      demoSync ⟨10, 5⟩ ⟨12, 7⟩ ++ demoSync ⟨4, 7⟩ ⟨3, 9⟩)) fresh).map
        (fun r => (r.1, r.2.used.map VertexPair.actual, r.2.used.map (fun v => v.reference.x), r.2.triangles))
    = .ok ([true, true, true, true, true, true, false, true, true, true], [⟨4, 7⟩, ⟨5, 1⟩, ⟨10, 5⟩], [3, -5, 11], [⟨1, 0, 2⟩]) := by
  decide +kernel

/-- The triangulation of the unit test `test_function_TriangulateSimple` runs and delivers the triangles it expects. -/
example : (triangulate exactTest none 5 (([⟨1, 8⟩, ⟨3, 5⟩, ⟨4, 7⟩, ⟨5, 1⟩, ⟨10, 5⟩] : List (Pt ℚ)).map (fun p => ⟨p, ⟨0, 0⟩⟩) ++
      List.replicate 62 ⟨⟨0, 0⟩, ⟨0, 0⟩⟩)).map (·.2) = .ok [⟨3, 1, 4⟩, ⟨1, 0, 2⟩, ⟨1, 2, 4⟩, ⟨0, 1, 3⟩] := by
  decide +kernel

/-- `acceptedSince` on a small history. -/
example : acceptedSince 0 [.add ⟨1, 1⟩ ⟨2, 2⟩, .clear, .add ⟨1, 1⟩ ⟨2, 2⟩, .add ⟨1, 1⟩ ⟨3, 2⟩, (.add ⟨1, 2⟩ ⟨3, 2⟩ : Op ℚ)]
    [true, true, true, false, true] = 2 := rfl

end Verif.Align
