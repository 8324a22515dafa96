import Verif.Lemmas.AlignMaps

/-!
# What an alignment does not depend on

Two alignments that agree on the points in use and on the corners of the triangles behave alike, whatever lies behind.
-/

namespace Verif.Align

open Linalg

section Congr
variable {K σ : Type}

/-- The corners are below `B`. -/
def Below (B : Nat) (t : Tri) : Prop := t.p1 < B ∧ t.p2 < B ∧ t.p3 < B

theorem ask_congr (test : Test K σ) {m m' : List (VertexPair K)} {B : Nat} (hm : ∀ i < B, readPt m i = readPt m' i) (p : Pt K)
    (st : σ) (t : Tri) (ht : Below B t) : ask test m p st t = ask test m' p st t := by
  unfold ask
  rw [hm _ ht.1, hm _ ht.2.1, hm _ ht.2.2]

theorem scan_congr (test : Test K σ) {m m' : List (VertexPair K)} {B : Nat} (hm : ∀ i < B, readPt m i = readPt m' i) (p : Pt K) :
    ∀ (fuel : Nat) (todo : List (Tri × Bool)) (s : ScanSt σ), (∀ t ∈ todo, Below B t.1) →
      scan test m p fuel todo s = scan test m' p fuel todo s := by
  intro fuel
  induction fuel with
  | zero => intro todo s _; rfl
  | succ fuel ih =>
    intro todo s h
    match todo, h with
    | [], _ => rfl
    | (t, true) :: rest, h =>
      simp only [scan]
      exact ih _ _ (fun u hu => h u (List.mem_cons_of_mem _ hu))
    | (t, false) :: rest, h =>
      simp only [scan]
      rw [ask_congr test hm p s.st t (h _ List.mem_cons_self)]
      congr 1
      funext a
      cases a.inside with
      | true =>
        simp only
        congr 1
        funext r
        exact ih _ _ (fun u hu => h u (List.mem_cons_of_mem _ ((moveLast_perm rest).subset hu)))
      | false =>
        simp only
        exact ih _ _ (fun u hu => h u (List.mem_cons_of_mem _ hu))

theorem insertPoint_congr (test : Test K σ) {m m' : List (VertexPair K)} {B : Nat} (hm : ∀ i < B, readPt m i = readPt m' i)
    (nv : Nat) (w : Work σ) (i : Nat) (hi : i < B) (hw : ∀ t ∈ w.tris, Below B t.1) :
    insertPoint test nv m w i = insertPoint test nv m' w i := by
  unfold insertPoint
  rw [hm i hi]
  congr 1
  funext p
  rw [scan_congr test hm p _ _ _ hw]

theorem TriOK.below {nv i : Nat} {t : Tri} (h : TriOK nv i t) (hi : i ≤ nv) : Below (nv + 3) t := by
  obtain ⟨h1, h2, h3, _⟩ := h
  exact ⟨by omega, by omega, by omega⟩

theorem insertAll_congr (test : Test K σ) {m m' : List (VertexPair K)} (nv : Nat)
    (hm : ∀ i < nv + 3, readPt m i = readPt m' i) :
    ∀ (k i : Nat) (w : Work σ), i + k ≤ nv → (∀ t ∈ w.tris, TriOK nv i t.1) →
      insertAll test nv m (List.range' i k) w = insertAll test nv m' (List.range' i k) w := by
  intro k
  induction k with
  | zero => intro i w _ _; rfl
  | succ k ih =>
    intro i w hik hw
    simp only [List.range'_succ, insertAll]
    rw [insertPoint_congr test hm nv w i (by omega) (fun t ht => (hw t ht).below (by omega))]
    cases hr : insertPoint test nv m' w i with
    | error e => rw [bind_error, bind_error]
    | ok v =>
      rw [bind_ok, bind_ok]
      exact ih (i + 1) v (by omega) (insertPoint_ok test nv m' w v i (by omega) hw hr)

end Congr

section Like
variable {K σ : Type} [Field K] [LinearOrder K] [IsStrictOrderedRing K]

set_option linter.unusedSectionVars false

/-- `s` behaves like `t`: same points and triangles, same matrices where `t` has any; what lies behind the first `m` vertices
does not matter. -/
structure Like (m : Nat) (t s : State K) : Prop where
  num : s.numVertices = t.numVertices
  le : t.numVertices ≤ m
  cap : m ≤ 64
  tris : s.triangles = t.triangles
  below : ∀ u ∈ t.triangles, Below m u
  tlen : t.vertices.length = 67
  slen : s.vertices.length = 67
  mem : ∀ i < m, s.vertices[i]? = t.vertices[i]?
  mlen : s.matrices.length = t.matrices.length
  mats : ∀ (i : Nat) (M : Mat3 K), t.matrices[i]? = some (some M) → s.matrices[i]? = some (some M)

theorem take_congr {α : Type} {l l' : List α} {m n : Nat} (h : ∀ i < m, l[i]? = l'[i]?) (hn : n ≤ m) : l.take n = l'.take n := by
  apply List.ext_getElem?
  intro i
  rw [List.getElem?_take, List.getElem?_take]
  split
  · exact h i (by omega)
  · rfl

theorem Like.used {m : Nat} {t s : State K} (h : Like m t s) : s.used = t.used := by
  unfold State.used
  rw [h.num]
  exact take_congr h.mem h.le

theorem Like.vertex {m : Nat} {t s : State K} (h : Like m t s) {i : Nat} (hi : i < m) : vertex s i = vertex t i := by
  unfold Align.vertex
  rw [h.mem i hi]

theorem add_like {m : Nat} {t s t' : State K} (h : Like m t s) (hcap : t.numVertices < 64) (env : Env K σ) (hs : IsSort env.sort)
    (a r : Pt K) (b : Bool) (ht : addVertexPair env t a r = .ok (b, t')) :
    ∃ m' s', addVertexPair env s a r = .ok (b, s') ∧ Like m' t' s' := by
  unfold addVertexPair at ht ⊢
  rw [h.used]
  split at ht
  · rename_i hdup
    cases ht
    rw [if_pos hdup]
    exact ⟨m, s, rfl, h⟩
  · rename_i hdup
    rw [if_neg hdup]
    have hn := h.num
    have hw : wrapFor s r = wrapFor t r := by unfold wrapFor; rw [h.used]
    have hlt : t.numVertices < t.vertices.length := by rw [h.tlen]; omega
    have hls : s.numVertices < s.vertices.length := by rw [h.slen]; omega
    unfold writeVertex at ht ⊢
    rw [if_pos hlt, bind_ok] at ht
    rw [if_pos hls, bind_ok, hw, hn]
    simp only [pure, Except.pure, Except.ok.injEq, Prod.mk.injEq] at ht ⊢
    obtain ⟨rfl, rfl⟩ := ht
    set n' := (t.numVertices + 1) % maxVertices with hn'
    have hn'le : n' ≤ t.numVertices + 1 := Nat.mod_le _ _
    have hset : ∀ i < max m (t.numVertices + 1),
        (s.vertices.set t.numVertices ⟨a, wrapFor t r⟩)[i]? = (t.vertices.set t.numVertices ⟨a, wrapFor t r⟩)[i]? := by
      intro i hi
      by_cases he : i = t.numVertices
      · subst he
        rw [List.getElem?_set_self hlt, List.getElem?_set_self (by rw [h.slen]; omega)]
      · rw [List.getElem?_set_ne (Ne.symm he), List.getElem?_set_ne (Ne.symm he)]
        have hi2 := lt_max_iff.1 hi
        have hle := h.le
        exact h.mem i (by omega)
    have htake : (s.vertices.set t.numVertices ⟨a, wrapFor t r⟩).take n' = (t.vertices.set t.numVertices ⟨a, wrapFor t r⟩).take n' :=
      take_congr hset (by omega)
    have hlen : (env.sort ((t.vertices.set t.numVertices ⟨a, wrapFor t r⟩).take n')).length = n' := by
      rw [(hs _).1.length_eq, List.length_take, List.length_set, h.tlen]
      omega
    refine ⟨max m (t.numVertices + 1), _, ⟨rfl, rfl⟩, ⟨rfl, ?_, ?_, h.tris, ?_, ?_, ?_, ?_, h.mlen, h.mats⟩⟩
    · simp only; omega
    · have := h.cap; omega
    · intro u hu
      obtain ⟨h1, h2, h3⟩ := h.below u hu
      exact ⟨by omega, by omega, by omega⟩
    · simp only [List.length_append, hlen, List.length_drop, List.length_set, h.tlen]; omega
    · rw [htake]
      simp only [List.length_append, hlen, List.length_drop, List.length_set, h.slen]; omega
    · intro i hi
      simp only
      rw [htake]
      by_cases hin : i < n'
      · rw [List.getElem?_append_left (by omega), List.getElem?_append_left (by omega)]
      · rw [List.getElem?_append_right (by omega), List.getElem?_append_right (by omega), hlen, List.getElem?_drop,
          List.getElem?_drop]
        exact hset _ (by omega)

theorem setMatrix_like {m : Nat} {t s t' : State K} (h : Like m t s) {i : Nat} {M : Mat3 K} (ht : setMatrix t i M = .ok t') :
    ∃ s', setMatrix s i M = .ok s' ∧ Like m t' s' := by
  obtain ⟨rfl, hi⟩ := setMatrix_frame ht
  unfold setMatrix
  rw [if_pos (by rw [h.mlen]; exact hi)]
  refine ⟨_, rfl, ⟨h.num, h.le, h.cap, h.tris, h.below, h.tlen, h.slen, h.mem, by simp [h.mlen], ?_⟩⟩
  intro j N hj
  simp only at hj ⊢
  by_cases hij : i = j
  · subst hij
    rw [List.getElem?_set_self hi] at hj
    rw [List.getElem?_set_self (by rw [h.mlen]; exact hi)]
    exact hj
  · rw [List.getElem?_set_ne hij] at hj ⊢
    exact h.mats j N hj

theorem triMatrices_like {m : Nat} (stray : Nat → K) (ts : List Tri) : ∀ (i : Nat) (t s t' : State K), Like m t s →
    (∀ u ∈ ts, Below m u) → triMatrices stray i ts t = .ok t' → ∃ s', triMatrices stray i ts s = .ok s' ∧ Like m t' s' := by
  induction ts with
  | nil => intro i t s t' h _ ht; cases ht; exact ⟨s, rfl, h⟩
  | cons u ts ih =>
    intro i t s t' h hb ht
    simp only [triMatrices] at ht ⊢
    obtain ⟨M, hM, ht⟩ := bind_eq_ok.1 ht
    obtain ⟨t1, ht1, ht⟩ := bind_eq_ok.1 ht
    have hu := hb u List.mem_cons_self
    have hMs : triMatrix s (stray i) u = .ok M := by
      unfold triMatrix at hM ⊢
      rw [h.vertex hu.1, h.vertex hu.2.1, h.vertex hu.2.2]
      exact hM
    obtain ⟨s1, hs1, h1⟩ := setMatrix_like h ht1
    rw [hMs, bind_ok, hs1, bind_ok]
    exact ih (i + 1) t1 s1 t' h1 (fun v hv => hb v (List.mem_cons_of_mem _ hv)) ht

theorem updateMatrices_like {m : Nat} {t s t' : State K} (h : Like m t s) (env : Env K σ) (ht : updateMatrices env t = .ok t') :
    ∃ s', updateMatrices env s = .ok s' ∧ Like m t' s' := by
  unfold updateMatrices at ht ⊢
  rw [h.tris, h.num]
  have hle := h.le
  cases htr : t.triangles with
  | nil =>
    rw [htr] at ht
    simp only at ht ⊢
    split at ht
    · rename_i h1
      rw [if_pos h1, h.vertex (by omega)]
      obtain ⟨v, hv, ht⟩ := bind_eq_ok.1 ht
      rw [hv, bind_ok]
      exact setMatrix_like h ht
    · rename_i h1
      rw [if_neg h1]
      split at ht
      · rename_i h2
        rw [if_pos h2]
        unfold lineMatrix at ht ⊢
        rw [h.vertex (by omega), h.vertex (by omega)]
        obtain ⟨M, hM, ht⟩ := bind_eq_ok.1 ht
        rw [hM, bind_ok]
        exact setMatrix_like h ht
      · rename_i h2
        rw [if_neg h2]
        exact setMatrix_like h ht
  | cons u us =>
    rw [htr] at ht
    simp only at ht ⊢
    exact triMatrices_like env.stray (u :: us) 0 t s t' h (by rw [← htr]; exact h.below) ht

theorem withSuper_like {m : Nat} {t s : State K} (h : Like m t s) (h1 : 1 ≤ t.numVertices) (h64 : t.numVertices < 64)
    {mem' : List (VertexPair K)} (ht : withSuper t.numVertices t.vertices = .ok mem') :
    ∃ smem, withSuper t.numVertices s.vertices = .ok smem ∧ mem'.length = 67 ∧ smem.length = 67 ∧
      (∀ i < t.numVertices + 3, readPt mem' i = readPt smem i) ∧ ∀ i < m, smem[i]? = mem'[i]? := by
  obtain ⟨tm, p, ps, hp, htm, tl, tsame, tref, t1, t2, t3⟩ := withSuper_ok t.numVertices t.vertices h1 (by rw [h.tlen]; omega)
  obtain ⟨sm, p', ps', hp', hsm, sl, ssame, sref, s1, s2, s3⟩ := withSuper_ok t.numVertices s.vertices h1 (by rw [h.slen]; omega)
  rw [ht] at htm
  cases htm
  have e : p' = p ∧ ps' = ps := by
    rw [take_congr h.mem h.le, hp] at hp'
    simpa using hp'.symm
  obtain ⟨rfl, rfl⟩ := e
  have hread : ∀ i < t.numVertices + 3, readPt mem' i = readPt sm i := by
    intro i hi
    by_cases hi' : i < t.numVertices
    · have hle := h.le
      unfold readPt
      rw [tsame i (by omega), ssame i (by omega), h.mem i (by omega)]
    · have : i = t.numVertices ∨ i = t.numVertices + 1 ∨ i = t.numVertices + 2 := by omega
      rcases this with rfl | rfl | rfl
      · rw [t1, s1]
      · rw [t2, s2]
      · rw [t3, s3]
  refine ⟨sm, hsm, by rw [tl, h.tlen], by rw [sl, h.slen], hread, fun i hi => ?_⟩
  by_cases hr : t.numVertices ≤ i ∧ i < t.numVertices + 3
  · have ha := hread i hr.2
    have hr1 := sref i
    have hr2 := tref i
    rw [h.mem i hi, ← hr2] at hr1
    have l1 : i < mem'.length := by rw [tl, h.tlen]; omega
    have l2 : i < sm.length := by rw [sl, h.slen]; omega
    unfold readPt at ha
    rw [List.getElem?_eq_getElem l1, List.getElem?_eq_getElem l2] at ha
    rw [List.getElem?_eq_getElem l1, List.getElem?_eq_getElem l2] at hr1
    rw [List.getElem?_eq_getElem l1, List.getElem?_eq_getElem l2]
    simp only [Except.ok.injEq] at ha
    simp only [Option.map_some, Option.some.injEq] at hr1
    rw [VertexPair.ext ha.symm hr1]
  · rw [ssame i hr, tsame i hr, h.mem i hi]

theorem triangulateActual_like {m : Nat} {t s t' : State K} (h : Like m t s) (h64 : t.numVertices < 64) (env : Env K σ)
    (ht : triangulateActual env t = .ok t') : ∃ s', triangulateActual env s = .ok s' ∧ Like m t' s' := by
  unfold triangulateActual at ht ⊢
  rw [h.num]
  split at ht
  · rename_i h1
    rw [if_pos h1]
    obtain ⟨⟨mem', ts⟩, hr, ht⟩ := bind_eq_ok.1 ht
    have hidx := triangulate_indices env.test env.init _ _ mem' ts h1 hr
    obtain ⟨hws, _⟩ := triangulate_spec env.test env.init _ _ mem' ts h1 hr
    obtain ⟨sm, hsm, tl, sl, hread, hmem⟩ := withSuper_like h h1 h64 hws
    have hrs : triangulate env.test env.init t.numVertices s.vertices = .ok (sm, ts) := by
      unfold triangulate at hr ⊢
      rw [hws, bind_ok] at hr
      rw [hsm, bind_ok]
      rw [pushTri_first _ h1, bind_ok] at hr ⊢
      rw [List.range_eq_range'] at hr ⊢
      rw [← insertAll_congr env.test t.numVertices hread t.numVertices 0 _ (by omega) (super_triOK _)]
      obtain ⟨w, hw, hr⟩ := bind_eq_ok.1 hr
      rw [hw, bind_ok]
      simp only [pure, Except.pure, Except.ok.injEq, Prod.mk.injEq] at hr ⊢
      exact ⟨trivial, hr.2⟩
    rw [hrs, bind_ok]
    refine updateMatrices_like (t := { t with vertices := mem', triangles := ts })
      (s := { s with vertices := sm, triangles := ts, numVertices := t.numVertices }) ⟨rfl, h.le, h.cap, rfl, ?_, tl, sl, hmem, h.mlen, h.mats⟩ env ht
    intro u hu
    have := hidx u hu
    have hle := h.le
    exact ⟨by omega, by omega, by omega⟩
  · rename_i h1
    rw [if_neg h1]
    exact updateMatrices_like h env ht

theorem run_like (hist : List (Env K σ × Op K)) (hs : ∀ e ∈ hist, IsSort e.1.sort) : ∀ (m : Nat) (t s : State K)
    (L : List (Pt K × Pt K)), Like m t s → Inv t L → ∀ (bs : List Bool) (t' : State K), run hist t = .ok (bs, t') →
      ∃ m' s', run hist s = .ok (bs, s') ∧ Like m' t' s' := by
  induction hist with
  | nil => intro m t s L h _ bs t' ht; cases ht; exact ⟨m, s, rfl, h⟩
  | cons e hist ih =>
    obtain ⟨env, op⟩ := e
    intro m t s L h hI bs t' ht
    have hcap : t.numVertices < 64 := by rw [hI.num]; exact hI.cap
    simp only [run] at ht ⊢
    obtain ⟨⟨b, t1⟩, ht1, ht⟩ := bind_eq_ok.1 ht
    obtain ⟨⟨bs1, t2⟩, ht2, ht⟩ := bind_eq_ok.1 ht
    cases ht
    have hI1 := (step_refines env (hs _ List.mem_cons_self) op t L hI b t1 ht1).2
    have : ∃ m1 s1, step env op s = .ok (b, s1) ∧ Like m1 t1 s1 := by
      cases op with
      | add a r => exact add_like h hcap env (hs _ List.mem_cons_self) a r b ht1
      | clear =>
        simp only [step] at ht1 ⊢
        cases ht1
        exact ⟨m, _, rfl, ⟨rfl, Nat.zero_le _, h.cap, rfl, by simp [clearAll], h.tlen, h.slen, h.mem, h.mlen, h.mats⟩⟩
      | triangulate =>
        simp only [step] at ht1 ⊢
        obtain ⟨t3, ht3, ht1⟩ := bind_eq_ok.1 ht1
        cases ht1
        obtain ⟨s3, hs3, h3⟩ := triangulateActual_like h hcap env ht3
        exact ⟨m, s3, by rw [hs3]; rfl, h3⟩
    obtain ⟨m1, s1, hs1, h1⟩ := this
    obtain ⟨m2, s2, hs2, h2⟩ := ih (fun e he => hs e (List.mem_cons_of_mem _ he)) m1 t1 s1 _ h1 hI1 bs1 t2 ht2
    exact ⟨m2, s2, by rw [hs1, bind_ok, hs2, bind_ok]; rfl, h2⟩

theorem clear_like {s : State K} {L : List (Pt K × Pt K)} (hI : Inv s L) : Like 0 (fresh : State K) (clearAll s) := by
  refine ⟨rfl, by simp [fresh], by omega, rfl, by simp [fresh], by simp [fresh, maxVertices], hI.len, by simp, ?_, ?_⟩
  · simp only [clearAll, hI.mats, fresh, maxVertices, List.length_replicate]
  · intro i M hM
    simp only [fresh, List.getElem?_replicate] at hM
    split at hM <;> cases hM

theorem firstContaining_like {m : Nat} {t s : State K} (h : Like m t s) (env : Env K σ) (q : Pt K) (ts : List Tri) :
    ∀ i, (∀ u ∈ ts, Below m u) → firstContaining env s q i ts = firstContaining env t q i ts := by
  induction ts with
  | nil => intro i _; rfl
  | cons u ts ih =>
    intro i hb
    have hu := hb u List.mem_cons_self
    simp only [firstContaining]
    have : inTri env s q u = inTri env t q u := by
      unfold inTri
      rw [h.vertex hu.1, h.vertex hu.2.1, h.vertex hu.2.2]
    rw [this, ih (i + 1) (fun v hv => hb v (List.mem_cons_of_mem _ hv))]

theorem nearestLoop_like {m : Nat} {t s : State K} (h : Like m t s) (env : Env K σ) (q : Pt K) (ts : List Tri) :
    ∀ i best, (∀ u ∈ ts, Below m u) → nearestLoop env s q i ts best = nearestLoop env t q i ts best := by
  induction ts with
  | nil => intro i best _; rfl
  | cons u ts ih =>
    intro i best hb
    have hu := hb u List.mem_cons_self
    simp only [nearestLoop]
    have : centreDistance env s q u = centreDistance env t q u := by
      unfold centreDistance
      rw [h.vertex hu.1, h.vertex hu.2.1, h.vertex hu.2.2]
    rw [this]
    congr 1
    funext d
    exact ih _ _ (fun v hv => hb v (List.mem_cons_of_mem _ hv))

theorem matrixAt_like {m : Nat} {t s : State K} (h : Like m t s) {i : Nat} {M : Mat3 K} (ht : matrixAt t i = .ok M) :
    matrixAt s i = .ok M := by
  unfold matrixAt at ht ⊢
  cases hm : t.matrices[i]? with
  | none => rw [hm] at ht; cases ht
  | some o =>
    cases o with
    | none => rw [hm] at ht; cases ht
    | some N =>
      rw [hm] at ht
      rw [h.mats i N hm]
      exact ht

theorem matrix_like {m : Nat} {t s : State K} (h : Like m t s) (env : Env K σ) (q : Pt K) {M : Mat3 K}
    (ht : getTransformationMatrix env t q = .ok M) : getTransformationMatrix env s q = .ok M := by
  unfold getTransformationMatrix at ht ⊢
  rw [h.tris, h.num]
  cases htr : t.triangles with
  | nil =>
    rw [htr] at ht
    simp only at ht ⊢
    split at ht
    · rename_i h1
      rw [if_pos h1]
      exact matrixAt_like h ht
    · rename_i h1
      rw [if_neg h1]
      exact ht
  | cons u us =>
    rw [htr] at ht
    simp only at ht ⊢
    have hb : ∀ v ∈ u :: us, Below m v := by rw [← htr]; exact h.below
    rw [firstContaining_like h env q _ 0 hb]
    obtain ⟨o, ho, ht⟩ := bind_eq_ok.1 ht
    rw [ho, bind_ok]
    cases o with
    | some i => exact matrixAt_like h ht
    | none =>
      simp only at ht ⊢
      unfold nearestMatrix nearestTriangle at ht ⊢
      rw [h.tris, nearestLoop_like h env q _ 0 none h.below]
      obtain ⟨o, ho, ht⟩ := bind_eq_ok.1 ht
      rw [ho, bind_ok]
      cases o with
      | none => exact ht
      | some i => exact matrixAt_like h ht

theorem type_like {m : Nat} {t s : State K} (h : Like m t s) (env : Env K σ) (q : Pt K) :
    getTransformationType env s q = getTransformationType env t q := by
  unfold getTransformationType
  rw [h.tris, h.num]
  cases htr : t.triangles with
  | nil => rfl
  | cons u us =>
    simp only
    rw [firstContaining_like h env q _ 0 (by rw [← htr]; exact h.below)]

end Like

end Verif.Align
