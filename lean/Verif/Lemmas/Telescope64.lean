import Verif.Spec.Telescope64
import Verif.Props.OneStar64
import Verif.Lemmas.AlignMaps
import Verif.Lemmas.Linalg64

/-!
# The alignment in IEEE arithmetic: what is stored
-/

namespace Verif.Telescope64

open Verif Verif.Align Verif.Linalg Verif.Linalg64 Verif.Coord64 Verif.Spec Verif.Align64

variable {σ : Type}

/-! ### The triangulation leaves the points alone -/

theorem withSuper_frame {nv : Nat} {mem mem' : List (VertexPair ℚ)} (h : Align64.withSuper nv mem = .ok mem') :
    mem'.length = mem.length ∧ ∀ j : Nat, j < nv → mem'[j]? = mem[j]? := by
  have wp : ∀ {m m' : List (VertexPair ℚ)} {i : Nat} {p : Pt ℚ}, writePt m i p = .ok m' →
      m'.length = m.length ∧ ∀ j : Nat, j ≠ i → m'[j]? = m[j]? := by
    intro m m' i p h
    unfold writePt at h
    split at h
    · cases h
      exact ⟨List.length_set, fun j hj => List.getElem?_set_ne (Ne.symm hj)⟩
    · cases h
  unfold Align64.withSuper at h
  split at h
  · cases h
  · obtain ⟨s, -, h⟩ := bind_eq_ok.1 h
    obtain ⟨m1, h1, h⟩ := bind_eq_ok.1 h
    obtain ⟨m2, h2, h⟩ := bind_eq_ok.1 h
    obtain ⟨l1, e1⟩ := wp h1
    obtain ⟨l2, e2⟩ := wp h2
    obtain ⟨l3, e3⟩ := wp h
    refine ⟨by rw [l3, l2, l1], fun j hj => ?_⟩
    rw [e3 j (by omega), e2 j (by omega), e1 j (by omega)]

theorem triangulate_frame {test : Test ℚ σ} {init : σ} {nv : Nat} {mem mem' : List (VertexPair ℚ)} {ts : List Tri} (h1 : 1 ≤ nv)
    (h : Align64.triangulate test init nv mem = .ok (mem', ts)) :
    mem'.length = mem.length ∧ (∀ j : Nat, j < nv → mem'[j]? = mem[j]?) ∧
      ∀ t ∈ ts, t.p1 < nv ∧ t.p2 < nv ∧ t.p3 < nv ∧ t.p1 ≠ t.p2 ∧ t.p2 ≠ t.p3 ∧ t.p3 ≠ t.p1 := by
  unfold Align64.triangulate at h
  obtain ⟨m, hm, h⟩ := bind_eq_ok.1 h
  obtain ⟨tris, ht, h⟩ := bind_eq_ok.1 h
  obtain ⟨w, hw, h⟩ := bind_eq_ok.1 h
  cases h
  obtain ⟨f1, f2⟩ := withSuper_frame hm
  rw [pushTri_first nv h1] at ht
  cases ht
  rw [List.range_eq_range'] at hw
  have hok := insertAll_ok test nv mem' nv 0 _ w (by omega) (super_triOK nv) hw
  refine ⟨f1, f2, fun t ht => ?_⟩
  have hp := (purge_perm nv (w.tris.map (·.1)).length (w.tris.map (·.1)) [] le_rfl).subset ht
  rw [List.nil_append, List.mem_filter] at hp
  obtain ⟨hm, hd⟩ := hp
  obtain ⟨x, hx, rfl⟩ := List.mem_map.1 hm
  obtain ⟨-, -, -, d1, d2, d3⟩ := hok x hx
  simp only [decide_eq_true_eq] at hd
  exact ⟨hd.1, hd.2.1, hd.2.2, d1, d2, d3⟩

/-! ### Wrapping -/

theorem wrapRef_near {first : VertexPair ℚ} {r : Pt ℚ} (hf : |first.reference.x| ≤ 720) (h0 : 0 ≤ r.x) (h1 : r.x ≤ 360) :
    ∃ w, Align64.wrapRef first r = .ok w ∧ w.y = r.y ∧ |w.x| ≤ 720 ∧ ∃ k : ℤ, |w.x - (r.x + 360 * k)| ≤ 2⁻¹ ^ 43 := by
  have he := Helper.eps_pos
  have e42 : (2⁻¹ : ℚ) ^ 43 = 1024 * Helper.eps := by unfold Helper.eps; norm_num
  have es := Helper.eps_small
  norm_num at es
  obtain ⟨a1, a2⟩ := abs_le.1 hf
  obtain ⟨d, hd, -⟩ := Helper.wide_fl_near NexStar.wide_b64 11 (by norm_num) (first.reference.x - r.x) (by rw [abs_lt]; norm_num; constructor <;> linarith)
  have step1 : ∃ x, (if d > 180 then fl b64 (r.x + 360) else .ok r.x) = .ok x ∧ 0 ≤ x ∧ x ≤ 720 ∧ ∃ k : ℤ, |x - (r.x + 360 * k)| ≤ 512 * Helper.eps := by
    split
    · obtain ⟨x, hx, ex⟩ := Helper.wide_fl_near NexStar.wide_b64 10 (by norm_num) (r.x + 360) (by rw [abs_lt]; norm_num; constructor <;> linarith)
      have hr : x = rnd b64 (r.x + 360) := by
        have := fl_eq_rnd_64 (q := r.x + 360) (by rw [abs_le]; constructor <;> linarith)
        rw [hx] at this; exact Except.ok.inj this
      have hb := rnd_abs_le (F := b64) (by decide) (q := r.x + 360) (r := 720)
        (by exact_mod_cast representable_int (F := b64) (z := 720) (by norm_num [b64]) (by decide) (by decide)) (by rw [abs_le]; constructor <;> linarith)
      have hn := rnd_nonneg (F := b64) (q := r.x + 360) (by linarith)
      rw [← hr] at hb hn
      refine ⟨x, hx, hn, (le_abs_self x).trans hb, 1, ?_⟩
      push_cast; rw [mul_one]; norm_num at ex; linarith
    · exact ⟨r.x, rfl, h0, by linarith, 0, by simp; positivity⟩
  obtain ⟨x, hx, x0, x1, k, hk⟩ := step1
  obtain ⟨d', hd', -⟩ := Helper.wide_fl_near NexStar.wide_b64 11 (by norm_num) (first.reference.x - x) (by rw [abs_lt]; norm_num; constructor <;> linarith)
  have step2 : ∃ y, (if d' < -180 then fl b64 (x - 360) else .ok x) = .ok y ∧ |y| ≤ 720 ∧ ∃ k : ℤ, |y - (r.x + 360 * k)| ≤ 1024 * Helper.eps := by
    split
    · obtain ⟨y, hy, ey⟩ := Helper.wide_fl_near NexStar.wide_b64 10 (by norm_num) (x - 360) (by rw [abs_lt]; norm_num; constructor <;> linarith)
      obtain ⟨y1, y2⟩ := abs_le.1 ey
      norm_num at y1 y2
      obtain ⟨k1, k2⟩ := abs_le.1 hk
      refine ⟨y, hy, by rw [abs_le]; constructor <;> linarith, k - 1, ?_⟩
      push_cast
      rw [abs_le]; constructor <;> linarith
    · refine ⟨x, rfl, by rw [abs_le]; constructor <;> linarith, k, hk.trans (by linarith)⟩
  obtain ⟨y, hy, y0, k', hk'⟩ := step2
  refine ⟨⟨y, r.y⟩, ?_, rfl, y0, k', by rw [e42]; exact hk'⟩
  unfold Align64.wrapRef
  rw [hd, bind_ok]
  simp only [hx, bind_ok, hd', hy, pure_ok]

/-! ### Known stars -/

/-- A vertex stands for a known star. -/
structure StandsFor (v : VertexPair ℚ) (k : Star) : Prop where
  at_eq : v.actual = k.at'
  sane : SaneDirection v.actual
  ref : Within 720 v.reference
  alt : |v.reference.y| ≤ 91
  place : StoodAt (2⁻¹ ^ 42) k v.reference
  lat : |k.lat| ≤ 361

/-- The stored vertices are, in some order, the known stars. -/
def Stores (vs : List (VertexPair ℚ)) (L : List Star) : Prop := ∃ ws, vs.Perm ws ∧ List.Forall₂ StandsFor ws L

theorem Stores.actual {vs : List (VertexPair ℚ)} {L : List Star} (h : Stores vs L) : (vs.map VertexPair.actual).Perm (L.map Star.at') := by
  obtain ⟨ws, hp, hf⟩ := h
  refine (hp.map _).trans (List.Perm.of_eq ?_)
  clear hp
  induction hf with
  | nil => rfl
  | cons h1 _ ih => simp only [List.map_cons, h1.at_eq]; rw [ih]

theorem Stores.perm {vs ws : List (VertexPair ℚ)} {L : List Star} (h : Stores vs L) (hp : ws.Perm vs) : Stores ws L := by
  obtain ⟨us, hu, hf⟩ := h
  exact ⟨us, hp.trans hu, hf⟩

theorem Stores.snoc {vs : List (VertexPair ℚ)} {L : List Star} (h : Stores vs L) {v : VertexPair ℚ} {e : Star} (hv : StandsFor v e) :
    Stores (vs ++ [v]) (L ++ [e]) := by
  obtain ⟨us, hu, hf⟩ := h
  exact ⟨us ++ [v], hu.append_right _, List.rel_append hf (List.Forall₂.cons hv List.Forall₂.nil)⟩

theorem Stores.mem {vs : List (VertexPair ℚ)} {L : List Star} (h : Stores vs L) {e : Star} (he : e ∈ L) : ∃ v ∈ vs, StandsFor v e := by
  obtain ⟨us, hu, hf⟩ := h
  have : ∃ v ∈ us, StandsFor v e := by
    clear hu
    induction hf with
    | nil => cases he
    | cons h1 _ ih =>
      rcases List.mem_cons.1 he with rfl | he
      · exact ⟨_, List.mem_cons_self, h1⟩
      · obtain ⟨v, hv, hve⟩ := ih he
        exact ⟨v, List.mem_cons_of_mem _ hv, hve⟩
  obtain ⟨v, hv, hve⟩ := this
  exact ⟨v, hu.symm.subset hv, hve⟩

theorem Stores.mem' {vs : List (VertexPair ℚ)} {L : List Star} (h : Stores vs L) {v : VertexPair ℚ} (hv : v ∈ vs) : ∃ e ∈ L, StandsFor v e := by
  obtain ⟨us, hu, hf⟩ := h
  have hv := hu.subset hv
  clear hu
  induction hf with
  | nil => cases hv
  | cons h1 _ ih =>
    rcases List.mem_cons.1 hv with rfl | hv
    · exact ⟨_, List.mem_cons_self, h1⟩
    · obtain ⟨e, he, hve⟩ := ih hv
      exact ⟨e, List.mem_cons_of_mem _ he, hve⟩

/-- Structural invariant of an alignment relative to the known stars. -/
structure Inv (s : Align64.State) (L : List Star) : Prop where
  len : s.vertices.length = 67
  mats : s.matrices.length = 192
  num : s.numVertices = L.length
  cap : L.length < 64
  stores : Stores s.used L
  sorted : s.used.Pairwise (fun u v => u.actual.x ≤ v.actual.x)
  nodup : (L.map Star.at').Nodup
  single : L.length = 1 → ∀ v ∈ s.used, |v.reference.x| ≤ 361

theorem Inv.fresh : Inv Align64.fresh [] := by
  refine ⟨List.length_replicate, List.length_replicate, rfl, by simp, ⟨[], ?_, List.Forall₂.nil⟩, ?_, List.nodup_nil, by simp⟩
  · simp [Align64.State.used, Align64.fresh]
  · simp [Align64.State.used, Align64.fresh]

theorem Inv.clear {s : Align64.State} {L : List Star} (hI : Inv s L) : Inv (Align64.clearAll s) [] := by
  refine ⟨hI.len, hI.mats, rfl, by simp, ⟨[], ?_, List.Forall₂.nil⟩, ?_, List.nodup_nil, by simp⟩
  · simp [Align64.State.used, Align64.clearAll]
  · simp [Align64.State.used, Align64.clearAll]

/-- The stars after a sync. -/
def addStar (L : List Star) (k : Star) : List Star :=
  if k.at' ∈ L.map Star.at' then L else if L.length = 63 then [] else L ++ [k]

theorem add_inv (env : Align64.Env σ) (hs : IsSort env.sort) (s : Align64.State) (L : List Star) (hI : Inv s L) (k : Star) (hd : SaneDirection k.at')
    (hlat : |k.lat| ≤ 361) {r : Pt ℚ} (r0 : 0 ≤ r.x) (r1 : r.x ≤ 360) (r2 : |r.y| ≤ 90 + 2⁻¹ ^ 42) (hr : StoodAt (2⁻¹ ^ 43) k r) :
    ∃ b s', Align64.addVertexPair env s k.at' r = .ok (b, s') ∧ Inv s' (addStar L k) ∧ s'.triangles = s.triangles ∧ s'.matrices = s.matrices := by
  unfold Align64.addVertexPair
  have hmem : (k.at' ∈ L.map Star.at') ↔ s.used.any (fun v => v.actual.x == k.at'.x && v.actual.y == k.at'.y) = true := by
    rw [any_iff]
    exact (hI.stores.actual.mem_iff).symm
  by_cases hk : k.at' ∈ L.map Star.at'
  · rw [if_pos (hmem.1 hk)]
    refine ⟨false, s, rfl, ?_, rfl, rfl⟩
    unfold addStar; rw [if_pos hk]; exact hI
  · rw [if_neg (fun h => hk (hmem.2 h))]
    have wr : ∃ w, Align64.wrapFor s r = .ok w ∧ StandsFor ⟨k.at', w⟩ k ∧ (s.used = [] → |w.x| ≤ 361) := by
      have fin : ∀ w : Pt ℚ, w.y = r.y → |w.x| ≤ 720 → (∃ n : ℤ, |w.x - (r.x + 360 * n)| ≤ 2⁻¹ ^ 43) → StandsFor ⟨k.at', w⟩ k := by
        intro w e1 e2 ⟨n, e3⟩
        have hy : |w.y| ≤ 91 := by rw [e1]; exact r2.trans (by norm_num)
        refine ⟨rfl, hd, ⟨e2, hy.trans (by norm_num)⟩, hy, ?_, hlat⟩
        have := OneStar64.near_shift hr (A' := w.x) (a' := w.y) (d1 := 2⁻¹ ^ 43) (d2 := 0)
          (by
            refine ⟨n, ?_⟩
            have : ((|w.x - (r.x + 360 * n)| : ℚ) : ℝ) ≤ ((2⁻¹ ^ 43 : ℚ) : ℝ) := by exact_mod_cast e3
            push_cast at this; exact this)
          (by rw [e1]; simp)
        have mono : ∀ {t t' A a α δ φ l : ℝ}, t ≤ t' → NearDirection t A a α δ φ l → NearDirection t' A a α δ φ l :=
          fun h n => ⟨n.1.trans h, n.2.trans h, n.3.trans h⟩
        exact mono (by norm_num) this
      unfold Align64.wrapFor
      cases hu : s.used with
      | nil =>
        refine ⟨r, rfl, fin r rfl (by rw [abs_le]; constructor <;> linarith) ⟨0, by simp⟩, fun _ => by rw [abs_le]; constructor <;> linarith⟩
      | cons f l =>
        obtain ⟨e, -, he⟩ := hI.stores.mem' (v := f) (by rw [hu]; exact List.mem_cons_self)
        obtain ⟨w, w1, w2, w3, w4⟩ := wrapRef_near (first := f) he.ref.1 r0 r1
        exact ⟨w, w1, fin w w2 w3 w4, fun h => by cases h⟩
    obtain ⟨w, w1, w2, w3⟩ := wr
    have hn : s.numVertices < s.vertices.length := by rw [hI.num, hI.len]; have := hI.cap; omega
    have hw : writeVertex s.vertices s.numVertices ⟨k.at', w⟩ = .ok (s.vertices.set s.numVertices ⟨k.at', w⟩) := by
      unfold writeVertex; rw [if_pos hn]
    simp only [w1, hw, bind_ok]
    refine ⟨_, _, rfl, ?_, rfl, rfl⟩
    have hlen := hs (List.take ((s.numVertices + 1) % maxVertices) (s.vertices.set s.numVertices ⟨k.at', w⟩))
    unfold addStar
    rw [if_neg hk]
    by_cases h63 : L.length = 63
    · rw [if_pos h63]
      have hz : (s.numVertices + 1) % maxVertices = 0 := by rw [hI.num, h63]; rfl
      simp only [hz, List.take_zero, List.drop_zero]
      have hnil : env.sort [] = [] := (hs []).1.eq_nil
      refine ⟨?_, hI.mats, rfl, by simp, ⟨[], ?_, List.Forall₂.nil⟩, ?_, List.nodup_nil, by simp⟩
      · rw [hnil, List.nil_append, List.length_set]; exact hI.len
      · simp [Align64.State.used]
      · simp [Align64.State.used]
    · rw [if_neg h63]
      have hcap := hI.cap
      have hz : (s.numVertices + 1) % maxVertices = s.numVertices + 1 := by
        apply Nat.mod_eq_of_lt; rw [hI.num]; unfold maxVertices; omega
      rw [hz] at hlen ⊢
      rw [take_set_self _ _ _ hn] at hlen ⊢
      obtain ⟨hp, hsort⟩ := hlen
      have hlen' : (env.sort (List.take s.numVertices s.vertices ++ [⟨k.at', w⟩])).length = s.numVertices + 1 := by
        rw [hp.length_eq, List.length_append, List.length_take, List.length_singleton]
        omega
      have hused : (Align64.State.used { s with
          vertices := env.sort (List.take s.numVertices s.vertices ++ [⟨k.at', w⟩]) ++
            List.drop (s.numVertices + 1) (s.vertices.set s.numVertices ⟨k.at', w⟩)
          numVertices := s.numVertices + 1 }) = env.sort (List.take s.numVertices s.vertices ++ [⟨k.at', w⟩]) := by
        unfold Align64.State.used
        simp only
        rw [← hlen', List.take_left']
        rfl
      refine ⟨?_, hI.mats, ?_, ?_, ?_, ?_, ?_, ?_⟩
      · simp only [List.length_append, hlen', List.length_drop, List.length_set, hI.len]
        have := hI.num
        omega
      · simp only [List.length_append, List.length_singleton, hI.num]
      · simp only [List.length_append, List.length_singleton]; omega
      · rw [hused]
        exact (hI.stores.snoc w2).perm hp
      · rw [hused]; exact hsort
      · rw [List.map_append, List.nodup_append]
        refine ⟨hI.nodup, by simp, ?_⟩
        intro x hx y hy
        simp only [List.map_cons, List.map_nil, List.mem_singleton] at hy
        rintro rfl
        exact hk (hy ▸ hx)
      · intro h1 v hv
        simp only [List.length_append, List.length_singleton] at h1
        have h0 : s.numVertices = 0 := by rw [hI.num]; omega
        rw [hused] at hv
        have := hp.subset hv
        rw [h0, List.take_zero, List.nil_append, List.mem_singleton] at this
        rw [this]
        exact w3 (by unfold Align64.State.used; rw [h0, List.take_zero])

/-! ### The matrices fit the points and triangles -/

theorem vertex_ok {s : Align64.State} {i : Nat} {v : VertexPair ℚ} (h : Align64.vertex s i = .ok v) : s.vertices[i]? = some v := by
  unfold Align64.vertex at h
  cases hv : s.vertices[i]? with
  | none => rw [hv] at h; cases h
  | some w => rw [hv] at h; cases h; rfl

theorem vertex_some {s : Align64.State} {i : Nat} {v : VertexPair ℚ} (h : s.vertices[i]? = some v) : Align64.vertex s i = .ok v := by
  unfold Align64.vertex; rw [h]

theorem setMatrix_frame {s s' : Align64.State} {i : Nat} {m : C (Mat3 D)} (h : Align64.setMatrix s i m = .ok s') :
    s' = { s with matrices := s.matrices.set i (some m) } ∧ i < s.matrices.length := by
  unfold Align64.setMatrix at h
  split at h
  · cases h; exact ⟨rfl, by assumption⟩
  · cases h

/-- Two states that differ at most in the matrices. -/
def SameButMatrices (s s' : Align64.State) : Prop :=
  s'.vertices = s.vertices ∧ s'.numVertices = s.numVertices ∧ s'.triangles = s.triangles ∧ s'.matrices.length = s.matrices.length

theorem triMatrices_frame (stray : Nat → ℚ) (ts : List Tri) : ∀ (i : Nat) (s s' : Align64.State),
    Align64.triMatrices stray i ts s = .ok s' → SameButMatrices s s' := by
  induction ts with
  | nil => intro i s s' h; simp only [Align64.triMatrices, Except.ok.injEq] at h; subst h; exact ⟨rfl, rfl, rfl, rfl⟩
  | cons t ts ih =>
    intro i s s' h
    simp only [Align64.triMatrices] at h
    obtain ⟨m, _, h⟩ := bind_eq_ok.1 h
    obtain ⟨s1, hs1, h⟩ := bind_eq_ok.1 h
    obtain ⟨rfl, _⟩ := setMatrix_frame hs1
    obtain ⟨h1, h2, h3, h4⟩ := ih _ _ _ h
    exact ⟨h1, h2, h3, by rw [h4]; simp⟩

theorem updateMatrices_frame (env : Align64.Env σ) (s s' : Align64.State) (h : Align64.updateMatrices env s = .ok s') : SameButMatrices s s' := by
  have hset : ∀ {i m}, Align64.setMatrix s i m = .ok s' → SameButMatrices s s' := by
    intro i m h
    obtain ⟨rfl, _⟩ := setMatrix_frame h
    exact ⟨rfl, rfl, rfl, by simp⟩
  unfold Align64.updateMatrices at h
  split at h
  · split at h
    · obtain ⟨v, _, h⟩ := bind_eq_ok.1 h; exact hset h
    · split at h
      · obtain ⟨m, _, h⟩ := bind_eq_ok.1 h; exact hset h
      · exact hset h
  · exact triMatrices_frame _ _ _ _ _ h

/-- The matrix of triangle `t` stored at index `i`. -/
def TriMatrixAt (s : Align64.State) (i : Nat) (t : Tri) : Prop :=
  ∃ a b c stray, s.vertices[t.p1]? = some a ∧ s.vertices[t.p2]? = some b ∧ s.vertices[t.p3]? = some c ∧ |stray| ≤ 1 ∧
    s.matrices[i]? = some (some (solveMatrix (.ok stray) (Linalg64.triCorners a.reference b.reference c.reference)
      (Linalg64.triCorners a.actual b.actual c.actual)))

theorem triMatrices_spec (stray : Nat → ℚ) (hst : ∀ i, |stray i| ≤ 1) (ts : List Tri) : ∀ (i : Nat) (s s' : Align64.State),
    Align64.triMatrices stray i ts s = .ok s' →
      (∀ j, j < i → s'.matrices[j]? = s.matrices[j]?) ∧ ∀ k t, ts[k]? = some t → TriMatrixAt s' (i + k) t := by
  induction ts with
  | nil =>
    intro i s s' h
    simp only [Align64.triMatrices, Except.ok.injEq] at h; subst h
    exact ⟨fun _ _ => rfl, fun k t h => by simp at h⟩
  | cons t ts ih =>
    intro i s s' h
    have hfr := triMatrices_frame _ _ _ _ _ h
    simp only [Align64.triMatrices] at h
    obtain ⟨m, hm, h⟩ := bind_eq_ok.1 h
    obtain ⟨s1, hs1, h⟩ := bind_eq_ok.1 h
    obtain ⟨rfl, hi⟩ := setMatrix_frame hs1
    obtain ⟨h1, h2⟩ := ih _ _ _ h
    refine ⟨fun j hj => ?_, fun k u hk => ?_⟩
    · rw [h1 j (by omega)]
      simp only
      rw [List.getElem?_set_ne (by omega)]
    · cases k with
      | zero =>
        simp only [List.getElem?_cons_zero, Option.some.injEq] at hk
        subst hk
        unfold Align64.triMatrix at hm
        obtain ⟨a, ha, hm⟩ := bind_eq_ok.1 hm
        obtain ⟨b, hb, hm⟩ := bind_eq_ok.1 hm
        obtain ⟨c, hc, hm⟩ := bind_eq_ok.1 hm
        cases hm
        refine ⟨a, b, c, stray i, by rw [hfr.1]; exact vertex_ok ha, by rw [hfr.1]; exact vertex_ok hb, by rw [hfr.1]; exact vertex_ok hc, hst i, ?_⟩
        rw [Nat.add_zero, h1 i (by omega)]
        simp only
        rw [List.getElem?_set_self hi]
      | succ k =>
        rw [List.getElem?_cons_succ] at hk
        have := h2 k u hk
        have e : i + 1 + k = i + (k + 1) := by omega
        rwa [e] at this

/-- The matrices fit the points and triangles: what `TriangulateActual` establishes. -/
structure Synced (s : Align64.State) : Prop where
  point : s.triangles = [] → s.numVertices = 1 →
    ∃ v, s.vertices[0]? = some v ∧ s.matrices[0]? = some (some (.ok (Align64.pointMatrix v)))
  line : s.triangles = [] → 2 ≤ s.numVertices →
    ∃ a b stray, s.vertices[0]? = some a ∧ s.vertices[1]? = some b ∧ |stray| ≤ 1 ∧
      s.matrices[0]? = some (some (solveMatrix (.ok stray) (Linalg64.lineCorners a.reference b.reference) (Linalg64.lineCorners a.actual b.actual)))
  tri : ∀ i t, s.triangles[i]? = some t → TriMatrixAt s i t

theorem updateMatrices_synced (env : Align64.Env σ) (hst : ∀ i, |env.stray i| ≤ 1) (s s' : Align64.State)
    (h : Align64.updateMatrices env s = .ok s') : Synced s' := by
  have hfr := updateMatrices_frame env s s' h
  obtain ⟨f1, f2, f3, f4⟩ := hfr
  unfold Align64.updateMatrices at h
  split at h
  · rename_i hnil
    split at h
    · rename_i h1
      obtain ⟨v, hv, h⟩ := bind_eq_ok.1 h
      obtain ⟨rfl, hi⟩ := setMatrix_frame h
      refine ⟨fun _ _ => ⟨v, vertex_ok hv, by simp only; rw [List.getElem?_set_self hi]⟩, fun _ h2 => ?_, fun i t ht => ?_⟩
      · simp only at h2; omega
      · simp only [hnil] at ht; simp at ht
    · split at h
      · rename_i h1 h2
        obtain ⟨m, hm, h⟩ := bind_eq_ok.1 h
        obtain ⟨rfl, hi⟩ := setMatrix_frame h
        unfold Align64.lineMatrix at hm
        obtain ⟨a, ha, hm⟩ := bind_eq_ok.1 hm
        obtain ⟨b, hb, hm⟩ := bind_eq_ok.1 hm
        cases hm
        refine ⟨fun _ hn => absurd hn h1, fun _ _ => ⟨a, b, env.stray 0, vertex_ok ha, vertex_ok hb, hst 0, ?_⟩, fun i t ht => ?_⟩
        · simp only; rw [List.getElem?_set_self hi]
        · simp only [hnil] at ht; simp at ht
      · rename_i h1 h2
        obtain ⟨rfl, hi⟩ := setMatrix_frame h
        refine ⟨fun _ hn => absurd hn h1, fun _ hn => absurd hn h2, fun i t ht => ?_⟩
        simp only [hnil] at ht; simp at ht
  · rename_i ts hne
    obtain ⟨_, h2⟩ := triMatrices_spec env.stray hst s.triangles 0 s s' h
    have hne' : s'.triangles ≠ [] := by rw [f3]; exact hne
    refine ⟨fun h0 => absurd h0 hne', fun h0 => absurd h0 hne', fun i t ht => ?_⟩
    rw [f3] at ht
    have := h2 i t ht
    rwa [Nat.zero_add] at this

/-- Matrices and triangles belong to the stars known now (once there is one). -/
def Ready (s : Align64.State) : Prop := 1 ≤ s.numVertices → Synced s ∧
  ∀ t ∈ s.triangles, t.p1 < s.numVertices ∧ t.p2 < s.numVertices ∧ t.p3 < s.numVertices ∧ t.p1 ≠ t.p2 ∧ t.p2 ≠ t.p3 ∧ t.p3 ≠ t.p1

theorem triangulateActual_inv (env : Align64.Env σ) (hst : ∀ i, |env.stray i| ≤ 1) (s s' : Align64.State) (L : List Star) (hI : Inv s L)
    (h : Align64.triangulateActual env s = .ok s') : Inv s' L ∧ Ready s' := by
  unfold Align64.triangulateActual at h
  split at h
  · rename_i hn
    obtain ⟨r, hr, h⟩ := bind_eq_ok.1 h
    obtain ⟨mem', ts⟩ := r
    obtain ⟨h1, h2, h3, h4⟩ := updateMatrices_frame env _ _ h
    simp only at h1 h2 h3 h4
    obtain ⟨t1, t2, t3⟩ := triangulate_frame hn hr
    have hused : s'.used = s.used := by
      unfold Align64.State.used
      rw [h1, h2]
      apply List.ext_getElem?
      intro j
      rw [List.getElem?_take, List.getElem?_take]
      split
      · exact t2 j (by assumption)
      · rfl
    refine ⟨⟨by rw [h1, t1, hI.len], by rw [h4]; exact hI.mats, by rw [h2]; exact hI.num, hI.cap, ?_, ?_, hI.nodup, ?_⟩, ?_⟩
    · rw [hused]; exact hI.stores
    · rw [hused]; exact hI.sorted
    · rw [hused]; exact hI.single
    · intro _
      refine ⟨updateMatrices_synced env hst _ _ h, ?_⟩
      rw [h3, h2]; exact t3
  · rename_i hn
    obtain ⟨h1, h2, h3, h4⟩ := updateMatrices_frame env _ _ h
    have hused : s'.used = s.used := by unfold Align64.State.used; rw [h1, h2]
    refine ⟨⟨by rw [h1]; exact hI.len, by rw [h4]; exact hI.mats, by rw [h2]; exact hI.num, hI.cap, ?_, ?_, hI.nodup, ?_⟩, ?_⟩
    · rw [hused]; exact hI.stores
    · rw [hused]; exact hI.sorted
    · rw [hused]; exact hI.single
    · intro h; rw [h2] at h; omega

/-! ### Histories -/

/-- What a telescope and the list of stars it knows have in common. -/
structure Rep (T : Tel) (k : Knows) : Prop where
  now : T.orientation = k.now
  sane : SaneDirection k.now
  inv : Inv T.alignment k.stars
  ready : Ready T.alignment

theorem sane_zero : SaneDirection ⟨0, 0⟩ := ⟨⟨rep_zero, rep_zero⟩, by simp, by simp⟩

theorem Rep.new : Rep new ⟨⟨0, 0⟩, []⟩ :=
  ⟨rfl, sane_zero, Inv.fresh, fun h => by simp [Telescope64.new, Align64.fresh] at h⟩

theorem step_rep {M : Libm} {env : Align64.Env σ} {op : Op} (hF : Fair (M, env, op)) {T T' : Tel} {k : Knows} (hR : Rep T k)
    (h : step M env op T = .ok T') : Rep T' (k.step op) := by
  obtain ⟨hM, hs, hst, hsane⟩ := hF
  cases op with
  | orient o =>
    cases h
    exact ⟨rfl, hsane, hR.inv, hR.ready⟩
  | clear =>
    cases h
    exact ⟨hR.now, hR.sane, hR.inv.clear, fun h => by simp [Align64.clearAll, clear] at h⟩
  | sync ra dec lat lst =>
    simp only [step, addReferencePoint] at h
    obtain ⟨r, hr, h⟩ := bind_eq_ok.1 h
    obtain ⟨⟨b, s1⟩, h1, h⟩ := bind_eq_ok.1 h
    obtain ⟨s2, h2, h⟩ := bind_eq_ok.1 h
    cases h
    obtain ⟨i1, i2, i3⟩ := hsane
    obtain ⟨az, alt, e1, a1, a2, a3, n1⟩ := C69_e2h M hM ra dec lat lst i1 i2 i3
    rw [e1] at hr
    cases hr
    obtain ⟨b', s1', j1, j2, -, -⟩ := add_inv env hs T.alignment k.stars hR.inv ⟨k.now, ra, dec, lat, lst⟩ hR.sane i3 (r := ⟨az, alt⟩) a1 a2 a3 n1
    rw [← hR.now] at j1
    simp only at h1 j1
    rw [h1] at j1
    cases j1
    obtain ⟨k1, k2⟩ := triangulateActual_inv env hst _ _ _ j2 h2
    refine ⟨?_, ?_, ?_, k2⟩
    · simp only [Knows.step]; split
      · exact hR.now
      · split <;> exact hR.now
    · simp only [Knows.step]; split
      · exact hR.sane
      · split <;> exact hR.sane
    · have e : (k.step (.sync ra dec lat lst)).stars = addStar k.stars ⟨k.now, ra, dec, lat, lst⟩ := by
        simp only [Knows.step, addStar]
        split
        · rfl
        · split <;> rfl
      rw [e]; exact k1

theorem run_rep : ∀ (h : List (Libm × Align64.Env σ × Op)), (∀ e ∈ h, Fair e) → ∀ (T T' : Tel) (k : Knows), Rep T k → run h T = .ok T' →
    Rep T' ((h.map (fun e => e.2.2)).foldl Knows.step k)
  | [], _, T, T', k, hR, h => by cases h; exact hR
  | (M, env, op) :: h, hF, T, T', k, hR, hr => by
    simp only [run] at hr
    obtain ⟨T1, h1, hr⟩ := bind_eq_ok.1 hr
    exact run_rep h (fun e he => hF e (List.mem_cons_of_mem _ he)) T1 T' _ (step_rep (hF _ List.mem_cons_self) hR h1) hr

theorem run_known {h : List (Libm × Align64.Env σ × Op)} (hF : ∀ e ∈ h, Fair e) {T : Tel} (hr : run h new = .ok T) :
    Rep T (knows (h.map (fun e => e.2.2))) := run_rep h hF _ _ _ Rep.new hr

end Verif.Telescope64
