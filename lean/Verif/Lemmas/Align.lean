import Verif.Spec.Align
import Verif.Lemmas.Triangulate
import Verif.Lemmas.Linalg

/-!
# Lemmas about the alignment state
-/

namespace Verif.Align

open Linalg

variable {K σ : Type} [Field K] [LinearOrder K] [IsStrictOrderedRing K]

set_option linter.unusedSectionVars false

/-! ### wrapping -/

theorem wrapRef_cases (f : VertexPair K) (r : Pt K) :
    (wrapRef f r).y = r.y ∧
    ((wrapRef f r).x = r.x ∨ (wrapRef f r).x = r.x + 360 ∨ (wrapRef f r).x = r.x - 360) := by
  unfold wrapRef
  by_cases h : f.reference.x - r.x > 180
  · simp only [h, if_true]
    rw [if_neg (by linarith)]
    simp
  · simp only [h, if_false]
    split <;> simp

theorem wrapRef_near (f : VertexPair K) (r : Pt K) (h : |f.reference.x - r.x| ≤ 540) :
    |f.reference.x - (wrapRef f r).x| ≤ 180 := by
  rw [abs_le] at h ⊢
  unfold wrapRef
  by_cases h1 : f.reference.x - r.x > 180
  · simp only [h1, if_true]
    rw [if_neg (by linarith)]
    simp only
    constructor <;> linarith
  · simp only [h1, if_false]
    split
    · simp only; constructor <;> linarith
    · constructor <;> linarith

theorem standsFor_wrapFor (s : State K) (a r : Pt K) : StandsFor ⟨a, wrapFor s r⟩ (a, r) := by
  unfold wrapFor
  cases s.used with
  | nil => exact ⟨rfl, rfl, Or.inl rfl⟩
  | cons f l => exact ⟨rfl, (wrapRef_cases f r).1, (wrapRef_cases f r).2⟩

/-! ### the ledger -/

theorem Stores.length {vs : List (VertexPair K)} {L : List (Pt K × Pt K)} (h : Stores vs L) : vs.length = L.length := by
  obtain ⟨ws, hp, hf⟩ := h
  rw [hp.length_eq, hf.length_eq]

theorem Stores.actual {vs : List (VertexPair K)} {L : List (Pt K × Pt K)} (h : Stores vs L) :
    (vs.map VertexPair.actual).Perm (L.map Prod.fst) := by
  obtain ⟨ws, hp, hf⟩ := h
  refine (hp.map _).trans (List.Perm.of_eq ?_)
  induction hf generalizing vs with
  | nil => rfl
  | cons h1 _ ih => simp only [List.map_cons, h1.1]; rw [ih (List.Perm.refl _)]

theorem Stores.perm {vs ws : List (VertexPair K)} {L : List (Pt K × Pt K)} (h : Stores vs L) (hp : ws.Perm vs) :
    Stores ws L := by
  obtain ⟨us, hu, hf⟩ := h
  exact ⟨us, hp.trans hu, hf⟩

theorem Stores.snoc {vs : List (VertexPair K)} {L : List (Pt K × Pt K)} (h : Stores vs L) {v : VertexPair K}
    {e : Pt K × Pt K} (hv : StandsFor v e) : Stores (vs ++ [v]) (L ++ [e]) := by
  obtain ⟨us, hu, hf⟩ := h
  refine ⟨us ++ [v], hu.append_right _, ?_⟩
  exact List.rel_append hf (List.Forall₂.cons hv List.Forall₂.nil)

theorem Stores.mem {vs : List (VertexPair K)} {L : List (Pt K × Pt K)} (h : Stores vs L) {e : Pt K × Pt K} (he : e ∈ L) :
    ∃ v ∈ vs, StandsFor v e := by
  obtain ⟨us, hu, hf⟩ := h
  have : ∃ v ∈ us, StandsFor v e := by
    clear hu
    induction hf with
    | nil => cases he
    | cons h1 _ ih =>
      rcases List.mem_cons.1 he with rfl | he
      · exact ⟨_, List.mem_cons_self, h1⟩
      · obtain ⟨v, hv, hve⟩ := ih he
        exact ⟨v, List.mem_cons_of_mem _ hv, hve⟩
  obtain ⟨v, hv, hve⟩ := this
  exact ⟨v, hu.symm.subset hv, hve⟩

/-- Structural invariant of an alignment relative to its ledger. -/
structure Inv (s : State K) (L : List (Pt K × Pt K)) : Prop where
  len : s.vertices.length = 67
  mats : s.matrices.length = 192
  num : s.numVertices = L.length
  cap : L.length < 64
  stores : Stores s.used L
  sorted : s.used.Pairwise (fun u v => u.actual.x ≤ v.actual.x)
  nodup : (L.map Prod.fst).Nodup

theorem Inv.fresh : Inv (fresh : State K) [] := by
  refine ⟨List.length_replicate, List.length_replicate, rfl, by simp,
    ⟨[], ?_, List.Forall₂.nil⟩, ?_, List.nodup_nil⟩
  · simp [State.used, Align.fresh]
  · simp [State.used, Align.fresh]

theorem any_iff (vs : List (VertexPair K)) (a : Pt K) :
    vs.any (fun v => v.actual.x == a.x && v.actual.y == a.y) = true ↔ a ∈ vs.map VertexPair.actual := by
  rw [List.any_eq_true, List.mem_map]
  constructor
  · rintro ⟨v, hv, h⟩
    rw [Bool.and_eq_true, beq_iff_eq, beq_iff_eq] at h
    exact ⟨v, hv, Pt.ext h.1 h.2⟩
  · rintro ⟨v, hv, rfl⟩
    exact ⟨v, hv, by simp⟩

theorem take_set_self {α : Type} (l : List α) (n : Nat) (v : α) (h : n < l.length) :
    (l.set n v).take (n + 1) = l.take n ++ [v] := by
  rw [List.take_add_one]
  simp only [List.getElem?_set_self h, Option.toList_some]
  rw [List.take_set_of_le (le_refl n)]

theorem add_refines (env : Env K σ) (hs : IsSort env.sort) (s : State K) (L : List (Pt K × Pt K)) (hI : Inv s L) (a r : Pt K) :
    ∃ s', addVertexPair env s a r = .ok (answer L (.add a r), s') ∧ Inv s' (ledgerStep L (.add a r)) ∧
      (answer L (.add a r) = false → s' = s) ∧ s'.triangles = s.triangles ∧ s'.matrices = s.matrices := by
  unfold addVertexPair
  have hmem : (a ∈ L.map Prod.fst) ↔ s.used.any (fun v => v.actual.x == a.x && v.actual.y == a.y) = true := by
    rw [any_iff]
    exact (hI.stores.actual.mem_iff).symm
  by_cases hd : a ∈ L.map Prod.fst
  · rw [if_pos (hmem.1 hd)]
    refine ⟨s, ?_, ?_, fun _ => rfl, rfl, rfl⟩
    · simp only [answer, hd, not_true_eq_false, decide_false]
    · simp only [ledgerStep, hd, if_true]; exact hI
  · rw [if_neg (fun h => hd (hmem.2 h))]
    have hn : s.numVertices < s.vertices.length := by rw [hI.num, hI.len]; have := hI.cap; omega
    have hw : writeVertex s.vertices s.numVertices ⟨a, wrapFor s r⟩
        = .ok (s.vertices.set s.numVertices ⟨a, wrapFor s r⟩) := by unfold writeVertex; rw [if_pos hn]
    simp only [hw, bind_ok]
    have hans : answer L (.add a r) = true := by simp [answer, hd]
    rw [hans]
    refine ⟨_, rfl, ?_, (fun h => by cases h), rfl, rfl⟩
    have hlen := hs (List.take ((s.numVertices + 1) % maxVertices) (s.vertices.set s.numVertices ⟨a, wrapFor s r⟩))
    simp only [ledgerStep, hd, if_false]
    by_cases h63 : L.length = 63
    · rw [if_pos h63]
      have hz : (s.numVertices + 1) % maxVertices = 0 := by rw [hI.num, h63]; rfl
      simp only [hz, List.take_zero, List.drop_zero]
      have hnil : env.sort [] = [] := (hs []).1.eq_nil
      refine ⟨?_, hI.mats, rfl, by simp, ⟨[], ?_, List.Forall₂.nil⟩, ?_, List.nodup_nil⟩
      · rw [hnil, List.nil_append, List.length_set]; exact hI.len
      · simp [State.used]
      · simp [State.used]
    · rw [if_neg h63]
      have hcap := hI.cap
      have hz : (s.numVertices + 1) % maxVertices = s.numVertices + 1 := by
        apply Nat.mod_eq_of_lt; rw [hI.num]; unfold maxVertices; omega
      rw [hz] at hlen ⊢
      rw [take_set_self _ _ _ hn] at hlen ⊢
      obtain ⟨hp, hsort⟩ := hlen
      have hlen' : (env.sort (List.take s.numVertices s.vertices ++ [⟨a, wrapFor s r⟩])).length = s.numVertices + 1 := by
        rw [hp.length_eq, List.length_append, List.length_take, List.length_singleton]
        omega
      have hused : (State.used { s with
          vertices := env.sort (List.take s.numVertices s.vertices ++ [⟨a, wrapFor s r⟩]) ++
            List.drop (s.numVertices + 1) (s.vertices.set s.numVertices ⟨a, wrapFor s r⟩)
          numVertices := s.numVertices + 1 }) = env.sort (List.take s.numVertices s.vertices ++ [⟨a, wrapFor s r⟩]) := by
        unfold State.used
        simp only
        rw [← hlen', List.take_left']
        rfl
      refine ⟨?_, hI.mats, ?_, ?_, ?_, ?_, ?_⟩
      · simp only [List.length_append, hlen', List.length_drop, List.length_set, hI.len]
        have := hI.num
        omega
      · simp only [List.length_append, List.length_singleton, hI.num]
      · simp only [List.length_append, List.length_singleton]; omega
      · rw [hused]
        exact (hI.stores.snoc (standsFor_wrapFor s a r)).perm hp
      · rw [hused]; exact hsort
      · rw [List.map_append, List.nodup_append]
        refine ⟨hI.nodup, by simp, ?_⟩
        intro x hx y hy
        simp only [List.map_cons, List.map_nil, List.mem_singleton] at hy
        rintro rfl
        exact hd (hy ▸ hx)

/-! ### updating the matrices leaves the points alone -/

theorem setMatrix_frame {s s' : State K} {i : Nat} {m : Mat3 K} (h : setMatrix s i m = .ok s') :
    s' = { s with matrices := s.matrices.set i (some m) } ∧ i < s.matrices.length := by
  unfold setMatrix at h
  split at h
  · cases h; exact ⟨rfl, by assumption⟩
  · cases h

/-- Two states that differ at most in the matrices. -/
def SameButMatrices (s s' : State K) : Prop :=
  s'.vertices = s.vertices ∧ s'.numVertices = s.numVertices ∧ s'.triangles = s.triangles ∧
    s'.matrices.length = s.matrices.length

theorem triMatrices_frame (stray : Nat → K) (ts : List Tri) : ∀ (i : Nat) (s s' : State K),
    triMatrices stray i ts s = .ok s' → SameButMatrices s s' := by
  induction ts with
  | nil => intro i s s' h; simp only [triMatrices, Except.ok.injEq] at h; subst h; exact ⟨rfl, rfl, rfl, rfl⟩
  | cons t ts ih =>
    intro i s s' h
    simp only [triMatrices] at h
    obtain ⟨m, _, h⟩ := bind_eq_ok.1 h
    obtain ⟨s1, hs1, h⟩ := bind_eq_ok.1 h
    obtain ⟨rfl, _⟩ := setMatrix_frame hs1
    obtain ⟨h1, h2, h3, h4⟩ := ih _ _ _ h
    exact ⟨h1, h2, h3, by rw [h4]; simp⟩

theorem updateMatrices_frame (env : Env K σ) (s s' : State K) (h : updateMatrices env s = .ok s') :
    SameButMatrices s s' := by
  have hset : ∀ {i m}, setMatrix s i m = .ok s' → SameButMatrices s s' := by
    intro i m h
    obtain ⟨rfl, _⟩ := setMatrix_frame h
    exact ⟨rfl, rfl, rfl, by simp⟩
  unfold updateMatrices at h
  split at h
  · split at h
    · obtain ⟨v, _, h⟩ := bind_eq_ok.1 h; exact hset h
    · split at h
      · obtain ⟨m, _, h⟩ := bind_eq_ok.1 h; exact hset h
      · exact hset h
  · exact triMatrices_frame _ _ _ _ _ h

theorem triangulateActual_frame (env : Env K σ) (s s' : State K) (L : List (Pt K × Pt K)) (hI : Inv s L)
    (h : triangulateActual env s = .ok s') : Inv s' L ∧ s'.used = s.used := by
  unfold triangulateActual at h
  split at h
  · rename_i hn
    obtain ⟨r, hr, h⟩ := bind_eq_ok.1 h
    obtain ⟨mem', ts⟩ := r
    obtain ⟨h1, h2, h3, h4⟩ := updateMatrices_frame env _ _ h
    simp only at h1 h2 h3 h4
    obtain ⟨hws, _⟩ := triangulate_spec env.test env.init _ _ mem' ts hn hr
    have hcap := hI.cap
    have hnum := hI.num
    have hlen := hI.len
    obtain ⟨m, p, ps, _, hm, hml, hsame, _, _⟩ := withSuper_ok s.numVertices s.vertices hn (by omega)
    rw [hws] at hm
    cases hm
    have hused : s'.used = s.used := by
      unfold State.used
      rw [h1, h2]
      apply List.ext_getElem?
      intro j
      rw [List.getElem?_take, List.getElem?_take]
      split
      · exact hsame j (by omega)
      · rfl
    refine ⟨⟨by rw [h1, hml, hlen], by rw [h4]; exact hI.mats, by rw [h2]; exact hI.num, hI.cap, ?_, ?_, hI.nodup⟩, hused⟩
    · rw [hused]; exact hI.stores
    · rw [hused]; exact hI.sorted
  · obtain ⟨h1, h2, h3, h4⟩ := updateMatrices_frame env _ _ h
    have hused : s'.used = s.used := by unfold State.used; rw [h1, h2]
    refine ⟨⟨by rw [h1]; exact hI.len, by rw [h4]; exact hI.mats, by rw [h2]; exact hI.num, hI.cap, ?_, ?_, hI.nodup⟩, hused⟩
    · rw [hused]; exact hI.stores
    · rw [hused]; exact hI.sorted

theorem clearAll_inv (s : State K) (L : List (Pt K × Pt K)) (hI : Inv s L) : Inv (clearAll s) [] := by
  refine ⟨hI.len, hI.mats, rfl, by simp, ⟨[], ?_, List.Forall₂.nil⟩, ?_, List.nodup_nil⟩
  · simp [State.used, clearAll]
  · simp [State.used, clearAll]

theorem step_refines (env : Env K σ) (hs : IsSort env.sort) (op : Op K) (s : State K) (L : List (Pt K × Pt K)) (hI : Inv s L)
    (b : Bool) (s' : State K) (h : step env op s = .ok (b, s')) :
    b = answer L op ∧ Inv s' (ledgerStep L op) := by
  cases op with
  | add a r =>
    obtain ⟨s1, h1, h2, _⟩ := add_refines env hs s L hI a r
    simp only [step] at h
    rw [h1] at h
    cases h
    exact ⟨rfl, h2⟩
  | clear =>
    simp only [step] at h
    cases h
    exact ⟨rfl, clearAll_inv s L hI⟩
  | triangulate =>
    simp only [step] at h
    obtain ⟨s1, h1, h⟩ := bind_eq_ok.1 h
    cases h
    exact ⟨rfl, (triangulateActual_frame env s s' L hI h1).1⟩

theorem run_refines (h : List (Env K σ × Op K)) (hs : ∀ e ∈ h, IsSort e.1.sort) : ∀ (s : State K) (L : List (Pt K × Pt K)),
    Inv s L → ∀ (bs : List Bool) (s' : State K), run h s = .ok (bs, s') →
      bs = answers L (h.map Prod.snd) ∧ Inv s' ((h.map Prod.snd).foldl ledgerStep L) := by
  induction h with
  | nil => intro s L hI bs s' h; cases h; exact ⟨rfl, hI⟩
  | cons e h ih =>
    obtain ⟨env, op⟩ := e
    intro s L hI bs s' hr
    simp only [run] at hr
    obtain ⟨⟨b, s1⟩, h1, hr⟩ := bind_eq_ok.1 hr
    obtain ⟨⟨bs1, s2⟩, h2, hr⟩ := bind_eq_ok.1 hr
    cases hr
    obtain ⟨e1, e2⟩ := step_refines env (hs _ List.mem_cons_self) op s L hI b s1 h1
    obtain ⟨e3, e4⟩ := ih (fun e he => hs e (List.mem_cons_of_mem _ he)) s1 _ e2 bs1 s2 h2
    exact ⟨by simp only [List.map_cons, answers, e1, e3], e4⟩

end Verif.Align
