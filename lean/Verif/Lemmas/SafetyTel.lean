import Verif.Props.TelescopeMany
import Verif.Lemmas.System
import Verif.Spec.Safety

/-!
# The telescope answers every query, and every sync in a generic direction is carried out
-/

namespace Verif.Telescope
open Verif.Align Verif.Coord

variable {σ : Type}

/-- The alignment can be asked: every matrix a query may use has been computed. -/
structure Ready (s : State ℝ) : Prop where
  inv : ∃ L, Align.Inv s L
  tris : TrisIn s
  few : s.triangles.length ≤ 192
  synced : s.numVertices = 0 ∧ s.triangles = [] ∨ Synced s

theorem ready_fresh : Ready (fresh : State ℝ) :=
  ⟨⟨_, Inv.fresh⟩, trisIn_fresh, by simp [Align.fresh], Or.inl ⟨rfl, rfl⟩⟩

theorem ready_clear {s : State ℝ} (h : Ready s) : Ready (clearAll s) := by
  obtain ⟨L, hI⟩ := h.inv
  exact ⟨⟨_, clearAll_inv s L hI⟩, by intro t ht; simp [clearAll] at ht, by simp [clearAll], Or.inl ⟨rfl, rfl⟩⟩

theorem ready_sync {env : Env ℝ σ} (he : IsSort env.sort) {T T' : Tel} (h : Ready T.alignment) {r : Equatorial ℝ} {lat t : ℝ}
    (hs : addReferencePoint env T r lat t = .ok T') : Ready T'.alignment := by
  obtain ⟨L, hI⟩ := h.inv
  unfold addReferencePoint at hs
  obtain ⟨⟨b, s1⟩, h1, hs⟩ := bind_eq_ok.1 hs
  obtain ⟨s2, h2, hs⟩ := bind_eq_ok.1 hs
  simp only [pure_ok, Except.ok.injEq] at hs
  subst hs
  obtain ⟨s3, h3, hI1, -, htris, -⟩ := add_refines env he T.alignment L hI (toPt T.orientation) (toPt (equatorialToHorizontal r.ra r.dec lat t))
  rw [h3] at h1
  simp only [Except.ok.injEq, Prod.mk.injEq] at h1
  obtain ⟨-, rfl⟩ := h1
  have hT : TrisIn s3 := by intro t ht; rw [htris] at ht; exact h.tris t ht
  refine ⟨⟨_, (triangulateActual_frame env s3 s2 _ hI1 h2).1⟩, triangulateActual_trisIn env s3 s2 _ hI1 hT h2, ?_,
    Or.inr (triangulateActual_synced env _ _ h2)⟩
  have h2' := h2
  simp only at h2'
  unfold triangulateActual at h2'
  split at h2'
  · obtain ⟨⟨mem', ts⟩, _, h4⟩ := bind_eq_ok.1 h2'
    exact updateMatrices_cap (by exact hI1.mats) h4
  · exact updateMatrices_cap hI1.mats h2'

theorem ready_run {g : List (Env ℝ σ × Op)} (hg : ∀ e ∈ g, IsSort e.1.sort) {T T' : Tel} (h : Ready T.alignment) (hr : run g T = .ok T') :
    Ready T'.alignment := by
  induction g generalizing T with
  | nil => simp only [run, Except.ok.injEq] at hr; subst hr; exact h
  | cons x g ih =>
    obtain ⟨env, op⟩ := x
    simp only [run] at hr
    obtain ⟨T1, h1, hr⟩ := bind_eq_ok.1 hr
    refine ih (fun e he => hg e (List.mem_cons_of_mem _ he)) ?_ hr
    cases op with
    | orient o => simp only [step, Except.ok.injEq] at h1; subst h1; exact h
    | clear => simp only [step, Except.ok.injEq] at h1; subst h1; exact ready_clear h
    | sync r lat t => exact ready_sync (hg _ List.mem_cons_self) h h1

/-- Every query is answered. -/
theorem ready_matrix {s : State ℝ} (h : Ready s) (env : Env ℝ σ) (q : Pt ℝ) :
    ∃ M ty, getTransformationMatrix env s q = .ok M ∧ getTransformationType env s q = .ok ty := by
  obtain ⟨L, hI⟩ := h.inv
  by_cases hne : s.triangles = []
  · unfold getTransformationMatrix getTransformationType
    simp only [hne]
    rcases h.synced with ⟨h0, -⟩ | hS
    · exact ⟨_, _, by rw [h0, if_neg (by omega)], rfl⟩
    · rcases Nat.lt_or_ge s.numVertices 1 with h1 | h1
      · exact ⟨_, _, if_neg (by omega), rfl⟩
      · rw [if_pos h1]
        rcases Nat.lt_or_ge s.numVertices 2 with h2 | h2
        · obtain ⟨v, -, hm⟩ := hS.point hne (by omega)
          exact ⟨_, _, matrixAt_of hm, rfl⟩
        · obtain ⟨a, b, st, -, -, hm⟩ := hS.line hne h2
          exact ⟨_, _, matrixAt_of hm, rfl⟩
  · rcases h.synced with ⟨-, h0⟩ | hS
    · exact absurd h0 hne
    · have key : ∀ i, i < s.triangles.length → ∃ M, matrixAt s i = .ok M := by
        intro i hi
        obtain ⟨a, b, c, st, -, -, -, hm⟩ := triMatrixAt_matrixAt (hS.tri i _ (List.getElem?_eq_getElem hi))
        exact ⟨_, hm⟩
      rcases tri_choice env s q hI.len h.tris hne with ⟨i, -, hi, h1, h2⟩ | ⟨i, -, hi, h1, h2⟩ <;>
      · obtain ⟨M, hM⟩ := key i hi
        exact ⟨M, _, by rw [h1, hM], h2⟩

/-- The position is always reported, in range. -/
theorem ready_position {T : Tel} (h : Ready T.alignment) (env : Env ℝ σ) (lat lst : ℝ) :
    ∃ ty p, getCalibratedOrientation env T lat lst = .ok (ty, p) ∧ 0 ≤ p.ra ∧ p.ra < 360 ∧ -90 ≤ p.dec ∧ p.dec ≤ 90 := by
  obtain ⟨M, ty, h1, h2⟩ := ready_matrix h env (toPt T.orientation)
  unfold getCalibratedOrientation Align.getCalibratedOrientation
  rw [h2, bind_ok, h1, bind_ok]
  obtain ⟨a, b, c, d, -⟩ := C30_ranges (Helper.fMod (Linalg.mulVec M ⟨(toPt T.orientation).x, (toPt T.orientation).y, 1⟩).v0 360)
    (Linalg.mulVec M ⟨(toPt T.orientation).x, (toPt T.orientation).y, 1⟩).v1 lat lst
  exact ⟨_, _, rfl, a, b, c, d⟩

/-- A sync is carried out when the directions known after it are generic, or fewer than two. -/
theorem sync_ok {g : List (Env ℝ (Option (Circle ℝ)) × Op)} (hg : ∀ e ∈ g, IsSort e.1.sort) {T : Tel} (hr : run g new = .ok T)
    {env : Env ℝ (Option (Circle ℝ))} (he : IsSort env.sort) (htest : env.test = exactTest) {o : Circle ℝ} (hinit : env.init = some o)
    (ref : Equatorial ℝ) (lat lst : ℝ)
    (h : (afterSync (T.alignment.used.map VertexPair.actual) (toPt T.orientation)).length ≤ 1 ∨
      Generic (afterSync (T.alignment.used.map VertexPair.actual) (toPt T.orientation))) :
    ∃ T', addReferencePoint env T ref lat lst = .ok T' := by
  have hR := run_rep g hg _ T _ Rep.new hr
  obtain ⟨hnow, q, bs, hqs, hrun, hL⟩ := hR
  have hI := (run_refines q hqs _ _ Inv.fresh bs _ hrun).2
  rw [← ledger] at hI
  change _ = List.map Star.pair (knows (g.map Prod.snd)).stars at hL
  change T.orientation = (knows (g.map Prod.snd)).now at hnow
  have hlen : (knows (g.map Prod.snd)).stars.length = T.alignment.used.length := by
    rw [hI.stores.length, hL, List.length_map]
  have hdir := stored_directions hI hL
  have hmem : (knows (g.map Prod.snd)).now ∈ (knows (g.map Prod.snd)).stars.map Star.at' ↔
      toPt T.orientation ∈ T.alignment.used.map VertexPair.actual := by
    rw [← hdir, hnow]
    constructor
    · intro hc
      obtain ⟨k, hk, e⟩ := List.mem_map.1 hc
      exact List.mem_map.2 ⟨k, hk, by rw [e]⟩
    · intro hc
      obtain ⟨k, hk, e⟩ := List.mem_map.1 hc
      exact List.mem_map.2 ⟨k, hk, toPt_inj e⟩
  have key : (directions (g.map Prod.snd ++ [.sync ref lat lst])).length =
        (afterSync (T.alignment.used.map VertexPair.actual) (toPt T.orientation)).length ∧
      ∀ a, a ∈ afterSync (T.alignment.used.map VertexPair.actual) (toPt T.orientation) ↔
        a ∈ directions (g.map Prod.snd ++ [.sync ref lat lst]) := by
    have e : knows (g.map Prod.snd ++ [.sync ref lat lst]) = (knows (g.map Prod.snd)).step (.sync ref lat lst) := by
      unfold knows; rw [List.foldl_append]; rfl
    unfold directions afterSync
    rw [e]
    simp only [Knows.step, hmem, List.length_map, ← hlen]
    split
    · exact ⟨by simp [hlen], fun a => (hdir a).symm⟩
    · split
      · simp
      · refine ⟨by simp [hlen], fun a => ?_⟩
        rw [List.mem_cons, ← hdir, List.map_append, List.mem_append, List.map_singleton, List.mem_singleton, or_comm, hnow]
  refine C42_sync_succeeds g hg T hr env he htest o hinit ref lat lst ?_
  rcases h with h | h
  · left; rw [key.1]; exact h
  · right; exact Generic.of_mem key.2 h

end Verif.Telescope
