import Verif.Lemmas.SharedSafe
import Verif.Lemmas.AlignMaps

/-!
# The calls of two tasks
-/

namespace Verif.Shared

open Verif.Align Linalg

variable {K σ : Type} [Field K] [LinearOrder K] [IsStrictOrderedRing K]

set_option linter.unusedSectionVars false

/-! ### Alignments between two calls -/

theorem Reached.inv {s : State K} (h : Reached s) : (∃ L, Align.Inv s L) ∧ TrisIn s ∧ (s.numVertices = 0 ∧ s.triangles = [] ∨ Synced s) := by
  induction h with
  | fresh => exact ⟨⟨_, Inv.fresh⟩, trisIn_fresh, Or.inl ⟨rfl, rfl⟩⟩
  | clear _ ih =>
    obtain ⟨⟨L, hI⟩, -, -⟩ := ih
    exact ⟨⟨_, clearAll_inv _ L hI⟩, by intro t ht; simp [clearAll] at ht, Or.inl ⟨rfl, rfl⟩⟩
  | @sync τ env s s' p r he _ hs ih =>
    obtain ⟨⟨L, hI⟩, hT, -⟩ := ih
    unfold syncAtOnce at hs
    obtain ⟨⟨b, s1⟩, h1, h2⟩ := bind_eq_ok.1 hs
    obtain ⟨s3, h3, hI1, -, htris, -⟩ := add_refines env he s L hI p r
    rw [h3] at h1
    simp only [Except.ok.injEq, Prod.mk.injEq] at h1
    obtain ⟨-, rfl⟩ := h1
    have hT : TrisIn s3 := by intro t ht; rw [htris] at ht; exact hT t ht
    exact ⟨⟨_, (triangulateActual_frame env s3 s' _ hI1 h2).1⟩, triangulateActual_trisIn env s3 s' _ hI1 hT h2,
      Or.inr (triangulateActual_synced env _ _ h2)⟩

theorem Reached.len {s : State K} (h : Reached s) : s.vertices.length = 67 ∧ s.matrices.length = 192 := by
  obtain ⟨⟨L, hI⟩, -⟩ := h.inv
  exact ⟨hI.len, hI.mats⟩

theorem Reached.computed {s : State K} (h : Reached s) : Computed s := by
  obtain ⟨-, -, hS⟩ := h.inv
  intro i hi
  rcases hS with ⟨h0, h1⟩ | hS
  · rw [h0, h1] at hi; simp at hi
  · by_cases ht : i < s.triangles.length
    · obtain ⟨a, b, c, st, -, -, -, hm⟩ := hS.tri i _ (List.getElem?_eq_getElem ht)
      exact ⟨_, hm⟩
    · rcases hi with ⟨rfl, hv⟩ | hi
      · have hne : s.triangles = [] := List.length_eq_zero_iff.1 (by omega)
        rcases Nat.lt_or_ge s.numVertices 2 with h2 | h2
        · obtain ⟨v, -, hm⟩ := hS.point hne (by omega)
          exact ⟨_, hm⟩
        · obtain ⟨a, b, st, -, -, hm⟩ := hS.line hne h2
          exact ⟨_, hm⟩
      · exact absurd hi ht

theorem Reached.few {s : State K} (h : Reached s) : s.triangles.length ≤ 192 := by
  by_contra hc
  obtain ⟨M, hM⟩ := h.computed 192 (Or.inr (by omega))
  have := (List.getElem?_eq_some_iff.1 hM).1
  rw [h.len.2] at this
  omega

/-- Every query is answered. -/
theorem Reached.answers {s : State K} (h : Reached s) (env : Env K σ) (q : Pt K) :
    ∃ M ty, getTransformationMatrix env s q = .ok M ∧ getTransformationType env s q = .ok ty := by
  have hc := h.computed
  have at_of : ∀ i, (i = 0 ∧ 1 ≤ s.numVertices ∨ i < s.triangles.length) → ∃ M, matrixAt s i = .ok M := by
    intro i hi
    obtain ⟨M, hM⟩ := hc i hi
    exact ⟨M, by unfold matrixAt; rw [hM]⟩
  by_cases hne : s.triangles = []
  · unfold getTransformationMatrix getTransformationType
    simp only [hne]
    by_cases h1 : 1 ≤ s.numVertices
    · obtain ⟨M, hM⟩ := at_of 0 (Or.inl ⟨rfl, h1⟩)
      exact ⟨M, _, by rw [if_pos h1, hM], rfl⟩
    · exact ⟨_, _, if_neg h1, rfl⟩
  · obtain ⟨-, hT, -⟩ := h.inv
    rcases tri_choice env s q h.len.1 hT hne with ⟨i, -, hi, h1, h2⟩ | ⟨i, -, hi, h1, h2⟩ <;>
    · obtain ⟨M, hM⟩ := at_of i (Or.inr hi)
      exact ⟨M, _, by rw [h1, hM], h2⟩

theorem memOf_holds (s : State K) (p : Pt K) (heap : Option K) : Holds (memOf s p heap) s p where
  numV := rfl
  numT := rfl
  tri i t ht k := by simp [memOf, ht]
  vert i v hv f := by simp [memOf, hv]
  mat i M hM r c := by simp [memOf, hM]
  az := rfl
  alt := rfl

theorem memOf_wellFormed {s : State K} (h : Reached s) (p : Pt K) (x : K) : WellFormed (memOf s p (some x)) := by
  obtain ⟨⟨L, hI⟩, hT, -⟩ := h.inv
  refine ⟨⟨_, rfl, show s.numVertices ≤ 63 by have := hI.num; have := hI.cap; omega⟩, ⟨_, rfl, by have := h.few; omega, ?_⟩, ?_, ?_, ?_, ⟨_, rfl⟩, ⟨_, rfl⟩⟩
  · intro i k h0 h1
    have hlt : i.toNat < s.triangles.length := by omega
    exact ⟨corner s.triangles[i.toNat] k, by simp [memOf, h0, List.getElem?_eq_getElem hlt]⟩
  · intro i k v hv
    unfold memOf at hv
    simp only at hv
    split at hv
    · obtain ⟨t, ht, rfl⟩ := Option.map_eq_some_iff.1 hv
      obtain ⟨a, b, c⟩ := hT t (List.mem_of_getElem? ht)
      match k with
      | 0 => exact Nat.le_trans (Nat.le_of_lt a) (show (64 : Nat) ≤ 65 by decide)
      | 1 => exact Nat.le_trans (Nat.le_of_lt b) (show (64 : Nat) ≤ 65 by decide)
      | 2 => exact Nat.le_trans (Nat.le_of_lt c) (show (64 : Nat) ≤ 65 by decide)
    · cases hv
  · intro i f hi
    have hlt : i < s.vertices.length := by rw [hI.len]; exact hi
    exact ⟨field s.vertices[i] f, by simp [memOf, List.getElem?_eq_getElem hlt]⟩
  · intro i r c _
    unfold memOf
    simp only
    split
    · exact ⟨_, rfl⟩
    · exact ⟨_, rfl⟩

/-! ### Calls without a synchronisation -/

section Calls
variable {env : Env K σ} {writes : List (VertexPair K) → List (Nat × Fin 4 × K)} {fuel : Nat} {xs ys : List K} {m : Mem K} {s : State K}
  {p : Pt K}

theorem OrientsIn.tail {c : Call K} {cs : List (Call K)} (h : OrientsIn xs ys (c :: cs)) : OrientsIn xs ys cs :=
  fun q hq => h q (List.mem_cons_of_mem _ hq)

theorem still_calls {G : Reading K → Prop} (hm : WellFormed m) (h : Holds m s p) (hl : s.vertices.length = 67) (hml : s.matrices.length = 192)
    (hx : xs ≠ []) (hy : ys ≠ [])
    (hr : ∀ x ∈ xs, ∀ y ∈ ys, ∃ M ty, getTransformationMatrix env s ⟨x, y⟩ = .ok M ∧ getTransformationType env s ⟨x, y⟩ = .ok ty)
    (hG : ∀ x ∈ xs, ∀ y ∈ ys, ∀ x' ∈ xs, ∀ y' ∈ ys, ∀ M ty, getTransformationMatrix env s ⟨x, y⟩ = .ok M →
      getTransformationType env s ⟨x', y'⟩ = .ok ty → G ⟨ty, ⟨x, y⟩, M⟩) :
    ∀ calls : List (Call K), (∀ c ∈ calls, c.Looks) → OrientsIn xs ys calls →
      rwp (still m xs ys) True (callsP env writes fuel calls) fun rs => ∀ r ∈ rs, G r := by
  intro calls
  induction calls with
  | nil => intro _ _ r hr; simp at hr
  | cons c cs ih =>
    intro hc ho
    have ih := ih (fun d hd => hc d (List.mem_cons_of_mem _ hd)) ho.tail
    have hc := hc c (by simp)
    simp only [callsP]
    cases c with
    | sync r => exact hc.elim
    | clear => exact hc.elim
    | position =>
      simp only [callP, bind_assoc']
      refine still_position hm h hl hml (Or.inl trivial) hx hy hr ?_
      intro x hx' y hy' x' hx'' y' hy'' M ty hM hty
      rw [pure_bind']
      refine rwp_bind (rwp_mono ih ?_)
      intro rs hrs r hr'
      simp only [List.singleton_append, List.mem_cons] at hr'
      rcases hr' with rfl | hr'
      · exact hG x hx' y hy' x' hx'' y' hy'' M ty hM hty
      · exact hrs r hr'
    | orient q =>
      obtain ⟨h1, h2⟩ := ho q (by simp)
      simp only [callP, orientP, bind_assoc']
      refine rwp_wr rfl h1 (rwp_wr rfl h2 ?_)
      rw [pure_bind']
      exact rwp_bind (rwp_mono ih fun rs hrs => hrs)

theorem resets_calls (hm : WellFormed m) (h : Holds m s p) (hml : s.matrices.length = 192) (hc' : Computed s) (hx : xs ≠ []) (hy : ys ≠ []) :
    ∀ calls : List (Call K), (∀ c ∈ calls, c.AddsNone) → OrientsIn xs ys calls →
      rwp (resets m xs ys) True (callsP env writes fuel calls) fun rs => ∀ r ∈ rs, r.actual.x ∈ xs ∧ r.actual.y ∈ ys ∧
        (r.matrix = identity ∨ ∃ i : Nat, s.matrices[i]? = some (some r.matrix)) := by
  intro calls
  induction calls with
  | nil => intro _ _ r hr; simp at hr
  | cons c cs ih =>
    intro hc ho
    have ih := ih (fun d hd => hc d (List.mem_cons_of_mem _ hd)) ho.tail
    have hc := hc c (by simp)
    simp only [callsP]
    cases c with
    | sync r => exact hc.elim
    | clear =>
      simp only [callP, clearP, bind_assoc']
      refine rwp_wr rfl (Or.inl rfl) (rwp_wr rfl (Or.inl rfl) ?_)
      rw [pure_bind']
      exact rwp_bind (rwp_mono ih fun rs hrs => hrs)
    | position =>
      simp only [callP, bind_assoc']
      refine resets_position hm h hml hc' trivial hx hy ?_
      intro x hx' y hy' ty M hM
      rw [pure_bind']
      refine rwp_bind (rwp_mono ih ?_)
      intro rs hrs r hr'
      simp only [List.singleton_append, List.mem_cons] at hr'
      rcases hr' with rfl | hr'
      · exact ⟨hx', hy', hM⟩
      · exact hrs r hr'
    | orient q =>
      obtain ⟨h1, h2⟩ := ho q (by simp)
      simp only [callP, orientP, bind_assoc']
      refine rwp_wr rfl h1 (rwp_wr rfl h2 ?_)
      rw [pure_bind']
      exact rwp_bind (rwp_mono ih fun rs hrs => hrs)

/-! ### Calls with synchronisations next to calls without -/

theorem rsafe_calls : ∀ (calls : List (Call K)) (N : Int), (∀ c ∈ calls, c.Looks) → OrientsIn xs ys calls →
    rsafe xs ys (callsP env writes fuel calls) N fun _ _ => True := by
  intro calls
  induction calls with
  | nil => intro _ _ _; trivial
  | cons c cs ih =>
    intro N hc ho
    have ih := fun N => ih N (fun d hd => hc d (List.mem_cons_of_mem _ hd)) ho.tail
    have hc := hc c (by simp)
    simp only [callsP]
    cases c with
    | sync r => exact hc.elim
    | clear => exact hc.elim
    | position =>
      simp only [callP, bind_assoc']
      refine rsafe_position fun r N' _ => ?_
      rw [pure_bind']
      exact rsafe_bind (rsafe_mono (ih N') fun _ _ _ _ => trivial)
    | orient q =>
      obtain ⟨h1, h2⟩ := ho q (by simp)
      simp only [callP, bind_assoc']
      refine rsafe_orient h1 h2 ?_
      rw [pure_bind']
      exact rsafe_bind (rsafe_mono (ih N) fun _ _ _ _ => trivial)

theorem Known.zero (m : Mem K) : Known m 0 := ⟨by omega, fun i k h0 h1 => absurd h1 (by omega)⟩

theorem Holds.reorient {m' : Mem K} (h : Holds m s p) (ho : ∀ l, l ≠ .az → l ≠ .alt → m' l = m l) {q : Pt K} (hx : m' .az = some q.x)
    (hy : m' .alt = some q.y) : Holds m' s q where
  numV := by rw [ho _ (by simp) (by simp)]; exact h.numV
  numT := by rw [ho _ (by simp) (by simp)]; exact h.numT
  tri i t ht k := by rw [ho _ (by simp) (by simp)]; exact h.tri i t ht k
  vert i v hv f := by rw [ho _ (by simp) (by simp)]; exact h.vert i v hv f
  mat i M hM r c := by rw [ho _ (by simp) (by simp)]; exact h.mat i M hM r c
  az := hx
  alt := hy

/-- The calls of the task that synchronises. -/
theorem wp_calls (hsort : IsSort env.sort) (hws : SortsAs env.sort writes) : ∀ (calls : List (Call K)) (m : Mem K) (s : State K) (p : Pt K),
    WellFormed m → Holds m s p → s.vertices.length = 67 → p.x ∈ xs → p.y ∈ ys → OrientsIn xs ys calls → Fine env xs ys calls s →
    wp (vol xs ys) WellFormed True (callsP env writes fuel calls) m fun _ m' =>
      ∃ s' p', Holds m' s' p' ∧ p'.x ∈ xs ∧ p'.y ∈ ys ∧ Outcome env xs ys calls s s' := by
  intro calls
  induction calls with
  | nil => intro m s p hm h _ hx hy _ _; exact ⟨hm, s, p, h, hx, hy, .done s⟩
  | cons c cs ih =>
    intro m s p hm h hl hx hy ho hf
    simp only [callsP]
    -- a call that only looks
    have looks : c.Looks → Fine env xs ys cs s → (∀ s', Outcome env xs ys cs s s' → Outcome env xs ys (c :: cs) s s') →
        wp (vol xs ys) WellFormed True (callP env writes fuel c >>= fun a => callsP env writes fuel cs >>= fun b => pure (a ++ b)) m
          fun _ m' => ∃ s' p', Holds m' s' p' ∧ p'.x ∈ xs ∧ p'.y ∈ ys ∧ Outcome env xs ys (c :: cs) s s' := by
      intro hlook hf' hout
      have hsafe : rsafe xs ys (callP env writes fuel c) 0 fun _ _ => True := by
        cases c with
        | sync r => exact hlook.elim
        | clear => exact hlook.elim
        | position => simp only [callP]; exact rsafe_position fun r N' _ => trivial
        | orient q =>
          obtain ⟨h1, h2⟩ := ho q (by simp)
          simp only [callP]; exact rsafe_orient h1 h2 trivial
      refine wp_bind (wp_mono (wp_of_rsafe hm (Known.zero m) hsafe) ?_)
      rintro a m1 hm1 ⟨h1, h2, h3⟩
      obtain ⟨x1, ex, hx1⟩ : ∃ x, m1 .az = some x ∧ x ∈ xs := by
        rcases h2 with e | ⟨x, hx', e⟩
        · exact ⟨p.x, e.trans h.az, hx⟩
        · exact ⟨x, e, hx'⟩
      obtain ⟨y1, ey, hy1⟩ : ∃ y, m1 .alt = some y ∧ y ∈ ys := by
        rcases h3 with e | ⟨y, hy', e⟩
        · exact ⟨p.y, e.trans h.alt, hy⟩
        · exact ⟨y, e, hy'⟩
      refine wp_bind (wp_mono (ih m1 s ⟨x1, y1⟩ hm1 (h.reorient h1 ex ey) hl hx1 hy1 ho.tail hf') ?_)
      rintro b m2 hm2 ⟨s', p', g1, g2, g3, g4⟩
      exact ⟨hm2, s', p', g1, g2, g3, hout s' g4⟩
    cases c with
    | position => exact looks trivial hf fun s' h => .position h
    | orient q => exact looks trivial hf fun s' h => .orient h
    | clear =>
      simp only [callP, clearP, bind_assoc']
      refine wp_wr hm rfl ?_
      have w1 := hm.put_numV 0 (by omega)
      refine wp_wr w1 rfl ?_
      have w2 := w1.put_numT 0 (by omega) (by intro i k h0 h1; omega)
      rw [pure_bind']
      refine wp_bind (wp_mono (ih _ (clearAll s) p w2 ?_ hl hx hy ho.tail hf) ?_)
      · refine ⟨by rw [upd_ne _ (by simp), upd_same]; rfl, by rw [upd_same]; rfl, by intro i t ht; simp [clearAll] at ht, ?_, ?_, ?_, ?_⟩
        · intro i v hv f; rw [upd_ne _ (by simp), upd_ne _ (by simp)]; exact h.vert i v hv f
        · intro i M hM r c; rw [upd_ne _ (by simp), upd_ne _ (by simp)]; exact h.mat i M hM r c
        · rw [upd_ne _ (by simp), upd_ne _ (by simp)]; exact h.az
        · rw [upd_ne _ (by simp), upd_ne _ (by simp)]; exact h.alt
      · rintro b m2 hm2 ⟨s', p', g1, g2, g3, g4⟩
        exact ⟨hm2, s', p', g1, g2, g3, .clear g4⟩
    | sync r =>
      simp only [callP, bind_assoc']
      refine wp_sync (vol_quiet xs ys) hsort hws (Or.inl trivial) hm h hl ?_
      intro x y hx' hy'
      have hxm : x ∈ xs := by rcases hx' with rfl | hx'; exacts [hx, hx']
      have hym : y ∈ ys := by rcases hy' with rfl | hy'; exacts [hy, hy']
      obtain ⟨s1, hs1, hf1⟩ := hf x hxm y hym
      refine ⟨s1, hs1, fun m1 hm1 g1 l1 => ?_⟩
      rw [pure_bind']
      refine wp_bind (wp_mono (ih m1 s1 p hm1 g1 l1 hx hy ho.tail hf1) ?_)
      rintro b m2 hm2 ⟨s', p', g1, g2, g3, g4⟩
      exact ⟨hm2, s', p', g1, g2, g3, .sync hxm hym hs1 g4⟩

/-- The two tasks. -/
theorem par_safe {α : Type} {Q : α → Mem K → Prop} {Q' : α → Int → Prop} (w : Race.Task) : ∀ (sched : List Race.Task)
    (ps : Race.Task → Prog K α) (view m : Mem K) (N : Int), Agree xs ys view m → wp (vol xs ys) WellFormed True (ps w) view Q → Known m N →
      rsafe xs ys (ps w.other) N Q' →
      ∃ ps' m' view', par sched ps m = .ok (ps', m') ∧ Agree xs ys view' m' ∧ wp (vol xs ys) WellFormed True (ps' w) view' Q := by
  intro sched
  have hne : w.other ≠ w := by cases w <;> simp [Race.Task.other]
  induction sched with
  | nil => intro ps view m N ha hw _ _; exact ⟨ps, m, view, rfl, ha, hw⟩
  | cons t sched ih =>
    intro ps view m N ha hw hk hr
    by_cases ht : t = w
    · subst ht
      obtain ⟨p', m', view', e, ha', hw', hk'⟩ := step_wp ha hw
      simp only [par, e, bind_ok]
      refine ih _ view' m' N ha' ?_ (hk' N hk) ?_
      · rw [Function.update_self]; exact hw'
      · rw [Function.update_of_ne hne]; exact hr
    · have ht' : t = w.other := by cases t <;> cases w <;> simp_all [Race.Task.other]
      subst ht'
      obtain ⟨p', m', N', e, ha', hk', hr'⟩ := step_rsafe ha (wp_inv hw) hk hr
      simp only [par, e, bind_ok]
      refine ih _ view m' N' ha' ?_ hk' ?_
      · rw [Function.update_of_ne hne.symm]; exact hw
      · rw [Function.update_self]; exact hr'

end Calls

end Verif.Shared
