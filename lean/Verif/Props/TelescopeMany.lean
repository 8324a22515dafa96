import Verif.Props.Telescope
import Verif.Props.Delaunay

/-!
# C37 and C42 for the telescope: any number of known stars

`directions ops` are the directions in which the telescope pointed at the syncs it still knows after the calls `ops`.
`Generic`, `NoSliver` and `Belong` (Spec/Delaunay.lean) speak about these directions only.
-/

namespace Verif.Telescope

open Verif.Align Verif.Coord

/-- The directions of the known stars after some calls. -/
noncomputable def directions (ops : List Op) : List (Pt ℝ) := (knows ops).stars.map (fun k => toPt k.at')

theorem Generic.of_mem {p q : List (Pt ℝ)} (h : ∀ a, a ∈ p ↔ a ∈ q) (hg : Generic p) : Generic q := by
  obtain ⟨h1, a, ha, b, hb, hab⟩ := hg
  exact ⟨fun a ha b hb => h1 a ((h a).2 ha) b ((h b).2 hb), a, (h a).1 ha, b, (h b).1 hb, hab⟩

theorem NoSliver.of_mem {p q : List (Pt ℝ)} (h : ∀ a, a ∈ p ↔ a ∈ q) (hg : NoSliver p) : NoSliver q :=
  fun a ha b hb c hc => hg a ((h a).2 ha) b ((h b).2 hb) c ((h c).2 hc)

theorem Belong.of_mem {p q : List (Pt ℝ)} (h : ∀ a, a ∈ p ↔ a ∈ q) {a b c : Pt ℝ} (hg : Belong p a b c) : Belong q a b c := by
  obtain ⟨h1, h2, h3, ho, m, hm, he, y, hy, z, hz, hr⟩ := hg
  exact ⟨(h a).1 h1, (h b).1 h2, (h c).1 h3, ho, m, hm, fun x hx => he x ((h x).2 hx), y, (h y).1 hy, z, (h z).1 hz, hr⟩

theorem stored_directions {s : State ℝ} {L : List (Pt ℝ × Pt ℝ)} (hI : Inv s L) {stars : List Star} (hL : L = stars.map Star.pair) (a : Pt ℝ) :
    a ∈ stars.map (fun k => toPt k.at') ↔ a ∈ s.used.map VertexPair.actual := by
  rw [hI.stores.actual.mem_iff, hL, List.map_map]
  rfl

theorem triMatrices_cap {stray : Nat → ℝ} {ts : List Tri} : ∀ {i : Nat} {s s' : State ℝ}, triMatrices stray i ts s = .ok s' →
    ts = [] ∨ i + ts.length ≤ s.matrices.length := by
  induction ts with
  | nil => intros; exact Or.inl rfl
  | cons t ts ih =>
    intro i s s' h
    right
    simp only [triMatrices] at h
    obtain ⟨m, _, h⟩ := bind_eq_ok.1 h
    obtain ⟨s1, h1, h⟩ := bind_eq_ok.1 h
    unfold setMatrix at h1
    split at h1
    · rename_i hi
      cases h1
      rcases ih h with rfl | h2
      · simp; omega
      · simp only [List.length_set] at h2
        simp only [List.length_cons]; omega
    · cases h1

theorem updateMatrices_cap {σ : Type} {env : Env ℝ σ} {s s' : State ℝ} (hm : s.matrices.length = 192) (h : updateMatrices env s = .ok s') :
    s'.triangles.length ≤ 192 := by
  obtain ⟨_, _, f3, _⟩ := updateMatrices_frame env _ _ h
  rw [f3]
  unfold updateMatrices at h
  split at h
  · rename_i h0
    rw [h0]; simp
  · rcases triMatrices_cap h with h0 | h0
    · rw [h0]; simp
    · omega

theorem run_cap {σ : Type} (h : List (Env ℝ σ × Align.Op ℝ)) (hs : ∀ e ∈ h, IsSort e.1.sort) : ∀ (s : State ℝ) (L : List (Pt ℝ × Pt ℝ)),
    Align.Inv s L → s.triangles.length ≤ 192 → ∀ (bs : List Bool) (s' : State ℝ), Align.run h s = .ok (bs, s') → s'.triangles.length ≤ 192 := by
  induction h with
  | nil => intro s L hI hT bs s' h; cases h; exact hT
  | cons e h ih =>
    obtain ⟨env, op⟩ := e
    intro s L hI hT bs s' hr
    simp only [Align.run] at hr
    obtain ⟨⟨b, s1⟩, h1, hr⟩ := bind_eq_ok.1 hr
    obtain ⟨⟨bs1, s2⟩, h2, hr⟩ := bind_eq_ok.1 hr
    cases hr
    obtain ⟨_, e2⟩ := step_refines env (hs _ List.mem_cons_self) op s L hI b s1 h1
    refine ih (fun e he => hs e (List.mem_cons_of_mem _ he)) s1 _ e2 ?_ bs1 s2 h2
    cases op with
    | add a r =>
      obtain ⟨s3, h3, _, _, h5, _⟩ := add_refines env (hs _ List.mem_cons_self) s L hI a r
      simp only [Align.step] at h1
      rw [h3] at h1
      cases h1
      rw [h5]; exact hT
    | clear =>
      simp only [Align.step] at h1
      cases h1
      simp [clearAll]
    | triangulate =>
      simp only [Align.step] at h1
      obtain ⟨s3, h3, h1⟩ := bind_eq_ok.1 h1
      cases h1
      unfold triangulateActual at h3
      split at h3
      · obtain ⟨⟨mem', ts⟩, _, h4⟩ := bind_eq_ok.1 h3
        exact updateMatrices_cap (by exact hI.mats) h4
      · exact updateMatrices_cap hI.mats h3

/-- **C42** (telescope). A sync never fails when the directions known after it are generic, or fewer than two: nothing is written
behind an array, divided by zero or read before it was set (`xc` and `r` of the first circle excepted, cf. C43). -/
theorem C42_sync_succeeds (h : List (Env ℝ (Option (Circle ℝ)) × Op)) (hs : ∀ e ∈ h, IsSort e.1.sort) (T : Tel) (hr : run h new = .ok T)
    (env : Env ℝ (Option (Circle ℝ))) (he : IsSort env.sort) (htest : env.test = exactTest) (o : Circle ℝ) (hinit : env.init = some o)
    (ref : Equatorial ℝ) (lat lst : ℝ)
    (hg : (directions (h.map Prod.snd ++ [.sync ref lat lst])).length ≤ 1 ∨ Generic (directions (h.map Prod.snd ++ [.sync ref lat lst]))) :
    ∃ T', addReferencePoint env T ref lat lst = .ok T' := by
  have hR := run_rep h hs new T _ Rep.new hr
  obtain ⟨hnow, g, bs, hgs, hrun, hL⟩ := hR
  have hI := (run_refines g hgs _ _ Inv.fresh bs _ hrun).2
  rw [← ledger] at hI
  obtain ⟨s1, h1, hI1, -, htris, -⟩ := add_refines env he T.alignment _ hI (toPt T.orientation) (toPt (equatorialToHorizontal ref.ra ref.dec lat lst))
  have hL1 : ledgerStep (ledger (g.map Prod.snd)) (.add (toPt T.orientation) (toPt (equatorialToHorizontal ref.ra ref.dec lat lst)))
      = (knows (h.map Prod.snd ++ [.sync ref lat lst])).stars.map Star.pair := by
    rw [hL, hnow, knows, List.foldl_append]
    exact ledgerStep_knows _ ref lat lst
  have htri : ∃ s2, triangulateActual env s1 = .ok s2 := by
    rcases hg with hg | hg
    · have hn1 : s1.numVertices ≤ 1 := by
        rw [hI1.num, hL1, List.length_map]
        simpa [directions] using hg
      rcases Nat.eq_zero_or_pos s1.numVertices with h0 | h0
      · unfold triangulateActual
        rw [h0, if_neg (by omega)]
        refine updateMatrices_total env _ hI1.len hI1.mats ?_ ?_
        · rw [htris]; exact run_cap g hgs _ _ Inv.fresh (by simp [Align.fresh]) bs _ hrun
        · intro t ht
          rw [htris] at ht
          have := run_trisIn g hgs _ _ Inv.fresh trisIn_fresh bs _ hrun t ht
          omega
      · have hn : s1.numVertices = 1 := by omega
        obtain ⟨mem', hm⟩ := C43_harmless o s1.vertices (by rw [hI1.len]; norm_num)
        unfold triangulateActual
        rw [hn, if_pos (by norm_num), htest, hinit, hm, bind_ok]
        have hlen : mem'.length = 67 := by
          have := (C41_indices exactTest (some o) 1 s1.vertices mem' [] (le_refl _) (by rw [hI1.len]; norm_num) hm).2.1
          rw [this, hI1.len]
        exact updateMatrices_total env _ hlen hI1.mats (by simp) (by simp)
    · have hrun1 : Align.run (g ++ [(env, .add (toPt T.orientation) (toPt (equatorialToHorizontal ref.ra ref.dec lat lst)))]) fresh
          = .ok (bs ++ [answer (ledger (g.map Prod.snd)) (.add (toPt T.orientation) (toPt (equatorialToHorizontal ref.ra ref.dec lat lst)))], s1) := by
        rw [run_append, hrun, bind_ok]
        simp only [Align.run, Align.step, h1, bind_ok, pure_ok]
      obtain ⟨s2, h2, -⟩ := C42_history _ (by
        intro e hmem
        rcases List.mem_append.1 hmem with h1 | h1
        · exact hgs e h1
        · rw [List.mem_singleton.1 h1]; exact he) _ s1 hrun1 (Generic.of_mem (stored_directions hI1 hL1) hg) env htest
      exact ⟨s2, h2⟩
  obtain ⟨s2, h2⟩ := htri
  refine ⟨{ T with alignment := s2 }, ?_⟩
  unfold addReferencePoint
  simp only [h1, h2, bind_ok, pure_ok]

/-- **C42** (telescope). A whole history succeeds when the directions known after each of its syncs are generic, or fewer than two. -/
theorem C42_history_succeeds (h : List (Env ℝ (Option (Circle ℝ)) × Op))
    (henv : ∀ e ∈ h, IsSort e.1.sort ∧ e.1.test = exactTest ∧ ∃ o, e.1.init = some o)
    (hg : ∀ p, p <+: h.map Prod.snd → (directions p).length ≤ 1 ∨ Generic (directions p)) : ∃ T, run h new = .ok T := by
  induction h using List.reverseRecOn with
  | nil => exact ⟨_, rfl⟩
  | append_singleton l e ih =>
    obtain ⟨T, hT⟩ := ih (fun e he => henv e (List.mem_append_left _ he))
      (fun p hp => hg p (hp.trans (by rw [List.map_append]; exact List.prefix_append _ _)))
    have happ : ∀ (l l' : List (Env ℝ (Option (Circle ℝ)) × Op)) (T : Tel), run (l ++ l') T = (run l T).bind (run l') := by
      intro l l'
      induction l with
      | nil => intro T; rfl
      | cons x xs ih =>
        intro T
        obtain ⟨env, op⟩ := x
        simp only [List.cons_append, run]
        cases hst : step env op T with
        | error e => rfl
        | ok T' => exact ih T'
    obtain ⟨env, op⟩ := e
    obtain ⟨e1, e2, o, e3⟩ := henv (env, op) (by simp)
    have hst : ∃ T', step env op T = .ok T' := by
      cases op with
      | orient o => exact ⟨_, rfl⟩
      | clear => exact ⟨_, rfl⟩
      | sync r lat t =>
        exact C42_sync_succeeds l (fun e he => (henv e (List.mem_append_left _ he)).1) T hT env e1 e2 o e3 r lat t
          (by have := hg _ (List.prefix_refl _); rwa [List.map_append] at this)
    obtain ⟨T', hT'⟩ := hst
    refine ⟨T', ?_⟩
    rw [happ, hT]
    show run [(env, op)] T = _
    simp only [run, hT', bind_ok]

/-- **C37** (many stars). With exact arithmetic, after every sync every known star that belongs together with two others is reported
where it was synced: the stars are in generic directions of which no three are nearly collinear. -/
theorem C37_many_stars (h : List (Env ℝ (Option (Circle ℝ)) × Op)) (hs : ∀ e ∈ h, IsSort e.1.sort) (T T' : Tel) (hr : run h new = .ok T)
    (env env' : Env ℝ (Option (Circle ℝ))) (he : IsSort env.sort) (htest : env.test = exactTest) (hrd : env'.rd = id)
    (ref : Equatorial ℝ) (lat lst : ℝ) (ha : addReferencePoint env T ref lat lst = .ok T')
    (hg : Generic (directions (h.map Prod.snd ++ [.sync ref lat lst]))) (hns : NoSliver (directions (h.map Prod.snd ++ [.sync ref lat lst])))
    (k : Star) (hk : k ∈ (knows (h.map Prod.snd ++ [.sync ref lat lst])).stars) (b c : Pt ℝ)
    (hb : Belong (directions (h.map Prod.snd ++ [.sync ref lat lst])) (toPt k.at') b c)
    (hd0 : -90 < k.ref.dec) (hd1 : k.ref.dec < 90) (d : ℝ) :
    ∃ ty, getCalibratedOrientation env' (setOrientation T' k.at') k.lat (k.lst + d) = .ok (ty, later k.ref d) := by
  obtain ⟨g, bs, s, hgs, hrun, ht, hL⟩ := after_sync h hs T T' hr env he ref lat lst ha
  have hI := (run_refines g hgs _ _ Inv.fresh bs s hrun).2
  rw [← ledger] at hI
  have hmem := stored_directions hI hL
  obtain ⟨v, hv, hvk⟩ := List.mem_map.1 ((hmem (toPt k.at')).1 (List.mem_map_of_mem (f := fun k : Star => toPt k.at') hk))
  obtain ⟨i, t, u1, u2, u3, hti, e1, e2, e3, hcw, huse, hcor⟩ := C42_star_has_own_triangle g hgs bs s T'.alignment hrun
    (Generic.of_mem hmem hg) (NoSliver.of_mem hmem hns) env env' htest hrd ht v hv b c (by rw [hvk]; exact Belong.of_mem hmem hb)
  rw [hvk] at huse hcor
  exact C37_corner h hs T T' hr env env' he ref lat lst ha k hk i t u1 u2 u3 hti e1 e2 e3 (ne_of_lt hcw) (Or.inl huse) hcor hd0 hd1 d

/-! ### a concrete case -/

/-- Three syncs in the directions (0, 0), (10, 0) and (4, 10), with any references, times and places. -/
def threeSyncs (r1 r2 r3 : Equatorial ℝ) (lat t1 t2 t3 : ℝ) : List Op :=
  [.sync r1 lat t1, .orient ⟨10, 0⟩, .sync r2 lat t2, .orient ⟨4, 10⟩, .sync r3 lat t3]

theorem threeSyncs_directions (r1 r2 r3 : Equatorial ℝ) (lat t1 t2 t3 : ℝ) :
    directions (threeSyncs r1 r2 r3 lat t1 t2 t3) = [⟨0, 0⟩, ⟨10, 0⟩, ⟨4, 10⟩] := by
  simp [directions, knows, threeSyncs, Knows.step, toPt]

/-- The hypotheses of `C42_history_succeeds` and `C37_many_stars` are met by these three syncs. -/
theorem threeSyncs_ok (env : Env ℝ (Option (Circle ℝ))) (he : IsSort env.sort) (htest : env.test = exactTest) (o : Circle ℝ)
    (hinit : env.init = some o) (r1 r2 r3 : Equatorial ℝ) (lat t1 t2 t3 : ℝ) :
    (∃ T, run ((threeSyncs r1 r2 r3 lat t1 t2 t3).map (fun op => (env, op))) new = .ok T) ∧
      Generic (directions (threeSyncs r1 r2 r3 lat t1 t2 t3)) ∧ NoSliver (directions (threeSyncs r1 r2 r3 lat t1 t2 t3)) ∧
      Belong (directions (threeSyncs r1 r2 r3 lat t1 t2 t3)) ⟨4, 10⟩ ⟨0, 0⟩ ⟨10, 0⟩ := by
  have hgen3 : Generic ([⟨0, 0⟩, ⟨10, 0⟩, ⟨4, 10⟩] : List (Pt ℝ)) := by
    refine ⟨?_, ⟨0, 0⟩, by simp, ⟨10, 0⟩, by simp, Or.inl (by norm_num)⟩
    intro a ha b hb
    simp only [List.mem_cons, List.not_mem_nil, or_false] at ha hb
    rcases ha with rfl | rfl | rfl <;> rcases hb with rfl | rfl | rfl <;> norm_num
  have hgen2 : Generic ([⟨0, 0⟩, ⟨10, 0⟩] : List (Pt ℝ)) := by
    refine ⟨?_, ⟨0, 0⟩, by simp, ⟨10, 0⟩, by simp, Or.inl (by norm_num)⟩
    intro a ha b hb
    simp only [List.mem_cons, List.not_mem_nil, or_false] at ha hb
    rcases ha with rfl | rfl <;> rcases hb with rfl | rfl <;> norm_num
  refine ⟨?_, ?_, ?_, ?_⟩
  · refine C42_history_succeeds _ ?_ ?_
    · intro e hmem
      obtain ⟨op, _, rfl⟩ := List.mem_map.1 hmem
      exact ⟨he, htest, o, hinit⟩
    · intro p hp
      rw [List.map_map] at hp
      simp only [Function.comp_def, List.map_id'] at hp
      simp only [threeSyncs, List.prefix_cons_iff, List.prefix_nil] at hp
      rcases hp with rfl | ⟨p, rfl, rfl | ⟨p, rfl, rfl | ⟨p, rfl, rfl | ⟨p, rfl, rfl | ⟨p, rfl, rfl⟩⟩⟩⟩⟩
      · left; simp [directions, knows]
      · left; simp [directions, knows, Knows.step]
      · left; simp [directions, knows, Knows.step]
      · right; simpa [directions, knows, Knows.step, toPt] using hgen2
      · right; simpa [directions, knows, Knows.step, toPt] using hgen2
      · right; simpa [directions, knows, Knows.step, toPt] using hgen3
  · rw [threeSyncs_directions]; exact hgen3
  · rw [threeSyncs_directions]
    intro a ha b hb c hc
    simp only [List.mem_cons, List.not_mem_nil, or_false] at ha hb hc
    rcases ha with rfl | rfl | rfl <;> rcases hb with rfl | rfl | rfl <;> rcases hc with rfl | rfl | rfl <;> norm_num [orient]
  · rw [threeSyncs_directions]
    refine ⟨by simp, by simp, by simp, by norm_num [orient], ⟨5, 38 / 10⟩, ?_, ?_, ⟨0, 0⟩, by simp, ⟨10, 0⟩, by simp, Or.inl ?_⟩
    · constructor <;> norm_num [dist2]
    · intro q hq h1 h2 h3
      simp only [List.mem_cons, List.not_mem_nil, or_false] at hq
      rcases hq with rfl | rfl | rfl
      · exact absurd rfl h2
      · exact absurd rfl h3
      · exact absurd rfl h1
    · norm_num [dist2]

end Verif.Telescope
