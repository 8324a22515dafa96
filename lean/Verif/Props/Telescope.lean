import Verif.Lemmas.Telescope
import Verif.Props.AlignStore

/-!
# C37: a synced star is reported where it was synced

Setting of all theorems: an arbitrary history `h` of a new telescope (`run h new = .ok T`), then a sync that ends in `T'`;
afterwards the telescope points in some direction and is asked for its position with the latitude of the sync, `d` degrees
of sidereal time later (`d = 0`: at once).  `later ref d` is the synced position, turned with the sky.
-/

namespace Verif.Telescope

open Verif.Align Verif.Coord

variable {σ : Type}

/-- `run_rep` for a history from a new telescope followed by one sync. -/
theorem after_sync (h : List (Env ℝ σ × Op)) (hs : ∀ e ∈ h, IsSort e.1.sort) (T T' : Tel) (hr : run h new = .ok T)
    (env : Env ℝ σ) (he : IsSort env.sort) (ref : Equatorial ℝ) (lat lst : ℝ)
    (ha : addReferencePoint env T ref lat lst = .ok T') :
    ∃ (g : List (Env ℝ σ × Align.Op ℝ)) (bs : List Bool) (s : State ℝ), (∀ e ∈ g, IsSort e.1.sort) ∧
      Align.run g fresh = .ok (bs, s) ∧ triangulateActual env s = .ok T'.alignment ∧
      ledger (g.map Prod.snd) = (knows (h.map Prod.snd ++ [.sync ref lat lst])).stars.map Star.pair := by
  have hR := run_rep h hs new T _ Rep.new hr
  obtain ⟨g, bs, s, hg, hrun, ht, _, hL⟩ := sync_hist env he T T' _ hR ref lat lst ha
  refine ⟨g, bs, s, hg, hrun, ht, ?_⟩
  rw [hL, knows, List.foldl_append]
  rfl

/-- **C37** (one star). If the synced star is the only known one, the telescope, pointed where it was at the sync, reports the
synced position. -/
theorem C37_one_star (h : List (Env ℝ σ × Op)) (hs : ∀ e ∈ h, IsSort e.1.sort) (T T' : Tel) (hr : run h new = .ok T)
    (env env' : Env ℝ σ) (he : IsSort env.sort) (ref : Equatorial ℝ) (lat lst : ℝ)
    (ha : addReferencePoint env T ref lat lst = .ok T') (k : Star)
    (hk : (knows (h.map Prod.snd ++ [.sync ref lat lst])).stars = [k]) (h0 : -90 < k.ref.dec) (h1 : k.ref.dec < 90) (d : ℝ) :
    getCalibratedOrientation env' (setOrientation T' k.at') k.lat (k.lst + d) = .ok (.point, later k.ref d) := by
  obtain ⟨g, bs, s, hg, hrun, ht, hL⟩ := after_sync h hs T T' hr env he ref lat lst ha
  rw [hk] at hL
  obtain ⟨_, hcal⟩ := C34_translation g hg bs s T'.alignment hrun env env' ht _ _ hL
  have hI := (run_refines g hg _ _ Inv.fresh bs s hrun).2
  rw [← ledger, hL] at hI
  have hI' := (triangulateActual_frame env s _ _ hI ht).1
  have hno := no_triangles env s _ ht (by rw [hI.num]; simp) (by rw [hI.num]; simp)
  have hty : getTransformationType env' T'.alignment (toPt k.at') = .ok .point := by
    unfold getTransformationType; rw [hno, hI'.num]; simp
  unfold getCalibratedOrientation setOrientation
  simp only [hty, bind_ok, hcal, pure_ok, ofPt]
  rw [show (toPt (equatorialToHorizontal k.ref.ra k.ref.dec k.lat k.lst)).x = (equatorialToHorizontal k.ref.ra k.ref.dec k.lat k.lst).az from rfl,
    show (toPt (equatorialToHorizontal k.ref.ra k.ref.dec k.lat k.lst)).y = (equatorialToHorizontal k.ref.ra k.ref.dec k.lat k.lst).alt from rfl,
    reported_of _ _ _ _ h0 h1]

/-- **C37** (two stars). If exactly two stars are known, the telescope reports each of them where it was synced. -/
theorem C37_two_stars (h : List (Env ℝ σ × Op)) (hs : ∀ e ∈ h, IsSort e.1.sort) (T T' : Tel) (hr : run h new = .ok T)
    (env env' : Env ℝ σ) (he : IsSort env.sort) (ref : Equatorial ℝ) (lat lst : ℝ)
    (ha : addReferencePoint env T ref lat lst = .ok T') (k1 k2 k : Star)
    (hk : (knows (h.map Prod.snd ++ [.sync ref lat lst])).stars = [k1, k2]) (hmem : k = k1 ∨ k = k2)
    (h0 : -90 < k.ref.dec) (h1 : k.ref.dec < 90) (d : ℝ) :
    getCalibratedOrientation env' (setOrientation T' k.at') k.lat (k.lst + d) = .ok (.line, later k.ref d) := by
  obtain ⟨g, bs, s, hg, hrun, ht, hL⟩ := after_sync h hs T T' hr env he ref lat lst ha
  rw [hk] at hL
  have hcal : Align.getCalibratedOrientation env' T'.alignment (toPt k.at')
      = .ok ⟨Helper.fMod (equatorialToHorizontal k.ref.ra k.ref.dec k.lat k.lst).az 360,
        (equatorialToHorizontal k.ref.ra k.ref.dec k.lat k.lst).alt⟩ := by
    obtain ⟨c1, c2⟩ := C35_two_points g hg bs s T'.alignment hrun env env' ht _ _ _ _ hL
    rcases hmem with rfl | rfl
    · exact c1
    · exact c2
  have hI := (run_refines g hg _ _ Inv.fresh bs s hrun).2
  rw [← ledger, hL] at hI
  have hI' := (triangulateActual_frame env s _ _ hI ht).1
  have hno := no_triangles env s _ ht (by rw [hI.num]; simp) (by rw [hI.num]; simp)
  have hty : getTransformationType env' T'.alignment (toPt k.at') = .ok .line := by
    unfold getTransformationType; rw [hno, hI'.num]; simp
  unfold getCalibratedOrientation setOrientation
  simp only [hty, bind_ok, hcal, pure_ok, ofPt, reported_of _ _ _ _ h0 h1]

theorem tris_below (env : Env ℝ σ) (s s' : State ℝ) (h : triangulateActual env s = .ok s') (hpos : 0 < s.numVertices) :
    ∀ t ∈ s'.triangles, t.p1 < s'.numVertices ∧ t.p2 < s'.numVertices ∧ t.p3 < s'.numVertices := by
  unfold triangulateActual at h
  rw [if_pos hpos] at h
  obtain ⟨⟨mem', ts⟩, hr, h⟩ := bind_eq_ok.1 h
  obtain ⟨_, f2, f3, _⟩ := updateMatrices_frame env _ _ h
  intro t ht
  rw [f3] at ht
  have := triangulate_indices env.test env.init _ _ mem' ts hpos hr t ht
  rw [f2]
  exact ⟨this.1, this.2.1, this.2.2.1⟩

theorem tris_distinct (env : Env ℝ σ) (s s' : State ℝ) (h : triangulateActual env s = .ok s') (hpos : 0 < s.numVertices) :
    ∀ t ∈ s'.triangles, t.p1 ≠ t.p2 ∧ t.p2 ≠ t.p3 ∧ t.p3 ≠ t.p1 := by
  unfold triangulateActual at h
  rw [if_pos hpos] at h
  obtain ⟨⟨mem', ts⟩, hr, h⟩ := bind_eq_ok.1 h
  obtain ⟨_, f2, f3, _⟩ := updateMatrices_frame env _ _ h
  intro t ht
  rw [f3] at ht
  exact (triangulate_indices env.test env.init _ _ mem' ts hpos hr t ht).2.2.2

/-- **C37** (three and more stars). Any known star is reported where it was synced, provided the triangle the alignment uses
for its direction has the star as a corner and is not degenerate. -/
theorem C37_corner (h : List (Env ℝ σ × Op)) (hs : ∀ e ∈ h, IsSort e.1.sort) (T T' : Tel) (hr : run h new = .ok T)
    (env env' : Env ℝ σ) (he : IsSort env.sort) (ref : Equatorial ℝ) (lat lst : ℝ)
    (ha : addReferencePoint env T ref lat lst = .ok T') (k : Star)
    (hk : k ∈ (knows (h.map Prod.snd ++ [.sync ref lat lst])).stars)
    (i : Nat) (t : Tri) (a b c : VertexPair ℝ) (hi : T'.alignment.triangles[i]? = some t)
    (h1 : T'.alignment.vertices[t.p1]? = some a) (h2 : T'.alignment.vertices[t.p2]? = some b)
    (h3 : T'.alignment.vertices[t.p3]? = some c) (hnc : orient a.actual b.actual c.actual ≠ 0)
    (huse : UsesIn env' T'.alignment (toPt k.at') i ∨ UsesOut env' T'.alignment (toPt k.at') i)
    (hcorner : toPt k.at' = a.actual ∨ toPt k.at' = b.actual ∨ toPt k.at' = c.actual)
    (hd0 : -90 < k.ref.dec) (hd1 : k.ref.dec < 90) (d : ℝ) :
    ∃ ty, getCalibratedOrientation env' (setOrientation T' k.at') k.lat (k.lst + d) = .ok (ty, later k.ref d) := by
  obtain ⟨g, bs, s, hg, hrun, ht, hL⟩ := after_sync h hs T T' hr env he ref lat lst ha
  have hI := (run_refines g hg _ _ Inv.fresh bs s hrun).2
  rw [← ledger] at hI
  have hI' := (triangulateActual_frame env s _ _ hI ht).1
  have hT' := triangulateActual_trisIn env s _ _ hI (run_trisIn g hg _ _ Inv.fresh trisIn_fresh bs s hrun) ht
  obtain ⟨f, _, f1, f2, f3, _, hcal⟩ := C36_affine g hg bs s _ hrun env env' ht (toPt k.at') i t a b c hi h1 h2 h3 hnc huse
  obtain ⟨ty, _, _, hty, _⟩ := C39_type_matches g hg bs s _ hrun env env' ht (toPt k.at')
  -- a vertex in use with the actual position of the star stands for the star
  have hstand : ∀ (j : Nat) (w : VertexPair ℝ), T'.alignment.vertices[j]? = some w → w.actual = toPt k.at' →
      j < T'.alignment.numVertices → StandsFor w k.pair := by
    intro j w hw hwa hj
    have hmemL : k.pair ∈ ledger (g.map Prod.snd) := by rw [hL]; exact List.mem_map_of_mem hk
    obtain ⟨v, hv, hvs⟩ := hI'.stores.mem hmemL
    have hwu : w ∈ T'.alignment.used := by
      unfold State.used
      rw [List.mem_take_iff_getElem]
      obtain ⟨hlt, hval⟩ := List.getElem?_eq_some_iff.1 hw
      exact ⟨j, by omega, hval⟩
    have hnd : (T'.alignment.used.map VertexPair.actual).Nodup := hI'.stores.actual.nodup_iff.2 hI'.nodup
    have : v = w := List.inj_on_of_nodup_map hnd hv hwu (by rw [hvs.1, hwa]; rfl)
    rw [← this]; exact hvs
  have hfx : ∀ (j : Nat) (w : VertexPair ℝ), T'.alignment.vertices[j]? = some w → w.actual = toPt k.at' →
      j < T'.alignment.numVertices → f w.actual = w.reference →
      Align.getCalibratedOrientation env' T'.alignment (toPt k.at')
        = .ok ⟨Helper.fMod (equatorialToHorizontal k.ref.ra k.ref.dec k.lat k.lst).az 360,
          (equatorialToHorizontal k.ref.ra k.ref.dec k.lat k.lst).alt⟩ := by
    intro j w hw hwa hj hfw
    obtain ⟨_, e2, e3⟩ := hstand j w hw hwa hj
    rw [hcal, report, ← hwa, hfw, e2]
    have := fMod_turn _ _ 0 e3
    rw [add_zero, add_zero] at this
    rw [this]
    rfl
  have hcal' : Align.getCalibratedOrientation env' T'.alignment (toPt k.at')
        = .ok ⟨Helper.fMod (equatorialToHorizontal k.ref.ra k.ref.dec k.lat k.lst).az 360,
          (equatorialToHorizontal k.ref.ra k.ref.dec k.lat k.lst).alt⟩ := by
    have hpos : 0 < s.numVertices := by
      rw [hI.num, hL, List.length_map]
      exact List.length_pos_of_mem hk
    obtain ⟨i1, i2, i3⟩ := tris_below env s _ ht hpos t (List.mem_of_getElem? hi)
    rcases hcorner with e | e | e
    · exact hfx _ a h1 e.symm i1 f1
    · exact hfx _ b h2 e.symm i2 f2
    · exact hfx _ c h3 e.symm i3 f3
  refine ⟨ty, ?_⟩
  unfold getCalibratedOrientation setOrientation
  simp only [hty, bind_ok, hcal', pure_ok, ofPt, reported_of _ _ _ _ hd0 hd1]

theorem orient_sq_perm {u0 u1 u2 : VertexPair ℝ} {k1 k2 k3 : Star}
    (h : ([u0, u1, u2].map VertexPair.actual).Perm ([k1, k2, k3].map (fun k => toPt k.at'))) :
    orient u0.actual u1.actual u2.actual ^ 2 = orient (toPt k1.at') (toPt k2.at') (toPt k3.at') ^ 2 := by
  have sx := (h.map (fun p => p.x)).sum_eq
  have sy := (h.map (fun p => p.y)).sum_eq
  have sxx := (h.map (fun p => p.x * p.x)).sum_eq
  have sxy := (h.map (fun p => p.x * p.y)).sum_eq
  have syy := (h.map (fun p => p.y * p.y)).sum_eq
  simp only [List.map_cons, List.map_nil, List.sum_cons, List.sum_nil, add_zero] at sx sy sxx sxy syy
  have gram : ∀ a b c : Pt ℝ, orient a b c ^ 2 =
      3 * ((a.x * a.x + (b.x * b.x + c.x * c.x)) * (a.y * a.y + (b.y * b.y + c.y * c.y)) - (a.x * a.y + (b.x * b.y + c.x * c.y)) ^ 2)
      - (a.x + (b.x + c.x)) * ((a.x + (b.x + c.x)) * (a.y * a.y + (b.y * b.y + c.y * c.y)) - (a.x * a.y + (b.x * b.y + c.x * c.y)) * (a.y + (b.y + c.y)))
      + (a.y + (b.y + c.y)) * ((a.x + (b.x + c.x)) * (a.x * a.y + (b.x * b.y + c.x * c.y)) - (a.x * a.x + (b.x * b.x + c.x * c.x)) * (a.y + (b.y + c.y))) := by
    intro a b c; unfold orient; ring
  rw [gram, gram, sx, sy, sxx, sxy, syy]

/-- **C37** (three stars). If exactly three stars are known, their directions are not collinear and the triangulation did find a
triangle, each of the three is reported where it was synced, whatever the geometric tests said. -/
theorem C37_three_stars (h : List (Env ℝ σ × Op)) (hs : ∀ e ∈ h, IsSort e.1.sort) (T T' : Tel) (hr : run h new = .ok T)
    (env env' : Env ℝ σ) (he : IsSort env.sort) (ref : Equatorial ℝ) (lat lst : ℝ)
    (ha : addReferencePoint env T ref lat lst = .ok T') (k1 k2 k3 k : Star)
    (hk : (knows (h.map Prod.snd ++ [.sync ref lat lst])).stars = [k1, k2, k3])
    (hnc : orient (toPt k1.at') (toPt k2.at') (toPt k3.at') ≠ 0) (htri : T'.alignment.triangles ≠ [])
    (hmem : k ∈ [k1, k2, k3]) (hd0 : -90 < k.ref.dec) (hd1 : k.ref.dec < 90) (d : ℝ) :
    ∃ ty, getCalibratedOrientation env' (setOrientation T' k.at') k.lat (k.lst + d) = .ok (ty, later k.ref d) := by
  obtain ⟨g, bs, s, hg, hrun, ht, hL⟩ := after_sync h hs T T' hr env he ref lat lst ha
  rw [hk] at hL
  have hI := (run_refines g hg _ _ Inv.fresh bs s hrun).2
  rw [← ledger] at hI
  have hI' := (triangulateActual_frame env s _ _ hI ht).1
  have hT' := triangulateActual_trisIn env s _ _ hI (run_trisIn g hg _ _ Inv.fresh trisIn_fresh bs s hrun) ht
  have hn : s.numVertices = 3 := by rw [hI.num, hL]; rfl
  have hn' : T'.alignment.numVertices = 3 := by rw [hI'.num, hL]; rfl
  obtain ⟨i, huse, hi⟩ : ∃ i, (UsesIn env' T'.alignment (toPt k.at') i ∨ UsesOut env' T'.alignment (toPt k.at') i) ∧
      i < T'.alignment.triangles.length := by
    rcases tri_choice env' T'.alignment (toPt k.at') hI'.len hT' htri with ⟨j, hj, hl, _⟩ | ⟨j, hj, hl, _⟩
    · exact ⟨j, .inl hj, hl⟩
    · exact ⟨j, .inr hj, hl⟩
  set t := T'.alignment.triangles[i] with htdef
  have hti : T'.alignment.triangles[i]? = some t := List.getElem?_eq_getElem hi
  have htm : t ∈ T'.alignment.triangles := List.getElem_mem hi
  obtain ⟨a, b, c, e1, e2, e3⟩ := corners_exist hI'.len hT' htm
  obtain ⟨i1, i2, i3⟩ := tris_below env s _ ht (by omega) t htm
  obtain ⟨d1, d2, d3⟩ := tris_distinct env s _ ht (by omega) t htm
  rw [hn'] at i1 i2 i3
  -- the three corners are the three stored points in some order
  have hused : T'.alignment.used.length = 3 := by rw [hI'.stores.length, hL]; rfl
  obtain ⟨u0, u1, u2, hu⟩ := List.length_eq_three.1 hused
  have hget : ∀ j, j < 3 → T'.alignment.vertices[j]? = T'.alignment.used[j]? := by
    intro j hj
    unfold State.used
    rw [List.getElem?_take, if_pos (by omega)]
  rw [hget _ i1, hu] at e1
  rw [hget _ i2, hu] at e2
  rw [hget _ i3, hu] at e3
  have hperm : ([u0, u1, u2].map VertexPair.actual).Perm ([k1, k2, k3].map (fun k => toPt k.at')) := by
    have := hI'.stores.actual
    rw [hu, hL] at this
    simpa [Star.pair] using this
  have hall : toPt k.at' = a.actual ∨ toPt k.at' = b.actual ∨ toPt k.at' = c.actual := by
    have hm : toPt k.at' ∈ [u0, u1, u2].map VertexPair.actual :=
      hperm.mem_iff.2 (List.mem_map_of_mem (f := fun k : Star => toPt k.at') hmem)
    generalize t.p1 = p at *
    generalize t.p2 = q at *
    generalize t.p3 = r at *
    simp only [List.map_cons, List.map_nil, List.mem_cons, List.not_mem_nil, or_false] at hm
    interval_cases p <;> interval_cases q <;> interval_cases r <;> simp_all <;> grind
  have hnc' : orient a.actual b.actual c.actual ≠ 0 := by
    have e4 : orient a.actual b.actual c.actual ^ 2 = orient u0.actual u1.actual u2.actual ^ 2 := by
      generalize t.p1 = p at *
      generalize t.p2 = q at *
      generalize t.p3 = r at *
      interval_cases p <;> interval_cases q <;> interval_cases r <;> simp at d1 d2 d3 e1 e2 e3 <;>
        first | (rw [e1, e2, e3]; done) | (rw [e1, e2, e3]; unfold orient; ring)
    rw [orient_sq_perm hperm] at e4
    intro h0
    rw [h0] at e4
    exact hnc (pow_eq_zero_iff (n := 2) (by norm_num) |>.1 (by linarith))
  refine C37_corner h hs T T' hr env env' he ref lat lst ha k (by rw [hk]; exact hmem) i t a b c hti ?_ ?_ ?_ hnc' huse hall hd0 hd1 d
  · rw [hget _ i1, hu]; exact e1
  · rw [hget _ i2, hu]; exact e2
  · rw [hget _ i3, hu]; exact e3

/-- **C37** (no star). Before the first sync, and after a reset, the telescope reports its raw orientation. -/
theorem C37_uncalibrated (T : Tel) (env : Env ℝ σ) (o : Horizontal) (lat t : ℝ) (hT : T = new ∨ ∃ T0, T = clear T0) :
    getCalibratedOrientation env (setOrientation T o) lat t = .ok (.none, horizontalToEquatorial o.az o.alt lat t) := by
  have hcal : ∀ s : State ℝ, Align.getCalibratedOrientation env (clearAll s) (toPt o) = .ok ⟨Helper.fMod o.az 360, o.alt⟩ :=
    fun s => (C40_identity s env (toPt o)).1
  have hty : ∀ s : State ℝ, getTransformationType env (clearAll s) (toPt o) = .ok .none := fun s => (C40_identity s env (toPt o)).2.1
  have hs : ∃ s, T.alignment = clearAll s := by
    rcases hT with rfl | ⟨T0, rfl⟩
    · exact ⟨fresh, rfl⟩
    · exact ⟨T0.alignment, rfl⟩
  obtain ⟨s, hs⟩ := hs
  unfold getCalibratedOrientation setOrientation
  simp only [hs, hty, hcal, bind_ok, pure_ok, ofPt]
  obtain ⟨_, _, k, hk⟩ := Helper.C23_fmod_range o.az (360 : ℝ) (by norm_num)
  have e : Helper.fMod o.az 360 = o.az + ((-k : ℤ) : ℝ) * 360 := by push_cast; linarith
  have ht := C30_turns_h2e o.az o.alt lat t (-k) 0 0 0
  simp only [Int.cast_zero, zero_mul, add_zero] at ht
  rw [e, ht]

/-- **C37** (finding). A sync at an orientation that was synced before is ignored: whatever position is given, the telescope
ends in the same state, so the old position stays. -/
theorem C37_resync_ignored (h : List (Env ℝ σ × Op)) (hs : ∀ e ∈ h, IsSort e.1.sort) (T : Tel) (hr : run h new = .ok T)
    (env : Env ℝ σ) (hk : T.orientation ∈ (knows (h.map Prod.snd)).stars.map Star.at') (ref ref' : Equatorial ℝ)
    (lat lat' lst lst' : ℝ) :
    addReferencePoint env T ref lat lst = addReferencePoint env T ref' lat' lst' ∧
      addReferencePoint env T ref lat lst = (triangulateActual env T.alignment).map fun s => { T with alignment := s } := by
  have hR := run_rep h hs new T _ Rep.new hr
  obtain ⟨hnow, g, bs, hg, hrun, hL⟩ := hR
  have hI := (run_refines g hg _ _ Inv.fresh bs _ hrun).2
  rw [← ledger, hL] at hI
  have hd : ∃ v ∈ T.alignment.used, v.actual = toPt T.orientation := by
    obtain ⟨k, hk1, hk2⟩ := List.mem_map.1 hk
    obtain ⟨v, hv, hvs⟩ := hI.stores.mem (List.mem_map_of_mem (f := Star.pair) hk1)
    exact ⟨v, hv, by rw [hvs.1, ← hk2]; rfl⟩
  have key : ∀ (r : Equatorial ℝ) (la ls : ℝ), addReferencePoint env T r la ls
      = (triangulateActual env T.alignment).map fun s => { T with alignment := s } := by
    intro r la ls
    unfold addReferencePoint
    simp only [C31_duplicate_rejected _ env _ _ hd, bind_ok]
    cases triangulateActual env T.alignment <;> rfl
  exact ⟨by rw [key, key], key _ _ _⟩

/-- **C37** (finding, in exact arithmetic). With three collinear stars there is no triangle and only the first two count: the
third is not reported where it was synced ((20, 0) was synced to (20, 5), reported is (20, 0)). -/
theorem C37_collinear_third_ignored :
    demoQuery (demoSync ⟨0, 0⟩ ⟨0, 0⟩ ++ demoSync ⟨10, 0⟩ ⟨10, 0⟩ ++ demoSync ⟨20, 0⟩ ⟨20, 5⟩) ⟨20, 0⟩ = .ok (.line, ⟨20, 0⟩) := by
  decide +kernel

/-- **C37** (finding, in exact arithmetic). Syncing again next to a known star has no effect there: the tolerance of `isInTriangle`
lets the old triangle win, so that the star synced at (-1e-6, -2e-6) to (1, 1) is reported next to (0, 0), where the old star is. -/
theorem C37_tolerance_wrong_triangle :
    demoQuery (demoSync ⟨0, 0⟩ ⟨0, 0⟩ ++ demoSync ⟨10, 0⟩ ⟨10, 0⟩ ++ demoSync ⟨5, 10⟩ ⟨5, 10⟩ ++
        demoSync ⟨-1 / 1000000, -2 / 1000000⟩ ⟨1, 1⟩) ⟨-1 / 1000000, -2 / 1000000⟩
      = .ok (.triangleIn, ⟨359999999 / 1000000, -2 / 1000000⟩) := by
  decide +kernel

/-- The hypotheses of `C37_one_star` can be met: a first sync with the code's own circumcircle test succeeds, whatever `xc` and `r`
contained (cf. C43). -/
theorem first_sync_succeeds (o : Circle ℝ) (sort : List (VertexPair ℝ) → List (VertexPair ℝ)) (hsort : IsSort sort) (ref : Equatorial ℝ) (lat lst : ℝ) :
    ∃ T', addReferencePoint ⟨exactTest, some o, sort, fun _ => 0, id⟩ new ref lat lst = .ok T' ∧
      (knows [.sync ref lat lst]).stars = [⟨⟨0, 0⟩, ref, lat, lst⟩] := by
  set env : Env ℝ (Option (Circle ℝ)) := ⟨exactTest, some o, sort, fun _ => 0, id⟩
  obtain ⟨s1, h1, hI, _⟩ := add_refines env hsort fresh [] Inv.fresh ⟨0, 0⟩ (toPt (equatorialToHorizontal ref.ra ref.dec lat lst))
  have hn : s1.numVertices = 1 := hI.num
  obtain ⟨mem', hm⟩ := C43_harmless o s1.vertices (by rw [hI.len]; norm_num)
  have htri : ∃ s2, triangulateActual env s1 = .ok s2 := by
    unfold triangulateActual
    rw [hn, if_pos (by norm_num)]
    rw [show triangulate env.test env.init 1 s1.vertices = _ from hm, bind_ok]
    have hlen : mem'.length = 67 := by
      have := (C41_indices exactTest (some o) 1 s1.vertices mem' [] (le_refl _) (by rw [hI.len]; norm_num) hm).2.1
      rw [this, hI.len]
    have hv : vertex ⟨mem', 1, [], s1.matrices⟩ 0 = .ok mem'[0] := by
      unfold vertex
      simp only
      rw [List.getElem?_eq_getElem]
    unfold updateMatrices
    simp only
    rw [if_pos trivial, hv, bind_ok]
    unfold setMatrix
    rw [if_pos (by simp only; rw [hI.mats]; norm_num)]
    exact ⟨_, rfl⟩
  obtain ⟨s2, h2⟩ := htri
  refine ⟨⟨s2, ⟨0, 0⟩⟩, ?_, by simp [knows, Knows.step]⟩
  unfold addReferencePoint
  simp only [new]
  rw [show addVertexPair env fresh (toPt ⟨0, 0⟩) _ = _ from h1, bind_ok]
  simp only [h2, bind_ok, pure_ok]

end Verif.Telescope
