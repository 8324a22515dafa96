import Verif.Lemmas.Delaunay

/-!
# What the triangulation delivers, in any arithmetic whose tests answer right
-/

namespace Verif.Align

variable {K : Type} [Field K] [LinearOrder K] [IsStrictOrderedRing K]

set_option linter.unusedSectionVars false

/-- What the delivered triangles know about the mesh. -/
structure Delivered (nv : Nat) (mem : List (VertexPair K)) (ts : List Tri) (P : Nat → Pt K) (all : List Tri) : Prop where
  cw : (superTri nv).CW P
  mesh : Mesh P nv nv all
  perm : ts.Perm (all.filter (fun t => t.p1 < nv ∧ t.p2 < nv ∧ t.p3 < nv))
  points : ∀ j < nv, mem[j]?.map VertexPair.actual = some (P j)
  side : ∀ x y z, (superTri nv).Rot x y z → ∀ j, Vtx nv nv j → orient (P x) (P y) (P j) ≤ 0
  box : ∃ x0 y0 d : K, (P nv).x ≤ x0 - 19 * d ∧ y0 + 19 * d ≤ (P (nv + 1)).y ∧ x0 + 19 * d ≤ (P (nv + 2)).x ∧ 0 < d ∧
        (∀ j < nv, |(P j).x - x0| ≤ d / 2 ∧ |(P j).y - y0| ≤ d / 2) ∧
        (∀ j < nv, ∀ k < nv, |(P j).x - (P k).x| ≤ d ∧ |(P j).y - (P k).y| ≤ d)

theorem delivered_corners {nv : Nat} {mem : List (VertexPair K)} {P : Nat → Pt K} (hP : ∀ j < nv, mem[j]?.map VertexPair.actual = some (P j))
    {t : Tri} (ht : t.p1 < nv ∧ t.p2 < nv ∧ t.p3 < nv) {a b c : Pt K} (h : CornersAre mem t a b c) : a = P t.p1 ∧ b = P t.p2 ∧ c = P t.p3 := by
  obtain ⟨h1, h2, h3⟩ := h
  rw [hP _ ht.1] at h1
  rw [hP _ ht.2.1] at h2
  rw [hP _ ht.2.2] at h3
  exact ⟨(Option.some.inj h1).symm, (Option.some.inj h2).symm, (Option.some.inj h3).symm⟩

theorem Delivered.delaunay {nv : Nat} {mem : List (VertexPair K)} {ts : List Tri} {P : Nat → Pt K} {all : List Tri} (D : Delivered nv mem ts P all)
    (hmem : nv + 3 ≤ mem.length) {t : Tri} (ht : t ∈ ts) {a b c : Pt K} (hc : CornersAre mem t a b c) :
    orient a b c < 0 ∧ ∃ m, Circumcentre m a b c ∧ ∀ v ∈ mem.take nv, dist2 m a ≤ dist2 m v.actual := by
  obtain ⟨hs, hm, hp, hP, -, -⟩ := D
  obtain ⟨htall, htr⟩ := List.mem_filter.1 (hp.subset ht)
  rw [decide_eq_true_eq] at htr
  obtain ⟨rfl, rfl, rfl⟩ := delivered_corners hP htr hc
  have hcw := hm.cw t htall
  refine ⟨hcw, ?_⟩
  obtain ⟨m, hmc⟩ := exists_centre (ne_of_lt hcw)
  refine ⟨m, hmc, ?_⟩
  intro v hv
  obtain ⟨j, hj, rfl⟩ := List.mem_take_iff_getElem.1 hv
  have hjn : j < nv := by omega
  have e := hP j hjn
  rw [List.getElem?_eq_getElem (by omega)] at e
  have e' : mem[j].actual = P j := Option.some.inj e
  have := hm.empty t htall _ (circle_of_centre hmc) j (Or.inl hjn)
  rw [e']
  unfold Circle.pow at this
  simp only at this
  unfold dist2 at this ⊢
  linarith

theorem Delivered.disjoint {nv : Nat} {mem : List (VertexPair K)} {ts : List Tri} {P : Nat → Pt K} {all : List Tri} (D : Delivered nv mem ts P all) :
    ts.Pairwise (fun t u => ∀ a b c a' b' c' q, CornersAre mem t a b c → CornersAre mem u a' b' c' →
      ¬ (StrictlyIn q a b c ∧ StrictlyIn q a' b' c')) := by
  obtain ⟨hs, hm, hp, hP, -, -⟩ := D
  have hd := (disjoint_of hs hm.cw hm.chain).sublist (List.filter_sublist (p := fun t => decide (t.p1 < nv ∧ t.p2 < nv ∧ t.p3 < nv)))
  have hd' := hp.symm.pairwise hd (fun h q hq => h q ⟨hq.2, hq.1⟩)
  have hmem' : ts.Pairwise (fun t u => t ∈ ts ∧ u ∈ ts) := by
    rw [List.pairwise_iff_forall_sublist]
    intro t u h
    exact ⟨h.subset (by simp), h.subset (by simp)⟩
  refine (hd'.and hmem').imp ?_
  rintro t u ⟨hno, ht, hu⟩ a b c a' b' c' q hc hc' ⟨h1, h2⟩
  obtain ⟨htall, htr⟩ := List.mem_filter.1 (hp.subset ht)
  obtain ⟨huall, hur⟩ := List.mem_filter.1 (hp.subset hu)
  rw [decide_eq_true_eq] at htr hur
  obtain ⟨rfl, rfl, rfl⟩ := delivered_corners hP htr hc
  obtain ⟨rfl, rfl, rfl⟩ := delivered_corners hP hur hc'
  exact hno q ⟨strictlyIn_inside (hm.cw t htall) h1, strictlyIn_inside (hm.cw u huall) h2⟩

theorem Delivered.count {nv : Nat} {mem : List (VertexPair K)} {ts : List Tri} {P : Nat → Pt K} {all : List Tri} (D : Delivered nv mem ts P all)
    (hmem : nv + 3 ≤ mem.length)
    (htwo : ∃ a ∈ (mem.take nv).map VertexPair.actual, ∃ b ∈ (mem.take nv).map VertexPair.actual, a ≠ b) : ts.length + 4 ≤ 2 * nv := by
  obtain ⟨hs, hm, hp, hP, -, -⟩ := D
  have hpt : ∀ a ∈ (mem.take nv).map VertexPair.actual, ∃ j < nv, a = P j := by
    intro a ha
    obtain ⟨v, hv, rfl⟩ := List.mem_map.1 ha
    obtain ⟨j, hj, rfl⟩ := List.mem_take_iff_getElem.1 hv
    have e := hP j (by omega)
    rw [List.getElem?_eq_getElem (by omega)] at e
    exact ⟨j, by omega, Option.some.inj e⟩
  obtain ⟨a, ha, b, hb, hab⟩ := htwo
  obtain ⟨ja, hja, rfl⟩ := hpt a ha
  obtain ⟨jb, hjb, rfl⟩ := hpt b hb
  have hne : P ja ≠ P jb := hab
  have hmin : ∀ (R : Pt K → Pt K → Prop), (∀ x y z, R x y → R y z → R x z) → (∀ x, ¬ R x x) → ∀ n, 0 < n → ∃ j < n, ∀ k < n, ¬ R (P k) (P j) := by
    intro R htr hirr n
    induction n with
    | zero => intro h; omega
    | succ n ih =>
      intro _
      rcases Nat.eq_zero_or_pos n with rfl | hn
      · refine ⟨0, by omega, fun k hk => ?_⟩
        have : k = 0 := by omega
        subst this
        exact hirr _
      · obtain ⟨j, hj, hjm⟩ := ih hn
        by_cases hr : R (P n) (P j)
        · refine ⟨n, by omega, fun k hk hkn => ?_⟩
          rcases Nat.lt_succ_iff_lt_or_eq.1 hk with hk | rfl
          · exact hjm k hk (htr _ _ _ hkn hr)
          · exact hirr _ hkn
        · refine ⟨j, by omega, fun k hk hkj => ?_⟩
          rcases Nat.lt_succ_iff_lt_or_eq.1 hk with hk | rfl
          · exact hjm k hk hkj
          · exact hr hkj
  obtain ⟨lo, hlo, hlo'⟩ := hmin Lex (fun _ _ _ => Lex.trans) (fun _ h => h.irrefl) nv (by omega)
  obtain ⟨hi, hhi, hhi'⟩ := hmin (fun x y => Lex y x) (fun _ _ _ h1 h2 => h2.trans h1) (fun _ h => h.irrefl) nv (by omega)
  have hlh : lo ≠ hi := by
    rintro rfl
    have all_eq : ∀ k < nv, P k = P lo := by
      intro k hk
      by_contra hcon
      rcases Lex.total hcon with h | h
      · exact hlo' k hk h
      · exact hhi' k hk h
    exact hne ((all_eq ja hja).trans (all_eq jb hjb).symm)
  set mid := ((List.range nv).erase lo).erase hi with hmid
  have hmidlen : mid.length + 2 = nv := by
    have h1 : hi ∈ (List.range nv).erase lo := (List.mem_erase_of_ne hlh.symm).2 (List.mem_range.2 hhi)
    rw [hmid, List.length_erase_of_mem h1, List.length_erase_of_mem (List.mem_range.2 hlo), List.length_range]
    omega
  have hd := (disjoint_of hs hm.cw hm.chain).sublist (List.filter_sublist (p := fun t => decide (t.p1 < nv ∧ t.p2 < nv ∧ t.p3 < nv)))
  have hcount := count_le (ts := all.filter (fun t => t.p1 < nv ∧ t.p2 < nv ∧ t.p3 < nv)) (P := P)
    (fun t ht => hm.cw t (List.mem_filter.1 ht).1) hd (mid.map (fun j => (j, true)) ++ mid.map (fun j => (j, false))) (by
      rintro t ht ⟨b, up⟩ ⟨a, c, hr, hl⟩
      obtain ⟨-, htr⟩ := List.mem_filter.1 ht
      rw [decide_eq_true_eq] at htr
      simp only at hr hl
      have habc : a < nv ∧ b < nv ∧ c < nv := by
        rcases hr with rfl | rfl | rfl <;> simp only at htr <;> omega
      have hb : b ∈ mid := by
        have h1 : b ≠ lo := by
          rintro rfl
          rcases hl with ⟨_, l, _⟩ | ⟨_, l, _⟩
          · exact hlo' _ habc.1 l
          · exact hlo' _ habc.2.2 l
        have h2 : b ≠ hi := by
          rintro rfl
          rcases hl with ⟨_, _, l⟩ | ⟨_, _, l⟩
          · exact hhi' _ habc.2.2 l
          · exact hhi' _ habc.1 l
        exact (List.mem_erase_of_ne h2).2 ((List.mem_erase_of_ne h1).2 (List.mem_range.2 habc.2.1))
      cases up <;> simp [hb])
  rw [← hp.length_eq] at hcount
  simp only [List.length_append, List.length_map] at hcount
  omega

theorem Delivered.star_is_corner {nv : Nat} {mem : List (VertexPair K)} {ts : List Tri} {P : Nat → Pt K} {all : List Tri} (D : Delivered nv mem ts P all)
    (hmem : nv + 3 ≤ mem.length) {t : Tri} (ht : t ∈ ts) {a b c : Pt K} (hc : CornersAre mem t a b c)
    {v : VertexPair K} (hv : v ∈ mem.take nv) (hin : ClosedIn v.actual a b c) : v.actual = a ∨ v.actual = b ∨ v.actual = c := by
  obtain ⟨hcw, m, hmc, hemp⟩ := D.delaunay hmem ht hc
  refine corner_of hcw (circle_of_centre hmc) ?_ hin
  have := hemp v hv
  unfold Circle.pow
  simp only
  unfold dist2 at this ⊢
  linarith

/-- Completeness, for corners named in clockwise order. -/
theorem Delivered.complete_cw {nv : Nat} {mem : List (VertexPair K)} {ts : List Tri} {P : Nat → Pt K} {all : List Tri} (D : Delivered nv mem ts P all)
    (hmem : nv + 3 ≤ mem.length) (hnd : ((mem.take nv).map VertexPair.actual).Nodup)
    (u v w : VertexPair K) (hu : u ∈ mem.take nv) (hv : v ∈ mem.take nv) (hw : w ∈ mem.take nv)
    (hcw : orient u.actual v.actual w.actual < 0) (m : Pt K) (hm : Circumcentre m u.actual v.actual w.actual)
    (hempty : ∀ z ∈ mem.take nv, z ≠ u → z ≠ v → z ≠ w → dist2 m u.actual < dist2 m z.actual)
    (hr : ∃ y ∈ mem.take nv, ∃ z ∈ mem.take nv, dist2 m u.actual < (9 * (y.actual.x - z.actual.x)) ^ 2 ∨
      dist2 m u.actual < (9 * (y.actual.y - z.actual.y)) ^ 2) :
    ∃ t ∈ ts, CornersAre mem t u.actual v.actual w.actual ∨ CornersAre mem t v.actual w.actual u.actual ∨
      CornersAre mem t w.actual u.actual v.actual := by
  obtain ⟨hs, hmesh, hp, hP, hside, x0, y0, d, q0, q1, q2, hd, hbox, hspread⟩ := D
  have hpt : ∀ z ∈ mem.take nv, ∃ j < nv, mem[j]? = some z ∧ z.actual = P j := by
    intro z hz
    obtain ⟨j, hj, rfl⟩ := List.mem_take_iff_getElem.1 hz
    have e := hP j (by omega)
    rw [List.getElem?_eq_getElem (by omega)] at e
    exact ⟨j, by omega, List.getElem?_eq_getElem (by omega), Option.some.inj e⟩
  obtain ⟨ju, hju, eu, pu⟩ := hpt u hu
  obtain ⟨jv, hjv, ev, pv⟩ := hpt v hv
  obtain ⟨jw, hjw, ew, pw⟩ := hpt w hw
  have hth := circle_of_centre hm
  -- the square of the radius
  have hrad : dist2 m u.actual < 81 * d ^ 2 := by
    obtain ⟨y, hy, z, hz, hyz⟩ := hr
    obtain ⟨j, hj, -, pj⟩ := hpt y hy
    obtain ⟨k, hk, -, pk⟩ := hpt z hz
    obtain ⟨s1, s2⟩ := hspread j hj k hk
    rw [← pj, ← pk] at s1 s2
    have sq1 : (y.actual.x - z.actual.x) ^ 2 ≤ d ^ 2 := by rw [← sq_abs]; exact pow_le_pow_left₀ (abs_nonneg _) s1 2
    have sq2 : (y.actual.y - z.actual.y) ^ 2 ≤ d ^ 2 := by rw [← sq_abs]; exact pow_le_pow_left₀ (abs_nonneg _) s2 2
    rcases hyz with h | h
    · calc _ < _ := h
        _ = 81 * (y.actual.x - z.actual.x) ^ 2 := by ring
        _ ≤ _ := by linarith
    · calc _ < _ := h
        _ = 81 * (y.actual.y - z.actual.y) ^ 2 := by ring
        _ ≤ _ := by linarith
  have hux : |u.actual.x - m.x| < 9 * d := by
    apply abs_lt_of_sq_lt_sq _ (by linarith)
    unfold dist2 at hrad
    nlinarith [sq_nonneg (u.actual.y - m.y)]
  have huy : |u.actual.y - m.y| < 9 * d := by
    apply abs_lt_of_sq_lt_sq _ (by linarith)
    unfold dist2 at hrad
    nlinarith [sq_nonneg (u.actual.x - m.x)]
  obtain ⟨b1, b2⟩ := hbox ju hju
  rw [← pu] at b1 b2
  rw [abs_le] at b1 b2
  rw [abs_lt] at hux huy
  have far0 : 0 < (⟨m.x, m.y, dist2 m u.actual⟩ : Circle K).pow (P nv) := by
    unfold Circle.pow
    simp only
    have : (9 * d) ^ 2 ≤ ((P nv).x - m.x) ^ 2 := by
      rw [← neg_sq ((P nv).x - m.x)]
      exact pow_le_pow_left₀ (by linarith) (by linarith) 2
    nlinarith [sq_nonneg ((P nv).y - m.y), mul_pos hd hd]
  have far2 : 0 < (⟨m.x, m.y, dist2 m u.actual⟩ : Circle K).pow (P (nv + 2)) := by
    unfold Circle.pow
    simp only
    have : (9 * d) ^ 2 ≤ ((P (nv + 2)).x - m.x) ^ 2 := pow_le_pow_left₀ (by linarith) (by linarith) 2
    nlinarith [sq_nonneg ((P (nv + 2)).y - m.y), mul_pos hd hd]
  have far1 : 0 < (⟨m.x, m.y, dist2 m u.actual⟩ : Circle K).pow (P (nv + 1)) := by
    unfold Circle.pow
    simp only
    have : (9 * d) ^ 2 ≤ ((P (nv + 1)).y - m.y) ^ 2 := pow_le_pow_left₀ (by linarith) (by linarith) 2
    nlinarith [sq_nonneg ((P (nv + 1)).x - m.x), mul_pos hd hd]
  rw [pu, pv, pw] at hcw
  have hth' : (⟨m.x, m.y, dist2 m u.actual⟩ : Circle K).Through (P ju) (P jv) (P jw) := by rw [← pu, ← pv, ← pw]; exact hth
  obtain ⟨t, ht, hrot⟩ := hmesh.complete hs (Or.inl hju) (Or.inl hjv) (Or.inl hjw) hcw hside hth' (by
    intro j hj n1 n2 n3
    rcases hj with hj | hj
    · have hj' : j < mem.length := by omega
      have hz : mem[j] ∈ mem.take nv := List.mem_take_iff_getElem.2 ⟨j, by omega, rfl⟩
      have ez : mem[j].actual = P j := by
        have e := hP j hj
        rw [List.getElem?_eq_getElem hj'] at e
        exact Option.some.inj e
      have diff : ∀ k (x : VertexPair K), k < nv → j ≠ k → mem[k]? = some x → mem[j] ≠ x := by
        intro k x hk hjk hx he
        have hk' : k < mem.length := by omega
        rw [List.getElem?_eq_getElem hk'] at hx
        have hx' : mem[k] = x := Option.some.inj hx
        have := (List.Nodup.getElem_inj_iff hnd (i := j) (hi := by simp; omega) (j := k) (hj := by simp; omega)).1 (by
          simp only [List.getElem_map, List.getElem_take]
          rw [hx', he])
        exact hjk this
      have := hempty _ hz (diff ju u hju n1 eu) (diff jv v hjv n2 ev) (diff jw w hjw n3 ew)
      rw [ez] at this
      unfold Circle.pow
      simp only
      unfold dist2 at this ⊢
      linarith
    · have : j = nv ∨ j = nv + 1 ∨ j = nv + 2 := by omega
      rcases this with rfl | rfl | rfl
      · exact far0
      · exact far1
      · exact far2)
  have hreal : t.p1 < nv ∧ t.p2 < nv ∧ t.p3 < nv := by
    rcases hrot with rfl | rfl | rfl <;> simp only <;> omega
  refine ⟨t, hp.symm.subset (List.mem_filter.2 ⟨ht, by rw [decide_eq_true_eq]; exact hreal⟩), ?_⟩
  have cu : mem[ju]?.map VertexPair.actual = some u.actual := by rw [eu]; rfl
  have cv : mem[jv]?.map VertexPair.actual = some v.actual := by rw [ev]; rfl
  have cw : mem[jw]?.map VertexPair.actual = some w.actual := by rw [ew]; rfl
  rcases hrot with rfl | rfl | rfl
  · exact Or.inl ⟨cu, cv, cw⟩
  · exact Or.inr (Or.inr ⟨cw, cu, cv⟩)
  · exact Or.inr (Or.inl ⟨cv, cw, cu⟩)

theorem Delivered.complete {nv : Nat} {mem : List (VertexPair K)} {ts : List Tri} {P : Nat → Pt K} {all : List Tri} (D : Delivered nv mem ts P all)
    (hmem : nv + 3 ≤ mem.length) (hnd : ((mem.take nv).map VertexPair.actual).Nodup)
    {a b c : Pt K} (hb : Belong ((mem.take nv).map VertexPair.actual) a b c) :
    ∃ t ∈ ts, ∃ a' b' c', CornersAre mem t a' b' c' ∧ [a', b', c'].Perm [a, b, c] := by
  obtain ⟨ha, hb, hc, ho, m, ⟨m1, m2⟩, hempty, y, hy, z, hz, hyz⟩ := hb
  obtain ⟨u, hu, rfl⟩ := List.mem_map.1 ha
  obtain ⟨v, hv, rfl⟩ := List.mem_map.1 hb
  obtain ⟨w, hw, rfl⟩ := List.mem_map.1 hc
  obtain ⟨y, hy', rfl⟩ := List.mem_map.1 hy
  obtain ⟨z, hz', rfl⟩ := List.mem_map.1 hz
  have hne : ∀ x ∈ mem.take nv, ∀ x' ∈ mem.take nv, x ≠ x' → x.actual ≠ x'.actual :=
    fun x hx x' hx' hne he => hne (List.inj_on_of_nodup_map hnd hx hx' he)
  rcases lt_or_gt_of_ne ho with ho | ho
  · obtain ⟨t, ht, hcor⟩ := D.complete_cw hmem hnd u v w hu hv hw ho m ⟨m1, m2⟩
      (fun x hx h1 h2 h3 => hempty _ (List.mem_map_of_mem hx) (hne _ hx _ hu h1) (hne _ hx _ hv h2) (hne _ hx _ hw h3)) ⟨y, hy', z, hz', hyz⟩
    refine ⟨t, ht, ?_⟩
    rcases hcor with hcor | hcor | hcor
    · exact ⟨_, _, _, hcor, List.Perm.refl _⟩
    · exact ⟨_, _, _, hcor, (List.perm_append_comm (l₁ := [v.actual, w.actual]) (l₂ := [u.actual]))⟩
    · exact ⟨_, _, _, hcor, (List.perm_append_comm (l₁ := [w.actual]) (l₂ := [u.actual, v.actual]))⟩
  · have ho' : orient u.actual w.actual v.actual < 0 := by
      have : orient u.actual w.actual v.actual = -orient u.actual v.actual w.actual := by unfold orient; ring
      rw [this]; linarith
    obtain ⟨t, ht, hcor⟩ := D.complete_cw hmem hnd u w v hu hw hv ho' m ⟨m1.trans m2, m2.symm⟩
      (fun x hx h1 h2 h3 => hempty _ (List.mem_map_of_mem hx) (hne _ hx _ hu h1) (hne _ hx _ hv h3) (hne _ hx _ hw h2)) ⟨y, hy', z, hz', hyz⟩
    refine ⟨t, ht, ?_⟩
    have sw : [u.actual, w.actual, v.actual].Perm [u.actual, v.actual, w.actual] := (List.Perm.swap _ _ _).cons _
    rcases hcor with hcor | hcor | hcor
    · exact ⟨_, _, _, hcor, sw⟩
    · exact ⟨_, _, _, hcor, (List.perm_append_comm (l₁ := [w.actual, v.actual]) (l₂ := [u.actual])).trans sw⟩
    · exact ⟨_, _, _, hcor, (List.perm_append_comm (l₁ := [v.actual]) (l₂ := [u.actual, w.actual])).trans sw⟩

end Verif.Align
