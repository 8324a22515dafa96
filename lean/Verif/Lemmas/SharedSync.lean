import Verif.Lemmas.SharedTri

/-!
# Adding a star and computing the matrices, access by access
-/

namespace Verif.Shared

open Verif.Align Linalg

variable {K σ : Type} [Field K] [LinearOrder K] [IsStrictOrderedRing K]

set_option linter.unusedSectionVars false

variable {A : Volatile K} {S : Prop} {β : Type} {Q : β → Mem K → Prop} {m : Mem K} {s : State K} {p : Pt K}

theorem Holds.points (h : Holds m s p) (hl : s.vertices.length = 67) : Points m s.vertices := ⟨hl, h.vert⟩

theorem Holds.tris (h : Holds m s p) : Tris m s.triangles := ⟨h.numT, h.tri⟩

theorem Holds.num_le (h : Holds m s p) (hm : WellFormed m) : s.numVertices ≤ 63 := by
  obtain ⟨n, e, hn⟩ := hm.numV
  rw [h.numV] at e
  exact Option.some.inj e ▸ hn

/-! ### Looking for the orientation -/

/-- The comparison of `alignment.cpp:30`. -/
def isAt (a : Pt K) (v : VertexPair K) : Bool := v.actual.x == a.x && v.actual.y == a.y

theorem wp_known (hq : Quiet A) (a : Pt K) (hm : WellFormed m) (h : Holds m s p) (hl : s.vertices.length = 67) :
    ∀ (k i fuel : Nat) (f : Bool → Prog K β), s.numVertices - i ≤ k → (S ∨ s.numVertices - i < fuel) →
      wp A WellFormed S (f ((s.used.drop i).any (isAt a))) m Q → wp A WellFormed S (knownP a fuel i >>= f) m Q := by
  have h63 := h.num_le hm
  have hul : s.used.length = s.numVertices := by unfold State.used; rw [List.length_take]; omega
  intro k
  induction k with
  | zero =>
    intro i fuel f hk hS hw
    cases fuel with
    | zero => exact ⟨hm, hS.resolve_right (by simp)⟩
    | succ fuel =>
      simp only [knownP, bind_assoc']
      refine wp_numV hq hm h.numV ?_
      rw [if_neg (by omega)]
      rw [List.drop_eq_nil_of_le (by omega)] at hw
      exact hw
  | succ k ih =>
    intro i fuel f hk hS hw
    cases fuel with
    | zero => exact ⟨hm, hS.resolve_right (by simp)⟩
    | succ fuel =>
      simp only [knownP, bind_assoc']
      refine wp_numV hq hm h.numV ?_
      by_cases hi : i < s.numVertices
      · rw [if_pos hi]
        have hlt : i < s.used.length := by omega
        have hv : s.vertices[i]? = some s.used[i] := by
          have := List.getElem?_eq_getElem hlt
          unfold State.used at this ⊢
          rw [List.getElem?_take_of_lt hi] at this
          exact this
        simp only [bind_assoc']
        refine wp_rdPt hq (p := s.used[i].actual) hm (by omega) (h.vert i _ hv 0) (h.vert i _ hv 1) ?_
        rw [List.drop_eq_getElem_cons hlt, List.any_cons] at hw
        by_cases hc : s.used[i].actual.x = a.x ∧ s.used[i].actual.y = a.y
        · rw [if_pos hc]
          have : isAt a s.used[i] = true := by simp [isAt, hc.1, hc.2]
          rw [this, Bool.true_or] at hw
          exact hw
        · rw [if_neg hc]
          have : isAt a s.used[i] = false := by
            unfold isAt
            simpa using hc
          rw [this, Bool.false_or] at hw
          exact ih (i + 1) fuel f (by omega) (hS.imp id (by omega)) hw
      · rw [if_neg hi]
        rw [List.drop_eq_nil_of_le (by omega)] at hw
        exact hw

theorem wp_wrap (hq : Quiet A) {r : Pt K} {f : Pt K → Prog K β} (hm : WellFormed m) (h : Holds m s p) (hl : s.vertices.length = 67)
    (hw : wp A WellFormed S (f (wrapFor s r)) m Q) : wp A WellFormed S (wrapP r >>= f) m Q := by
  have h63 := h.num_le hm
  unfold wrapP
  simp only [bind_assoc']
  refine wp_numV hq hm h.numV ?_
  by_cases hn : 0 < s.numVertices
  · rw [if_pos hn]
    have hlt : 0 < s.vertices.length := by omega
    have hv := List.getElem?_eq_getElem hlt
    have hu : ∃ rest, s.used = s.vertices[0] :: rest := by
      unfold State.used
      obtain ⟨n, hn'⟩ : ∃ n, s.numVertices = n + 1 := ⟨s.numVertices - 1, by omega⟩
      rw [hn']
      refine ⟨(s.vertices.drop 1).take n, ?_⟩
      conv_lhs => rw [← List.drop_zero (l := s.vertices), List.drop_eq_getElem_cons hlt, List.take_succ_cons]
    obtain ⟨rest, hu⟩ := hu
    have hwr : wrapFor s r = wrapRef s.vertices[0] r := by unfold wrapFor; rw [hu]
    rw [hwr] at hw
    simp only [bind_assoc']
    refine wp_get hq hm (by simp) (by simp) (valid_vert (by omega) _) (h.vert 0 _ hv 2) ?_
    refine wp_get hq hm (by simp) (by simp) (valid_vert (by omega) _) (h.vert 0 _ hv 2) ?_
    exact hw
  · rw [if_neg hn]
    have hwr : wrapFor s r = r := by
      unfold wrapFor State.used
      have : s.numVertices = 0 := by omega
      rw [this, List.take_zero]
    rw [hwr] at hw
    exact hw

/-! ### Sorting -/

theorem wp_rdVertices (hq : Quiet A) {mem : List (VertexPair K)} (hm : WellFormed m) (hp : Points m mem) :
    ∀ (n i : Nat) (f : List (VertexPair K) → Prog K β), i + n ≤ 67 →
      wp A WellFormed S (f ((mem.drop i).take n)) m Q → wp A WellFormed S (rdVertices i n >>= f) m Q := by
  intro n
  induction n with
  | zero => intro i f _ h; rw [List.take_zero] at h; exact h
  | succ n ih =>
    intro i f hi h
    have hlt : i < mem.length := by rw [hp.1]; omega
    have hv := List.getElem?_eq_getElem hlt
    simp only [rdVertices, bind_assoc']
    refine wp_rdVertex hq (v := mem[i]) hm (by omega) (hp.2 i _ hv) ?_
    refine ih (i + 1) _ (by omega) ?_
    rw [pure_bind']
    rw [List.drop_eq_getElem_cons hlt, List.take_succ_cons] at h
    exact h

theorem wp_wrAll : ∀ (ws : List (Nat × Fin 4 × K)) (m : Mem K) (g : Nat → Fin 4 → K) (f : Unit → Prog K β), WellFormed m →
    (∀ w ∈ ws, w.1 < 67) → (∀ i f, i < 67 → m (.vert i f) = some (g i f)) →
    (∀ m', WellFormed m' → (∀ i f, i < 67 → m' (.vert i f) = some (applyWrites ws g i f)) →
      (∀ l, (∀ i f, l ≠ .vert i f) → m' l = m l) → wp A WellFormed S (f ()) m' Q) →
    wp A WellFormed S (wrAll ws >>= f) m Q := by
  intro ws
  induction ws with
  | nil => intro m g f hm _ hg h; exact h m hm hg (fun _ _ => rfl)
  | cons w ws ih =>
    intro m g f hm hw hg h
    simp only [wrAll, bind_assoc']
    refine wp_wr hm (valid_vert (hw w (by simp)) _) ?_
    refine ih _ (fun i f => if i = w.1 ∧ f = w.2.1 then w.2.2 else g i f) f (hm.put_vert _ _ _) (fun u hu => hw u (List.mem_cons_of_mem _ hu)) ?_ ?_
    · intro i f' hi
      by_cases hc : i = w.1 ∧ f' = w.2.1
      · obtain ⟨rfl, rfl⟩ := hc
        rw [upd_same, if_pos ⟨rfl, rfl⟩]
      · rw [if_neg hc, upd_ne _ (by intro he; injection he with h1 h2; exact hc ⟨h1, h2⟩)]
        exact hg i f' hi
    · intro m' h1 h2 h3
      exact h m' h1 h2 (fun l hl => by rw [h3 l hl, upd_ne _ (hl _ _)])

theorem applyWrites_out (ws : List (Nat × Fin 4 × K)) (n : Nat) (hw : ∀ w ∈ ws, w.1 < n) (g : Nat → Fin 4 → K) (i : Nat) (f : Fin 4)
    (hi : n ≤ i) : applyWrites ws g i f = g i f := by
  induction ws generalizing g with
  | nil => rfl
  | cons w ws ih =>
    have := hw w (by simp)
    simp only [applyWrites]
    rw [ih (fun u hu => hw u (List.mem_cons_of_mem _ hu)), if_neg (by omega)]

/-- `addVertexPair`. -/
theorem wp_add (hq : Quiet A) {env : Env K σ} (hsort : IsSort env.sort) {writes : List (VertexPair K) → List (Nat × Fin 4 × K)}
    (hws : SortsAs env.sort writes) {fuel : Nat} (hS : S ∨ 192 < fuel) {a r : Pt K} {b : Bool} {s' : State K} {f : Bool → Prog K β}
    (hm : WellFormed m) (h : Holds m s p) (hl : s.vertices.length = 67) (hr : addVertexPair env s a r = .ok (b, s'))
    (hw : ∀ m', WellFormed m' → Holds m' s' p → s'.vertices.length = 67 → wp A WellFormed S (f b) m' Q) :
    wp A WellFormed S (addP writes fuel a r >>= f) m Q := by
  have h63 := h.num_le hm
  have hul : s.used.length = s.numVertices := by unfold State.used; rw [List.length_take]; omega
  unfold addP
  simp only [bind_assoc']
  refine wp_known hq a hm h hl s.numVertices 0 fuel _ (by omega) (hS.imp id (by omega)) ?_
  rw [List.drop_zero]
  unfold addVertexPair at hr
  change (if s.used.any (isAt a) = true then _ else _) = _ at hr
  by_cases hk : s.used.any (isAt a) = true
  · rw [if_pos hk] at hr
    injection hr with hr
    injection hr with e1 e2
    subst e1; subst e2
    rw [hk]
    exact hw m hm h hl
  · rw [if_neg hk] at hr
    obtain ⟨mem, e1, hr⟩ := bind_eq_ok.1 hr
    simp only [pure, Except.pure, Except.ok.injEq, Prod.mk.injEq] at hr
    obtain ⟨rfl, rfl⟩ := hr
    have hk' : s.used.any (isAt a) = false := by simpa using hk
    rw [hk']
    simp only [Bool.false_eq_true, if_false, bind_assoc']
    refine wp_wrap hq hm h hl ?_
    unfold writeVertex at e1
    rw [if_pos (by omega)] at e1
    injection e1 with e1
    generalize hrr : wrapFor s r = r' at e1 ⊢
    have v : ∀ f, (Loc.vert s.numVertices f).valid = true := valid_vert (by omega)
    refine wp_numV hq hm h.numV ?_
    refine wp_wr hm (v _) ?_
    have w1 := hm.put_vert s.numVertices 0 a.x
    refine wp_wr w1 (v _) ?_
    have w2 := w1.put_vert s.numVertices 1 a.y
    refine wp_numV hq w2 (v := s.numVertices) (by rw [upd_ne _ (by simp), upd_ne _ (by simp)]; exact h.numV) ?_
    refine wp_wr w2 (v _) ?_
    have w3 := w2.put_vert s.numVertices 2 r'.x
    refine wp_wr w3 (v _) ?_
    have w4 := w3.put_vert s.numVertices 3 r'.y
    generalize hM : Function.update (Function.update (Function.update (Function.update m (.vert s.numVertices 0) (some a.x))
      (.vert s.numVertices 1) (some a.y)) (.vert s.numVertices 2) (some r'.x)) (.vert s.numVertices 3) (some r'.y) = M at w4 ⊢
    have hMo : ∀ l, (∀ f, l ≠ .vert s.numVertices f) → M l = m l := by
      intro l hl'; subst hM; rw [upd_ne _ (hl' _), upd_ne _ (hl' _), upd_ne _ (hl' _), upd_ne _ (hl' _)]
    have hMp : Points M mem := by
      subst e1
      refine ⟨by simpa using hl, ?_⟩
      intro i u hu f'
      by_cases hi : i = s.numVertices
      · subst hi
        rw [List.getElem?_set_self (by omega)] at hu
        rw [← Option.some.inj hu]
        subst hM
        match f' with
        | 0 => rw [upd_ne _ (by simp), upd_ne _ (by simp), upd_ne _ (by simp), upd_same]; rfl
        | 1 => rw [upd_ne _ (by simp), upd_ne _ (by simp), upd_same]; rfl
        | 2 => rw [upd_ne _ (by simp), upd_same]; rfl
        | 3 => rw [upd_same]; rfl
      · rw [List.getElem?_set_ne (Ne.symm hi)] at hu
        rw [hMo _ (by intro k hc; injection hc with h1 _; exact hi h1)]
        exact h.vert i u hu f'
    have hMn : M .numV = some s.numVertices := by rw [hMo _ (by simp)]; exact h.numV
    refine wp_numV hq w4 hMn ?_
    refine wp_wr w4 rfl ?_
    have hn63 : (s.numVertices + 1) % maxVertices ≤ 63 := by
      have := Nat.mod_lt (s.numVertices + 1) (show 0 < maxVertices by decide)
      unfold maxVertices at this ⊢; omega
    have w5 := w4.put_numV _ hn63
    clear hr
    generalize hn : (s.numVertices + 1) % maxVertices = n at hn63 w5 hw ⊢
    refine wp_numV hq w5 (v := n) (upd_same _ _) ?_
    have hp5 : Points (Function.update M .numV (some n)) mem :=
      ⟨hMp.1, fun i u hu f' => by rw [upd_ne _ (by simp)]; exact hMp.2 i u hu f'⟩
    refine wp_rdVertices hq w5 hp5 n 0 _ (by omega) ?_
    rw [List.drop_zero]
    obtain ⟨hin, hres⟩ := hws (mem.take n)
    have hlen : (mem.take n).length = n := by rw [List.length_take, hMp.1]; omega
    rw [hlen] at hin
    obtain ⟨hperm, -⟩ := hsort (mem.take n)
    have hslen : (env.sort (mem.take n)).length = n := by rw [hperm.length_eq, hlen]
    -- the numbers in the array
    let g : Nat → Fin 4 → K := fun i f' => ((mem[i]?).map (fun u => field u f')).getD 0
    have hg : ∀ (i : Nat) u, mem[i]? = some u → ∀ f', g i f' = field u f' := by
      intro i u hu f'; simp only [g, hu]; rfl
    have hgm : ∀ i f', i < 67 → Function.update M .numV (some n) (.vert i f') = some (g i f') := by
      intro i f' hi
      have hu := List.getElem?_eq_getElem (l := mem) (i := i) (by rw [hMp.1]; exact hi)
      rw [hp5.2 i _ hu f', hg i _ hu f']
    refine wp_wrAll (writes (mem.take n)) _ g _ w5 (fun w hw' => by have := hin w hw'; omega) hgm ?_
    intro m' w6 hv6 ho6
    have hlen' : (env.sort (mem.take n) ++ mem.drop n).length = 67 := by
      rw [List.length_append, hslen, List.length_drop, hMp.1]; omega
    refine hw m' w6 ⟨?_, ?_, ?_, ?_, ?_, ?_, ?_⟩ hlen'
    · rw [ho6 _ (by simp), upd_same]
    · rw [ho6 _ (by simp), upd_ne _ (by simp), hMo _ (by simp)]; exact h.numT
    · intro i t ht k
      rw [ho6 _ (by simp), upd_ne _ (by simp), hMo _ (by simp)]; exact h.tri i t ht k
    · intro i u hu f'
      have hi : i < 67 := by have := (List.getElem?_eq_some_iff.1 hu).1; rw [hlen'] at this; exact this
      rw [hv6 i f' hi]
      by_cases hin' : i < n
      · rw [List.getElem?_append_left (by omega)] at hu
        rw [hres g ?_ i u hu f']
        intro j u' hu' f''
        have hj : j < n := by have := (List.getElem?_eq_some_iff.1 hu').1; rw [hlen] at this; exact this
        rw [List.getElem?_take_of_lt hj] at hu'
        exact hg j u' hu' f''
      · rw [applyWrites_out _ n hin g i f' (by omega)]
        rw [List.getElem?_append_right (by omega), hslen, List.getElem?_drop] at hu
        rw [show n + (i - n) = i by omega] at hu
        rw [hg i u hu f']
    · intro i M' hM' r c
      rw [ho6 _ (by simp), upd_ne _ (by simp), hMo _ (by simp)]; exact h.mat i M' hM' r c
    · rw [ho6 _ (by simp), upd_ne _ (by simp), hMo _ (by simp)]; exact h.az
    · rw [ho6 _ (by simp), upd_ne _ (by simp), hMo _ (by simp)]; exact h.alt

/-! ### Matrices -/

/-- The outcome of the tests of `updateTransformationMatrices`. -/
def branchOf (s : State K) : Branch :=
  match s.triangles with
  | [] => if s.numVertices = 1 then .point else if 2 ≤ s.numVertices then .line else .none
  | _ :: _ => .tris

theorem wp_branch (hq : Quiet A) {f : Branch → Prog K β} (hm : WellFormed m) (h : Holds m s p)
    (hw : wp A WellFormed S (f (branchOf s)) m Q) : wp A WellFormed S (branchP >>= f) m Q := by
  unfold branchP emptyAnd
  simp only [bind_assoc']
  unfold branchOf at hw
  refine wp_numT hq hm h.numT ?_
  cases hts : s.triangles with
  | nil =>
    rw [hts] at hw
    simp only [List.length_nil, Nat.cast_zero, if_true, bind_assoc']
    refine wp_numV hq hm h.numV ?_
    rw [pure_bind']
    by_cases h1 : s.numVertices = 1
    · rw [if_pos h1] at hw
      simp only [h1, decide_true, if_true]
      exact hw
    · rw [if_neg h1] at hw
      simp only [h1, decide_false, Bool.false_eq_true, if_false, bind_assoc']
      have hn := h.numT
      rw [hts] at hn
      refine wp_numT hq hm hn ?_
      simp only [List.length_nil, Nat.cast_zero, if_true, bind_assoc']
      refine wp_numV hq hm h.numV ?_
      rw [pure_bind']
      by_cases h2 : 2 ≤ s.numVertices
      · rw [if_pos h2] at hw
        simp only [h2, decide_true, if_true]
        exact hw
      · rw [if_neg h2] at hw
        simp only [h2, decide_false, Bool.false_eq_true, if_false, bind_assoc']
        refine wp_numT hq hm hn ?_
        simp only [List.length_nil, Nat.cast_zero]
        exact hw
  | cons t ts =>
    rw [hts] at hw
    have h0 : ¬ (((t :: ts).length : Int) = 0) := by simp; omega
    have h1 : (1 : Int) ≤ ((t :: ts).length : Int) := by simp
    have hn := h.numT
    rw [hts] at hn
    rw [if_neg h0]
    simp only [pure_bind', Bool.false_eq_true, if_false, bind_assoc']
    refine wp_numT hq hm hn ?_
    rw [if_neg h0]
    simp only [pure_bind', Bool.false_eq_true, if_false, bind_assoc']
    refine wp_numT hq hm hn ?_
    rw [if_pos h1]
    exact hw

theorem Holds.setMatrix {m' : Mem K} (h : Holds m s p) {i : Nat} {M : Mat3 K} (hM : ∀ r c, m' (.mat i r c) = some (M.get r c))
    (ho : ∀ l, (∀ r c, l ≠ .mat i r c) → m' l = m l) : Holds m' { s with matrices := s.matrices.set i (some M) } p where
  numV := by rw [ho _ (by simp)]; exact h.numV
  numT := by rw [ho _ (by simp)]; exact h.numT
  tri j t ht k := by rw [ho _ (by simp)]; exact h.tri j t ht k
  vert j v hv f := by rw [ho _ (by simp)]; exact h.vert j v hv f
  mat j M' hM' r c := by
    by_cases hj : i = j
    · subst hj
      have hlt : i < s.matrices.length := by
        have := (List.getElem?_eq_some_iff.1 hM').1
        simpa using this
      simp only [List.getElem?_set_self hlt, Option.some.injEq] at hM'
      rw [← hM']; exact hM r c
    · simp only [List.getElem?_set_ne hj] at hM'
      rw [ho _ (by intro r' c' he; injection he with h1; exact hj h1.symm)]
      exact h.mat j M' hM' r c
  az := by rw [ho _ (by simp)]; exact h.az
  alt := by rw [ho _ (by simp)]; exact h.alt

theorem vertex_get {s : State K} {i : Nat} {v : VertexPair K} (h : vertex s i = .ok v) : s.vertices[i]? = some v := by
  unfold vertex at h
  cases hc : s.vertices[i]? with
  | none => rw [hc] at h; cases h
  | some w => rw [hc] at h; injection h with h; rw [h]

theorem setMatrix_ok {s s' : State K} {i : Nat} {M : Mat3 K} (h : setMatrix s i M = .ok s') :
    s' = { s with matrices := s.matrices.set i (some M) } := by
  unfold setMatrix at h
  split at h
  · injection h with h; exact h.symm
  · cases h

theorem wp_triMats (hq : Quiet A) (stray : Nat → K) :
    ∀ (ts done : List Tri) (s s' : State K) (m : Mem K) (fuel : Nat) (f : Unit → Prog K β), WellFormed m → Holds m s p →
      s.vertices.length = 67 → s.triangles = done ++ ts → (S ∨ ts.length < fuel) → triMatrices stray done.length ts s = .ok s' →
      (∀ m', WellFormed m' → Holds m' s' p → s'.vertices.length = 67 → wp A WellFormed S (f ()) m' Q) →
      wp A WellFormed S (triMatricesP stray fuel done.length >>= f) m Q := by
  intro ts
  induction ts with
  | nil =>
    intro done s s' m fuel f hm h hl ht hS hr hw
    cases fuel with
    | zero => exact ⟨hm, hS.resolve_right (by simp)⟩
    | succ fuel =>
      simp only [triMatrices, Except.ok.injEq] at hr
      subst hr
      simp only [triMatricesP, bind_assoc']
      refine wp_numT hq hm h.numT ?_
      rw [ht, if_neg (by simp)]
      exact hw m hm h hl
  | cons t ts ih =>
    intro done s s' m fuel f hm h hl ht hS hr hw
    cases fuel with
    | zero => exact ⟨hm, hS.resolve_right (by simp)⟩
    | succ fuel =>
      simp only [triMatrices] at hr
      obtain ⟨M, hM, hr⟩ := bind_eq_ok.1 hr
      obtain ⟨s1, h1, hr⟩ := bind_eq_ok.1 hr
      have := setMatrix_ok h1
      subst this
      unfold triMatrix at hM
      obtain ⟨a, ha, hM⟩ := bind_eq_ok.1 hM
      obtain ⟨b, hb, hM⟩ := bind_eq_ok.1 hM
      obtain ⟨c, hc, hM⟩ := bind_eq_ok.1 hM
      simp only [pure, Except.pure, Except.ok.injEq] at hM
      simp only [triMatricesP, bind_assoc']
      refine wp_numT hq hm h.numT ?_
      rw [ht, if_pos (by simp)]
      simp only [bind_assoc']
      have hget : s.triangles[done.length]? = some t := by rw [ht]; simp
      have hb192 : s.triangles.length ≤ 192 := h.tris.bound hm
      have hi : done.length < 192 := by rw [ht] at hb192; simp at hb192; omega
      refine wp_rdTri hq (t := t) hm (by omega) (by omega) (h.tri _ t hget) ?_
      have b1 := (List.getElem?_eq_some_iff.1 (vertex_get ha)).1
      have b2 := (List.getElem?_eq_some_iff.1 (vertex_get hb)).1
      have b3 := (List.getElem?_eq_some_iff.1 (vertex_get hc)).1
      refine wp_rdVertex hq hm (by omega) (h.vert _ a (vertex_get ha)) ?_
      refine wp_rdVertex hq hm (by omega) (h.vert _ b (vertex_get hb)) ?_
      refine wp_rdVertex hq hm (by omega) (h.vert _ c (vertex_get hc)) ?_
      rw [hM]
      refine wp_wrMat hm hi ?_
      intro m' hm' hMm ho
      have hd : (done ++ [t]).length = done.length + 1 := by simp
      have := ih (done ++ [t]) _ s' m' fuel f hm' (h.setMatrix hMm ho) hl (by rw [List.append_assoc]; exact ht)
        (hS.imp id (by simp)) (by rw [hd]; exact hr) hw
      rw [hd] at this
      exact this

theorem wp_update (hq : Quiet A) {env : Env K σ} {fuel : Nat} (hS : S ∨ 192 < fuel) {s' : State K} {f : Unit → Prog K β}
    (hm : WellFormed m) (h : Holds m s p) (hl : s.vertices.length = 67) (hr : updateMatrices env s = .ok s')
    (hw : ∀ m', WellFormed m' → Holds m' s' p → s'.vertices.length = 67 → wp A WellFormed S (f ()) m' Q) :
    wp A WellFormed S (updateP env fuel >>= f) m Q := by
  unfold updateP
  simp only [bind_assoc']
  refine wp_branch hq hm h ?_
  unfold branchOf
  unfold updateMatrices at hr
  cases hts : s.triangles with
  | nil =>
    rw [hts] at hr
    simp only [] at hr ⊢
    by_cases h1 : s.numVertices = 1
    · rw [if_pos h1] at hr
      rw [if_pos h1]
      obtain ⟨v, hv, hr⟩ := bind_eq_ok.1 hr
      have := setMatrix_ok hr
      subst this
      have hv := vertex_get hv
      simp only [bind_assoc']
      refine wp_wrMat hm (by omega) ?_
      intro m1 w1 hM1 ho1
      refine wp_get hq w1 (by simp) (by simp) (valid_vert (by omega) _) (v := v.reference.x)
        (by rw [ho1 _ (by simp)]; exact h.vert 0 v hv 2) ?_
      refine wp_get hq w1 (by simp) (by simp) (valid_vert (by omega) _) (v := v.actual.x)
        (by rw [ho1 _ (by simp)]; exact h.vert 0 v hv 0) ?_
      refine wp_wr w1 (valid_mat (by omega) _ _) ?_
      have w2 := w1.put_mat 0 0 2 (v.reference.x - v.actual.x)
      refine wp_get hq w2 (by simp) (by simp) (valid_vert (by omega) _) (v := v.reference.y)
        (by rw [upd_ne _ (by simp), ho1 _ (by simp)]; exact h.vert 0 v hv 3) ?_
      refine wp_get hq w2 (by simp) (by simp) (valid_vert (by omega) _) (v := v.actual.y)
        (by rw [upd_ne _ (by simp), ho1 _ (by simp)]; exact h.vert 0 v hv 1) ?_
      refine wp_wr w2 (valid_mat (by omega) _ _) ?_
      have w3 := w2.put_mat 0 1 2 (v.reference.y - v.actual.y)
      refine hw _ w3 (h.setMatrix ?_ ?_) hl
      · intro r c
        match r, c with
        | 0, 2 => rw [upd_ne _ (by simp), upd_same]; rfl
        | 1, 2 => rw [upd_same]; rfl
        | 0, 0 => rw [upd_ne _ (by simp), upd_ne _ (by simp), hM1]; rfl
        | 0, 1 => rw [upd_ne _ (by simp), upd_ne _ (by simp), hM1]; rfl
        | 1, 0 => rw [upd_ne _ (by simp), upd_ne _ (by simp), hM1]; rfl
        | 1, 1 => rw [upd_ne _ (by simp), upd_ne _ (by simp), hM1]; rfl
        | 2, 0 => rw [upd_ne _ (by simp), upd_ne _ (by simp), hM1]; rfl
        | 2, 1 => rw [upd_ne _ (by simp), upd_ne _ (by simp), hM1]; rfl
        | 2, 2 => rw [upd_ne _ (by simp), upd_ne _ (by simp), hM1]; rfl
      · intro l hl'
        rw [upd_ne _ (hl' _ _), upd_ne _ (hl' _ _), ho1 l hl']
    · rw [if_neg h1] at hr
      rw [if_neg h1]
      by_cases h2 : 2 ≤ s.numVertices
      · rw [if_pos h2] at hr
        rw [if_pos h2]
        obtain ⟨M, hM, hr⟩ := bind_eq_ok.1 hr
        unfold lineMatrix at hM
        obtain ⟨a, ha, hM⟩ := bind_eq_ok.1 hM
        obtain ⟨b, hb, hM⟩ := bind_eq_ok.1 hM
        simp only [pure, Except.pure, Except.ok.injEq] at hM
        have := setMatrix_ok hr
        subst this
        simp only [bind_assoc']
        refine wp_rdVertex hq hm (by omega) (h.vert _ a (vertex_get ha)) ?_
        refine wp_rdVertex hq hm (by omega) (h.vert _ b (vertex_get hb)) ?_
        rw [hM]
        refine wp_wrMat hm (by omega) ?_
        intro m1 w1 hM1 ho1
        exact hw _ w1 (h.setMatrix hM1 ho1) hl
      · rw [if_neg h2] at hr
        rw [if_neg h2]
        have := setMatrix_ok hr
        subst this
        refine wp_wrMat hm (by omega) ?_
        intro m1 w1 hM1 ho1
        exact hw _ w1 (h.setMatrix hM1 ho1) hl
  | cons t ts =>
    rw [hts] at hr
    have hb : s.triangles.length ≤ 192 := h.tris.bound hm
    exact wp_triMats hq env.stray (t :: ts) [] s s' m fuel f hm h hl hts (hS.imp id (by rw [hts] at hb; omega)) hr hw

theorem wp_triangulateActual (hq : Quiet A) {env : Env K σ} {fuel : Nat} (hS : S ∨ 192 < fuel) {s' : State K} {f : Unit → Prog K β}
    (hm : WellFormed m) (h : Holds m s p) (hl : s.vertices.length = 67) (hr : triangulateActual env s = .ok s')
    (hw : ∀ m', WellFormed m' → Holds m' s' p → s'.vertices.length = 67 → wp A WellFormed S (f ()) m' Q) :
    wp A WellFormed S (triangulateActualP env fuel >>= f) m Q := by
  unfold triangulateActualP triangulateSomeP
  simp only [bind_assoc']
  have h63 := h.num_le hm
  refine wp_numV hq hm h.numV ?_
  unfold triangulateActual at hr
  by_cases h0 : 0 < s.numVertices
  · rw [if_pos h0] at hr
    rw [if_pos h0]
    obtain ⟨⟨mem', ts⟩, ht, hr⟩ := bind_eq_ok.1 hr
    simp only [bind_assoc']
    refine wp_numV hq hm h.numV ?_
    refine wp_triangulate hq env.test env.init fuel s.numVertices hS h0 h63 hm (h.points hl) ht ?_
    intro m1 w1 hp1 ht1 ho1
    refine wp_update hq hS w1 (s := { s with vertices := mem', triangles := ts }) ?_ hp1.1 hr hw
    exact ⟨by rw [ho1 _ (by simp) (by simp) (by simp)]; exact h.numV, ht1.num, ht1.tri, hp1.2,
      fun i M hM r c => by rw [ho1 _ (by simp) (by simp) (by simp)]; exact h.mat i M hM r c,
      by rw [ho1 _ (by simp) (by simp) (by simp)]; exact h.az, by rw [ho1 _ (by simp) (by simp) (by simp)]; exact h.alt⟩
  · rw [if_neg h0] at hr
    rw [if_neg h0]
    exact wp_update hq hS hm h hl hr hw

/-- A star is synchronised: the orientation may be written by the other task between the two reads. -/
theorem wp_sync (hq : Quiet A) {env : Env K σ} (hsort : IsSort env.sort) {writes : List (VertexPair K) → List (Nat × Fin 4 × K)}
    (hws : SortsAs env.sort writes) {fuel : Nat} (hS : S ∨ 192 < fuel) {r : Pt K} {f : Unit → Prog K β}
    (hm : WellFormed m) (h : Holds m s p) (hl : s.vertices.length = 67)
    (hw : ∀ x y, (x = p.x ∨ A .az x) → (y = p.y ∨ A .alt y) → ∃ s', syncAtOnce env s ⟨x, y⟩ r = .ok s' ∧
      ∀ m', WellFormed m' → Holds m' s' p → s'.vertices.length = 67 → wp A WellFormed S (f ()) m' Q) :
    wp A WellFormed S (syncP env writes fuel r >>= f) m Q := by
  unfold syncP
  simp only [bind_assoc']
  refine wp_rd_any hm rfl h.az fun x hx => ?_
  refine wp_rd_any hm rfl h.alt fun y hy => ?_
  obtain ⟨s', hr, hw⟩ := hw x y hx hy
  unfold syncAtOnce at hr
  obtain ⟨⟨b, s1⟩, h1, hr⟩ := bind_eq_ok.1 hr
  refine wp_add hq hsort hws hS hm h hl h1 ?_
  intro m1 w1 g1 l1
  exact wp_triangulateActual hq hS w1 g1 l1 hr hw

end Verif.Shared
