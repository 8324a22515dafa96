import Verif.Lemmas.Shared

/-!
# The triangulation, access by access, does what `Model/Triangulate.lean` says
-/

namespace Verif.Shared

open Verif.Align Linalg

variable {K σ : Type} [Field K] [LinearOrder K] [IsStrictOrderedRing K]

set_option linter.unusedSectionVars false

/-- The triangles in use. -/
structure Tris (m : Mem K) (ts : List Tri) : Prop where
  num : m .numT = some (ts.length : Int)
  tri : ∀ (i : Nat) t, ts[i]? = some t → ∀ k, m (.tri i k) = some (corner t k)

/-- The flags of `complete` that are set. -/
def Flags (complete : List (Option Bool)) (bs : List Bool) : Prop := ∀ (i : Nat) b, bs[i]? = some b → complete[i]? = some (some b)

/-- The points of the vertices. -/
def Points (m : Mem K) (mem : List (VertexPair K)) : Prop :=
  mem.length = 67 ∧ ∀ (i : Nat) v, mem[i]? = some v → ∀ f, m (.vert i f) = some (field v f)

/-- Everything but the triangles is the same. -/
def SameButTris (m m' : Mem K) : Prop := ∀ l, l ≠ .numT → (∀ i k, l ≠ .tri i k) → m' l = m l

theorem SameButTris.refl (m : Mem K) : SameButTris m m := fun _ _ _ => rfl

theorem SameButTris.trans {m m' m'' : Mem K} (h : SameButTris m m') (h' : SameButTris m' m'') : SameButTris m m'' :=
  fun l h1 h2 => (h' l h1 h2).trans (h l h1 h2)

theorem SameButTris.points {m m' : Mem K} {mem : List (VertexPair K)} (h : SameButTris m m') (hp : Points m mem) : Points m' mem :=
  ⟨hp.1, fun i v hv f => by rw [h _ (by simp) (by simp)]; exact hp.2 i v hv f⟩

theorem Tris.bound {m : Mem K} {ts : List Tri} (h : Tris m ts) (hm : WellFormed m) : ts.length ≤ 192 := by
  obtain ⟨n, e, hn, -⟩ := hm.numT
  rw [h.num] at e
  have := Option.some.inj e
  omega

theorem Tris.corners {m : Mem K} {ts : List Tri} (h : Tris m ts) (hm : WellFormed m) {t : Tri} (ht : t ∈ ts) (k : Fin 3) :
    corner t k ≤ 65 := by
  obtain ⟨i, hi⟩ := List.getElem?_of_mem ht
  exact hm.tri _ _ _ (h.tri i t hi k)

/-- `v[j] = v[n-1]; n--` on lists. -/
theorem moveLast_get {α : Type} (done : List α) (x : α) (rest : List α) (i : Nat) (t : α) (h : (done ++ moveLast rest)[i]? = some t) :
    i < done.length + rest.length ∧ (done ++ x :: rest)[if i = done.length then done.length + rest.length else i]? = some t := by
  have hlt : i < done.length + rest.length := by
    have := (List.getElem?_eq_some_iff.1 h).1
    rw [List.length_append, moveLast_length] at this
    exact this
  refine ⟨hlt, ?_⟩
  rcases List.eq_nil_or_concat rest with rfl | ⟨r, a, rfl⟩
  · rw [if_neg (by simp at hlt; omega)]
    simp only [moveLast, List.getLast?_nil, List.append_nil] at h
    rw [List.getElem?_append_left (by simpa using hlt)]; exact h
  · have e : moveLast (r.concat a) = a :: r := by simp [moveLast]
    rw [e] at h
    split
    · rename_i he
      subst he
      rw [List.getElem?_append_right (le_refl _)] at h
      simp only [Nat.sub_self, List.getElem?_cons_zero] at h
      rw [List.getElem?_append_right (by omega)]
      simp only [List.concat_eq_append, List.length_append, List.length_singleton, Nat.add_sub_cancel_left]
      rw [List.getElem?_cons_succ, List.getElem?_append_right (le_refl _)]
      simpa using h
    · rename_i he
      by_cases hl : i < done.length
      · rw [List.getElem?_append_left hl] at h ⊢; exact h
      · have h1 : i - done.length = (i - done.length - 1) + 1 := by omega
        rw [List.getElem?_append_right (by omega)] at h ⊢
        rw [h1, List.getElem?_cons_succ] at h ⊢
        rw [List.concat_eq_append]
        have hlt' : i - done.length - 1 < r.length := (List.getElem?_eq_some_iff.1 h).1
        rw [List.getElem?_append_left hlt']; exact h

variable {A : Volatile K} {S : Prop} {β : Type} {Q : β → Mem K → Prop} {m : Mem K}

theorem flagAt_ok {complete : List (Option Bool)} {bs : List Bool} (h : Flags complete bs) {i : Nat} {b : Bool} (hb : bs[i]? = some b) :
    flagAt complete i = .ok b ∧ i < complete.length := by
  have e := h i b hb
  have hl := (List.getElem?_eq_some_iff.1 e).1
  refine ⟨?_, hl⟩
  unfold flagAt
  rw [if_pos (by omega), Int.toNat_natCast, e]

theorem setFlag_ok {complete : List (Option Bool)} {i : Nat} (b : Bool) (hl : i < complete.length) :
    setFlag complete i b = .ok (complete.set i (some b)) := by
  unfold setFlag
  rw [if_pos (by omega), Int.toNat_natCast]

/-- Removing the `j`-th triangle. -/
theorem wp_dropTri (hq : Quiet A) {f : List (Option Bool) → Prog K β} {complete : List (Option Bool)} (hm : WellFormed m)
    {done rest : List (Tri × Bool)} {x : Tri × Bool} (ht : Tris m ((done ++ x :: rest).map Prod.fst))
    (hx : ∀ (i : Nat) b, i ≠ done.length → ((done ++ x :: rest).map Prod.snd)[i]? = some b → complete[i]? = some (some b))
    (hy : rest = [] → complete[done.length]? = some (some x.2) ∨ ∃ b, complete[done.length]? = some (some b))
    (hl : done.length + rest.length + 1 ≤ complete.length)
    (h : ∀ m' complete', WellFormed m' → Tris m' ((done ++ moveLast rest).map Prod.fst) →
      Flags complete' ((done ++ moveLast rest).map Prod.snd) → complete'.length = complete.length → SameButTris m m' →
      wp A WellFormed S (f complete') m' Q) :
    wp A WellFormed S (dropTri done.length complete >>= f) m Q := by
  have hn : (m .numT) = some ((done.length + rest.length + 1 : Nat) : Int) := by
    rw [ht.num]; simp [add_assoc]
  have hb := ht.bound hm
  simp only [List.length_map, List.length_append, List.length_cons] at hb
  have hlast : ∃ y, (done ++ x :: rest)[done.length + rest.length]? = some y :=
    ⟨_, List.getElem?_eq_getElem (by simp)⟩
  obtain ⟨y, hy'⟩ := hlast
  have hsub : (((done.length + rest.length + 1 : Nat) : Int) - 1) = ((done.length + rest.length : Nat) : Int) := by push_cast; ring
  unfold dropTri
  simp only [bind_assoc']
  refine wp_numT hq hm hn ?_
  rw [hsub]
  refine wp_copyTri hq (t := y.1) hm (by omega) (by omega) (by omega) (by omega) (fun k => ht.tri _ _ (by rw [List.getElem?_map, hy']; rfl) k) ?_
  intro m1 hm1 c1 s1
  have hn1 : m1 .numT = some ((done.length + rest.length + 1 : Nat) : Int) := by rw [s1 _ (by simp)]; exact hn
  refine wp_numT hq hm1 hn1 ?_
  rw [hsub]
  have hfl : ∃ b, complete[done.length + rest.length]? = some (some b) ∧ (rest ≠ [] → b = y.2) := by
    by_cases hr : rest = []
    · subst hr
      rcases hy rfl with e | ⟨b, e⟩
      · exact ⟨_, e, fun h => absurd rfl h⟩
      · exact ⟨_, e, fun h => absurd rfl h⟩
    · have : 0 < rest.length := List.length_pos_iff.2 hr
      exact ⟨y.2, hx _ _ (by omega) (by rw [List.getElem?_map, hy']; rfl), fun _ => rfl⟩
  obtain ⟨b, hb1, hb2⟩ := hfl
  have e1 : flagAt complete ((done.length + rest.length : Nat) : Int) = .ok b := by
    unfold flagAt
    rw [if_pos (by omega), Int.toNat_natCast, hb1]
  rw [e1, ofC_ok_bind, setFlag_ok b (by omega), ofC_ok_bind]
  refine wp_numT hq hm1 hn1 ?_
  rw [hsub]
  refine wp_wr hm1 rfl ?_
  rw [pure_bind']
  have htri : ∀ (i : Nat) t, ((done ++ moveLast rest).map Prod.fst)[i]? = some t → ∀ k, m1 (.tri i k) = some (corner t k) := by
    intro i t hi k
    rw [List.getElem?_map] at hi
    obtain ⟨z, hz, rfl⟩ := Option.map_eq_some_iff.1 hi
    obtain ⟨g1, g2⟩ := moveLast_get done x rest i z hz
    split at g2
    · rename_i he
      subst he
      rw [hy'] at g2
      rw [← Option.some.inj g2]
      exact c1 k
    · rename_i he
      rw [s1 _ (by intro k' hc; injection hc with h1 _; omega)]
      exact ht.tri i z.1 (by rw [List.getElem?_map, g2]; rfl) k
  refine h _ _ (hm1.put_numT _ (by omega) ?_) ⟨?_, ?_⟩ ?_ (by simp) ?_
  · intro i k h0 h1
    have : ∃ z, (done ++ moveLast rest)[i.toNat]? = some z := ⟨_, List.getElem?_eq_getElem (by
      rw [List.length_append, moveLast_length]; omega)⟩
    obtain ⟨z, hz⟩ := this
    have := htri i.toNat z.1 (by rw [List.getElem?_map, hz]; rfl) k
    rw [Int.toNat_of_nonneg h0] at this
    exact ⟨_, this⟩
  · rw [upd_same]; simp [moveLast_length]
  · intro i t hi k
    rw [upd_ne _ (by simp)]
    exact htri i t hi k
  · intro i c hi
    rw [List.getElem?_map] at hi
    obtain ⟨z, hz, rfl⟩ := Option.map_eq_some_iff.1 hi
    obtain ⟨g1, g2⟩ := moveLast_get done x rest i z hz
    split at g2
    · rename_i he
      subst he
      rw [hy'] at g2
      have : rest ≠ [] := by rintro rfl; simp at g1
      rw [List.getElem?_set_self (by omega), hb2 this, Option.some.inj g2]
    · rename_i he
      rw [List.getElem?_set_ne (by omega)]
      exact hx i _ he (by rw [List.getElem?_map, g2]; rfl)
  · intro l h1 h2
    rw [upd_ne _ h1, s1 _ (h2 _)]

theorem pushEdges_eq {edges edges' : List Edge} {emax emax' : Nat} {t : Tri} (h : pushEdges edges emax t = .ok (edges', emax')) :
    edges' = edges ++ t.edges := by
  unfold pushEdges at h
  simp only at h
  generalize (if edges.length + 3 ≥ emax then emax + 100 else emax) = k at h
  split at h
  · injection h with h
    injection h with h _
    exact h.symm
  · cases h

/-- One pass over the triangles. -/
theorem wp_scan (hq : Quiet A) (test : Test K σ) (mem : List (VertexPair K)) (p : Pt K) :
    ∀ (fuel' : Nat) (todo : List (Tri × Bool)) (s s' : ScanSt σ) (fuel : Nat) (m : Mem K) (complete : List (Option Bool))
      (f : Locals σ → Prog K β), todo.length ≤ fuel' → scan test mem p fuel' todo s = .ok s' → WellFormed m →
      Tris m ((s.done ++ todo).map Prod.fst) → Flags complete ((s.done ++ todo).map Prod.snd) → Points m mem →
      (∀ e ∈ s.edges, e.1 ≤ 65 ∧ e.2 ≤ 65) → (S ∨ todo.length < fuel) →
      (∀ m' complete', WellFormed m' → Tris m' (s'.done.map Prod.fst) → Flags complete' (s'.done.map Prod.snd) →
        complete'.length = complete.length → SameButTris m m' → (∀ e ∈ s'.edges, e.1 ≤ 65 ∧ e.2 ≤ 65) →
        wp A WellFormed S (f ⟨complete', s'.edges, s'.emax, s'.st⟩) m' Q) →
      wp A WellFormed S (scanP test p fuel s.done.length ⟨complete, s.edges, s.emax, s.st⟩ >>= f) m Q := by
  intro fuel'
  induction fuel' with
  | zero =>
    intro todo s s' fuel m complete f hl hs hm ht hf hp he hS h
    have : todo = [] := List.length_eq_zero_iff.1 (by omega)
    subst this
    simp only [scan, Except.ok.injEq, List.append_nil] at hs
    subst hs
    simp only [List.append_nil] at ht hf h
    cases fuel with
    | zero => exact ⟨hm, hS.resolve_right (by simp)⟩
    | succ fuel =>
      simp only [scanP, bind_assoc']
      refine wp_numT hq hm ht.num ?_
      rw [if_neg (by simp)]
      exact h m complete hm ht hf rfl (SameButTris.refl m) he
  | succ fuel' ih =>
    intro todo s s' fuel m complete f hl hs hm ht hf hp he hS h
    cases fuel with
    | zero => exact ⟨hm, hS.resolve_right (by simp)⟩
    | succ fuel =>
      have hb := ht.bound hm
      match todo, hl, hs, ht, hf, hS, hb with
      | [], hl, hs, ht, hf, hS, hb =>
        simp only [scan, Except.ok.injEq] at hs
        subst hs
        simp only [List.append_nil] at ht hf h
        simp only [scanP, bind_assoc']
        refine wp_numT hq hm ht.num ?_
        rw [if_neg (by simp)]
        exact h m complete hm ht hf rfl (SameButTris.refl m) he
      | (t, true) :: rest, hl, hs, ht, hf, hS, hb =>
        simp only [scan] at hs
        have hfl := flagAt_ok hf (i := s.done.length) (b := true) (by simp)
        simp only [scanP, bind_assoc']
        refine wp_numT hq hm ht.num ?_
        rw [if_pos (by simp)]
        simp only [hfl.1, ofC_ok_bind, if_true]
        have e : s.done.length + 1 = ({ s with done := s.done ++ [(t, true)] } : ScanSt σ).done.length := by simp
        rw [e]
        refine ih rest { s with done := s.done ++ [(t, true)] } s' fuel m complete f (by simpa using hl) hs hm (by simpa using ht)
          (by simpa using hf) hp he (hS.imp id (by simp)) h
      | (t, false) :: rest, hl, hs, ht, hf, hS, hb =>
        simp only [scan] at hs
        obtain ⟨a, ha, hs⟩ := bind_eq_ok.1 hs
        unfold ask at ha
        obtain ⟨p1, e1, ha⟩ := bind_eq_ok.1 ha
        obtain ⟨p2, e2, ha⟩ := bind_eq_ok.1 ha
        obtain ⟨p3, e3, ha⟩ := bind_eq_ok.1 ha
        have hfl := flagAt_ok hf (i := s.done.length) (b := false) (by simp)
        have hpt : ∀ {i : Nat} {q : Pt K}, readPt mem i = .ok q → i < 67 ∧ m (.vert i 0) = some q.x ∧ m (.vert i 1) = some q.y := by
          intro i q hr
          unfold readPt at hr
          split at hr
          · rename_i v hv
            injection hr with hr; subst hr
            refine ⟨?_, hp.2 i v hv 0, hp.2 i v hv 1⟩
            have := (List.getElem?_eq_some_iff.1 hv).1
            rw [hp.1] at this; exact this
          · cases hr
        simp only [List.length_map, List.length_append, List.length_cons] at hb
        have htk : ∀ k, m (.tri (s.done.length : Nat) k) = some (corner t k) := ht.tri _ _ (by simp)
        simp only [scanP, bind_assoc']
        refine wp_numT hq hm ht.num ?_
        rw [if_pos (by simp)]
        simp only [hfl.1, ofC_ok_bind]
        rw [if_neg (by simp)]
        simp only [bind_assoc']
        refine wp_rdTri hq (t := t) hm (by omega) (by omega) htk ?_
        refine wp_rdPt hq hm (hpt e1).1 (hpt e1).2.1 (hpt e1).2.2 ?_
        refine wp_rdPt hq hm (hpt e2).1 (hpt e2).2.1 (hpt e2).2.2 ?_
        refine wp_rdPt hq hm (hpt e3).1 (hpt e3).2.1 (hpt e3).2.2 ?_
        rw [ha, ofC_ok_bind]
        have hlen : s.done.length + rest.length + 1 ≤ complete.length := by
          have := hf (s.done.length + rest.length) _ (List.getElem?_eq_getElem (by simp))
          have := (List.getElem?_eq_some_iff.1 this).1
          omega
        have hset : (if a.completes = true then setFlag complete (s.done.length : Nat) true else .ok complete) =
            .ok (if a.completes then complete.set s.done.length (some true) else complete) := by
          rw [setFlag_ok true (by omega)]
          split <;> rfl
        simp only [hset, ofC_ok_bind]
        generalize hc : (if a.completes = true then complete.set s.done.length (some true) else complete) = c1
        have hc1 : c1.length = complete.length := by subst hc; split <;> simp
        have hco : ∀ (i : Nat) b, i ≠ s.done.length → ((s.done ++ (t, false) :: rest).map Prod.snd)[i]? = some b → c1[i]? = some (some b) := by
          intro i b hi hb
          have := hf i b hb
          subst hc
          split
          · rw [List.getElem?_set_ne (by omega)]; exact this
          · exact this
        have hcs : c1[s.done.length]? = some (some a.completes) := by
          subst hc
          split
          · rename_i h'; rw [h', List.getElem?_set_self (by omega)]
          · rename_i h'
            have := hf s.done.length false (by simp)
            simp only [Bool.not_eq_true] at h'
            rw [this, h']
        cases hin : a.inside with
        | true =>
          rw [hin] at hs
          simp only at hs
          obtain ⟨⟨edges, emax⟩, hpe, hs⟩ := bind_eq_ok.1 hs
          simp only [if_true, bind_assoc']
          refine wp_rdTri hq (t := t) hm (by omega) (by omega) htk ?_
          rw [hpe, ofC_ok_bind]
          refine wp_dropTri hq (x := (t, false)) (rest := rest) (done := s.done) hm ht hco (fun _ => Or.inr ⟨_, hcs⟩) (by omega) ?_
          intro m' c' hm' ht' hf' hl' hsame
          have hed : ∀ e ∈ edges, e.1 ≤ 65 ∧ e.2 ≤ 65 := by
            intro e hee
            rw [pushEdges_eq hpe] at hee
            have ck := fun k => hm.tri _ _ _ (htk k)
            have c0 := ck 0; have c1 := ck 1; have c2 := ck 2
            simp only [corner] at c0 c1 c2
            rcases List.mem_append.1 hee with hee | hee
            · exact he e hee
            · simp only [Tri.edges, List.mem_cons, List.not_mem_nil, or_false] at hee
              rcases hee with rfl | rfl | rfl <;> exact ⟨by assumption, by assumption⟩
          refine ih (moveLast rest) { s with edges := edges, emax := emax, st := a.next } s' fuel m' c' f
            (by rw [moveLast_length]; simpa using hl) hs hm' ht' hf' (hsame.points hp) hed
            (hS.imp id (by rw [moveLast_length]; simp)) ?_
          intro m2 c2 h1 h2 h3 h4 h5 h6
          exact h m2 c2 h1 h2 h3 (by rw [h4, hl', hc1]) (hsame.trans h5) h6
        | false =>
          rw [hin] at hs
          simp only at hs
          rw [if_neg (by simp)]
          have e : s.done.length + 1 = ({ s with done := s.done ++ [(t, a.completes)], st := a.next } : ScanSt σ).done.length := by simp
          rw [e]
          refine ih rest { s with done := s.done ++ [(t, a.completes)], st := a.next } s' fuel m c1 f (by simpa using hl) hs hm
            (by simpa using ht) ?_ hp he (hS.imp id (by simp)) ?_
          · intro i b hi
            by_cases hid : i = s.done.length
            · subst hid
              simp at hi
              rw [hcs, hi]
            · refine hco i b hid ?_
              rw [← hi]
              by_cases hlt : i < s.done.length
              · rw [List.getElem?_map, List.getElem?_map, List.append_assoc, List.getElem?_append_left hlt, List.getElem?_append_left hlt]
              · simp only [List.getElem?_map, List.append_assoc, List.singleton_append]
                rw [List.getElem?_append_right (by omega), List.getElem?_append_right (by omega)]
                have : i - s.done.length = (i - s.done.length - 1) + 1 := by omega
                rw [this, List.getElem?_cons_succ, List.getElem?_cons_succ]
          · intro m2 c2 h1 h2 h3 h4 h5 h6
            exact h m2 c2 h1 h2 h3 (by rw [h4, hc1]) h5 h6

/-- New triangles from the edges. -/
theorem wp_form (hq : Quiet A) (nv i : Nat) (hi : i ≤ 65) :
    ∀ (es : List (Option Edge)) (tris out : List (Tri × Bool)) (m : Mem K) (complete : List (Option Bool))
      (f : List (Option Bool) → Prog K β), formTris nv i es tris = .ok out → WellFormed m → Tris m (tris.map Prod.fst) →
      Flags complete (tris.map Prod.snd) → complete.length = 4 * nv → (∀ e, some e ∈ es → e.1 ≤ 65 ∧ e.2 ≤ 65) →
      (∀ m' complete', WellFormed m' → Tris m' (out.map Prod.fst) → Flags complete' (out.map Prod.snd) →
        complete'.length = 4 * nv → SameButTris m m' → wp A WellFormed S (f complete') m' Q) →
      wp A WellFormed S (formP i es complete >>= f) m Q := by
  intro es
  induction es with
  | nil =>
    intro tris out m complete f ho hm ht hf hl he h
    simp only [formTris, Except.ok.injEq] at ho
    subst ho
    exact h m complete hm ht hf hl (SameButTris.refl m)
  | cons e es ih =>
    intro tris out m complete f ho hm ht hf hl he h
    cases e with
    | none => exact ih tris out m complete f ho hm ht hf hl (fun e h' => he e (List.mem_cons_of_mem _ h')) h
    | some e =>
      simp only [formTris] at ho
      obtain ⟨ts, hp, ho⟩ := bind_eq_ok.1 ho
      unfold pushTri at hp
      split at hp
      swap
      · cases hp
      rename_i hcap
      injection hp with hp
      subst hp
      obtain ⟨b1, b2⟩ := he e (by simp)
      have hnum : m .numT = some (tris.length : Int) := by rw [ht.num]; simp
      have hv : ∀ k, (Loc.tri (tris.length : Int) k).valid = true := valid_tri (by omega) (by omega)
      simp only [formP, bind_assoc']
      refine wp_numT hq hm hnum ?_
      refine wp_wr hm (hv _) ?_
      have hm1 := hm.put_tri tris.length 0 e.1 b1
      refine wp_numT hq hm1 (by rw [upd_ne _ (by simp)]; exact hnum) ?_
      refine wp_wr hm1 (hv _) ?_
      have hm2 := hm1.put_tri tris.length 1 e.2 b2
      refine wp_numT hq hm2 (by rw [upd_ne _ (by simp), upd_ne _ (by simp)]; exact hnum) ?_
      refine wp_wr hm2 (hv _) ?_
      have hm3 := hm2.put_tri tris.length 2 i hi
      generalize hM : Function.update (Function.update (Function.update m (.tri tris.length 0) (some e.1)) (.tri tris.length 1) (some e.2))
        (.tri tris.length 2) (some i) = M at hm3 ⊢
      have hMn : M .numT = some (tris.length : Int) := by
        subst hM; rw [upd_ne _ (by simp), upd_ne _ (by simp), upd_ne _ (by simp)]; exact hnum
      have hMo : ∀ l, (∀ k, l ≠ .tri tris.length k) → M l = m l := by
        intro l hl'; subst hM; rw [upd_ne _ (hl' _), upd_ne _ (hl' _), upd_ne _ (hl' _)]
      have hMt : ∀ k, M (.tri tris.length k) = some (corner ⟨e.1, e.2, i⟩ k) := by
        intro k; subst hM
        match k with
        | 0 => rw [upd_ne _ (by simp), upd_ne _ (by simp), upd_same]; rfl
        | 1 => rw [upd_ne _ (by simp), upd_same]; rfl
        | 2 => rw [upd_same]; rfl
      refine wp_numT hq hm3 hMn ?_
      rw [setFlag_ok false (by omega), ofC_ok_bind]
      refine wp_numT hq hm3 hMn ?_
      refine wp_wr hm3 rfl ?_
      have htri : ∀ (j : Nat) t, ((tris ++ [((⟨e.1, e.2, i⟩ : Tri), false)]).map Prod.fst)[j]? = some t → ∀ k, M (.tri j k) = some (corner t k) := by
        intro j t hj k
        rw [List.map_append] at hj
        by_cases hlt : j < tris.length
        · rw [List.getElem?_append_left (by simpa using hlt)] at hj
          rw [hMo _ (by intro k' hc; injection hc with h1 _; omega)]
          exact ht.tri j t hj k
        · rw [List.getElem?_append_right (by simpa using hlt)] at hj
          have := (List.getElem?_eq_some_iff.1 hj).1
          simp only [List.length_map, List.length_singleton, List.map_cons, List.map_nil] at this
          have : j = tris.length := by omega
          subst this
          simp only [List.length_map, Nat.sub_self, List.map_cons, List.map_nil, List.getElem?_cons_zero, Option.some.injEq] at hj
          rw [← hj]; exact hMt k
      have hm4 : WellFormed (Function.update M .numT (some ((tris.length : Int) + 1))) := by
        refine hm3.put_numT _ (by omega) ?_
        intro j k h0 h1
        have : ∃ z, ((tris ++ [((⟨e.1, e.2, i⟩ : Tri), false)]).map Prod.fst)[j.toNat]? = some z := ⟨_, List.getElem?_eq_getElem (by
          simp only [List.length_map, List.length_append, List.length_singleton]; omega)⟩
        obtain ⟨z, hz⟩ := this
        have := htri j.toNat z hz k
        rw [Int.toNat_of_nonneg h0] at this
        exact ⟨_, this⟩
      refine ih (tris ++ [(⟨e.1, e.2, i⟩, false)]) out _ _ f ho hm4 ⟨?_, ?_⟩ ?_ (by simpa using hl)
        (fun e h' => he e (List.mem_cons_of_mem _ h')) ?_
      · rw [upd_same]; simp
      · intro j t hj k
        rw [upd_ne _ (by simp)]; exact htri j t hj k
      · intro j b hj
        rw [List.map_append] at hj
        by_cases hlt : j < tris.length
        · rw [List.getElem?_append_left (by simpa using hlt)] at hj
          rw [List.getElem?_set_ne (by omega)]
          exact hf j b hj
        · rw [List.getElem?_append_right (by simpa using hlt)] at hj
          have := (List.getElem?_eq_some_iff.1 hj).1
          simp only [List.length_map, List.length_singleton, List.map_cons, List.map_nil] at this
          have : j = tris.length := by omega
          subst this
          simp only [List.length_map, Nat.sub_self, List.map_cons, List.map_nil, List.getElem?_cons_zero, Option.some.injEq] at hj
          rw [List.getElem?_set_self (by omega), hj]
      · intro m' c' h1 h2 h3 h4 h5
        refine h m' c' h1 h2 h3 h4 (SameButTris.trans ?_ h5)
        intro l g1 g2
        rw [upd_ne _ g1]; exact hMo l (g2 _)

/-- All points. -/
theorem wp_insert (hq : Quiet A) (test : Test K σ) (nv : Nat) (mem : List (VertexPair K)) (fuel : Nat) (hS : S ∨ 192 < fuel) :
    ∀ (is : List Nat) (w w' : Work σ) (m : Mem K) (complete : List (Option Bool)) (edges : List Edge) (f : Unit → Prog K β),
      (∀ i ∈ is, i ≤ 65) → insertAll test nv mem is w = .ok w' → WellFormed m → Tris m (w.tris.map Prod.fst) → Flags complete (w.tris.map Prod.snd) →
      complete.length = 4 * nv → Points m mem →
      (∀ m', WellFormed m' → Tris m' (w'.tris.map Prod.fst) → SameButTris m m' → wp A WellFormed S (f ()) m' Q) →
      wp A WellFormed S (insertP test fuel is ⟨complete, edges, w.emax, w.st⟩ >>= f) m Q := by
  intro is
  induction is with
  | nil =>
    intro w w' m complete edges f hlt hw hm ht hf hl hp h
    simp only [insertAll, Except.ok.injEq] at hw
    subst hw
    exact h m hm ht (SameButTris.refl m)
  | cons i is ih =>
    intro w w' m complete edges f hlt hw hm ht hf hl hp h
    simp only [insertAll] at hw
    obtain ⟨w1, h1, hw⟩ := bind_eq_ok.1 hw
    unfold insertPoint at h1
    obtain ⟨p, hp1, h1⟩ := bind_eq_ok.1 h1
    obtain ⟨s, hs, h1⟩ := bind_eq_ok.1 h1
    obtain ⟨ts, hts, h1⟩ := bind_eq_ok.1 h1
    simp only [pure, Except.pure, Except.ok.injEq] at h1
    subst h1
    unfold readPt at hp1
    split at hp1
    swap
    · cases hp1
    rename_i v hv
    injection hp1 with hp1
    subst hp1
    have hi : i < 67 := by have := (List.getElem?_eq_some_iff.1 hv).1; rw [hp.1] at this; exact this
    have hb := ht.bound hm
    simp only [insertP, bind_assoc']
    refine wp_rdPt hq (p := v.actual) hm hi (hp.2 i v hv 0) (hp.2 i v hv 1) ?_
    refine wp_scan hq test mem v.actual w.tris.length w.tris ⟨[], [], w.emax, w.st⟩ s fuel m complete _ (le_refl _) hs hm
      (by simpa using ht) (by simpa using hf) hp (by simp) (hS.imp id (fun h => by simp only [List.length_map] at hb; omega)) ?_
    intro m1 c1 g1 g2 g3 g4 g5 g6
    by_cases hi65 : i ≤ 65
    · refine wp_form hq nv i hi65 _ _ _ m1 c1 _ hts g1 g2 g3 (by omega) ?_ ?_
      · intro e he
        obtain ⟨e', he', hee⟩ := List.mem_map.1 (tagAll_mem _ _ _ he)
        cases hee
        exact g6 e he'
      · intro m2 c2 k1 k2 k3 k4 k5
        exact ih ⟨ts, s.emax, s.st⟩ w' m2 c2 s.edges f (fun j hj => hlt j (List.mem_cons_of_mem _ hj)) hw k1 k2 k3 k4 ((g5.trans k5).points hp)
          (fun m3 q1 q2 q3 => h m3 q1 q2 ((g5.trans k5).trans q3))
    · exact absurd (hlt i (by simp)) (by omega)

/-- Removing the supertriangle. -/
theorem wp_purge (hq : Quiet A) (nv : Nat) :
    ∀ (fuel' : Nat) (todo done : List Tri) (fuel : Nat) (m : Mem K) (f : Unit → Prog K β), todo.length ≤ fuel' → WellFormed m →
      Tris m (done ++ todo) → (S ∨ todo.length < fuel) →
      (∀ m', WellFormed m' → Tris m' (purge nv fuel' todo done) → SameButTris m m' → wp A WellFormed S (f ()) m' Q) →
      wp A WellFormed S (purgeP nv fuel done.length >>= f) m Q := by
  intro fuel'
  induction fuel' with
  | zero =>
    intro todo done fuel m f hl hm ht hS h
    have : todo = [] := List.length_eq_zero_iff.1 (by omega)
    subst this
    cases fuel with
    | zero => exact ⟨hm, hS.resolve_right (by simp)⟩
    | succ fuel =>
      simp only [purgeP, bind_assoc']
      refine wp_numT hq hm ht.num ?_
      rw [if_neg (by simp)]
      exact h m hm ht (SameButTris.refl m)
  | succ fuel' ih =>
    intro todo done fuel m f hl hm ht hS h
    cases fuel with
    | zero => exact ⟨hm, hS.resolve_right (by simp)⟩
    | succ fuel =>
      have hb := ht.bound hm
      match todo, hl, ht, hS, hb, h with
      | [], hl, ht, hS, hb, h =>
        simp only [purgeP, bind_assoc']
        refine wp_numT hq hm ht.num ?_
        rw [if_neg (by simp)]
        exact h m hm (by simpa [purge] using ht) (SameButTris.refl m)
      | t :: rest, hl, ht, hS, hb, h =>
        simp only [List.length_append, List.length_cons] at hb
        have hn : (m .numT) = some ((done.length + rest.length + 1 : Nat) : Int) := by
          rw [ht.num]; simp [add_assoc]
        have hsub : (((done.length + rest.length + 1 : Nat) : Int) - 1) = ((done.length + rest.length : Nat) : Int) := by push_cast; ring
        simp only [purgeP, bind_assoc']
        refine wp_numT hq hm hn ?_
        rw [if_pos (by push_cast; omega)]
        simp only [bind_assoc']
        refine wp_rdTri hq (t := t) hm (by omega) (by omega) (ht.tri _ _ (by simp)) ?_
        simp only [purge] at h
        by_cases hc : t.p1 ≥ nv ∨ t.p2 ≥ nv ∨ t.p3 ≥ nv
        · rw [if_pos hc] at h ⊢
          simp only [bind_assoc']
          refine wp_numT hq hm hn ?_
          rw [hsub]
          have hlast : ∃ y, (done ++ t :: rest)[done.length + rest.length]? = some y :=
            ⟨_, List.getElem?_eq_getElem (by simp)⟩
          obtain ⟨y, hy'⟩ := hlast
          refine wp_copyTri hq (t := y) hm (by omega) (by omega) (by omega) (by omega) (ht.tri _ _ hy') ?_
          intro m1 hm1 c1 s1
          have hn1 : m1 .numT = some ((done.length + rest.length + 1 : Nat) : Int) := by rw [s1 _ (by simp)]; exact hn
          refine wp_numT hq hm1 hn1 ?_
          rw [hsub]
          refine wp_wr hm1 rfl ?_
          have htri : ∀ (i : Nat) t, (done ++ moveLast rest)[i]? = some t → ∀ k, m1 (.tri i k) = some (corner t k) := by
            intro i z hz k
            obtain ⟨g1, g2⟩ := moveLast_get done t rest i z hz
            split at g2
            · rename_i he
              subst he
              rw [hy'] at g2
              rw [← Option.some.inj g2]
              exact c1 k
            · rename_i he
              rw [s1 _ (by intro k' hc; injection hc with h1 _; omega)]
              exact ht.tri i z g2 k
          refine ih (moveLast rest) done fuel _ f (by rw [moveLast_length]; simpa using hl) (hm1.put_numT _ (by omega) ?_) ⟨?_, ?_⟩
            (hS.imp id (by rw [moveLast_length]; simp)) ?_
          · intro i k h0 h1
            have : ∃ z, (done ++ moveLast rest)[i.toNat]? = some z := ⟨_, List.getElem?_eq_getElem (by
              rw [List.length_append, moveLast_length]; omega)⟩
            obtain ⟨z, hz⟩ := this
            have := htri i.toNat z hz k
            rw [Int.toNat_of_nonneg h0] at this
            exact ⟨_, this⟩
          · rw [upd_same]; simp [moveLast_length]
          · intro i z hz k
            rw [upd_ne _ (by simp)]; exact htri i z hz k
          · intro m' h1 h2 h3
            refine h m' h1 h2 (SameButTris.trans ?_ h3)
            intro l g1 g2
            rw [upd_ne _ g1, s1 _ (g2 _)]
        · rw [if_neg hc] at h ⊢
          have e : done.length + 1 = (done ++ [t]).length := by simp
          rw [e]
          exact ih rest (done ++ [t]) fuel m f (by simpa using hl) hm (by simpa using ht) (hS.imp id (by simp)) h

/-- Reading the points. -/
theorem wp_rdPts (hq : Quiet A) {mem : List (VertexPair K)} (hm : WellFormed m) (hp : Points m mem) :
    ∀ (n i : Nat) (f : List (Pt K) → Prog K β), i + n ≤ 67 →
      wp A WellFormed S (f (((mem.drop i).take n).map VertexPair.actual)) m Q → wp A WellFormed S (rdPts i n >>= f) m Q := by
  intro n
  induction n with
  | zero => intro i f _ h; rw [List.take_zero] at h; exact h
  | succ n ih =>
    intro i f hi h
    have hlt : i < mem.length := by rw [hp.1]; omega
    have hv := List.getElem?_eq_getElem hlt
    simp only [rdPts, bind_assoc']
    refine wp_rdPt hq (p := mem[i].actual) hm (by omega) (hp.2 i _ hv 0) (hp.2 i _ hv 1) ?_
    refine ih (i + 1) _ (by omega) ?_
    rw [pure_bind']
    rw [List.drop_eq_getElem_cons hlt, List.take_succ_cons, List.map_cons] at h
    exact h

theorem Points.write {mem mem' : List (VertexPair K)} (hp : Points m mem) {i : Nat} {p : Pt K} (h : writePt mem i p = .ok mem') :
    i < 67 ∧ Points (Function.update (Function.update m (.vert i 0) (some p.x)) (.vert i 1) (some p.y)) mem' := by
  unfold writePt at h
  split at h
  swap
  · cases h
  rename_i v hv
  injection h with h
  subst h
  have hi : i < 67 := by have := (List.getElem?_eq_some_iff.1 hv).1; rw [hp.1] at this; exact this
  refine ⟨hi, by simpa using hp.1, ?_⟩
  intro j u hu f
  by_cases hj : j = i
  · subst hj
    rw [List.getElem?_set_self (by rw [hp.1]; exact hi)] at hu
    rw [← Option.some.inj hu]
    match f with
    | 0 => rw [upd_ne _ (by simp), upd_same]; rfl
    | 1 => rw [upd_same]; rfl
    | 2 => rw [upd_ne _ (by simp), upd_ne _ (by simp)]; exact hp.2 j v hv 2
    | 3 => rw [upd_ne _ (by simp), upd_ne _ (by simp)]; exact hp.2 j v hv 3
  · rw [List.getElem?_set_ne (Ne.symm hj)] at hu
    rw [upd_ne _ (by intro hc; injection hc with h1 _; exact hj h1), upd_ne _ (by intro hc; injection hc with h1 _; exact hj h1)]
    exact hp.2 j u hu f

/-- The supertriangle. -/
theorem wp_super (hq : Quiet A) {nv : Nat} {mem mem' : List (VertexPair K)} {f : Unit → Prog K β} (hm : WellFormed m)
    (hp : Points m mem) (hw : withSuper nv mem = .ok mem')
    (h : ∀ m', WellFormed m' → Points m' mem' → (∀ l, (∀ i f, l ≠ .vert i f) → m' l = m l) → wp A WellFormed S (f ()) m' Q) :
    wp A WellFormed S (superP nv >>= f) m Q := by
  unfold withSuper at hw
  split at hw
  · cases hw
  rename_i p ps hl
  obtain ⟨m1, e1, hw⟩ := bind_eq_ok.1 hw
  obtain ⟨m2, e2, e3⟩ := bind_eq_ok.1 hw
  obtain ⟨i1, p1⟩ := hp.write e1
  obtain ⟨i2, p2⟩ := p1.write e2
  obtain ⟨i3, p3⟩ := p2.write e3
  unfold superP
  simp only [bind_assoc']
  refine wp_rdPts hq hm hp nv 0 _ (by omega) ?_
  rw [List.drop_zero, hl]
  simp only [bind_assoc']
  have g1 := hm.put_vert nv 0 (superPts p ps).1.x
  have g2 := g1.put_vert nv 1 (superPts p ps).1.y
  have g3 := g2.put_vert (nv + 1) 0 (superPts p ps).2.1.x
  have g4 := g3.put_vert (nv + 1) 1 (superPts p ps).2.1.y
  have g5 := g4.put_vert (nv + 2) 0 (superPts p ps).2.2.x
  have g6 := g5.put_vert (nv + 2) 1 (superPts p ps).2.2.y
  refine wp_wr hm (valid_vert i1 _) ?_
  refine wp_wr g1 (valid_vert i1 _) ?_
  refine wp_wr g2 (valid_vert i2 _) ?_
  refine wp_wr g3 (valid_vert i2 _) ?_
  refine wp_wr g4 (valid_vert i3 _) ?_
  refine wp_wr g5 (valid_vert i3 _) ?_
  refine h _ g6 p3 ?_
  intro l hl'
  rw [upd_ne _ (hl' _ _), upd_ne _ (hl' _ _), upd_ne _ (hl' _ _), upd_ne _ (hl' _ _), upd_ne _ (hl' _ _), upd_ne _ (hl' _ _)]

/-- The whole triangulation. -/
theorem wp_triangulate (hq : Quiet A) (test : Test K σ) (init : σ) (fuel nv : Nat) (hS : S ∨ 192 < fuel) (h1 : 1 ≤ nv) (h63 : nv ≤ 63)
    {mem mem' : List (VertexPair K)} {ts : List Tri} {f : Unit → Prog K β} (hm : WellFormed m) (hp : Points m mem)
    (hr : triangulate test init nv mem = .ok (mem', ts))
    (h : ∀ m', WellFormed m' → Points m' mem' → Tris m' ts →
      (∀ l, l ≠ .numT → (∀ i k, l ≠ .tri i k) → (∀ i f, l ≠ .vert i f) → m' l = m l) → wp A WellFormed S (f ()) m' Q) :
    wp A WellFormed S (triangulateP test init fuel nv >>= f) m Q := by
  unfold triangulate at hr
  obtain ⟨mem1, hw, hr⟩ := bind_eq_ok.1 hr
  rw [pushTri_first nv h1, bind_ok] at hr
  obtain ⟨w, hi, hr⟩ := bind_eq_ok.1 hr
  simp only [pure, Except.pure, Except.ok.injEq, Prod.mk.injEq] at hr
  obtain ⟨rfl, rfl⟩ := hr
  unfold triangulateP
  simp only [bind_assoc']
  refine wp_super hq hm hp hw ?_
  intro m1 w1 p1 o1
  have v0 : ∀ k, (Loc.tri 0 k).valid = true := valid_tri (by omega) (by omega)
  refine wp_wr w1 (v0 _) ?_
  have w2 := w1.put_tri 0 0 nv (by omega)
  refine wp_wr w2 (v0 _) ?_
  have w3 := w2.put_tri 0 1 (nv + 1) (by omega)
  refine wp_wr w3 (v0 _) ?_
  have w4 := w3.put_tri 0 2 (nv + 2) (by omega)
  have e : setFlag (List.replicate (4 * nv) none) 0 false = .ok ((List.replicate (4 * nv) none).set 0 (some false)) :=
    setFlag_ok (i := 0) false (by simp; omega)
  rw [e, ofC_ok_bind]
  refine wp_wr w4 rfl ?_
  generalize hM : Function.update (Function.update (Function.update m1 (.tri 0 0) (some nv)) (.tri 0 1) (some (nv + 1)))
        (.tri 0 2) (some (nv + 2)) = M at w4 ⊢
  have hMt : ∀ k, M (.tri 0 k) = some (corner ⟨nv, nv + 1, nv + 2⟩ k) := by
    intro k; subst hM
    match k with
    | 0 => rw [upd_ne _ (by simp), upd_ne _ (by simp), upd_same]; rfl
    | 1 => rw [upd_ne _ (by simp), upd_same]; rfl
    | 2 => rw [upd_same]; rfl
  have hMo : ∀ l, (∀ i k, l ≠ .tri i k) → M l = m1 l := by
    intro l hl'; subst hM; rw [upd_ne _ (hl' _ _), upd_ne _ (hl' _ _), upd_ne _ (hl' _ _)]
  have w5 : WellFormed (Function.update M .numT (some 1)) := by
    refine w4.put_numT 1 (by omega) ?_
    intro i k h0 h2
    have : i = 0 := by omega
    subst this
    exact ⟨_, hMt k⟩
  have pM : Points (Function.update M .numT (some (1 : Int))) mem1 :=
    ⟨p1.1, fun i v hv f => by rw [upd_ne _ (by simp), hMo _ (by simp)]; exact p1.2 i v hv f⟩
  refine wp_insert hq test nv mem1 fuel hS (List.range nv) ⟨[(⟨nv, nv + 1, nv + 2⟩, false)], 200, init⟩ w _ _ [] _ ?_ hi w5 ⟨?_, ?_⟩ ?_ (by simp) pM ?_
  · intro i hi; have := List.mem_range.1 hi; omega
  · rw [upd_same]; simp
  · intro i t hi k
    cases i with
    | zero =>
      simp only [List.map_cons, List.map_nil, List.getElem?_cons_zero, Option.some.injEq] at hi
      subst hi
      rw [upd_ne _ (by simp)]
      exact hMt k
    | succ i => simp at hi
  · intro i b hi
    cases i with
    | zero =>
      simp only [List.map_cons, List.map_nil, List.getElem?_cons_zero, Option.some.injEq] at hi
      subst hi
      rw [List.getElem?_set_self (by simp; omega)]
    | succ i => simp at hi
  · intro m2 w6 t6 s6
    have hb := t6.bound w6
    have := wp_purge (S := S) hq nv (w.tris.map Prod.fst).length (w.tris.map Prod.fst) [] fuel m2 f (le_refl _) w6 (by simpa using t6)
      (hS.imp id (fun h => by omega)) (Q := Q)
    refine this ?_
    intro m3 w7 t7 s7
    refine h m3 w7 (s7.points (s6.points pM)) t7 ?_
    intro l g1 g2 g3
    rw [s7 l g1 g2, s6 l g1 g2, upd_ne _ g1, hMo l g2, o1 l g3]

end Verif.Shared
