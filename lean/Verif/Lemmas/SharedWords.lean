import Verif.Model.SharedWords
import Verif.Lemmas.SharedPar

/-!
# Two tasks, word by word
-/

namespace Verif.Shared

open Verif.Align Linalg

set_option linter.unusedSectionVars false

/-! ### Programs that only write certain orientations -/

section Turns
variable {K α β : Type} {xs ys : List K}

/-- The orientations that may be written. -/
def turn (xs ys : List K) : (l : Loc) → l.Ty K → Prop
  | .az, v => v ∈ xs
  | .alt, v => v ∈ ys
  | .numV, _ => True
  | .numT, _ => True
  | .tri _ _, _ => True
  | .vert _ _, _ => True
  | .mat _ _ _, _ => True

/-- The task writes only azimuths in `xs` and altitudes in `ys`. -/
def turns (xs ys : List K) : Prog K α → Prop
  | .ret _ => True
  | .spin => True
  | .fail _ => True
  | .get _ k => ∀ v, turns xs ys (k v)
  | .put l v k => turn xs ys l v ∧ turns xs ys k

theorem turns_bind {p : Prog K α} {f : α → Prog K β} (h : turns xs ys p) (hf : ∀ a, turns xs ys (f a)) : turns xs ys (p >>= f) := by
  show turns xs ys (p.bind f)
  induction p with
  | ret a => exact hf a
  | spin => trivial
  | fail e => trivial
  | get l k ih => exact fun v => ih v (h v)
  | put l v k ih => exact ⟨h.1, ih h.2⟩

theorem turns_pure (a : α) : turns xs ys (pure a : Prog K α) := trivial

theorem turns_rd (l : Loc) : turns xs ys (rd l : Prog K (l.Ty K)) := fun _ => trivial

theorem turns_ofC (c : C α) : turns xs ys (ofC c : Prog K α) := by cases c <;> trivial

theorem turns_wr {l : Loc} (v : l.Ty K) (h1 : l ≠ .az) (h2 : l ≠ .alt) : turns xs ys (wr l v : Prog K Unit) := by
  cases l <;> first | contradiction | exact ⟨trivial, trivial⟩

theorem turns_ite {c : Prop} [Decidable c] {p q : Prog K α} (h1 : turns xs ys p) (h2 : turns xs ys q) : turns xs ys (if c then p else q) := by
  split <;> assumption

macro "turns" : tactic => `(tactic| repeat' first
  | exact turns_pure _
  | exact turns_rd _
  | exact turns_ofC _
  | exact turns_wr _ (by simp) (by simp)
  | assumption
  | trivial
  | intro _
  | refine turns_bind ?_ ?_
  | refine turns_ite ?_ ?_)

theorem turns_rdPt (i : Nat) : turns xs ys (rdPt i : Prog K _) := by unfold rdPt; turns
theorem turns_rdVertex (i : Nat) : turns xs ys (rdVertex i : Prog K _) := by unfold rdVertex; turns
theorem turns_rdTri (i : Int) : turns xs ys (rdTri i : Prog K _) := by unfold rdTri; turns
theorem turns_copyTri (i j : Int) : turns xs ys (copyTri i j : Prog K _) := by unfold copyTri; turns
theorem turns_rdMat (i : Nat) : turns xs ys (rdMat i : Prog K _) := by unfold rdMat; turns
theorem turns_wrMat (i : Nat) (m : Mat3 K) : turns xs ys (wrMat i m : Prog K _) := by unfold wrMat; turns

theorem turns_rdVertices (n : Nat) : ∀ i, turns xs ys (rdVertices i n : Prog K _) := by
  induction n with
  | zero => intro i; trivial
  | succ n ih => intro i; unfold rdVertices; exact turns_bind (turns_rdVertex i) fun _ => turns_bind (ih _) fun _ => trivial

theorem turns_rdPts (n : Nat) : ∀ i, turns xs ys (rdPts i n : Prog K _) := by
  induction n with
  | zero => intro i; trivial
  | succ n ih => intro i; unfold rdPts; exact turns_bind (turns_rdPt i) fun _ => turns_bind (ih _) fun _ => trivial

theorem turns_wrAll (ws : List (Nat × Fin 4 × K)) : turns xs ys (wrAll ws) := by
  induction ws with
  | nil => trivial
  | cons w ws ih => unfold wrAll; turns

end Turns

section Calls
variable {K σ : Type} [Field K] [LinearOrder K] [IsStrictOrderedRing K] {xs ys : List K}

theorem turns_dropTri (j : Nat) (c : List (Option Bool)) : turns xs ys (dropTri j c : Prog K _) := by
  unfold dropTri
  have := turns_copyTri (xs := xs) (ys := ys)
  refine turns_bind (turns_rd _) fun n => turns_bind (turns_copyTri _ _) fun _ => ?_
  turns

theorem turns_scan (test : Test K σ) (p : Pt K) (fuel : Nat) : ∀ j s, turns xs ys (scanP test p fuel j s) := by
  induction fuel with
  | zero => intro j s; trivial
  | succ fuel ih =>
    intro j s
    unfold scanP
    refine turns_bind (turns_rd _) fun n => turns_ite (turns_bind (turns_ofC _) fun b => turns_ite (ih _ _) ?_) trivial
    refine turns_bind (turns_rdTri _) fun t => turns_bind (turns_rdPt _) fun a => turns_bind (turns_rdPt _) fun b =>
      turns_bind (turns_rdPt _) fun c => turns_bind (turns_ofC _) fun r => turns_bind (turns_ofC _) fun co => turns_ite ?_ (ih _ _)
    exact turns_bind (turns_rdTri _) fun t => turns_bind (turns_ofC _) fun e => turns_bind (turns_dropTri _ _) fun c => ih _ _

theorem turns_form (i : Nat) (es : List (Option Edge)) : ∀ c, turns xs ys (formP i es c : Prog K _) := by
  induction es with
  | nil => intro c; trivial
  | cons e es ih =>
    intro c
    cases e with
    | none => exact ih c
    | some e =>
      unfold formP
      refine turns_bind (turns_rd _) fun n => turns_bind (turns_wr _ (by simp) (by simp)) fun _ => turns_bind (turns_rd _) fun n =>
        turns_bind (turns_wr _ (by simp) (by simp)) fun _ => turns_bind (turns_rd _) fun n => turns_bind (turns_wr _ (by simp) (by simp)) fun _ =>
        turns_bind (turns_rd _) fun n => turns_bind (turns_ofC _) fun _ => turns_bind (turns_rd _) fun n =>
        turns_bind (turns_wr _ (by simp) (by simp)) fun _ => ih _

theorem turns_insert (test : Test K σ) (fuel : Nat) (is : List Nat) : ∀ s, turns xs ys (insertP test fuel is s) := by
  induction is with
  | nil => intro s; trivial
  | cons i is ih =>
    intro s
    unfold insertP
    exact turns_bind (turns_rdPt _) fun p => turns_bind (turns_scan _ _ _ _ _) fun s => turns_bind (turns_form _ _ _) fun c => ih _

theorem turns_purge (nv fuel : Nat) : ∀ i, turns xs ys (purgeP nv fuel i : Prog K _) := by
  induction fuel with
  | zero => intro i; trivial
  | succ fuel ih =>
    intro i
    unfold purgeP
    refine turns_bind (turns_rd _) fun n => turns_ite (turns_bind (turns_rdTri _) fun t => turns_ite ?_ (ih _)) trivial
    exact turns_bind (turns_rd _) fun n => turns_bind (turns_copyTri _ _) fun _ => turns_bind (turns_rd _) fun n =>
      turns_bind (turns_wr _ (by simp) (by simp)) fun _ => ih _

theorem turns_super (nv : Nat) : turns xs ys (superP nv : Prog K _) := by
  unfold superP
  refine turns_bind (turns_rdPts _ _) fun ps => ?_
  cases ps with
  | nil => trivial
  | cons p ps => turns

theorem turns_triangulate (test : Test K σ) (init : σ) (fuel nv : Nat) : turns xs ys (triangulateP test init fuel nv : Prog K _) := by
  unfold triangulateP
  exact turns_bind (turns_super _) fun _ => turns_bind (turns_wr _ (by simp) (by simp)) fun _ => turns_bind (turns_wr _ (by simp) (by simp)) fun _ =>
    turns_bind (turns_wr _ (by simp) (by simp)) fun _ => turns_bind (turns_ofC _) fun _ => turns_bind (turns_wr _ (by simp) (by simp)) fun _ =>
    turns_bind (turns_insert _ _ _ _) fun _ => turns_purge _ _ _

theorem turns_branch : turns xs ys (branchP : Prog K _) := by
  unfold branchP emptyAnd
  turns

theorem turns_triMatrices (stray : Nat → K) (fuel : Nat) : ∀ i, turns xs ys (triMatricesP stray fuel i) := by
  induction fuel with
  | zero => intro i; trivial
  | succ fuel ih =>
    intro i
    unfold triMatricesP
    exact turns_bind (turns_rd _) fun n => turns_ite (turns_bind (turns_rdTri _) fun t => turns_bind (turns_rdVertex _) fun a =>
      turns_bind (turns_rdVertex _) fun b => turns_bind (turns_rdVertex _) fun c => turns_bind (turns_wrMat _ _) fun _ => ih _) trivial

theorem turns_update (env : Env K σ) (fuel : Nat) : turns xs ys (updateP env fuel) := by
  unfold updateP
  refine turns_bind turns_branch fun b => ?_
  cases b with
  | point =>
    refine turns_bind (turns_wrMat _ _) fun _ => ?_
    turns
  | line => exact turns_bind (turns_rdVertex _) fun a => turns_bind (turns_rdVertex _) fun b => turns_wrMat _ _
  | tris => exact turns_triMatrices _ _ _
  | none => exact turns_wrMat _ _

theorem turns_triangulateActual (env : Env K σ) (fuel : Nat) : turns xs ys (triangulateActualP env fuel) := by
  unfold triangulateActualP triangulateSomeP
  exact turns_bind (turns_bind (turns_rd _) fun n => turns_ite (turns_bind (turns_rd _) fun n => turns_triangulate _ _ _ _) trivial)
    fun _ => turns_update _ _

theorem turns_known (actual : Pt K) (fuel : Nat) : ∀ i, turns xs ys (knownP actual fuel i) := by
  induction fuel with
  | zero => intro i; trivial
  | succ fuel ih =>
    intro i
    unfold knownP
    exact turns_bind (turns_rd _) fun n => turns_ite (turns_bind (turns_rdPt _) fun p => turns_ite trivial (ih _)) trivial

theorem turns_wrap (r : Pt K) : turns xs ys (wrapP r) := by unfold wrapP; turns

theorem turns_add (writes : List (VertexPair K) → List (Nat × Fin 4 × K)) (fuel : Nat) (a r : Pt K) : turns xs ys (addP writes fuel a r) := by
  unfold addP
  refine turns_bind (turns_known _ _ _) fun b => turns_ite trivial ?_
  refine turns_bind (turns_wrap _) fun r => turns_bind (turns_rd _) fun n => turns_bind (turns_wr _ (by simp) (by simp)) fun _ =>
    turns_bind (turns_wr _ (by simp) (by simp)) fun _ => turns_bind (turns_rd _) fun n => turns_bind (turns_wr _ (by simp) (by simp)) fun _ =>
    turns_bind (turns_wr _ (by simp) (by simp)) fun _ => turns_bind (turns_rd _) fun n => turns_bind (turns_wr _ (by simp) (by simp)) fun _ =>
    turns_bind (turns_rd _) fun n => turns_bind (turns_rdVertices _ _) fun vs => turns_bind (turns_wrAll _) fun _ => trivial

theorem turns_first (env : Env K σ) (p : Pt K) (fuel : Nat) : ∀ i, turns xs ys (firstP env p fuel i) := by
  induction fuel with
  | zero => intro i; trivial
  | succ fuel ih =>
    intro i
    unfold firstP
    exact turns_bind (turns_rd _) fun n => turns_ite (turns_bind (turns_rdTri _) fun t => turns_bind (turns_rdPt _) fun a =>
      turns_bind (turns_rdPt _) fun b => turns_bind (turns_rdPt _) fun c => turns_ite trivial (ih _)) trivial

theorem turns_nearest (env : Env K σ) (p : Pt K) (fuel : Nat) : ∀ i best, turns xs ys (nearestP env p fuel i best) := by
  induction fuel with
  | zero => intro i best; trivial
  | succ fuel ih =>
    intro i best
    unfold nearestP
    exact turns_bind (turns_rd _) fun n => turns_ite (turns_bind (turns_rdTri _) fun t => turns_bind (turns_rdPt _) fun a =>
      turns_bind (turns_rdPt _) fun b => turns_bind (turns_rdPt _) fun c => ih _ _) trivial

theorem turns_matrix (env : Env K σ) (fuel : Nat) (p : Pt K) : turns xs ys (matrixP env fuel p) := by
  unfold matrixP
  refine turns_bind turns_branch fun b => ?_
  cases b with
  | point => exact turns_rdMat _
  | line => exact turns_rdMat _
  | none => trivial
  | tris =>
    refine turns_bind (turns_first _ _ _ _) fun o => ?_
    cases o with
    | some i => exact turns_rdMat _
    | none =>
      refine turns_bind (turns_nearest _ _ _ _ _) fun o => ?_
      cases o with
      | some b => exact turns_rdMat _
      | none => trivial

theorem turns_type (env : Env K σ) (fuel : Nat) (p : Pt K) : turns xs ys (typeP env fuel p) := by
  unfold typeP
  refine turns_bind turns_branch fun b => ?_
  cases b with
  | point => trivial
  | line => trivial
  | none => trivial
  | tris =>
    refine turns_bind (turns_first _ _ _ _) fun o => ?_
    cases o <;> trivial

theorem turns_calls (env : Env K σ) (writes : List (VertexPair K) → List (Nat × Fin 4 × K)) (fuel : Nat) (calls : List (Call K))
    (h : OrientsIn xs ys calls) : turns xs ys (callsP env writes fuel calls) := by
  induction calls with
  | nil => trivial
  | cons c cs ih =>
    unfold callsP
    refine turns_bind ?_ fun a => turns_bind (ih h.tail) fun b => trivial
    cases c with
    | position =>
      simp only [callP, positionP]
      exact turns_bind (turns_bind (turns_rd _) fun x => turns_bind (turns_rd _) fun y => turns_bind (turns_type _ _ _) fun t =>
        turns_bind (turns_rd _) fun x => turns_bind (turns_rd _) fun y => turns_bind (turns_matrix _ _ _) fun m => trivial) fun r => trivial
    | orient q =>
      obtain ⟨h1, h2⟩ := h q (by simp)
      simp only [callP, orientP]
      exact turns_bind (turns_bind (⟨h1, trivial⟩ : turns xs ys (wr .az q.x)) fun _ => (⟨h2, trivial⟩ : turns xs ys (wr .alt q.y))) fun _ => trivial
    | clear => simp only [callP, clearP]; turns
    | sync r =>
      simp only [callP, syncP]
      exact turns_bind (turns_bind (turns_rd _) fun x => turns_bind (turns_rd _) fun y => turns_bind (turns_add _ _ _ _) fun _ =>
        turns_triangulateActual _ _) fun _ => trivial

end Calls

/-! ### Halves -/

section Halves
variable {K α : Type} [Field K] [LinearOrder K] [IsStrictOrderedRing K] {mix : K → K → K}

theorem join_narrow {l : Loc} (h : l.wide = false) (a b : l.Ty K) : l.join mix a b = a := by
  cases l <;> first | rfl | cases h

theorem join_same (hmix : ∀ v, mix v v = v) (l : Loc) (a : l.Ty K) : l.join mix a a = a := by
  cases l <;> first | rfl | exact hmix _

theorem load_ok {β : Type} {m : Mem K} {l : Loc} {v : l.Ty K} (f : l.Ty K → β) (h : m l = some v) : load m l f = .ok (f v) := by
  unfold load; rw [h]

/-- All numbers with the high word of one and the low word of another of the given numbers. -/
def mixes (mix : K → K → K) (xs : List K) : List K := xs.flatMap fun a => xs.map (mix a)

theorem mem_mixes {xs : List K} {x : K} : x ∈ mixes mix xs ↔ ∃ u ∈ xs, ∃ w ∈ xs, mix u w = x := by
  simp [mixes]

theorem self_mixes (hmix : ∀ v, mix v v = v) {xs : List K} {x : K} (h : x ∈ xs) : x ∈ mixes mix xs := mem_mixes.2 ⟨x, h, x, h, hmix x⟩

/-! ### The general rule -/

/-- Both halves of a member that may be read come from numbers in `O`. -/
def InsideW (R O : Volatile K) (m : Words K) : Prop :=
  ∀ l, (∃ v, R l v) → (∃ v, m.up l = some v ∧ O l v) ∧ ∃ v, m.low l = some v ∧ O l v

/-- What a task may still do, in the middle of an access too. -/
def pok (xs ys : List K) (R O : Volatile K) (S : Prop) (Q : α → Prop) : Pend K α → Prop
  | .run p => rwp R S p Q ∧ turns xs ys p
  | .gotUp l u k => O l u ∧ rwp R S (.get l k) Q ∧ turns xs ys (.get l k)
  | .gotLow l w k => O l w ∧ rwp R S (.get l k) Q ∧ turns xs ys (.get l k)
  | .putUp l v k => rwp R S (.put l v k) Q ∧ turns xs ys (.put l v k)
  | .putLow l v k => rwp R S (.put l v k) Q ∧ turns xs ys (.put l v k)

variable {xs ys : List K} {R O : Volatile K} {S : Prop}

theorem InsideW.storeUp {m : Words K} (h : InsideW R O m) {l : Loc} {v : l.Ty K} (hv : O l v) : InsideW R O (m.storeUp l v) := by
  intro l' he
  refine ⟨?_, (h l' he).2⟩
  by_cases hl : l' = l
  · subst hl; exact ⟨v, upd_same _ _, hv⟩
  · obtain ⟨w, e, ho⟩ := (h l' he).1
    exact ⟨w, (upd_ne _ hl).trans e, ho⟩

theorem InsideW.storeLow {m : Words K} (h : InsideW R O m) {l : Loc} {v : l.Ty K} (hv : O l v) : InsideW R O (m.storeLow l v) := by
  intro l' he
  refine ⟨(h l' he).1, ?_⟩
  by_cases hl : l' = l
  · subst hl; exact ⟨v, upd_same _ _, hv⟩
  · obtain ⟨w, e, ho⟩ := (h l' he).2
    exact ⟨w, (upd_ne _ hl).trans e, ho⟩

theorem wstep_pok (hjoin : ∀ l a b, O l a → O l b → R l (l.join mix a b)) (hput : ∀ l v, R l v → turn xs ys l v → O l v) {Q : α → Prop}
    (first : Bool) {p : Pend K α} {m : Words K} (hm : InsideW R O m) (h : pok xs ys R O S Q p) :
    ∃ p' m', wstep mix first p m = .ok (p', m') ∧ InsideW R O m' ∧ pok xs ys R O S Q p' := by
  cases p with
  | run p =>
    obtain ⟨h, ht⟩ := h
    cases p with
    | ret a => exact ⟨_, _, rfl, hm, h, ht⟩
    | spin => exact ⟨_, _, rfl, hm, h, ht⟩
    | fail e => exact h.elim
    | get l k =>
      obtain ⟨⟨u, eu, hu⟩, w, ew, hw⟩ := hm l h.2.1
      simp only [wstep, h.1, if_true, startGet]
      cases hwide : l.wide with
      | false =>
        rw [load_ok _ eu]
        refine ⟨_, _, rfl, hm, h.2.2 u ?_, ht u⟩
        have := hjoin l u u hu hu
        rwa [join_narrow hwide] at this
      | true =>
        cases first with
        | true => simp only; rw [load_ok _ eu]; exact ⟨_, _, rfl, hm, hu, h, ht⟩
        | false => simp only; rw [load_ok _ ew]; exact ⟨_, _, rfl, hm, hw, h, ht⟩
    | put l v k =>
      have ho := hput l v h.2.1 ht.1
      simp only [wstep, h.1, if_true, startPut]
      cases hwide : l.wide with
      | false => exact ⟨_, _, rfl, (hm.storeUp ho).storeLow ho, h.2.2, ht.2⟩
      | true =>
        cases first with
        | true => exact ⟨_, _, rfl, hm.storeUp ho, h, ht⟩
        | false => exact ⟨_, _, rfl, hm.storeLow ho, h, ht⟩
  | gotUp l u k =>
    obtain ⟨hu, h, ht⟩ := h
    obtain ⟨-, w, ew, hw⟩ := hm l h.2.1
    simp only [wstep]
    rw [load_ok _ ew]
    exact ⟨_, _, rfl, hm, h.2.2 _ (hjoin l u w hu hw), ht _⟩
  | gotLow l w k =>
    obtain ⟨hw, h, ht⟩ := h
    obtain ⟨⟨u, eu, hu⟩, -⟩ := hm l h.2.1
    simp only [wstep]
    rw [load_ok _ eu]
    exact ⟨_, _, rfl, hm, h.2.2 _ (hjoin l u w hu hw), ht _⟩
  | putUp l v k => exact ⟨_, _, rfl, hm.storeLow (hput l v h.1.2.1 h.2.1), h.1.2.2, h.2.2⟩
  | putLow l v k => exact ⟨_, _, rfl, hm.storeUp (hput l v h.1.2.1 h.2.1), h.1.2.2, h.2.2⟩

theorem wpar_pok (hjoin : ∀ l a b, O l a → O l b → R l (l.join mix a b)) (hput : ∀ l v, R l v → turn xs ys l v → O l v)
    {Q : Race.Task → α → Prop} : ∀ (sched : List (Race.Task × Bool)) (ps : Race.Task → Pend K α) (m : Words K), InsideW R O m →
    (∀ t, pok xs ys R O S (Q t) (ps t)) →
    ∃ ps' m', wpar mix sched ps m = .ok (ps', m') ∧ InsideW R O m' ∧ ∀ t, pok xs ys R O S (Q t) (ps' t) := by
  intro sched
  induction sched with
  | nil => intro ps m hm h; exact ⟨ps, m, rfl, hm, h⟩
  | cons t sched ih =>
    intro ps m hm h
    obtain ⟨p', m', e, hm', h'⟩ := wstep_pok hjoin hput t.2 hm (h t.1)
    simp only [wpar, e, bind_ok]
    refine ih _ m' hm' fun u => ?_
    by_cases hu : u = t.1
    · subst hu; rw [Function.update_self]; exact h'
    · rw [Function.update_of_ne hu]; exact h u

theorem still_join (hmix : ∀ v, mix v v = v) {m : Mem K} (l : Loc) (a b : l.Ty K) (ha : still m xs ys l a) (hb : still m xs ys l b) :
    still m (mixes mix xs) (mixes mix ys) l (l.join mix a b) := by
  cases l with
  | az => exact mem_mixes.2 ⟨a, ha, b, hb, rfl⟩
  | alt => exact mem_mixes.2 ⟨a, ha, b, hb, rfl⟩
  | numV => exact ha
  | numT => exact ha
  | tri i k => exact ha
  | vert i k =>
    have e : a = b := Option.some.inj (ha.symm.trans hb)
    subst e; show m (.vert i k) = some (mix a a); rw [hmix]; exact ha
  | mat i r c =>
    have e : a = b := Option.some.inj (ha.symm.trans hb)
    subst e; show m (.mat i r c) = some (mix a a); rw [hmix]; exact ha

theorem still_put {m : Mem K} {xs' ys' : List K} (l : Loc) (v : l.Ty K) (h : still m xs' ys' l v) (ht : turn xs ys l v) : still m xs ys l v := by
  cases l with
  | az => exact ht
  | alt => exact ht
  | numV => exact h
  | numT => exact h
  | tri i k => exact h
  | vert i k => exact h
  | mat i r c => exact h

theorem insideW_still {m : Mem K} {xs' ys' : List K} (hx : ∃ x ∈ xs, m .az = some x) (hy : ∃ y ∈ ys, m .alt = some y) :
    InsideW (still m xs' ys') (still m xs ys) ⟨m, m⟩ := by
  intro l hl
  have : ∃ v, m l = some v ∧ still m xs ys l v := by
    cases l with
    | az => obtain ⟨x, hx, e⟩ := hx; exact ⟨x, e, hx⟩
    | alt => obtain ⟨y, hy, e⟩ := hy; exact ⟨y, e, hy⟩
    | numV => obtain ⟨v, hv⟩ := hl; exact ⟨v, hv, hv⟩
    | numT => obtain ⟨v, hv⟩ := hl; exact ⟨v, hv, hv⟩
    | tri i k => obtain ⟨v, hv⟩ := hl; exact ⟨v, hv, hv⟩
    | vert i k => obtain ⟨v, hv⟩ := hl; exact ⟨v, hv, hv⟩
    | mat i r c => obtain ⟨v, hv⟩ := hl; exact ⟨v, hv, hv⟩
  exact ⟨this, this⟩

theorem resets_join (hmix : ∀ v, mix v v = v) {m : Mem K} (l : Loc) (a b : l.Ty K) (ha : resets m xs ys l a) (hb : resets m xs ys l b) :
    resets m (mixes mix xs) (mixes mix ys) l (l.join mix a b) := by
  cases l with
  | az => exact mem_mixes.2 ⟨a, ha, b, hb, rfl⟩
  | alt => exact mem_mixes.2 ⟨a, ha, b, hb, rfl⟩
  | numV => exact ha
  | numT => exact ha
  | tri i k => exact ha
  | vert i k =>
    have e : a = b := Option.some.inj (ha.symm.trans hb)
    subst e; show m (.vert i k) = some (mix a a); rw [hmix]; exact ha
  | mat i r c =>
    have e : a = b := Option.some.inj (ha.symm.trans hb)
    subst e; show m (.mat i r c) = some (mix a a); rw [hmix]; exact ha

theorem resets_put {m : Mem K} {xs' ys' : List K} (l : Loc) (v : l.Ty K) (h : resets m xs' ys' l v) (ht : turn xs ys l v) :
    resets m xs ys l v := by
  cases l with
  | az => exact ht
  | alt => exact ht
  | numV => exact h
  | numT => exact h
  | tri i k => exact h
  | vert i k => exact h
  | mat i r c => exact h

theorem insideW_resets {m : Mem K} {xs' ys' : List K} (hm : WellFormed m) (hx : ∃ x ∈ xs, m .az = some x) (hy : ∃ y ∈ ys, m .alt = some y) :
    InsideW (resets m xs' ys') (resets m xs ys) ⟨m, m⟩ := by
  intro l hl
  have : ∃ v, m l = some v ∧ resets m xs ys l v := by
    cases l with
    | az => obtain ⟨x, hx, e⟩ := hx; exact ⟨x, e, hx⟩
    | alt => obtain ⟨y, hy, e⟩ := hy; exact ⟨y, e, hy⟩
    | numV => obtain ⟨n, e, -⟩ := hm.numV; exact ⟨n, e, Or.inr e⟩
    | numT => obtain ⟨n, e, -⟩ := hm.numT; exact ⟨n, e, Or.inr e⟩
    | tri i k => obtain ⟨v, hv⟩ := hl; exact ⟨v, hv, hv⟩
    | vert i k => obtain ⟨v, hv⟩ := hl; exact ⟨v, hv, hv⟩
    | mat i r c => obtain ⟨v, hv⟩ := hl; exact ⟨v, hv, hv⟩
  exact ⟨this, this⟩

/-! ### One task that synchronises -/

/-- The orientation the synchronising task believes in is one that was set. -/
def viewIn (xs ys : List K) (view : Mem K) : Prop := (∃ x ∈ xs, view .az = some x) ∧ ∃ y ∈ ys, view .alt = some y

theorem viewIn.put {view : Mem K} (h : viewIn xs ys view) (l : Loc) (v : l.Ty K) (ht : turn xs ys l v) :
    viewIn xs ys (Function.update view l (some v)) := by
  constructor
  · by_cases hl : Loc.az = l
    · subst hl; exact ⟨v, ht, upd_same _ _⟩
    · rw [upd_ne _ hl]; exact h.1
  · by_cases hl : Loc.alt = l
    · subst hl; exact ⟨v, ht, upd_same _ _⟩
    · rw [upd_ne _ hl]; exact h.2

/-- A half the synchronising task may find. -/
def Found (xs ys : List K) (view : Mem K) (l : Loc) (a : l.Ty K) : Prop := view l = some a ∨ vol xs ys l a

theorem Found.join (hmix : ∀ v, mix v v = v) {view : Mem K} (hv : viewIn xs ys view) {l : Loc} {a b v : l.Ty K} (ha : Found xs ys view l a)
    (hb : Found xs ys view l b) (he : view l = some v) :
    l.join mix a b = v ∨ vol (mixes mix xs) (mixes mix ys) l (l.join mix a b) := by
  have eqs : ∀ {c : l.Ty K}, view l = some c → c = v := fun h => Option.some.inj (h.symm.trans he)
  cases l with
  | az =>
    right
    obtain ⟨⟨x, hx, e⟩, -⟩ := hv
    have key : ∀ c, Found xs ys view .az c → c ∈ xs := by
      intro c hc
      rcases hc with h | h
      · rw [Option.some.inj (h.symm.trans e)]; exact hx
      · exact h
    exact mem_mixes.2 ⟨a, key a ha, b, key b hb, rfl⟩
  | alt =>
    right
    obtain ⟨-, x, hx, e⟩ := hv
    have key : ∀ c, Found xs ys view .alt c → c ∈ ys := by
      intro c hc
      rcases hc with h | h
      · rw [Option.some.inj (h.symm.trans e)]; exact hx
      · exact h
    exact mem_mixes.2 ⟨a, key a ha, b, key b hb, rfl⟩
  | numV => rcases ha with h | h; exacts [Or.inl (eqs h), h.elim]
  | numT => rcases ha with h | h; exacts [Or.inl (eqs h), h.elim]
  | tri i k => rcases ha with h | h; exacts [Or.inl (eqs h), h.elim]
  | vert i k =>
    rcases ha with h | h
    · rcases hb with h' | h'
      · rw [eqs h, eqs h']; exact Or.inl (hmix v)
      · exact h'.elim
    · exact h.elim
  | mat i r c =>
    rcases ha with h | h
    · rcases hb with h' | h'
      · rw [eqs h, eqs h']; exact Or.inl (hmix v)
      · exact h'.elim
    · exact h.elim

theorem Agree.found {view m : Mem K} (h : Agree xs ys view m) (l : Loc) {v : l.Ty K} (hv : view l = some v) :
    ∃ a, m l = some a ∧ Found xs ys view l a := by
  rcases h.read l hv with e | ⟨w, hw, e⟩
  · exact ⟨v, e, Or.inl hv⟩
  · exact ⟨w, e, Or.inr hw⟩

/-- The state of the synchronising task; `vu` and `vl` are what it thinks the high and the low words are. -/
def wok (mix : K → K → K) (xs ys : List K) (Q : α → Mem K → Prop) (vu vl : Mem K) : Pend K α → Prop
  | .run p => vu = vl ∧ viewIn xs ys vl ∧ wp (vol (mixes mix xs) (mixes mix ys)) WellFormed True p vl Q ∧ turns xs ys p
  | .gotUp l u k => vu = vl ∧ viewIn xs ys vl ∧ wp (vol (mixes mix xs) (mixes mix ys)) WellFormed True (.get l k) vl Q ∧
      turns xs ys (.get l k) ∧ Found xs ys vl l u
  | .gotLow l w k => vu = vl ∧ viewIn xs ys vl ∧ wp (vol (mixes mix xs) (mixes mix ys)) WellFormed True (.get l k) vl Q ∧
      turns xs ys (.get l k) ∧ Found xs ys vl l w
  | .putUp l v k => vu = Function.update vl l (some v) ∧ viewIn xs ys vl ∧
      wp (vol (mixes mix xs) (mixes mix ys)) WellFormed True (.put l v k) vl Q ∧ turns xs ys (.put l v k)
  | .putLow l v k => vl = Function.update vu l (some v) ∧ viewIn xs ys vu ∧
      wp (vol (mixes mix xs) (mixes mix ys)) WellFormed True (.put l v k) vu Q ∧ turns xs ys (.put l v k)

theorem wok.wellFormed {Q : α → Mem K → Prop} {vu vl : Mem K} {p : Pend K α} (h : wok mix xs ys Q vu vl p) : WellFormed vu ∧ WellFormed vl := by
  cases p with
  | run p => obtain ⟨rfl, -, h, -⟩ := h; exact ⟨wp_inv h, wp_inv h⟩
  | gotUp l u k => obtain ⟨rfl, -, h, -⟩ := h; exact ⟨wp_inv h, wp_inv h⟩
  | gotLow l u k => obtain ⟨rfl, -, h, -⟩ := h; exact ⟨wp_inv h, wp_inv h⟩
  | putUp l v k => obtain ⟨rfl, -, h, -⟩ := h; exact ⟨wp_inv h.2.2, h.1⟩
  | putLow l v k => obtain ⟨rfl, -, h, -⟩ := h; exact ⟨h.1, wp_inv h.2.2⟩

theorem wstep_wok (hmix : ∀ v, mix v v = v) {Q : α → Mem K → Prop} (first : Bool) {p : Pend K α} {vu vl : Mem K} {m : Words K}
    (hu : Agree xs ys vu m.up) (hl : Agree xs ys vl m.low) (h : wok mix xs ys Q vu vl p) :
    ∃ p' m' vu' vl', wstep mix first p m = .ok (p', m') ∧ Agree xs ys vu' m'.up ∧ Agree xs ys vl' m'.low ∧ wok mix xs ys Q vu' vl' p' ∧
      ∀ N, Known m.up N → Known m'.up N := by
  cases p with
  | run p =>
    obtain ⟨rfl, hv, h, ht⟩ := h
    cases p with
    | ret a => exact ⟨_, _, _, _, rfl, hu, hl, ⟨rfl, hv, h, ht⟩, fun _ h => h⟩
    | spin => exact ⟨_, _, _, _, rfl, hu, hl, ⟨rfl, hv, h, ht⟩, fun _ h => h⟩
    | fail e => exact h.elim
    | get l k =>
      obtain ⟨h1, h2, ⟨v, ev, h3⟩, h4⟩ := h
      obtain ⟨a, ea, fa⟩ := hu.found l ev
      obtain ⟨b, eb, fb⟩ := hl.found l ev
      simp only [wstep, h2, if_true, startGet]
      cases hwide : l.wide with
      | false =>
        rw [load_ok _ ea]
        refine ⟨_, _, _, _, rfl, hu, hl, ⟨rfl, hv, ?_, ht _⟩, fun _ h => h⟩
        rcases fa.join hmix hv fb ev with e | e
        · rw [join_narrow hwide] at e; rw [e]; exact h3
        · rw [join_narrow hwide] at e; exact h4 a e
      | true =>
        cases first with
        | true => simp only; rw [load_ok _ ea]; exact ⟨_, _, _, _, rfl, hu, hl, ⟨rfl, hv, ⟨h1, h2, ⟨v, ev, h3⟩, h4⟩, ht, fa⟩, fun _ h => h⟩
        | false => simp only; rw [load_ok _ eb]; exact ⟨_, _, _, _, rfl, hu, hl, ⟨rfl, hv, ⟨h1, h2, ⟨v, ev, h3⟩, h4⟩, ht, fb⟩, fun _ h => h⟩
    | put l v k =>
      simp only [wstep, h.2.1, if_true, startPut]
      cases hwide : l.wide with
      | false =>
        exact ⟨_, _, _, _, rfl, hu.put l v, hl.put l v, ⟨rfl, hv.put l v ht.1, h.2.2, ht.2⟩, fun N hN => hN.put l v⟩
      | true =>
        cases first with
        | true => exact ⟨_, _, _, _, rfl, hu.put l v, hl, ⟨rfl, hv, h, ht⟩, fun N hN => hN.put l v⟩
        | false => exact ⟨_, _, _, _, rfl, hu, hl.put l v, ⟨rfl, hv, h, ht⟩, fun N hN => hN⟩
  | gotUp l a k =>
    obtain ⟨rfl, hv, h, ht, fa⟩ := h
    obtain ⟨h1, h2, ⟨v, ev, h3⟩, h4⟩ := h
    obtain ⟨b, eb, fb⟩ := hl.found l ev
    simp only [wstep]
    rw [load_ok _ eb]
    refine ⟨_, _, _, _, rfl, hu, hl, ⟨rfl, hv, ?_, ht _⟩, fun _ h => h⟩
    rcases fa.join hmix hv fb ev with e | e
    · rw [e]; exact h3
    · exact h4 _ e
  | gotLow l b k =>
    obtain ⟨rfl, hv, h, ht, fb⟩ := h
    obtain ⟨h1, h2, ⟨v, ev, h3⟩, h4⟩ := h
    obtain ⟨a, ea, fa⟩ := hu.found l ev
    simp only [wstep]
    rw [load_ok _ ea]
    refine ⟨_, _, _, _, rfl, hu, hl, ⟨rfl, hv, ?_, ht _⟩, fun _ h => h⟩
    rcases fa.join hmix hv fb ev with e | e
    · rw [e]; exact h3
    · exact h4 _ e
  | putUp l v k =>
    obtain ⟨rfl, hv, h, ht⟩ := h
    exact ⟨_, _, _, _, rfl, hu, hl.put l v, ⟨rfl, hv.put l v ht.1, h.2.2, ht.2⟩, fun N hN => hN⟩
  | putLow l v k =>
    obtain ⟨rfl, hv, h, ht⟩ := h
    exact ⟨_, _, _, _, rfl, hu.put l v, hl, ⟨rfl, hv.put l v ht.1, h.2.2, ht.2⟩, fun N hN => hN.put l v⟩

/-- The state of the task that does not synchronise. -/
def rok (xs ys : List K) (Q : α → Int → Prop) (N : Int) : Pend K α → Prop
  | .run p => rsafe xs ys p N Q
  | .gotUp l _ k => l.wide = true ∧ rsafe xs ys (.get l k) N Q
  | .gotLow l _ k => l.wide = true ∧ rsafe xs ys (.get l k) N Q
  | .putUp l v k => rsafe xs ys (.put l v k) N Q
  | .putLow l v k => rsafe xs ys (.put l v k) N Q

/-- A safe read of a `double`: it is there and may have any value. -/
theorem rsafe_wide {l : Loc} (hw : l.wide = true) {k : l.Ty K → Prog K α} {N : Int} {Q : α → Int → Prop} (h : rsafe xs ys (.get l k) N Q)
    {m : Mem K} (hm : WellFormed m) : l.valid = true ∧ (∃ v, m l = some v) ∧ ∀ v, rsafe xs ys (k v) N Q := by
  cases l with
  | numV => cases hw
  | numT => cases hw
  | tri i j => cases hw
  | vert i j => exact ⟨valid_vert h.1 _, hm.vert i j h.1, h.2⟩
  | mat i r c => exact ⟨valid_mat h.1 _ _, hm.mat i r c h.1, h.2⟩
  | az => exact ⟨rfl, hm.az, h⟩
  | alt => exact ⟨rfl, hm.alt, h⟩

/-- A safe write: an orientation. -/
theorem rsafe_put {l : Loc} {v : l.Ty K} {k : Prog K α} {N : Int} {Q : α → Int → Prop} (h : rsafe xs ys (.put l v k) N Q) :
    l.valid = true ∧ l.wide = true ∧ rsafe xs ys k N Q ∧ ∀ view m, Agree xs ys view m → Agree xs ys view (Function.update m l (some v)) := by
  cases l with
  | az =>
    refine ⟨rfl, rfl, h.2, fun view m ha => ⟨fun l h1 h2 => by rw [upd_ne _ h1]; exact ha.1 l h1 h2, Or.inr ⟨v, h.1, upd_same _ _⟩, ?_⟩⟩
    rw [upd_ne _ (by simp)]; exact ha.2.2
  | alt =>
    refine ⟨rfl, rfl, h.2, fun view m ha => ⟨fun l h1 h2 => by rw [upd_ne _ h2]; exact ha.1 l h1 h2, ?_, Or.inr ⟨v, h.1, upd_same _ _⟩⟩⟩
    rw [upd_ne _ (by simp)]; exact ha.2.1
  | numV => exact h.elim
  | numT => exact h.elim
  | tri i j => exact h.elim
  | vert i j => exact h.elim
  | mat i r c => exact h.elim

theorem wstep_rok {Q : α → Int → Prop} (first : Bool) {p : Pend K α} {vu vl : Mem K} {m : Words K} {N : Int} (hu : Agree xs ys vu m.up)
    (hl : Agree xs ys vl m.low) (hwu : WellFormed vu) (hwl : WellFormed vl) (hk : Known m.up N) (h : rok xs ys Q N p) :
    ∃ p' m' N', wstep mix first p m = .ok (p', m') ∧ Agree xs ys vu m'.up ∧ Agree xs ys vl m'.low ∧ Known m'.up N' ∧ rok xs ys Q N' p' := by
  have hmu := hu.wellFormed hwu
  have hml := hl.wellFormed hwl
  cases p with
  | run p =>
    cases p with
    | ret a => exact ⟨_, _, N, rfl, hu, hl, hk, h⟩
    | spin => exact ⟨_, _, N, rfl, hu, hl, hk, h⟩
    | fail e => exact h.elim
    | get l k =>
      cases hwide : l.wide with
      | true =>
        obtain ⟨h1, ⟨a, ea⟩, -⟩ := rsafe_wide hwide h hmu
        obtain ⟨-, ⟨b, eb⟩, -⟩ := rsafe_wide hwide h hml
        simp only [wstep, h1, if_true, startGet, hwide]
        cases first with
        | true => simp only; rw [load_ok _ ea]; exact ⟨_, _, N, rfl, hu, hl, hk, hwide, h⟩
        | false => simp only; rw [load_ok _ eb]; exact ⟨_, _, N, rfl, hu, hl, hk, hwide, h⟩
      | false =>
        cases l with
        | numV =>
          obtain ⟨v, e, -⟩ := hmu.numV
          simp only [wstep, Loc.valid, if_true, startGet, Loc.wide]
          rw [load_ok _ e]
          exact ⟨_, _, N, rfl, hu, hl, hk, h v⟩
        | numT =>
          obtain ⟨v, e, -⟩ := hmu.numT
          obtain ⟨b, hk'⟩ := hk.numT hmu e
          simp only [wstep, Loc.valid, if_true, startGet, Loc.wide]
          rw [load_ok _ e]
          exact ⟨_, _, _, rfl, hu, hl, hk', h v b⟩
        | tri i j =>
          obtain ⟨v, e⟩ := hk.2 i j h.1 h.2.1
          have hb := hk.1
          have h1 := h.1
          have h2 := h.2.1
          simp only [wstep, valid_tri h1 (by omega : i < 192), if_true, startGet, Loc.wide]
          rw [load_ok _ e]
          exact ⟨_, _, N, rfl, hu, hl, hk, h.2.2 v (hmu.tri i j v e)⟩
        | vert i j => cases hwide
        | mat i r c => cases hwide
        | az => cases hwide
        | alt => cases hwide
    | put l v k =>
      obtain ⟨h1, h2, h3, h4⟩ := rsafe_put h
      simp only [wstep, h1, if_true, startPut, h2]
      cases first with
      | true => exact ⟨_, _, N, rfl, h4 _ _ hu, hl, hk.put l v, h⟩
      | false => exact ⟨_, _, N, rfl, hu, h4 _ _ hl, hk, h⟩
  | gotUp l a k =>
    obtain ⟨h1, ⟨b, eb⟩, h3⟩ := rsafe_wide h.1 h.2 hml
    simp only [wstep]
    rw [load_ok _ eb]
    exact ⟨_, _, N, rfl, hu, hl, hk, h3 _⟩
  | gotLow l b k =>
    obtain ⟨h1, ⟨a, ea⟩, h3⟩ := rsafe_wide h.1 h.2 hmu
    simp only [wstep]
    rw [load_ok _ ea]
    exact ⟨_, _, N, rfl, hu, hl, hk, h3 _⟩
  | putUp l v k =>
    obtain ⟨h1, h2, h3, h4⟩ := rsafe_put h
    exact ⟨_, _, N, rfl, hu, h4 _ _ hl, hk, h3⟩
  | putLow l v k =>
    obtain ⟨h1, h2, h3, h4⟩ := rsafe_put h
    exact ⟨_, _, N, rfl, h4 _ _ hu, hl, hk.put l v, h3⟩

theorem wpar_safe (hmix : ∀ v, mix v v = v) {Q : α → Mem K → Prop} {Q' : α → Int → Prop} (w : Race.Task) :
    ∀ (sched : List (Race.Task × Bool)) (ps : Race.Task → Pend K α) (vu vl : Mem K) (m : Words K) (N : Int), Agree xs ys vu m.up →
      Agree xs ys vl m.low → wok mix xs ys Q vu vl (ps w) → Known m.up N → rok xs ys Q' N (ps w.other) →
      ∃ ps' m' vu' vl', wpar mix sched ps m = .ok (ps', m') ∧ Agree xs ys vu' m'.up ∧ Agree xs ys vl' m'.low ∧
        wok mix xs ys Q vu' vl' (ps' w) := by
  intro sched
  have hne : w.other ≠ w := by cases w <;> simp [Race.Task.other]
  induction sched with
  | nil => intro ps vu vl m N hu hl hw _ _; exact ⟨ps, m, vu, vl, rfl, hu, hl, hw⟩
  | cons t sched ih =>
    intro ps vu vl m N hu hl hw hk hr
    by_cases ht : t.1 = w
    · obtain ⟨p', m', vu', vl', e, hu', hl', hw', hk'⟩ := wstep_wok hmix t.2 hu hl hw
      rw [← ht] at e
      simp only [wpar, e, bind_ok]
      refine ih _ vu' vl' m' N hu' hl' ?_ (hk' N hk) ?_
      · rw [ht, Function.update_self]; exact hw'
      · rw [ht, Function.update_of_ne hne]; exact hr
    · have ht' : t.1 = w.other := by
        generalize t.1 = a at ht
        cases a <;> cases w <;> simp_all [Race.Task.other]
      obtain ⟨p', m', N', e, hu', hl', hk', hr'⟩ := wstep_rok (mix := mix) t.2 hu hl hw.wellFormed.1 hw.wellFormed.2 hk hr
      rw [← ht'] at e
      simp only [wpar, e, bind_ok]
      refine ih _ vu vl m' N' hu' hl' ?_ hk' ?_
      · rw [ht', Function.update_of_ne hne.symm]; exact hw
      · rw [ht', Function.update_self]; exact hr'

/-! ### Accesses in one piece -/

/-- Every access of a task in one piece is an execution of its words too. -/
theorem step_words (hmix : ∀ v, mix v v = v) {p p' : Prog K α} {m m' : Mem K} (h : step p m = .ok (p', m')) :
    wstep mix true (.run p) ⟨m, m⟩ = .ok (.run p', ⟨m', m'⟩) ∨
      ∃ r, wstep mix true (.run p) ⟨m, m⟩ = .ok r ∧ wstep mix true r.1 r.2 = .ok (.run p', ⟨m', m'⟩) := by
  cases p with
  | ret a => simp only [step, Except.ok.injEq, Prod.mk.injEq] at h; obtain ⟨rfl, rfl⟩ := h; exact Or.inl rfl
  | spin => simp only [step, Except.ok.injEq, Prod.mk.injEq] at h; obtain ⟨rfl, rfl⟩ := h; exact Or.inl rfl
  | fail e => cases h
  | get l k =>
    simp only [step] at h
    split at h
    · rename_i hv
      split at h
      · rename_i v ev
        simp only [Except.ok.injEq, Prod.mk.injEq] at h
        obtain ⟨rfl, rfl⟩ := h
        simp only [wstep, hv, if_true, startGet]
        cases hw : l.wide with
        | false => left; rw [load_ok _ ev]
        | true =>
          right
          refine ⟨_, load_ok _ ev, ?_⟩
          simp only
          rw [load_ok _ ev, join_same hmix]
      · cases h
    · cases h
  | put l v k =>
    simp only [step] at h
    split at h
    · rename_i hv
      simp only [Except.ok.injEq, Prod.mk.injEq] at h
      obtain ⟨rfl, rfl⟩ := h
      simp only [wstep, hv, if_true, startPut]
      cases hw : l.wide with
      | false => left; rfl
      | true => right; exact ⟨_, rfl, rfl⟩
    · cases h

end Halves

end Verif.Shared
