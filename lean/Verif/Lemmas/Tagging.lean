import Verif.Lemmas.Triangulate
import Mathlib.Algebra.BigOperators.Group.Finset.Basic
import Mathlib.Algebra.BigOperators.Ring.Finset
import Mathlib.Data.Fintype.Basic
import Mathlib.Data.Int.Order.Basic
import Mathlib.Data.Finset.Prod
import Mathlib.Tactic.Ring

/-!
# Removing multiple edges

If every directed edge occurs at most once, the tagging loop keeps exactly the edges whose reverse does not occur.
-/

namespace Verif.Align

/-- The somes of the list are pairwise different edges, none of them a loop. -/
def Clean (l : List (Option Edge)) : Prop := (l.filterMap id).Nodup ∧ ∀ e : Edge, some e ∈ l → e.1 ≠ e.2

theorem sameEdge_iff {e f : Edge} : sameEdge (some e) (some f) = true ↔ f = e.swap ∨ f = e := by
  unfold sameEdge
  simp only [Bool.or_eq_true, Bool.and_eq_true, beq_iff_eq]
  constructor
  · rintro (⟨h1, h2⟩ | ⟨h1, h2⟩)
    · left; ext <;> simp [h1, h2]
    · right; ext <;> simp [h1, h2]
  · rintro (rfl | rfl)
    · left; simp
    · right; simp

theorem tagOne_none (l : List (Option Edge)) : tagOne none l = (none, l) := by
  induction l with
  | nil => rfl
  | cons f l ih =>
    unfold tagOne
    have : sameEdge none f = false := rfl
    simp [this, ih]

theorem mem_filterMap_id {l : List (Option Edge)} {e : Edge} : e ∈ l.filterMap id ↔ some e ∈ l := by
  simp [List.mem_filterMap]

theorem tagOne_some (e : Edge) (l : List (Option Edge)) (hl : (l.filterMap id).Nodup) (he : some e ∉ l) :
    tagOne (some e) l = if some e.swap ∈ l then (none, l.map fun f => if f = some e.swap then none else f) else (some e, l) := by
  induction l with
  | nil => rfl
  | cons f l ih =>
    have he' : some e ∉ l := fun h => he (List.mem_cons_of_mem _ h)
    cases f with
    | none =>
      have hl' : (l.filterMap id).Nodup := by simpa using hl
      unfold tagOne
      have hs : sameEdge (some e) none = false := rfl
      simp only [hs, Bool.false_eq_true, if_false]
      rw [ih hl' he']
      by_cases h : some e.swap ∈ l
      · rw [if_pos h, if_pos (List.mem_cons_of_mem _ h)]; simp
      · rw [if_neg h, if_neg (by simpa using h)]
    | some g =>
      have hl2 : g ∉ l.filterMap id ∧ (l.filterMap id).Nodup := by simpa using hl
      have hge : g ≠ e := by rintro rfl; exact he List.mem_cons_self
      unfold tagOne
      by_cases hg : g = e.swap
      · subst hg
        have hs : sameEdge (some e) (some e.swap) = true := sameEdge_iff.2 (Or.inl rfl)
        have hnm : some e.swap ∉ l := fun h => hl2.1 (mem_filterMap_id.2 h)
        simp only [hs, if_true, tagOne_none]
        rw [if_pos List.mem_cons_self]
        simp only [List.map_cons, if_true]
        congr 2
        symm
        rw [List.map_congr_left (g := id) (fun f hf => by
          rw [if_neg (by rintro rfl; exact hnm hf)]; rfl), List.map_id]
      · have hs : sameEdge (some e) (some g) = false := by
          cases hh : sameEdge (some e) (some g) with
          | false => rfl
          | true => rcases sameEdge_iff.1 hh with h | h; exact absurd h hg; exact absurd h hge
        simp only [hs, Bool.false_eq_true, if_false]
        rw [ih hl2.2 he']
        have hne : some e.swap ≠ some g := fun h => hg (Option.some.inj h).symm
        by_cases h : some e.swap ∈ l
        · rw [if_pos h, if_pos (List.mem_cons_of_mem _ h)]
          simp only [List.map_cons]
          rw [if_neg (fun h => hne h.symm)]
        · rw [if_neg h, if_neg (by simpa using ⟨fun h => hg h.symm, h⟩)]

/-- What the tagging does to one entry. -/
def tagResult (l : List (Option Edge)) : Option Edge → Option Edge
  | none => none
  | some e => if some e.swap ∈ l then none else some e

theorem tagResult_none (l : List (Option Edge)) : tagResult l none = none := rfl
theorem tagResult_some (l : List (Option Edge)) (e : Edge) : tagResult l (some e) = if some e.swap ∈ l then none else some e := rfl

theorem filterMap_map_erase (l : List (Option Edge)) (g : Edge) :
    (l.map fun f => if f = some g then none else f).filterMap id = (l.filterMap id).filter (· ≠ g) := by
  induction l with
  | nil => rfl
  | cons f l ih =>
    cases f with
    | none => simpa using ih
    | some h =>
      by_cases hg : h = g
      · subst hg; simpa using ih
      · simp only [List.map_cons, Option.some.injEq, hg, if_false]
        have e1 : ∀ m : List (Option Edge), (some h :: m).filterMap id = h :: m.filterMap id := fun m => rfl
        rw [e1, e1, List.filter_cons_of_pos (by simpa using hg), ih]

theorem tagAll_eq (l : List (Option Edge)) (hc : Clean l) : tagAll l.length l = l.map (tagResult l) := by
  induction hn : l.length generalizing l with
  | zero => rw [List.length_eq_zero_iff] at hn; subst hn; rfl
  | succ n ih =>
    match l, hc, hn with
    | e :: rest, hc, hn =>
      have hn' : rest.length = n := by simpa using hn
      unfold tagAll
      cases e with
      | none =>
        simp only [tagOne_none]
        have hc' : Clean rest := ⟨by simpa using hc.1, fun e he => hc.2 e (List.mem_cons_of_mem _ he)⟩
        rw [ih rest hc' hn', List.map_cons]
        congr 1
        apply List.map_congr_left
        intro f _
        cases f with
        | none => rfl
        | some f => simp [tagResult]
      | some e =>
        have hnd : e ∉ rest.filterMap id ∧ (rest.filterMap id).Nodup := by simpa using hc.1
        have hne : some e ∉ rest := fun h => hnd.1 (mem_filterMap_id.2 h)
        have hloop : e.1 ≠ e.2 := hc.2 e List.mem_cons_self
        have hsw : e.swap ≠ e := by
          intro h; exact hloop (congrArg Prod.fst h).symm
        simp only
        rw [tagOne_some e rest hnd.2 hne]
        by_cases h : some e.swap ∈ rest
        · rw [if_pos h]
          simp only
          set rest' := rest.map fun f => if f = some e.swap then none else f with hr
          have hc' : Clean rest' := by
            refine ⟨?_, ?_⟩
            · rw [hr, filterMap_map_erase]; exact hnd.2.filter _
            · intro f hf
              obtain ⟨g, hg, hgf⟩ := List.mem_map.1 hf
              split at hgf
              · cases hgf
              · exact hc.2 f (List.mem_cons_of_mem _ (hgf ▸ hg))
          rw [ih rest' hc' (by rw [hr, List.length_map]; exact hn'), List.map_cons]
          have e1 : tagResult (some e :: rest) (some e) = none := by
            rw [tagResult_some, if_pos (List.mem_cons_of_mem _ h)]
          rw [e1, hr, List.map_map]
          congr 1
          apply List.map_congr_left
          intro f hf
          simp only [Function.comp]
          cases f with
          | none => rfl
          | some f =>
            by_cases hfe : f = e.swap
            · subst hfe
              rw [if_pos rfl, tagResult_none, tagResult_some, if_pos (by simp)]
            · rw [if_neg (by simpa using hfe), tagResult_some, tagResult_some]
              have hiff : some f.swap ∈ rest.map (fun f => if f = some e.swap then none else f) ↔ some f.swap ∈ some e :: rest := by
                have hfe2 : f ≠ e := by rintro rfl; exact hne hf
                have hfs : f.swap ≠ e.swap := fun hh => hfe2 (by simpa using congrArg Prod.swap hh)
                have hfs2 : f.swap ≠ e := fun hh => hfe (by rw [← hh]; simp)
                constructor
                · intro hm
                  obtain ⟨g, hg, hgf⟩ := List.mem_map.1 hm
                  split at hgf
                  · cases hgf
                  · exact List.mem_cons_of_mem _ (hgf ▸ hg)
                · intro hm
                  rcases List.mem_cons.1 hm with hm | hm
                  · exact absurd (Option.some.inj hm) hfs2
                  · exact List.mem_map.2 ⟨some f.swap, hm, by rw [if_neg (by simpa using hfs)]⟩
              by_cases hm : some f.swap ∈ some e :: rest
              · rw [if_pos hm, if_pos (hiff.2 hm)]
              · rw [if_neg hm, if_neg (fun h => hm (hiff.1 h))]
        · rw [if_neg h]
          simp only
          have hc' : Clean rest := ⟨hnd.2, fun e he => hc.2 e (List.mem_cons_of_mem _ he)⟩
          rw [ih rest hc' hn', List.map_cons]
          have e1 : tagResult (some e :: rest) (some e) = some e := by
            rw [tagResult_some, if_neg]
            intro hm
            rcases List.mem_cons.1 hm with hm | hm
            · exact hsw (Option.some.inj hm)
            · exact h hm
          rw [e1]
          congr 1
          apply List.map_congr_left
          intro f hf
          cases f with
          | none => rfl
          | some f =>
            rw [tagResult_some, tagResult_some]
            have hfs2 : f.swap ≠ e := fun hh => h (by rw [← hh]; simpa using hf)
            by_cases hm : some f.swap ∈ rest
            · rw [if_pos hm, if_pos (List.mem_cons_of_mem _ hm)]
            · rw [if_neg hm, if_neg (by simpa using ⟨hfs2, hm⟩)]

/-- The edges that are left, in their old order. -/
theorem tagAll_kept (E : List Edge) (hn : E.Nodup) (hl : ∀ e ∈ E, e.1 ≠ e.2) :
    (tagAll E.length (E.map some)).filterMap id = E.filter (fun e => e.swap ∉ E) := by
  have hc : Clean (E.map some) := by
    refine ⟨?_, ?_⟩
    · rw [List.filterMap_map]; simpa using hn
    · intro e he
      obtain ⟨f, hf, hfe⟩ := List.mem_map.1 he
      exact hl e (Option.some.inj hfe ▸ hf)
  have := tagAll_eq (E.map some) hc
  rw [List.length_map] at this
  rw [this, List.map_map, List.filterMap_map]
  rw [← List.filterMap_eq_filter]
  apply List.filterMap_congr
  intro e he
  simp only [Function.comp, id, tagResult, List.mem_map, Option.some.injEq, exists_eq_right, Option.guard]
  by_cases h : e.swap ∈ E
  · simp [h]
  · simp [h]

/-- Antisymmetric functions of edges. -/
def Anti (f : Edge → ℤ) : Prop := ∀ e, f e.swap = -f e

/-- Sums of antisymmetric functions do not see the removal. -/
theorem sum_kept (E : List Edge) (hn : E.Nodup) (f : Edge → ℤ) (hf : Anti f) :
    ((E.filter (fun e => e.swap ∉ E)).map f).sum = (E.map f).sum := by
  classical
  have h1 : (E.map f).sum = ∑ e ∈ E.toFinset, f e := (List.sum_toFinset f hn).symm
  have h2 : ((E.filter (fun e => e.swap ∉ E)).map f).sum = ∑ e ∈ (E.filter (fun e => e.swap ∉ E)).toFinset, f e :=
    (List.sum_toFinset f (hn.filter _)).symm
  rw [h1, h2, List.toFinset_filter]
  have h3 := Finset.sum_filter_add_sum_filter_not E.toFinset (fun e => e.swap ∉ E) f
  have h4 : ∑ e ∈ E.toFinset.filter (fun e => ¬ e.swap ∉ E), f e = 0 := by
    apply Finset.sum_involution (fun e _ => e.swap)
    · intro e _; rw [hf]; ring
    · intro e he hne heq
      have := hf e
      rw [heq] at this
      omega
    · intro e he; simp
    · intro e he
      simp only [Finset.mem_filter, List.mem_toFinset, not_not] at he ⊢
      exact ⟨he.2, by simpa using he.1⟩
  simp only [decide_eq_true_eq] at h3 ⊢
  rw [← h3, h4, add_zero]

end Verif.Align
