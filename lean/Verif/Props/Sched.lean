import Verif.Spec.Sched
import Mathlib.Data.List.Sort
import Mathlib.Tactic.Linarith
import Mathlib.Tactic.Ring
import Mathlib.Tactic.NormNum
import Mathlib.Algebra.BigOperators.Group.List.Basic
import Mathlib.Algebra.Order.BigOperators.Group.List

/-!
# C46: the scheduler
-/

namespace Verif.Main

theorem period_toNat (k : Task) : k.period.toNat = k.micros := by cases k <;> rfl

theorem isDue_iff (T : Timers) (now : UInt32) (k : Task) : isDue T now k = true ↔ Due T now k := by
  unfold isDue Due
  rw [decide_eq_true_eq, gt_iff_lt, UInt32.lt_iff_toNat_lt, period_toNat, UInt32.toNat_sub]
  have := (T k).toNat_lt
  rw [show 2 ^ 32 - (T k).toNat + now.toNat = 2 ^ 32 + now.toNat - (T k).toNat by omega]

theorem isDue_false (T : Timers) (now : UInt32) (k : Task) : isDue T now k = false ↔ ¬ Due T now k := by
  rw [← isDue_iff]; simp

/-- **C46** Each call runs the most urgent task that is due, and only that one; it sets the timer of that task to the present
time and no other timer.  If nothing is due nothing happens. -/
theorem C46_choice (T : Timers) (now : UInt32) :
    (∀ k, (schedule T now).1 = some k ↔ Due T now k ∧ ∀ j ∈ k.above, ¬ Due T now j) ∧
    ((schedule T now).1 = none ↔ ∀ k, ¬ Due T now k) ∧
    (∀ k, (schedule T now).1 = some k → (schedule T now).2 k = now ∧ ∀ j, j ≠ k → (schedule T now).2 j = T j) ∧
    ((schedule T now).1 = none → (schedule T now).2 = T) := by
  simp only [← isDue_iff]
  unfold schedule
  refine ⟨?_, ?_, ?_, ?_⟩
  · intro k
    cases k <;> simp only [Task.above, List.mem_cons, List.not_mem_nil, or_false, forall_eq_or_imp, forall_eq,
      IsEmpty.forall_iff, implies_true, and_true] <;>
      split_ifs <;> simp_all
  · constructor
    · intro h k
      revert h
      split_ifs <;> simp
      cases k <;> simp_all
    · intro h
      simp [h]
  · intro k
    split_ifs <;> simp only [Option.some.injEq, false_imp_iff] <;> rintro rfl <;>
      exact ⟨by simp [Timers.stamp], fun j hj => by simp [Timers.stamp, hj]⟩
  · split_ifs <;> simp

theorem due_elapsed {T : Timers} {t t0 : Nat} {k : Task} (hT : T k = UInt32.ofNat t0) (h0 : t0 ≤ t)
    (h : Due T (UInt32.ofNat t) k) : t0 + k.micros < t := by
  unfold Due at h
  rw [hT] at h
  simp only [UInt32.toNat_ofNat'] at h
  omega

theorem runs_due {T : Timers} {now : UInt32} {k : Task} (h : (schedule T now).1 = some k) : Due T now k :=
  (((C46_choice T now).1 k).1 h).1

theorem timer_run {T : Timers} {now : UInt32} {k : Task} (h : (schedule T now).1 = some k) : (schedule T now).2 k = now :=
  ((C46_choice T now).2.2.1 k h).1

theorem timer_other {T : Timers} {now : UInt32} {k : Task} (h : (schedule T now).1 ≠ some k) : (schedule T now).2 k = T k := by
  cases h1 : (schedule T now).1 with
  | none => rw [(C46_choice T now).2.2.2 h1]
  | some j => exact ((C46_choice T now).2.2.1 j h1).2 k (by rintro rfl; exact h h1)

theorem spacing_aux (k : Task) : ∀ (ts : List Nat) (T : Timers) (t0 : Nat), T k = UInt32.ofNat t0 → (t0 :: ts).Pairwise (· ≤ ·) →
    ∀ (j : Nat) (t : Nat), ts[j]? = some t → (calls ts T)[j]? = some (some k) → t0 + k.micros < t := by
  intro ts
  induction ts with
  | nil => intro T t0 _ _ j t h; simp at h
  | cons u ts ih =>
    intro T t0 hT hs j t hj hk
    have h0 : t0 ≤ u := (List.pairwise_cons.1 hs).1 u List.mem_cons_self
    have hs' := (List.pairwise_cons.1 hs).2
    by_cases hr : (schedule T (UInt32.ofNat u)).1 = some k
    · have hd := due_elapsed hT h0 (runs_due hr)
      cases j with
      | zero => simp only [List.getElem?_cons_zero, Option.some.injEq] at hj; omega
      | succ j =>
        have := ih _ u (timer_run hr) hs' j t (by simpa using hj) (by simpa [calls] using hk)
        omega
    · cases j with
      | zero => simp [calls] at hk; exact absurd hk hr
      | succ j =>
        refine ih _ t0 ((timer_other hr).trans hT) ?_ j t (by simpa using hj) (by simpa [calls] using hk)
        exact List.Pairwise.sublist (List.Sublist.cons_cons _ (List.sublist_cons_self _ _)) hs

/-- **C46** Two runs of the same task are more than its period apart in true time, for every sequence of calls, also when
the 32-bit clock wraps in between (any number of times). -/
theorem C46_spacing (k : Task) (ts : List Nat) (T : Timers) (hs : ts.Pairwise (· ≤ ·)) (i j : Nat) (hij : i < j) (t u : Nat)
    (ht : ts[i]? = some t) (hu : ts[j]? = some u) (hi : (calls ts T)[i]? = some (some k)) (hj : (calls ts T)[j]? = some (some k)) :
    t + k.micros < u := by
  induction ts generalizing T i j with
  | nil => simp at ht
  | cons v ts ih =>
    cases i with
    | zero =>
      simp only [List.getElem?_cons_zero, Option.some.injEq] at ht
      subst ht
      simp only [calls, List.getElem?_cons_zero, Option.some.injEq] at hi
      cases j with
      | zero => omega
      | succ j => exact spacing_aux k ts _ v (timer_run hi) hs j u (by simpa using hu) (by simpa [calls] using hj)
    | succ i =>
      cases j with
      | zero => omega
      | succ j =>
        exact ih _ (List.pairwise_cons.1 hs).2 i j (by omega) (by simpa using ht) (by simpa using hu) (by simpa [calls] using hi)
          (by simpa [calls] using hj)

theorem count_aux (k : Task) (hi : Nat) : ∀ (ts : List Nat) (T : Timers) (t0 : Nat), T k = UInt32.ofNat t0 →
    (t0 :: ts).Pairwise (· ≤ ·) → t0 ≤ hi → (∀ t ∈ ts, t ≤ hi) →
    (calls ts T).count (some k) * (k.micros + 1) ≤ hi - t0 := by
  intro ts
  induction ts with
  | nil => intro T t0 _ _ _ _; simp [calls]
  | cons u ts ih =>
    intro T t0 hT hs h0 hle
    have h0u : t0 ≤ u := (List.pairwise_cons.1 hs).1 u List.mem_cons_self
    have hu := hle u List.mem_cons_self
    have hle' : ∀ t ∈ ts, t ≤ hi := fun t ht => hle t (List.mem_cons_of_mem _ ht)
    simp only [calls, List.count_cons]
    by_cases hr : (schedule T (UInt32.ofNat u)).1 = some k
    · have hd := due_elapsed hT h0u (runs_due hr)
      have := ih _ u (timer_run hr) (List.pairwise_cons.1 hs).2 hu hle'
      rw [hr]
      simp only [beq_self_eq_true, if_true, Nat.add_mul, Nat.one_mul]
      omega
    · have := ih _ t0 ((timer_other hr).trans hT)
        (List.Pairwise.sublist (List.Sublist.cons_cons _ (List.sublist_cons_self _ _)) hs) h0 hle'
      rw [if_neg (by simpa using hr)]
      simpa using this

theorem count_le (k : Task) (lo hi : Nat) : ∀ (ts : List Nat) (T : Timers), ts.Pairwise (· ≤ ·) → (∀ t ∈ ts, lo ≤ t ∧ t ≤ hi) →
    (calls ts T).count (some k) ≤ (hi - lo) / (k.micros + 1) + 1 := by
  intro ts
  induction ts with
  | nil => intro T _ _; simp [calls]
  | cons u ts ih =>
    intro T hs hle
    have hu := hle u List.mem_cons_self
    have hle' : ∀ t ∈ ts, lo ≤ t ∧ t ≤ hi := fun t ht => hle t (List.mem_cons_of_mem _ ht)
    simp only [calls, List.count_cons]
    by_cases hr : (schedule T (UInt32.ofNat u)).1 = some k
    · have := count_aux k hi ts _ u (timer_run hr) hs hu.2 (fun t ht => (hle' t ht).2)
      rw [hr]
      simp only [beq_self_eq_true, if_true]
      have h2 : (calls ts (schedule T (UInt32.ofNat u)).2).count (some k) ≤ (hi - u) / (k.micros + 1) :=
        (Nat.le_div_iff_mul_le (by omega)).2 this
      have h3 : (hi - u) / (k.micros + 1) ≤ (hi - lo) / (k.micros + 1) := Nat.div_le_div_right (by omega)
      omega
    · rw [if_neg (by simpa using hr)]
      simpa using ih _ (List.pairwise_cons.1 hs).2 hle'

theorem due_of_elapsed {T : Timers} {t s : Nat} {k : Task} (hT : T k = UInt32.ofNat s) (h0 : s + k.micros < t)
    (h1 : t < s + 2 ^ 32) : Due T (UInt32.ofNat t) k := by
  unfold Due
  rw [hT]
  simp only [UInt32.toNat_ofNat']
  omega

theorem blocked_by_above (k : Task) (s : Nat) : ∀ (ts : List Nat) (T : Timers), T k = UInt32.ofNat s →
    (∀ t ∈ ts, s + k.micros < t ∧ t < s + 2 ^ 32) → some k ∉ calls ts T → ∀ r ∈ calls ts T, ∃ j ∈ k.above, r = some j := by
  intro ts
  induction ts with
  | nil => intro T _ _ _ r hr; simp [calls] at hr
  | cons u ts ih =>
    intro T hT hdue hno r hr
    simp only [calls, List.mem_cons, not_or] at hno hr
    have hd := due_of_elapsed hT (hdue u List.mem_cons_self).1 (hdue u List.mem_cons_self).2
    have hne : (schedule T (UInt32.ofNat u)).1 ≠ some k := fun h => hno.1 h.symm
    rcases hr with rfl | hr
    · cases h1 : (schedule T (UInt32.ofNat u)).1 with
      | none => exact absurd hd (((C46_choice T _).2.1.1 h1) k)
      | some j =>
        refine ⟨j, ?_, rfl⟩
        have hnot := fun h => hne (((C46_choice T (UInt32.ofNat u)).1 k).2 ⟨hd, h⟩)
        have hj := ((C46_choice T (UInt32.ofNat u)).1 j).1 h1
        -- `j` is due and nothing above `j` is; since `k` does not run, some task above `k` is due
        by_contra hjk
        apply hnot
        intro i hi hidue
        have hij : i ∈ j.above := by
          have hjk' : j ≠ k := by rintro rfl; exact hne h1
          clear * - hjk hi hjk'
          cases i <;> cases j <;> cases k <;> simp_all [Task.above]
        exact hj.2 i hij hidue
    · exact ih _ ((timer_other hne).trans hT) (fun t ht => hdue t (List.mem_cons_of_mem _ ht)) hno.2 r hr

theorem length_le_sum_count (l : List (Option Task)) (js : List Task) (h : ∀ r ∈ l, ∃ j ∈ js, r = some j) :
    l.length ≤ (js.map (fun j => l.count (some j))).sum := by
  induction l with
  | nil => simp
  | cons r l ih =>
    have h' := ih (fun r hr => h r (List.mem_cons_of_mem _ hr))
    obtain ⟨j, hj, rfl⟩ := h r List.mem_cons_self
    have key : (js.map (fun i => l.count (some i))).sum + 1 ≤ (js.map (fun i => (some j :: l).count (some i))).sum := by
      clear h h' ih
      induction js with
      | nil => simp at hj
      | cons i js ihj =>
        simp only [List.map_cons, List.sum_cons, List.count_cons]
        rcases List.mem_cons.1 hj with rfl | hj'
        · have : (js.map (fun i => l.count (some i))).sum ≤ (js.map (fun i => (some j :: l).count (some i))).sum := by
            apply List.sum_le_sum
            intro i _
            simp [List.count_cons]
          simp only [List.count_cons] at this
          simp
          omega
        · have := ihj hj'
          simp only [List.count_cons] at this
          omega
    simp only [List.length_cons]
    omega

/-- **C46** (latency). A task that is due, and stays due during a window of calls, runs in that window as soon as the window
contains more calls than the more urgent tasks can take: each of them at most once per period, plus one. -/
theorem C46_latency (k : Task) (T : Timers) (s lo hi : Nat) (hT : T k = UInt32.ofNat s) (ts : List Nat) (hs : ts.Pairwise (· ≤ ·))
    (hw : ∀ t ∈ ts, lo ≤ t ∧ t ≤ hi) (hdue : s + k.micros < lo) (hwrap : hi < s + 2 ^ 32)
    (hlen : (k.above.map (fun j => (hi - lo) / (j.micros + 1) + 1)).sum < ts.length) : some k ∈ calls ts T := by
  by_contra hno
  have hab := blocked_by_above k s ts T hT (fun t ht => ⟨by have := hw t ht; omega, by have := hw t ht; omega⟩) hno
  have h1 := length_le_sum_count _ _ hab
  have h2 : (k.above.map (fun j => (calls ts T).count (some j))).sum ≤ (k.above.map (fun j => (hi - lo) / (j.micros + 1) + 1)).sum := by
    apply List.sum_le_sum
    intro j _
    exact count_le j lo hi ts T hs hw
  have h3 : (calls ts T).length = ts.length := by
    clear * -
    induction ts generalizing T with
    | nil => rfl
    | cons t ts ih => simp [calls, ih]
  omega

/-- **C46** In particular a due task runs within the next `n + 1` calls, `n` being the number of more urgent tasks, if these
calls happen within 20 ms. -/
theorem C46_latency_20ms (k : Task) (T : Timers) (s lo : Nat) (hT : T k = UInt32.ofNat s) (ts : List Nat)
    (hs : ts.Pairwise (· ≤ ·)) (hw : ∀ t ∈ ts, lo ≤ t ∧ t ≤ lo + 20000) (hdue : s + k.micros < lo) (hwrap : lo + 20000 < s + 2 ^ 32)
    (hlen : ts.length = k.above.length + 1) : some k ∈ calls ts T := by
  refine C46_latency k T s lo (lo + 20000) hT ts hs hw hdue hwrap ?_
  rw [hlen]
  have e : lo + 20000 - lo = 20000 := by omega
  rw [e]
  cases k <;> decide

/-- **C46** (finding: starvation). If the calls of `loop()` are always more than 20 ms apart, as happens when something
blocks, the filter task runs in every call and no other task ever runs: no orientation, no GNSS, no network. -/
theorem C46_starvation (T : Timers) (t0 : Nat) (hT : T .filter = UInt32.ofNat t0) (ts : List Nat)
    (hgap : (t0 :: ts).IsChain (fun a b => a + 20000 < b ∧ b < a + 2 ^ 32)) : ∀ r ∈ calls ts T, r = some .filter := by
  induction ts generalizing T t0 with
  | nil => intro r hr; simp [calls] at hr
  | cons u ts ih =>
    have hg : t0 + 20000 < u ∧ u < t0 + 2 ^ 32 := (List.isChain_cons_cons.1 hgap).1
    have hd : Due T (UInt32.ofNat u) .filter := due_of_elapsed hT hg.1 hg.2
    have hr : (schedule T (UInt32.ofNat u)).1 = some .filter :=
      ((C46_choice T _).1 .filter).2 ⟨hd, by simp [Task.above]⟩
    intro r hr'
    simp only [calls, List.mem_cons] at hr'
    rcases hr' with rfl | hr'
    · exact hr
    · exact ih _ u (timer_run hr) (List.isChain_cons_cons.1 hgap).2 r hr'

/-- Concrete schedules: three calls after 101 ms, and one across the wrap of the clock. -/
example : calls [101000, 101010, 101020, 101030] Timers.init = [some .filter, some .t25ms, some .t100ms, none] := by decide +kernel
example : calls [2 ^ 32 - 10, 2 ^ 32 + 19989, 2 ^ 32 + 19990] (fun _ => UInt32.ofNat (2 ^ 32 - 11)) = [none, none, some .filter] := by
  decide +kernel
example : calls [30000, 60000, 90000, 120000] Timers.init = List.replicate 4 (some .filter) := by decide +kernel

end Verif.Main
