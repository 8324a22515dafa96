import Verif.Lemmas.Main

/-!
# What one event, and a history, does to the flags of the firmware
-/

set_option linter.unusedSectionVars false

namespace Verif.Main
open Printf Net Imu Spec.NexStar NexStar

variable {K : Type} [Field K] [LinearOrder K] [IsStrictOrderedRing K] [FloorRing K] {S : Type}

theorem request_loop {s : Sys K S} {i : In K} {r : List UInt8} :
    Request s (.loop i) r ↔ taskOf s (.loop i) = some .t100ms ∧ (∃ c, client s = some c) ∧ i.tcp ≠ .data [] ∧
      r = afterRead s.rx i.tcp := by
  constructor
  · intro h
    cases h with
    | tcp _ c hrun hc hr => exact ⟨hrun, ⟨c, client_eq.2 hc⟩, hr, rfl⟩
  · rintro ⟨h1, ⟨c, hc⟩, h3, rfl⟩
    exact .tcp i c h1 (client_eq.1 hc) h3

theorem request_bluetooth {s : Sys K S} {b r : List UInt8} : Request s (.bluetooth b) r ↔ r = b := by
  constructor
  · intro h; cases h; rfl
  · rintro rfl; exact .bluetooth _

/-- One event. -/
theorem step_facts {cfg : Config} {T : Tel K S} {s s' : Sys K S} {e : Event K} {o : List Out} (hi : Inv s)
    (h : step cfg T s e = .ok (s', o)) :
    Inv s' ∧ (s'.scope.isCalibrated = true ↔ s.scope.isCalibrated = true ∨ IsSync s e) ∧
      (s'.nexStarMode = true ↔ s.nexStarMode = true ∨ IsCommand s e) := by
  cases e with
  | bluetooth b =>
    obtain ⟨⟨h1, h2, h3⟩, -⟩ := bluetooth_facts hi h
    refine ⟨h1, ?_, ?_⟩
    · rw [h2]; simp [IsSync, request_bluetooth]
    · rw [h3]; simp [IsCommand, request_bluetooth]
  | arrive c =>
    injection h with h; injection h with h _; subst h
    have : ∀ r, ¬ Request s (.arrive c) r := by intro r h; cases h
    exact ⟨hi, by simp [IsSync, this], by simp [IsCommand, this]⟩
  | gone c =>
    injection h with h; injection h with h _; subst h
    have : ∀ r, ¬ Request s (.gone c) r := by intro r h; cases h
    exact ⟨hi, by simp [IsSync, this], by simp [IsCommand, this]⟩
  | loop i =>
    simp only [step, loop] at h
    have htask : taskOf s (.loop i) = (schedule s.timers i.now).1 := rfl
    set s0 : Sys K S := { s with timers := (schedule s.timers i.now).2 } with hs0
    have hi0 : Inv s0 := hi
    have other : taskOf s (.loop i) ≠ some .t100ms → Inv s' → s'.scope.isCalibrated = s.scope.isCalibrated →
        s'.nexStarMode = s.nexStarMode → Inv s' ∧ (s'.scope.isCalibrated = true ↔ s.scope.isCalibrated = true ∨ IsSync s (.loop i)) ∧
        (s'.nexStarMode = true ↔ s.nexStarMode = true ∨ IsCommand s (.loop i)) := by
      intro hne a b c
      refine ⟨a, ?_, ?_⟩
      · rw [b]; simp [IsSync, request_loop, hne]
      · rw [c]; simp [IsCommand, request_loop, hne]
    rw [htask] at other
    cases ht : (schedule s.timers i.now).1 with
    | none =>
      rw [ht] at h other
      injection h with h; injection h with h _; subst h
      exact other (by simp) hi rfl rfl
    | some k =>
      rw [ht] at h other
      cases k with
      | filter =>
        obtain ⟨-, imu, rfl⟩ := taskFilter_facts h
        exact other (by simp) hi rfl rfl
      | t25ms =>
        simp only at h
        injection h with h
        have := (task25_facts s0 i).1
        rw [h] at this
        simp only at this
        subst this
        exact other (by simp) hi rfl rfl
      | t1s => injection h with h; injection h with h _; subst h; exact other (by simp) hi rfl rfl
      | t30s => injection h with h; injection h with h _; subst h; exact other (by simp) hi rfl rfl
      | t500ms =>
        obtain ⟨a, b, c, -⟩ := task500_facts hi0 h
        exact other (by simp) a (by rw [b]) c
      | t2s =>
        obtain ⟨a, b, c, -⟩ := task2s_facts hi0 h
        exact other (by simp) a (by rw [b]) c
      | t100ms =>
        obtain ⟨a, b, -⟩ := task100_facts hi0 h
        refine ⟨a, ?_⟩
        have hrun : taskOf s (.loop i) = some .t100ms := htask.trans ht
        rcases b with ⟨c, hc, hr, h1, h2⟩ | ⟨hn, h1, h2⟩
        · have hc' : client s = some c := hc
          have hreq : ∀ r, Request s (.loop i) r ↔ r = afterRead s.rx i.tcp := by
            intro r; rw [request_loop]
            exact ⟨fun h => h.2.2.2, fun h => ⟨hrun, ⟨c, hc'⟩, hr, h⟩⟩
          refine ⟨?_, ?_⟩
          · rw [h1]; simp [IsSync, hreq, hs0]
          · rw [h2]; simp [IsCommand, hreq, hs0]
        · have hreq : ∀ r, ¬ Request s (.loop i) r := by
            intro r h
            obtain ⟨-, ⟨c, hc⟩, hr, -⟩ := request_loop.1 h
            rcases hn with hn | hn
            · have : client s = none := hn
              rw [hc] at this; cases this
            · exact hr hn
          refine ⟨?_, ?_⟩
          · rw [h1]; simp [IsSync, hreq, hs0]
          · rw [h2]; simp [IsCommand, hreq, hs0]

theorem happened_nil {cfg : Config} {s : Sys K S} {p : Sys K S → Event K → Prop} : ¬ Happened cfg s [] p := by
  rintro ⟨h1, T, e, h2, s, o, h, -⟩
  have := congrArg List.length h
  simp at this

theorem run_append {cfg : Config} (h1 h2 : List (Tel K S × Event K)) (s : Sys K S) :
    run cfg (h1 ++ h2) s = (do
      let (s1, o1) ← run cfg h1 s
      let (s2, o2) ← run cfg h2 s1
      return (s2, o1 ++ o2)) := by
  induction h1 generalizing s with
  | nil =>
    simp only [List.nil_append, run, bind_ok]
    cases run cfg h2 s with
    | error e => rfl
    | ok r => obtain ⟨a, b⟩ := r; rfl
  | cons x h1 ih =>
    obtain ⟨T, e⟩ := x
    simp only [List.cons_append, run]
    cases step cfg T s e with
    | error e => rfl
    | ok r =>
      obtain ⟨s1, o1⟩ := r
      simp only [bind_ok, ih]
      cases run cfg h1 s1 with
      | error e => rfl
      | ok r =>
        obtain ⟨s2, o2⟩ := r
        simp only [bind_ok, pure_ok]
        cases run cfg h2 s2 with
        | error e => rfl
        | ok r => obtain ⟨s3, o3⟩ := r; simp [bind_ok]

theorem run_snoc {cfg : Config} {h : List (Tel K S × Event K)} {T : Tel K S} {e : Event K} {s s' : Sys K S} {o : List Out} :
    run cfg (h ++ [(T, e)]) s = .ok (s', o) ↔
      ∃ s1 o1 o2, run cfg h s = .ok (s1, o1) ∧ step cfg T s1 e = .ok (s', o2) ∧ o = o1 ++ o2 := by
  rw [run_append]
  constructor
  · intro hh
    obtain ⟨⟨s1, o1⟩, h1, hh⟩ := bind_eq_ok.1 hh
    obtain ⟨⟨s2, o2⟩, h2, hh⟩ := bind_eq_ok.1 hh
    injection hh with hh; injection hh with e1 e2
    simp only [run] at h2
    obtain ⟨⟨s3, o3⟩, h3, h2⟩ := bind_eq_ok.1 h2
    injection h2 with h2; injection h2 with e3 e4
    subst e1 e2 e3 e4
    exact ⟨s1, o1, o3, h1, h3, by simp⟩
  · rintro ⟨s1, o1, o2, h1, h2, rfl⟩
    rw [h1, bind_ok]
    simp only [run]
    rw [h2]
    simp [bind_ok, pure_ok]

theorem happened_snoc {cfg : Config} {h : List (Tel K S × Event K)} {T : Tel K S} {e : Event K} {s0 s1 : Sys K S} {o1 : List Out}
    {p : Sys K S → Event K → Prop} (hr : run cfg h s0 = .ok (s1, o1)) :
    Happened cfg s0 (h ++ [(T, e)]) p ↔ Happened cfg s0 h p ∨ p s1 e := by
  constructor
  · rintro ⟨h1, T', e', h2, s, o, heq, hrun, hp⟩
    rcases List.eq_nil_or_concat h2 with rfl | ⟨h2', x, rfl⟩
    · obtain ⟨e1, e2⟩ := List.append_inj' heq rfl
      subst e1
      injection e2 with e2 _; injection e2 with _ e2; subst e2
      rw [hr] at hrun; injection hrun with hrun; injection hrun with hrun _; subst hrun
      exact Or.inr hp
    · left
      rw [List.concat_eq_append, ← List.cons_append, ← List.append_assoc] at heq
      obtain ⟨e1, -⟩ := List.append_inj' heq rfl
      exact ⟨h1, T', e', h2', s, o, e1, hrun, hp⟩
  · rintro (⟨h1, T', e', h2, s, o, heq, hrun, hp⟩ | hp)
    · exact ⟨h1, T', e', h2 ++ [(T, e)], s, o, by rw [heq]; simp, hrun, hp⟩
    · exact ⟨h, T, e, [], s1, o1, rfl, hr, hp⟩

/-- A history. -/
theorem run_facts {cfg : Config} {s0 s' : Sys K S} (h : List (Tel K S × Event K)) {o : List Out} (hi : Inv s0)
    (hr : run cfg h s0 = .ok (s', o)) :
    Inv s' ∧ (s'.scope.isCalibrated = true ↔ s0.scope.isCalibrated = true ∨ Happened cfg s0 h IsSync) ∧
      (s'.nexStarMode = true ↔ s0.nexStarMode = true ∨ Happened cfg s0 h IsCommand) := by
  induction h using List.reverseRecOn generalizing s' o with
  | nil =>
    injection hr with hr; injection hr with hr _; subst hr
    exact ⟨hi, by simp [happened_nil], by simp [happened_nil]⟩
  | append_singleton h x ih =>
    obtain ⟨T, e⟩ := x
    obtain ⟨s1, o1, o2, h1, h2, rfl⟩ := run_snoc.1 hr
    obtain ⟨a1, a2, a3⟩ := ih h1
    obtain ⟨b1, b2, b3⟩ := step_facts a1 h2
    refine ⟨b1, ?_, ?_⟩
    · rw [b2, a2, happened_snoc h1, or_assoc]
    · rw [b3, a3, happened_snoc h1, or_assoc]

theorem inv_boot (cfg : Config) (core : S) : Inv (boot cfg core : Sys K S) := by
  exact ⟨List.length_replicate .., List.length_replicate ..⟩

end Verif.Main
