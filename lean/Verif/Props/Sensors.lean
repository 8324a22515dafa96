import Verif.Lemmas.Sensors
import Verif.Props.Safety

/-!
# C64: from the sensors to the orientation, in every history of the firmware
-/

set_option linter.unusedSectionVars false

namespace Verif.System
open Verif.Align Verif.Spec Verif.Main Imu Coord

variable {σ : Type}

/-- The events of a history. -/
def events (h : List (Env ℝ σ × Event ℝ)) : List (Event ℝ) := h.map (·.2)

theorem events_map (h : List (Env ℝ σ × Event ℝ)) : ((h.map fun x => (real x.1, x.2)).map (·.2) : List (Event ℝ)) = events h := by
  simp [events]

/-- **C64** The heading is the filtered sequence of encoder readings since power-up, and always in [0, 360). -/
theorem C64_heading (cfg : Config) (h : List (Env ℝ σ × Event ℝ)) {s : Sys ℝ Telescope.Tel} {o : List Out}
    (hr : firmware cfg h = .ok (s, o)) :
    heading (encReadings Timers.init (events h)) 180 = .ok s.heading ∧ 0 ≤ s.heading ∧ s.heading < 360 := by
  obtain ⟨-, -, h3⟩ := run_senses _ (inv_boot cfg Telescope.new) hr
  rw [events_map] at h3
  have h180 : IsHeading 180 := ⟨⟨180, 0, by decide, by decide, by norm_num⟩, by norm_num, by norm_num⟩
  obtain ⟨h', e, hh⟩ := C27_range (encReadings Timers.init (events h)) 180 h180
  have h3' : heading (encReadings Timers.init (events h)) 180 = .ok s.heading := h3
  rw [h3'] at e
  injection e with e
  subst e
  exact ⟨h3', hh.2.1, hh.2.2⟩

/-- **C64** After `n` more readings of one valid encoder word, the heading is within `0.7^n · 360` degrees (plus rounding) of it,
whatever was read before. -/
theorem C64_heading_settles (cfg : Config) (h : List (Env ℝ σ × Event ℝ)) {s : Sys ℝ Telescope.Tel} {o : List Out}
    (hr : firmware cfg h = .ok (s, o)) (ws : List UInt16) (w : UInt16) (hw : FrameOk w) (n : Nat)
    (he : encReadings Timers.init (events h) = ws ++ List.replicate n w) :
    |s.heading - target w| ≤ 0.7 ^ n * 360 + 0.00011 := by
  obtain ⟨h1, -⟩ := C64_heading cfg h hr
  have h180 : IsHeading 180 := ⟨⟨180, 0, by decide, by decide, by norm_num⟩, by norm_num, by norm_num⟩
  obtain ⟨h', e, hh⟩ := C27_range ws 180 h180
  obtain ⟨h2, e2, hc⟩ := C27_converges w hw n h' hh
  rw [he, heading_append, e, bind_ok, e2] at h1
  injection h1 with h1
  subst h1
  refine hc.trans ?_
  have ht0 := target_nonneg w
  have ht1 := target_le w
  have : |h' - target w| ≤ 360 := by
    rw [abs_le]
    have := hh.2.1
    have := hh.2.2
    constructor <;> linarith
  have : (0 : ℚ) ≤ 0.7 ^ n := by positivity
  nlinarith

/-- **C64** If the last 50 accelerometer readings before a 100 ms task are gravity of any strength seen at the pitch `p` (with the
offset of the sensor, and anything along the axis), then the pitch after the task is `p`, whatever was read before. -/
theorem C64_pitch (cfg : Config) (hsen : cfg.sensor = true) (h : List (Env ℝ σ × Event ℝ)) {s : Sys ℝ Telescope.Tel} {o : List Out}
    (hr : firmware cfg h = .ok (s, o)) (env : Env ℝ σ) (i : In ℝ) (ht : taskOf s (.loop i) = some .t100ms)
    {s' : Sys ℝ Telescope.Tel} {o' : List Out} (hs : Main.step cfg (real env) s (.loop i) = .ok (s', o'))
    (as : List (ℝ × ℝ × ℝ)) (g p z : ℝ) (hg : 0 < g) (hp : -180 < p ∧ p ≤ 180) (n : Nat) (hn : 50 ≤ n)
    (ha : accReadings Timers.init (events h) = as ++ List.replicate n (g * Real.sin (rad p), g * Real.cos (rad p) + 0.19, z)) :
    s'.pitch = p ∧ s'.scope.core.orientation = ⟨s'.heading, p⟩ := by
  have q := step_senses (run_facts _ (inv_boot cfg Telescope.new) hr).1 hs
  obtain ⟨-, h2, -⟩ := run_senses _ (inv_boot cfg Telescope.new) hr
  rw [events_map, if_pos hsen] at h2
  have e0 : (boot (K := ℝ) cfg Telescope.new).imu = setCalibration Imu.init := by unfold boot; simp only; rw [if_pos hsen]
  have h2' : sampleAll (accReadings Timers.init (events h)) (setCalibration Imu.init) = .ok s.imu := by rw [← e0]; exact h2
  rw [ha] at h2'
  obtain ⟨m, a, e1, e2, e3⟩ := C56_pitch as g p z hg hp n hn
  rw [e1] at h2'
  injection h2' with h2'
  subst h2'
  obtain ⟨m', e4, e5⟩ := q.pitch ht
  rw [e2] at e4
  injection e4 with e4
  subst e4
  have hp' : s'.pitch = p := by rw [e5]; exact e3
  exact ⟨hp', by rw [step_orientation hs ht, hp']⟩

theorem schedule_500 {t : Timers} {now : UInt32} (h : (schedule t now).1 = some .t500ms) (h0 : t .t100ms = 0) (h1 : t .t500ms = 0) : False := by
  unfold schedule at h
  split at h; · cases h
  split at h; · cases h
  split at h; · cases h
  rename_i hd
  split at h
  · rename_i hd'
    apply hd
    unfold isDue at hd' ⊢
    rw [h0]; rw [h1] at hd'
    simp only [decide_eq_true_eq] at hd' ⊢
    exact UInt32.lt_trans (by decide) hd'
  split at h; · cases h
  split at h; · cases h
  split at h <;> cases h

theorem schedule_other {t : Timers} {now : UInt32} {k : Task} (h : (schedule t now).1 ≠ some k) : (schedule t now).2 k = t k := by
  unfold schedule at h ⊢
  split
  · rw [if_pos ‹_›] at h; simp only [Timers.stamp]; rw [if_neg]; rintro rfl; exact h rfl
  split
  · rw [if_neg ‹_›, if_pos ‹_›] at h; simp only [Timers.stamp]; rw [if_neg]; rintro rfl; exact h rfl
  split
  · rw [if_neg ‹_›, if_neg ‹_›, if_pos ‹_›] at h; simp only [Timers.stamp]; rw [if_neg]; rintro rfl; exact h rfl
  split
  · rw [if_neg ‹_›, if_neg ‹_›, if_neg ‹_›, if_pos ‹_›] at h; simp only [Timers.stamp]; rw [if_neg]; rintro rfl; exact h rfl
  split
  · rw [if_neg ‹_›, if_neg ‹_›, if_neg ‹_›, if_neg ‹_›, if_pos ‹_›] at h; simp only [Timers.stamp]; rw [if_neg]; rintro rfl; exact h rfl
  split
  · rw [if_neg ‹_›, if_neg ‹_›, if_neg ‹_›, if_neg ‹_›, if_neg ‹_›, if_pos ‹_›] at h; simp only [Timers.stamp]; rw [if_neg]; rintro rfl; exact h rfl
  split
  · rw [if_neg ‹_›, if_neg ‹_›, if_neg ‹_›, if_neg ‹_›, if_neg ‹_›, if_neg ‹_›, if_pos ‹_›] at h
    simp only [Timers.stamp]; rw [if_neg]; rintro rfl; exact h rfl
  · rfl

/-- The telescope is oriented as heading and pitch say, or neither of the two tasks has run. -/
theorem oriented (cfg : Config) (h : List (Env ℝ σ × Event ℝ)) {s : Sys ℝ Telescope.Tel} {o : List Out}
    (hr : firmware cfg h = .ok (s, o)) :
    s.scope.core.orientation = ⟨s.heading, s.pitch⟩ ∨
      (s.timers .t100ms = 0 ∧ s.timers .t500ms = 0 ∧ encReadings Timers.init (events h) = []) := by
  induction h using List.reverseRecOn generalizing s o with
  | nil =>
    injection hr with hr; injection hr with hr _; subst hr
    exact Or.inr ⟨rfl, rfl, rfl⟩
  | append_singleton h x ih =>
    obtain ⟨env, e⟩ := x
    unfold firmware at hr
    rw [List.map_append] at hr
    obtain ⟨s1, o1, o2, h1, h2, -⟩ := Main.run_snoc.1 hr
    have hi := (run_facts _ (inv_boot cfg Telescope.new) h1).1
    have q := step_senses hi h2
    obtain ⟨t1, -, -⟩ := run_senses _ (inv_boot cfg Telescope.new) h1
    rw [events_map] at t1
    have t1' : s1.timers = timersOf Timers.init (events h) := t1
    by_cases ht : taskOf s1 e = some .t100ms
    · left
      cases e with
      | loop i => exact step_orientation h2 ht
      | _ => cases ht
    · have hh : s.heading = s1.heading ∧ encReadings s1.timers [e] = [] := by
        have := q.heading
        have e0 : encReadings s1.timers [e] = [] := by
          cases e with
          | loop i => simp only [taskOf] at ht; simp [encReadings, ht]
          | _ => rfl
        rw [e0] at this
        injection this with this
        exact ⟨this.symm, e0⟩
      have hp := q.pitch' ht
      have hor : s.scope.core.orientation = s1.scope.core.orientation := by
        by_cases hb : ∃ b, e = .bluetooth b
        · obtain ⟨b, rfl⟩ := hb
          simp only [Main.step, onBluetoothData] at h2
          obtain ⟨⟨n, tx, scope⟩, hm, h2⟩ := bind_eq_ok.1 h2
          have := moves_orientation (handle_moves hm)
          simp only at h2
          split at h2
          · obtain ⟨b, _, h2⟩ := bind_eq_ok.1 h2
            injection h2 with h2; injection h2 with h2 _; subst h2; exact this
          · injection h2 with h2; injection h2 with h2 _; subst h2; exact this
        · push Not at hb
          rw [step_still hi h2 ht hb]
      rcases ih h1 with hc | ⟨c1, c2, c3⟩
      · left; rw [hor, hh.1, hp, hc]
      · right
        have ts := q.timers
        refine ⟨?_, ?_, ?_⟩
        · rw [ts]
          cases e with
          | loop i => simp only [timersOf]; rw [schedule_other ht, c1]
          | _ => exact c1
        · rw [ts]
          cases e with
          | loop i =>
            simp only [timersOf]
            rw [schedule_other (fun hc => schedule_500 hc c1 c2), c2]
          | _ => exact c2
        · unfold events
          rw [List.map_append, encReadings_append]
          have : timersOf Timers.init (h.map (·.2)) = s1.timers := t1'.symm
          rw [this]
          have c3' : encReadings Timers.init (h.map (·.2)) = [] := c3
          rw [c3']
          exact hh.2

/-- **C64** From the first encoder reading on, the telescope is oriented as the heading and pitch say, in every history. -/
theorem C64_oriented (cfg : Config) (h : List (Env ℝ σ × Event ℝ)) {s : Sys ℝ Telescope.Tel} {o : List Out}
    (hr : firmware cfg h = .ok (s, o)) (hne : encReadings Timers.init (events h) ≠ []) :
    s.scope.core.orientation = ⟨s.heading, s.pitch⟩ := by
  rcases oriented cfg h hr with hc | ⟨-, -, hc⟩
  · exact hc
  · exact absurd hc hne

/-- **C64** A report is never made before the first encoder reading: whenever the 500 ms task runs, the telescope is oriented. -/
theorem C64_no_early_report (cfg : Config) (h : List (Env ℝ σ × Event ℝ)) {s : Sys ℝ Telescope.Tel} {o : List Out}
    (hr : firmware cfg h = .ok (s, o)) (i : In ℝ) (ht : taskOf s (.loop i) = some .t500ms) :
    s.scope.core.orientation = ⟨s.heading, s.pitch⟩ := by
  rcases oriented cfg h hr with hc | ⟨c1, c2, -⟩
  · exact hc
  · exact (schedule_500 ht c1 c2).elim

/-! ### The hypotheses are met -/

/-- A call of `loop()` with nothing to receive. -/
noncomputable def calm (now : UInt32) (a : ℝ × ℝ × ℝ) : Event ℝ := .loop ⟨now, a, (0, 0), .data [], [], [], 20⟩

theorem calm_safe {cfg : Config} {env : Env ℝ (Option (Circle ℝ))} {s : Sys ℝ Telescope.Tel} (now : UInt32) (a : ℝ × ℝ × ℝ)
    (ht : taskOf s (calm now a) ≠ some .t500ms) : ¬ Hazard cfg env s (calm now a) := by
  intro hz
  have hq : ∀ r, ¬ Request s (calm now a) r := by
    intro r hr
    cases hr with
    | tcp i c h1 h2 h3 => exact h3 rfl
  unfold calm at ht hq hz
  cases hz with
  | gnss i h1 h2 => exact h2 rfl
  | location e r hr => exact hq _ hr
  | position e r hr => exact hq _ hr
  | sync e r hr => exact hq _ hr
  | goto i r hr => exact hq _ hr
  | packet i h => exact ht h
  | points i h => exact ht h
  | matrix i h => exact ht h
  | temperature i h h2 =>
    simp only at h2
    norm_num at h2

/-- The tasks that calls of `loop()` at the given times run. -/
def tasks : Timers → List UInt32 → List (Option Task)
  | _, [] => []
  | t, now :: l => (schedule t now).1 :: tasks (schedule t now).2 l

theorem acc_calm (a : ℝ × ℝ × ℝ) : ∀ (l : List UInt32) (t : Timers),
    accReadings t (l.map (calm · a)) = List.replicate ((tasks t l).count (some .filter)) a
  | [], _ => rfl
  | now :: l, t => by
    have ih := acc_calm a l (schedule t now).2
    simp only [List.map_cons, tasks, List.count_cons]
    unfold calm at ih ⊢
    simp only [accReadings]
    rw [ih]
    by_cases h : (schedule t now).1 = some .filter
    · simp [h, List.replicate_succ]
    · simp [h]

theorem enc_calm (a : ℝ × ℝ × ℝ) : ∀ (l : List UInt32) (t : Timers),
    encReadings t (l.map (calm · a)) = List.replicate ((tasks t l).count (some .t100ms)) 0
  | [], _ => rfl
  | now :: l, t => by
    have ih := enc_calm a l (schedule t now).2
    simp only [List.map_cons, tasks, List.count_cons]
    unfold calm at ih ⊢
    simp only [encReadings]
    rw [ih]
    by_cases h : (schedule t now).1 = some .t100ms
    · simp [h, List.replicate_succ, show frame 0 0 = 0 from rfl]
    · simp [h]

theorem timers_calm (a : ℝ × ℝ × ℝ) : ∀ (l : List UInt32) (t : Timers),
    timersOf t (l.map (calm · a)) = l.foldl (fun t now => (schedule t now).2) t
  | [], _ => rfl
  | _ :: l, _ => timers_calm a l _

/-- 50 calls of `loop()`, 20.001 ms apart, and one more. -/
def demoTimes : List UInt32 := ((List.range 50).map fun k => 20001 * (UInt32.ofNat k + 1)) ++ [1000050]

theorem demo_prefix : ∀ n ≤ 51, (schedule ((demoTimes.take n).foldl (fun t now => (schedule t now).2) Timers.init)
    (demoTimes ++ [1000050])[n]!).1 ≠ some .t500ms := by decide +kernel

/-- In any `Normal` environment the demonstration runs, and afterwards the pitch is 30 degrees. -/
example (cfg : Config) (hsen : cfg.sensor = true) (env : Env ℝ (Option (Circle ℝ))) (hn : Normal env) (a : ℝ × ℝ × ℝ)
    (ha : a = (9.81 * Real.sin (rad 30), 9.81 * Real.cos (rad 30) + 0.19, 1)) :
    ∃ s o s' o', firmware cfg (demoTimes.map fun now => (env, calm now a)) = .ok (s, o) ∧
      taskOf s (calm 1000050 a) = some .t100ms ∧ Main.step cfg (real env) s (calm 1000050 a) = .ok (s', o') ∧ s'.pitch = 30 := by
  have hev : ∀ l : List UInt32, events (l.map fun now => (env, calm now a)) = l.map (calm · a) := by
    intro l; simp [events]
  have htm : ∀ (l : List UInt32) s o, firmware cfg (l.map fun now => (env, calm now a)) = .ok (s, o) →
      s.timers = l.foldl (fun t now => (schedule t now).2) Timers.init := by
    intro l s o hr
    obtain ⟨t1, -, -⟩ := run_senses _ (inv_boot cfg Telescope.new) hr
    rw [events_map, hev, timers_calm] at t1
    exact t1
  have hsafe : ∀ h1 x h2 s o, (demoTimes ++ [1000050]).map (fun now => (env, calm now a)) = h1 ++ x :: h2 →
      firmware cfg h1 = .ok (s, o) → ¬ Hazard cfg x.1 s x.2 := by
    intro h1 x h2 s o e hr
    obtain ⟨l1, l', e1, rfl, e2⟩ := List.map_eq_append_iff.1 e
    obtain ⟨now, l2, rfl, rfl, -⟩ := List.map_eq_cons_iff.1 e2
    apply calm_safe
    have hl : l1.length ≤ 51 := by
      have := congrArg List.length e1
      simp [demoTimes] at this
      omega
    have hp := demo_prefix l1.length hl
    have h3 : demoTimes.take l1.length = l1 := by
      have : (demoTimes ++ [1000050]).take l1.length = l1 := by rw [e1]; simp
      rwa [List.take_append_of_le_length (by simpa [demoTimes] using hl)] at this
    have h4 : (demoTimes ++ [1000050])[l1.length]! = now := by rw [e1]; simp
    rw [h3, h4, ← htm l1 s o hr] at hp
    exact hp
  obtain ⟨s', o', hr, -, -⟩ := runs_safe cfg ((demoTimes ++ [1000050]).map fun now => (env, calm now a))
    (by intro x hx; obtain ⟨_, _, rfl⟩ := List.mem_map.1 hx; exact hn) hsafe
  unfold firmware at hr
  rw [List.map_append, List.map_append] at hr
  obtain ⟨s, o, o2, h1, h2, -⟩ := Main.run_snoc.1 hr
  have h1' : firmware cfg (demoTimes.map fun now => (env, calm now a)) = .ok (s, o) := h1
  have ht : taskOf s (calm 1000050 a) = some .t100ms := by
    show (schedule s.timers 1000050).1 = _
    rw [htm _ s o h1']
    decide +kernel
  refine ⟨s, o, s', o2, h1', ht, h2, ?_⟩
  refine (C64_pitch cfg hsen _ h1' env _ ht h2 [] 9.81 30 1 (by norm_num) ⟨by norm_num, by norm_num⟩ 50 le_rfl ?_).1
  rw [hev, acc_calm, ← ha]
  rw [show (tasks Timers.init demoTimes).count (some .filter) = 50 by decide +kernel]
  rfl

/-- The heading after one more reading of the same word. -/
example (a : ℝ × ℝ × ℝ) : encReadings Timers.init ((demoTimes ++ [1000050]).map (calm · a)) = [] ++ List.replicate 1 0 := by
  rw [enc_calm]
  rw [show (tasks Timers.init (demoTimes ++ [1000050])).count (some .t100ms) = 1 by decide +kernel]
  rfl

end Verif.System
