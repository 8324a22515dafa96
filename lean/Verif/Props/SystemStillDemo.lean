import Verif.Props.SystemStill
import Verif.Props.SystemDemo

/-!
# C58: a history that meets the hypotheses of `C58_still_pointing`

After the goto a complete round of tasks runs (filter, LED, sensors and network), then the 500 ms task sends a packet.
-/

namespace Verif.System
open Verif.Align Verif.Coord Verif.Telescope Verif.Spec Verif.Main Spec.NexStar

variable {σ : Type}

theorem zero_sum {l : List (ℝ × ℝ × ℝ)} (h : ∀ v ∈ l, v.1 = 0 ∧ v.2.1 = 0) : (Imu.vsum l).1 = 0 ∧ (Imu.vsum l).2.1 = 0 := by
  unfold Imu.vsum
  refine ⟨List.sum_eq_zero ?_, List.sum_eq_zero ?_⟩ <;>
  · intro x hx
    obtain ⟨v, hv, rfl⟩ := List.mem_map.1 hx
    first | exact (h v hv).1 | exact (h v hv).2

theorem accReadings_mem {t : Timers} {es : List (Event ℝ)} {v : ℝ × ℝ × ℝ} (h : v ∈ accReadings t es) : ∃ i, Event.loop i ∈ es ∧ i.acc = v := by
  induction es generalizing t with
  | nil => simp [accReadings] at h
  | cons e es ih =>
    cases e with
    | loop i =>
      simp only [accReadings, List.mem_append] at h
      rcases h with h | h
      · split at h
        · exact ⟨i, by simp, (List.mem_singleton.1 h).symm⟩
        · simp at h
      · obtain ⟨j, hj, e⟩ := ih h; exact ⟨j, by simp [hj], e⟩
    | bluetooth b => obtain ⟨j, hj, e⟩ := ih h; exact ⟨j, by simp [hj], e⟩
    | arrive c => obtain ⟨j, hj, e⟩ := ih h; exact ⟨j, by simp [hj], e⟩
    | gone c => obtain ⟨j, hj, e⟩ := ih h; exact ⟨j, by simp [hj], e⟩

/-- While the accelerometer reads 0 along the first two axes, the pitch is the same after every run of the 100 ms task. -/
theorem flat_pitch (cfg : Config) (hsen : cfg.sensor = true) (h : List (Env ℝ σ × Event ℝ)) {s : Sys ℝ Telescope.Tel} {o : List Out}
    (hr : firmware cfg h = .ok (s, o)) (hflat : ∀ e ∈ h, ∀ i : In ℝ, e.2 = .loop i → i.acc = (0, 0, 1))
    (env : Env ℝ σ) (i : In ℝ) (ht : taskOf s (.loop i) = some .t100ms)
    {s' : Sys ℝ Telescope.Tel} {o' : List Out} (hs : Main.step cfg (real env) s (.loop i) = .ok (s', o')) :
    s'.pitch = Coord.atan2 0 (-0.19) * 180 / Real.pi := by
  have q := step_senses (run_facts _ (inv_boot cfg Telescope.new) hr).1 hs
  obtain ⟨-, h2, -⟩ := run_senses _ (inv_boot cfg Telescope.new) hr
  rw [events_map, if_pos hsen] at h2
  have e0 : (boot (K := ℝ) cfg Telescope.new).imu = Imu.setCalibration Imu.init := by unfold boot; simp only; rw [if_pos hsen]
  have h2' : Imu.sampleAll (accReadings Timers.init (events h)) (Imu.setCalibration Imu.init) = .ok s.imu := by rw [← e0]; exact h2
  have hring : Imu.Ring [] (Imu.setCalibration (Imu.init : Imu.Imu ℝ)) := by
    obtain ⟨a, b, c⟩ := Imu.ring_init (K := ℝ)
    exact ⟨a, b, c⟩
  obtain ⟨m, e1, r, hoff⟩ := Imu.ring_all (accReadings Timers.init (events h)) hring
  rw [e1] at h2'
  injection h2' with h2'
  subst h2'
  obtain ⟨m', e4, e5⟩ := q.pitch ht
  rw [Imu.mean_of_ring r] at e4
  injection e4 with e4
  rw [List.nil_append] at e4
  obtain ⟨z1, z2⟩ := zero_sum (l := Imu.lastN 50 0 (accReadings Timers.init (events h))) (by
    intro v hv
    have := List.mem_of_mem_drop hv
    rcases List.mem_append.1 this with h1 | h1
    · rw [(List.mem_replicate.1 h1).2]; exact ⟨rfl, rfl⟩
    · obtain ⟨j, hj, rfl⟩ := accReadings_mem h1
      obtain ⟨e, he, he'⟩ := List.mem_map.1 hj
      rw [hflat e he j he']; exact ⟨rfl, rfl⟩)
  rw [z1, z2, zero_div] at e4
  rw [e5, ← e4]
  simp only [real, Imu.pitch, Imu.calibrate, hoff, Imu.setCalibration]
  norm_num

theorem calm_stars {cfg : Config} {s : Sys ℝ Telescope.Tel} (now : UInt32) (a : ℝ × ℝ × ℝ) : ¬ ChangesStars cfg s (calm now a) := by
  intro h
  generalize he : calm now a = e at h
  cases h with
  | sync e r a d hr hp => subst he; exact calm_request hr
  | goto i r hr => rw [← he] at hr; exact calm_request hr
  | reset i ht hm m hi => simp only [calm] at he; injection he with he; subst he; simp at hi

/-- A quiet call of `loop()` after the goto. -/
theorem calm_after {env : Env ℝ (Option (Circle ℝ))} (hn : Normal env) {s : Sys ℝ Telescope.Tel} (hs : Safe demoCfg s) (hT : Reached s.scope.core)
    (hnet : s.net = ⟨some 7, [], [7]⟩) (hp : s.nexStarMode = false) {T : Timers} (htm : s.timers = T) (now : UInt32) (k : Task)
    (hk : (schedule T now).1 = some k) (h5 : k ≠ .t500ms) :
    ∃ s' o, Main.step demoCfg (real env) s (calm now (0, 0, 1)) = .ok (s', o) ∧ Safe demoCfg s' ∧ Reached s'.scope.core ∧
      s'.timers = (schedule T now).2 ∧ s'.net = ⟨some 7, [], [7]⟩ ∧ s'.nexStarMode = false ∧ s'.gnss = s.gnss ∧
      s'.scope.core.alignment = s.scope.core.alignment ∧ s'.heading = s.heading := by
  have ht : taskOf s (calm now (0, 0, 1)) = some k := by show (schedule s.timers now).1 = _; rw [htm, hk]
  have h5' : taskOf s (calm now (0, 0, 1)) ≠ some .t500ms := by rw [ht]; simpa using h5
  obtain ⟨s', o, h, hs', hT'⟩ := step_total hn hs hT _ (calm_safe now (0, 0, 1) h5')
  refine ⟨s', o, h, hs', hT', ?_, ?_, ?_, step_gnss hs.inv h h5', ?_, ?_⟩
  · obtain ⟨t1, -, -⟩ := run_senses [(real env, calm now (0, 0, 1))] hs.inv (Main.run_snoc (h := []).2 ⟨s, [], o, rfl, h, rfl⟩)
    rw [← htm]; exact t1
  · by_cases h100 : taskOf s (calm now (0, 0, 1)) = some .t100ms
    · have ht' : (schedule s.timers now).1 = some .t100ms := h100
      simp only [calm, Main.step, loop, ht'] at h
      have := (task100_facts (s := { s with timers := (schedule s.timers now).2 }) hs.inv h).2.2.2.2.2
      rw [this]
      show Net.checkForConnections s.net = _
      rw [hnet]; rfl
    · rw [calm_net hs.inv _ h h100, hnet]
  · have := (step_facts hs.inv h).2.2
    cases hx : s'.nexStarMode with
    | false => rfl
    | true =>
      rcases this.1 hx with h1 | ⟨r, c, h1, -⟩
      · rw [hp] at h1; cases h1
      · exact absurd h1 calm_request
  · have := step_stars hs.inv h (calm_stars now _)
    rw [this]; split <;> rfl
  · have := (step_senses hs.inv h).heading
    simp only [calm, encReadings, List.append_nil] at this
    split at this
    · have e : Main.heading [frame 0 0] s.heading = .ok s.heading := by
        simp only [Main.heading, headingRun, headingStep]
        rw [if_neg (by decide)]; rfl
      rw [e] at this; injection this with this; exact this.symm
    · injection this with this; exact this.symm

theorem demo_tracking (env : Env ℝ (Option (Circle ℝ))) (hn : Normal env) (later last : UInt32) (hlater : later = 720000) (hlast : last = 840000) :
    ∃ (h1 h2 : List (Env ℝ (Option (Circle ℝ)) × Event ℝ)) (s1 s2 s3 s4 : Sys ℝ Telescope.Tel) (o1 o2 o3 o4 : List Out) (b : List UInt8) (t1 t2 : ℝ),
      (∀ e ∈ h1, IsSort e.1.sort) ∧ firmware demoCfg h1 = .ok (s1, o1) ∧
      Main.step demoCfg (real env) s1 (.loop (gotoIn later)) = .ok (s2, o2) ∧ taskOf s1 (.loop (gotoIn later)) = some .t100ms ∧
      (s1.net.remote = some 7 ∧ 7 ∈ s1.net.open') ∧ (gotoIn later).messages = [] ∧ (gotoIn later).tcp = .data demoGoto ∧
      20 ≤ demoGoto.length ∧ demoGoto.length ≤ 256 ∧ leVal (slice demoGoto 0 2) = 20 ∧ leVal (slice demoGoto 2 2) = 0 ∧
      leVal (slice demoGoto 16 4) < 2 ^ 30 ∧ (synced s1).length < 2 ∧ pointing s2 ∉ synced s1 ∧
      Main.run demoCfg (h2.map fun x => (real x.1, x.2)) s2 = .ok (s3, o3) ∧
      Happened demoCfg s2 (h2.map fun x => (real x.1, x.2)) (fun s e => taskOf s e = some .t100ms) ∧
      ¬ Happened demoCfg s2 (h2.map fun x => (real x.1, x.2)) (ChangesStars demoCfg) ∧ pointing s3 = pointing s2 ∧
      Main.step demoCfg (real env) s3 (.loop (packetIn last)) = .ok (s4, o4) ∧ Out.tcp 7 b ∈ o4 ∧ 18 < b.length ∧
      Helper.localSiderealTime s1.gnss.utc (s1.gnss.longitude : ℝ) = .ok t1 ∧
      Helper.localSiderealTime s4.gnss.utc (s4.gnss.longitude : ℝ) = .ok t2 ∧ s4.gnss.latitude = s1.gnss.latitude := by
  obtain ⟨h, s1, s2, o1, o2, lst, v, hsort, hflat, hr1, h2, hg1, hcl, hsyn, hg0, hlst, k2, r2, t2, t1, hp2, hnet2, hg2, hu, htri, hnum, hmat, hsmall⟩ :=
    demo_goto env hn later hlater
  set w : ℝ × ℝ × ℝ := (0, 0, 1) with hw
  rw [t1] at t2
  obtain ⟨sa, oa, ha, ka, ra, ta, na, pa, ga, aa, da⟩ := calm_after hn k2 r2 hnet2 hp2 t2 last .filter (by rw [hlater, hlast]; decide +kernel) (by decide)
  obtain ⟨sb, ob, hb, kb, rb, tb, nb, pb, gb, ab, db⟩ := calm_after hn ka ra na pa ta last .t25ms (by rw [hlater, hlast]; decide +kernel) (by decide)
  have hkc : (schedule sb.timers last).1 = some .t100ms := by rw [tb, hlater, hlast]; decide +kernel
  obtain ⟨s3, oc, hc, k3, r3, t3, n3, p3, g3, a3, d3⟩ := calm_after hn kb rb nb pb tb last .t100ms (by rw [← tb]; exact hkc) (by decide)
  have hr2 : Main.run demoCfg (h.map (fun x => (real x.1, x.2)) ++ [(real env, .loop (gotoIn later))]) (boot demoCfg Telescope.new) = .ok (s2, o1 ++ o2) :=
    Main.run_snoc.2 ⟨_, _, _, hr1, h2, rfl⟩
  have hra := Main.run_snoc.2 ⟨_, _, _, hr2, ha, rfl⟩
  have hrb := Main.run_snoc.2 ⟨_, _, _, hra, hb, rfl⟩
  have hrc := Main.run_snoc.2 ⟨_, _, _, hrb, hc, rfl⟩
  have hpit : s3.pitch = s2.pitch := by
    have e2 := flat_pitch demoCfg rfl h hr1 hflat env (gotoIn later) hg1 h2
    have e3 := flat_pitch demoCfg rfl (h ++ [(env, .loop (gotoIn later))] ++ [(env, calm last w)] ++ [(env, calm last w)]) (s := sb)
      (by unfold firmware; simp only [List.map_append, List.map_singleton]; exact hrb)
      (by
        intro e he i hi
        simp only [List.mem_append, List.mem_singleton, or_assoc] at he
        rcases he with he | rfl | rfl | rfl
        · exact hflat e he i hi
        · injection hi with hi; subst hi; rfl
        · exact calm_acc hi
        · exact calm_acc hi)
      env ⟨last, w, (0, 0), .data [], [], [], 20⟩ hkc hc
    rw [e2, e3]
  have hp3 : pointing s3 = pointing s2 := by
    unfold pointing
    rw [hpit, d3, db, da]
  have hal : s3.scope.core.alignment = s2.scope.core.alignment := by rw [a3, ab, aa]
  have hg3 : s3.gnss = Nmea.Gnss.init 48 11 := by rw [g3, gb, ga, hg2]
  have ht3 : taskOf s3 (.loop (packetIn last)) = some .t500ms := by
    rw [packet_task t3, hlater, hlast]; decide +kernel
  have hz := packet_safe (env := env) hg3 ht3 (by rw [hal]; exact hu) (by rw [hal]; exact htri) (by rw [hal]; exact hnum) (by rw [hal]; exact hmat) hsmall
  obtain ⟨s4, o4, h4, k4, r4⟩ := step_total hn k3 r3 _ hz
  set H := h.map (fun x => (real x.1, x.2)) ++ [(real env, .loop (gotoIn later))] ++ [(real env, calm last w)] ++ [(real env, calm last w)] ++
    [(real env, calm last w)] with hH
  have hlive : Live (polls demoCfg (H ++ [(real env, .loop (packetIn last))]) (boot demoCfg Telescope.new)) := by
    rw [polls_snoc _ _ _ hrc]
    have : pollOf demoCfg s3 (.loop (packetIn last)) = some .valid := by
      have ht3' : (schedule s3.timers (packetIn last).now).1 = some .t500ms := ht3
      simp only [pollOf]
      rw [if_pos ht3', if_neg (by simp only [packetIn]; decide), hg3]
      have := demo_sentence
      simp only [packetIn, demoCfg]
      rw [this]; rfl
    rw [this]
    exact ⟨_, [], rfl, by simp⟩
  have hno : ¬ Happened demoCfg (boot demoCfg Telescope.new) H IsCommand := by
    intro hc
    have := (run_facts _ (inv_boot demoCfg _) hrc).2.2.2 (Or.inr hc)
    rw [p3] at this; cases this
  obtain ⟨b, hbl, hbm⟩ := C51_sent demoCfg rfl _ _ s3 _ hrc (real env) (.loop (packetIn last)) s4 o4 h4 ht3 7 (by rw [n3]; exact ⟨rfl, by simp⟩)
    hlive hno
  obtain ⟨-, -, -, -, t', _, _, _, ht', -⟩ := step_packet k3.inv h4 hbm (by omega)
  have qa : Main.run demoCfg ([] ++ [(real env, calm last w)]) s2 = .ok (sa, [] ++ oa) := Main.run_snoc.2 ⟨s2, [], oa, rfl, ha, rfl⟩
  have qb := Main.run_snoc.2 ⟨_, _, _, qa, hb, rfl⟩
  have qc := Main.run_snoc.2 ⟨_, _, _, qb, hc, rfl⟩
  refine ⟨h, [(env, calm last w), (env, calm last w), (env, calm last w)], s1, s2, s3, s4, o1, o2, _, o4, b, lst, t', hsort, hr1, h2, hg1, hcl, rfl, rfl,
    by decide, by decide, by decide, by decide, by decide, by rw [hsyn]; simp, by rw [hsyn]; simp, qc, ?_, ?_, hp3, h4, hbm, by omega, hlst, ht', ?_⟩
  · exact ⟨[] ++ [(real env, calm last w)] ++ [(real env, calm last w)], real env, calm last w, [], sb, _, rfl, qb, hkc⟩
  · rintro ⟨l1, T, e, l2, s, o, el, -, hch⟩
    have : e = calm last w := by
      have : (T, e) ∈ ([(real env, calm last w), (real env, calm last w), (real env, calm last w)] : List (Main.Tel ℝ Telescope.Tel × Event ℝ)) := by
        have e' : ([(env, calm last w), (env, calm last w), (env, calm last w)] : List (Env ℝ (Option (Circle ℝ)) × Event ℝ)).map (fun x => (real x.1, x.2)) =
          [(real env, calm last w), (real env, calm last w), (real env, calm last w)] := rfl
        rw [← e', el]; simp
      simp only [List.mem_cons, List.not_mem_nil, or_false, or_self] at this
      exact congrArg Prod.snd this
    subst this
    exact calm_stars last w hch
  · rw [hg0]
    have ht3' : (schedule s3.timers (packetIn last).now).1 = some .t500ms := ht3
    simp only [Main.step, loop, ht3'] at h4
    obtain ⟨-, -, -, -, -, ⟨s5, h5, e5, -⟩, -⟩ := task500_facts (s := { s3 with timers := (schedule s3.timers (packetIn last).now).2 }) k3.inv h4
    have hf : Nmea.fromBuffer demoCfg.platform s3.gnss (demoRmc.take 255) = .ok (some (1, demoGnss)) := by
      rw [hg3]; exact demo_sentence
    have e6 : s5.gnss = demoGnss := pollGnss_data (serial := demoRmc) (by exact k3.inv.2) demoRmc_ne h5 hf
    rw [e5, e6]
    rfl

/-- **C58** The hypotheses of `C58_still_pointing` are met: such a history exists, with a run of the 100 ms task in between. -/
example (env : Env ℝ (Option (Circle ℝ))) (hn : Normal env) := demo_tracking env hn 720000 840000 rfl rfl

end Verif.System
