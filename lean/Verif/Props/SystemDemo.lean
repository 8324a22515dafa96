import Verif.Props.System
import Verif.Props.Report

/-!
# C58: a history that meets the hypotheses

A client connects, sends a goto, and the next run of the 500 ms task, with a valid sentence from the receiver, sends it a position packet.
-/

namespace Verif.System
open Verif.Align Verif.Coord Verif.Telescope Verif.Spec Verif.Main Spec.NexStar

variable {σ : Type}

/-- The alignment after the first sync. -/
theorem first_sync {env : Env ℝ σ} (he : IsSort env.sort) {T T' : Telescope.Tel} (hT : T.alignment = Align.fresh) {r : Equatorial ℝ} {lat t : ℝ}
    (h : addReferencePoint env T r lat t = .ok T') :
    ∃ v : VertexPair ℝ, v = ⟨toPt T.orientation, toPt (equatorialToHorizontal r.ra r.dec lat t)⟩ ∧ T'.alignment.used = [v] ∧
      T'.alignment.triangles = [] ∧ T'.alignment.numVertices = 1 ∧ T'.alignment.matrices[0]? = some (some (pointMatrix v)) := by
  set v : VertexPair ℝ := ⟨toPt T.orientation, toPt (equatorialToHorizontal r.ra r.dec lat t)⟩ with hv
  have hsort : env.sort [v] = [v] := List.perm_singleton.1 (he [v]).1
  unfold addReferencePoint at h
  rw [hT] at h
  have ha : addVertexPair env Align.fresh (toPt T.orientation) (toPt (equatorialToHorizontal r.ra r.dec lat t)) =
      .ok (true, ⟨v :: List.replicate 66 ⟨⟨0, 0⟩, ⟨0, 0⟩⟩, 1, [], List.replicate 192 none⟩) := by
    have : addVertexPair env Align.fresh (toPt T.orientation) (toPt (equatorialToHorizontal r.ra r.dec lat t)) =
      .ok (true, ⟨env.sort [v] ++ List.replicate 66 ⟨⟨0, 0⟩, ⟨0, 0⟩⟩, 1, [], List.replicate 192 none⟩) := rfl
    rw [this, hsort]; rfl
  have h : (do
    let s ← triangulateActual env (⟨v :: List.replicate 66 ⟨⟨0, 0⟩, ⟨0, 0⟩⟩, 1, [], List.replicate 192 none⟩ : State ℝ)
    return { T with alignment := s } : C Telescope.Tel) = .ok T' := by
    have h' := h
    simp only at h'
    rw [ha, bind_ok] at h'
    exact h'
  obtain ⟨s, hs, h⟩ := bind_eq_ok.1 h
  injection h with h
  subst h
  have htri := no_triangles env _ s hs (by norm_num) (by norm_num)
  have hI : Align.Inv (⟨v :: List.replicate 66 ⟨⟨0, 0⟩, ⟨0, 0⟩⟩, 1, [], List.replicate 192 none⟩ : State ℝ) [(v.actual, v.reference)] :=
    ⟨by rw [List.length_cons, List.length_replicate], List.length_replicate .., rfl, by simp, ⟨[v], by rfl, by simp [StandsFor]⟩, by simp [State.used], by simp⟩
  obtain ⟨hI', hu⟩ := triangulateActual_frame env _ s _ hI hs
  have hu' : s.used = [v] := hu
  obtain ⟨w, hw, hm⟩ := (triangulateActual_synced env _ s hs).point htri hI'.num
  have hwv : w = v := by
    have := used_head hu'
    rw [this] at hw; injection hw with hw; exact hw.symm
  exact ⟨v, rfl, hu', htri, hI'.num, by rw [← hwv]; exact hm⟩

/-- Before the first sync: no star, no NexStar command, the position of the receiver at power-up. -/
structure Stage (n : Net.Net) (s : Sys ℝ Telescope.Tel) : Prop where
  alignment : s.scope.core.alignment = Align.fresh
  net : s.net = n
  plain : s.nexStarMode = false
  gnss : s.gnss = Nmea.Gnss.init 48 11

theorem calm_request {s : Sys ℝ Telescope.Tel} {now : UInt32} {a : ℝ × ℝ × ℝ} {r : List UInt8} : ¬ Request s (calm now a) r := by
  intro h
  cases h with
  | tcp i c h1 h2 h3 => exact h3 rfl

/-- A quiet call of `loop()` that runs none of the 500 ms task's reports. -/
theorem stage_step {cfg : Config} (hw : cfg.wifi = true) {env : Env ℝ (Option (Circle ℝ))} (hn : Normal env) {n : Net.Net} {s : Sys ℝ Telescope.Tel}
    (hs : Safe cfg s) (hT : Reached s.scope.core) (hq : Stage n s) (now : UInt32) (a : ℝ × ℝ × ℝ)
    (ht : taskOf s (calm now a) ≠ some .t500ms) (hc : taskOf s (calm now a) = some .t100ms → n.connected = false) :
    ∃ s' o, Main.step cfg (real env) s (calm now a) = .ok (s', o) ∧ Safe cfg s' ∧ Reached s'.scope.core ∧
      s'.timers = (schedule s.timers now).2 ∧
      Stage (if taskOf s (calm now a) = some .t100ms then Net.checkForConnections n else n) s' := by
  obtain ⟨s', o, h, hs', hT'⟩ := step_total hn hs hT _ (calm_safe now a ht)
  refine ⟨s', o, h, hs', hT', ?_, ?_⟩
  · obtain ⟨t1, -, -⟩ := run_senses [(real env, calm now a)] hs.inv (Main.run_snoc (h := []).2 ⟨s, [], o, rfl, h, rfl⟩)
    exact t1
  have hg : s'.gnss = Nmea.Gnss.init 48 11 := (step_gnss hs.inv h ht).trans hq.gnss
  have hp : s'.nexStarMode = false := by
    have := (step_facts hs.inv h).2.2
    cases hx : s'.nexStarMode with
    | false => rfl
    | true =>
      rcases this.1 hx with h1 | ⟨r, c, h1, -⟩
      · rw [hq.plain] at h1; cases h1
      · exact absurd h1 calm_request
  by_cases h100 : taskOf s (calm now a) = some .t100ms
  · rw [if_pos h100]
    have ht' : (schedule s.timers now).1 = some .t100ms := h100
    simp only [calm, Main.step, loop, ht', task100] at h
    obtain ⟨s1, h1, h⟩ := bind_eq_ok.1 h
    have q1 : s1.scope.core.alignment = Align.fresh ∧ s1.net = n := by
      unfold readSensors at h1
      obtain ⟨m, -, h1⟩ := bind_eq_ok.1 h1
      obtain ⟨hd, -, h1⟩ := bind_eq_ok.1 h1
      injection h1 with h1
      subst h1
      exact ⟨hq.alignment, hq.net⟩
    have hcl : client s1 = none := by
      unfold client; rw [q1.2, hc h100]; rfl
    unfold tcpTask at h
    rw [hcl] at h
    simp only [bind_ok] at h
    have hm : mqttTask cfg (real env) s1 [] = .ok (s1, []) := by unfold mqttTask; split <;> rfl
    rw [hm] at h
    simp only [bind_ok, pure_ok, Except.ok.injEq, Prod.mk.injEq] at h
    obtain ⟨h, -⟩ := h
    rw [if_pos hw] at h
    subst h
    exact ⟨q1.1, by show Net.checkForConnections s1.net = _; rw [q1.2], hp, hg⟩
  · rw [if_neg h100]
    have h1 := step_still hs.inv h h100 (by intro b hb; cases hb)
    exact ⟨by rw [h1]; exact hq.alignment, by rw [calm_net hs.inv _ h h100, hq.net], hp, hg⟩

/-- The same for a known task. -/
theorem stage_next {cfg : Config} (hw : cfg.wifi = true) {env : Env ℝ (Option (Circle ℝ))} (hn : Normal env) {n : Net.Net} {s : Sys ℝ Telescope.Tel}
    (hs : Safe cfg s) (hT : Reached s.scope.core) (hq : Stage n s) {T : Timers} (htm : s.timers = T) (now : UInt32) (a : ℝ × ℝ × ℝ) (k : Task)
    (hk : (schedule T now).1 = some k) (h5 : k ≠ .t500ms) (hc : k = .t100ms → n.connected = false) :
    ∃ s' o, Main.step cfg (real env) s (calm now a) = .ok (s', o) ∧ Safe cfg s' ∧ Reached s'.scope.core ∧
      s'.timers = (schedule T now).2 ∧ Stage (if k = .t100ms then Net.checkForConnections n else n) s' := by
  have ht : taskOf s (calm now a) = some k := by show (schedule s.timers now).1 = _; rw [htm, hk]
  obtain ⟨s', o, h, h1, h2, h3, h4⟩ := stage_step hw hn hs hT hq now a (by rw [ht]; simpa using h5) (by rw [ht]; simpa using hc)
  refine ⟨s', o, h, h1, h2, by rw [← htm]; exact h3, ?_⟩
  rw [ht] at h4
  simpa using h4

/-- A valid sentence at the position of power-up. -/
def demoRmc : List UInt8 := ascii "$GPRMC,092725.00,A,4800.0,N,01100.0,E,0,0,070819,,*33\r\n"

theorem demoRmc_ne : demoRmc ≠ [] := by decide +kernel

/-- What the receiver object holds after it. -/
def demoGnss : Nmea.Gnss :=
  { Nmea.Gnss.init 48 11 with utc := ⟨25, 27, 9, 7, 8, 2019⟩, valid := true }

theorem demo_sentence : Nmea.fromBuffer .nativeWrap (Nmea.Gnss.init 48 11) (demoRmc.take 255) = .ok (some (1, demoGnss)) := by decide +kernel

theorem demo_sane : demoGnss.Sane := by
  constructor <;> norm_num [demoGnss, Nmea.Gnss.init]

/-- The goto: right ascension 90°, declination 45°. -/
def demoGoto : List UInt8 := [20, 0, 0, 0, 0, 0, 0, 0, 0, 0, 0, 0, 0, 0, 0, 64, 0, 0, 0, 32]

/-- What a poll that finds data leaves in the receiver object. -/
theorem pollGnss_data {cfg : Config} {s s' : Sys ℝ Telescope.Tel} {serial : List UInt8} (hrx : s.rx.length = 256) (hs : serial ≠ [])
    (h : pollGnss cfg s serial = .ok s') {n : Nat} {g : Nmea.Gnss} (hg : Nmea.fromBuffer cfg.platform s.gnss (serial.take 255) = .ok (some (n, g))) :
    s'.gnss = g := by
  unfold pollGnss at h
  simp only at h
  have hl : 0 < (serial.take 255).length := by
    cases serial with
    | nil => exact absurd rfl hs
    | cons a t => simp
  rw [if_pos hl] at h
  obtain ⟨rx1, hr1, h⟩ := bind_eq_ok.1 h
  obtain ⟨rx2, hr2, h⟩ := bind_eq_ok.1 h
  have hlen : (serial.take 255).length ≤ 255 := by simp
  have hrx2 : rx2.take (serial.take 255).length = serial.take 255 := by
    rw [Codec.storeSeq_ok _ _ _ (by omega)] at hr1
    injection hr1 with hr1
    unfold storeByte at hr2
    split at hr2
    · injection hr2 with hr2
      rw [← hr2, List.take_set_of_le (le_refl _), ← hr1]
      simp
    · cases hr2
  rw [hrx2, hg, bind_ok] at h
  simp only at h
  split at h <;> (injection h with h; subst h; rfl)

/-- The call of `loop()` that receives the goto. -/
noncomputable def gotoIn (now : UInt32) : In ℝ := ⟨now, (0, 0, 1), (0, 0), .data demoGoto, [], [], 20⟩

/-- The call of `loop()` that reads the sentence. -/
noncomputable def packetIn (now : UInt32) : In ℝ := ⟨now, (0, 0, 1), (0, 0), .data [], demoRmc, [], 20⟩

/-- The configuration of the demonstration: orientation sensor and WiFi, no MQTT. -/
def demoCfg : Config := ⟨.nativeWrap, true, false, false, true⟩

theorem goto_task {s : Sys ℝ Telescope.Tel} {T : Timers} (h : s.timers = T) (now : UInt32) :
    taskOf s (.loop (gotoIn now)) = (schedule T now).1 := by rw [← h]; rfl

theorem packet_task {s : Sys ℝ Telescope.Tel} {T : Timers} (h : s.timers = T) (now : UInt32) :
    taskOf s (.loop (packetIn now)) = (schedule T now).1 := by rw [← h]; rfl

theorem goto_unparsed {s : Sys ℝ Telescope.Tel} {now : UInt32} {r : List UInt8} (h : Request s (.loop (gotoIn now)) r) :
    (∀ c, ¬ Parses r c) := by
  intro c hp
  cases h with
  | tcp i c h1 h2 h3 =>
    obtain ⟨b, rest, e, hb⟩ := first_byte hp
    have : b = 20 := by
      have := congrArg List.head? e
      simp [afterRead, gotoIn, demoGoto] at this
      exact this.symm
    subst this
    revert hb; decide

theorem stage_goto {env : Env ℝ (Option (Circle ℝ))} (hn : Normal env) {n : Net.Net} {s : Sys ℝ Telescope.Tel}
    (hs : Safe demoCfg s) (hT : Reached s.scope.core) (hq : Stage n s) (now : UInt32)
    (ht : taskOf s (.loop (gotoIn now)) = some .t100ms) :
    ∃ s' o, Main.step demoCfg (real env) s (.loop (gotoIn now)) = .ok (s', o) ∧ Safe demoCfg s' ∧ Reached s'.scope.core ∧
      s'.timers = (schedule s.timers now).2 ∧ s'.nexStarMode = false ∧ s'.gnss = s.gnss := by
  have hz : ¬ Hazard demoCfg env s (.loop (gotoIn now)) := by
    intro hz
    cases hz with
    | gnss i h1 => rw [ht] at h1; cases h1
    | location e r h hp => exact goto_unparsed h _ hp
    | position e r h hp => exact goto_unparsed h _ hp
    | sync e r h a d hp => exact goto_unparsed h _ hp
    | goto i r h h1 h2 T hF h3 =>
      obtain ⟨s1, hr1, rfl⟩ := hF
      have h4 := readSensors_moves hr1
      have : dirs s1.scope.core = [] := by
        rw [h4]
        show s.scope.core.alignment.used.map VertexPair.actual = []
        rw [hq.alignment]; rfl
      unfold Degenerate at h3
      rw [this] at h3
      simp [afterSync] at h3
    | packet i h1 => rw [ht] at h1; cases h1
    | points i h1 => rw [ht] at h1; cases h1
    | matrix i h1 => rw [ht] at h1; cases h1
    | temperature i h1 => rw [ht] at h1; cases h1
  obtain ⟨s', o, h, hs', hT'⟩ := step_total hn hs hT _ hz
  refine ⟨s', o, h, hs', hT', ?_, ?_, step_gnss hs.inv h (by rw [ht]; simp)⟩
  · obtain ⟨t1, -, -⟩ := run_senses [(real env, .loop (gotoIn now))] hs.inv (Main.run_snoc (h := []).2 ⟨s, [], o, rfl, h, rfl⟩)
    exact t1
  · have := (step_facts hs.inv h).2.2
    cases hx : s'.nexStarMode with
    | false => rfl
    | true =>
      rcases this.1 hx with h1 | ⟨r, c, h1, h2⟩
      · rw [hq.plain] at h1; cases h1
      · exact absurd h2 (goto_unparsed h1 c)

/-- With one star whose coordinates are small, the 500 ms task that reads the sentence meets no hazard. -/
theorem packet_safe {env : Env ℝ (Option (Circle ℝ))} {s : Sys ℝ Telescope.Tel} (hg : s.gnss = Nmea.Gnss.init 48 11) {now : UInt32}
    (ht : taskOf s (.loop (packetIn now)) = some .t500ms) {v : VertexPair ℝ} (hu : s.scope.core.alignment.used = [v])
    (htri : s.scope.core.alignment.triangles = []) (hnum : s.scope.core.alignment.numVertices = 1)
    (hm : s.scope.core.alignment.matrices[0]? = some (some (pointMatrix v)))
    (hv : |v.actual.x| < 10 ^ 4 ∧ |v.actual.y| < 10 ^ 4 ∧ |v.reference.x| < 10 ^ 4 ∧ |v.reference.y| < 10 ^ 4) :
    ¬ Hazard demoCfg env s (.loop (packetIn now)) := by
  obtain ⟨v1, v2, v3, v4⟩ := hv
  intro hz
  have hr : ∀ r, ¬ Request s (.loop (packetIn now)) r := by
    intro r hr
    cases hr with
    | tcp i c h1 h2 h3 => exact h3 rfl
  have hpl : ∀ x y : ℝ, |x| < 10 ^ 4 → |y| < 10 ^ 4 → (pointList [(x, y)]).length ≤ 256 := by
    intro x y hx hy
    have e1 := Printf.fmtF_length_le (p := 2) (by norm_num) hx
    have e2 := Printf.fmtF_length_le (p := 2) (by norm_num) hy
    simp only [pointList, vertexText, List.flatMap_cons, List.flatMap_nil, List.length_append, List.length_cons, List.length_nil]
    omega
  cases hz with
  | gnss i h1 h2 h3 =>
    refine h3 1 demoGnss ?_ demo_sane
    rw [hg]; exact demo_sentence
  | location e r h => exact hr _ h
  | position e r h => exact hr _ h
  | sync e r h => exact hr _ h
  | goto i r h => exact hr _ h
  | packet i h1 h2 h3 => cases h3
  | points i h1 h2 ps hps h =>
    rw [hu] at hps
    change 256 < _ at h
    rcases hps with rfl | rfl
    · have := hpl _ _ v1 v2; simp only [List.map_cons, List.map_nil] at h; omega
    · have := hpl _ _ v3 v4; simp only [List.map_cons, List.map_nil] at h; omega
  | matrix i h1 h2 M hM h =>
    have : M = pointMatrix v := by
      unfold getTransformationMatrix at hM
      rw [htri] at hM
      simp only at hM
      rw [if_pos (by omega), matrixAt_of hm] at hM
      injection hM with hM; exact hM.symm
    subst this
    have := matrix_length (M := pointMatrix v) (by
      intro x hx
      simp only [rows, pointMatrix, Linalg.identity, List.mem_cons, List.not_mem_nil, or_false] at hx
      have b1 := abs_sub v.reference.x v.actual.x
      have b2 := abs_sub v.reference.y v.actual.y
      rcases hx with rfl | rfl | rfl | rfl | rfl | rfl | rfl | rfl | rfl <;> first | (norm_num; done) | linarith)
    omega
  | temperature i h1 h2 => rw [ht] at h1; cases h1

theorem calm_acc {now : UInt32} {a : ℝ × ℝ × ℝ} {i : In ℝ} (h : calm now a = .loop i) : i.acc = a := by
  simp only [calm] at h; injection h with h; subst h; rfl

/-- The times of the demonstration: everything up to the goto. -/
theorem demo_goto (env : Env ℝ (Option (Circle ℝ))) (hn : Normal env) (later : UInt32) (hlater : later = 720000) :
    ∃ (h : List (Env ℝ (Option (Circle ℝ)) × Event ℝ)) (s1 s2 : Sys ℝ Telescope.Tel) (o1 o2 : List Out) (lst : ℝ) (v : VertexPair ℝ),
      (∀ e ∈ h, IsSort e.1.sort) ∧ (∀ e ∈ h, ∀ i : In ℝ, e.2 = .loop i → i.acc = (0, 0, 1)) ∧ firmware demoCfg h = .ok (s1, o1) ∧
      Main.step demoCfg (real env) s1 (.loop (gotoIn later)) = .ok (s2, o2) ∧ taskOf s1 (.loop (gotoIn later)) = some .t100ms ∧
      (s1.net.remote = some 7 ∧ 7 ∈ s1.net.open') ∧ synced s1 = [] ∧ s1.gnss = Nmea.Gnss.init 48 11 ∧
      Helper.localSiderealTime s1.gnss.utc (s1.gnss.longitude : ℝ) = .ok lst ∧
      Safe demoCfg s2 ∧ Reached s2.scope.core ∧ s2.timers = (schedule s1.timers later).2 ∧ s1.timers = (schedule (schedule (schedule (schedule
        (schedule Timers.init 600000).2 600000).2 600000).2 later).2 later).2 ∧ s2.nexStarMode = false ∧
      s2.net = ⟨some 7, [], [7]⟩ ∧ s2.gnss = Nmea.Gnss.init 48 11 ∧ s2.scope.core.alignment.used = [v] ∧
      s2.scope.core.alignment.triangles = [] ∧ s2.scope.core.alignment.numVertices = 1 ∧
      s2.scope.core.alignment.matrices[0]? = some (some (pointMatrix v)) ∧
      (|v.actual.x| < 10 ^ 4 ∧ |v.actual.y| < 10 ^ 4 ∧ |v.reference.x| < 10 ^ 4 ∧ |v.reference.y| < 10 ^ 4) := by
  have hq0 : Stage ⟨none, [7], [7]⟩ ({ (boot demoCfg Telescope.new : Sys ℝ Telescope.Tel) with net := ⟨none, [7], [7]⟩ }) :=
    ⟨rfl, rfl, rfl, rfl⟩
  have hs0 : Safe demoCfg { (boot demoCfg Telescope.new : Sys ℝ Telescope.Tel) with net := ⟨none, [7], [7]⟩ } := by
    obtain ⟨a, b, c, d, e, f, g⟩ := safe_boot demoCfg
    exact ⟨a, b, c, d, e, f, g⟩
  set w : ℝ × ℝ × ℝ := (0, 0, 1)
  have run0 : firmware demoCfg [(env, .arrive 7)] = .ok ({ boot demoCfg Telescope.new with net := ⟨none, [7], [7]⟩ }, []) := rfl
  obtain ⟨sa, oa, ha, ka, ra, ta, qa⟩ := stage_next rfl hn hs0 reached_new hq0 (T := Timers.init) rfl 600000 w .filter (by decide +kernel) (by decide +kernel)
    (by decide +kernel)
  obtain ⟨sb, ob, hb, kb, rb, tb, qb⟩ := stage_next rfl hn ka ra qa ta 600000 w .t25ms (by decide +kernel) (by decide +kernel) (by decide +kernel)
  obtain ⟨sc, oc, hc, kc, rc, tc, qc⟩ := stage_next rfl hn kb rb qb tb 600000 w .t100ms (by decide +kernel) (by decide +kernel) (by decide +kernel)
  obtain ⟨sd, od, hd, kd, rd, td, qd⟩ := stage_next rfl hn kc rc qc tc later w .filter (by rw [hlater]; decide +kernel) (by decide +kernel) (by decide +kernel)
  obtain ⟨s1, oe, he, k1, r1, t1, q1⟩ := stage_next rfl hn kd rd qd td later w .t25ms (by rw [hlater]; decide +kernel) (by decide +kernel) (by decide +kernel)
  have q1 : Stage ⟨some 7, [], [7]⟩ s1 := q1
  have hg1 : taskOf s1 (.loop (gotoIn later)) = some .t100ms := by
    rw [goto_task t1, hlater]; decide +kernel
  obtain ⟨s2, o2, h2, k2, r2, t2, hp2, g2⟩ := stage_goto hn k1 r1 q1 later hg1
  set h : List (Env ℝ (Option (Circle ℝ)) × Event ℝ) :=
    [(env, .arrive 7), (env, calm 600000 w), (env, calm 600000 w), (env, calm 600000 w), (env, calm later w), (env, calm later w)] with hh
  obtain ⟨o1, hr1⟩ : ∃ o1, firmware demoCfg h = .ok (s1, o1) := by
    have r0 : Main.run demoCfg [(real env, Event.arrive 7)] (boot demoCfg Telescope.new) =
      .ok ({ boot demoCfg Telescope.new with net := ⟨none, [7], [7]⟩ }, []) := rfl
    have ra := Main.run_snoc.2 ⟨_, _, _, r0, ha, rfl⟩
    have rb := Main.run_snoc.2 ⟨_, _, _, ra, hb, rfl⟩
    have rc := Main.run_snoc.2 ⟨_, _, _, rb, hc, rfl⟩
    have rd := Main.run_snoc.2 ⟨_, _, _, rc, hd, rfl⟩
    have re := Main.run_snoc.2 ⟨_, _, _, rd, he, rfl⟩
    exact ⟨_, re⟩
  have hcl : s1.net.remote = some 7 ∧ 7 ∈ s1.net.open' := by rw [q1.net]; exact ⟨rfl, by simp⟩
  obtain ⟨-, -, -, heading, pitch, lst, hlst, hsync⟩ := C50_goto demoCfg _ _ s1 o1 hr1 (real env) (gotoIn later) s2 o2 h2 hg1 7 hcl rfl demoGoto rfl
    (by decide +kernel) (by decide +kernel) (by decide +kernel) (by decide +kernel)
  obtain ⟨v, hv, hu, htri, hnum, hmat⟩ := first_sync hn.sort (T := Telescope.setOrientation s1.scope.core ⟨heading, pitch⟩) q1.alignment hsync
  have hor : (⟨heading, pitch⟩ : Horizontal) = ⟨s2.heading, s2.pitch⟩ := by
    rw [← step_orientation h2 hg1, sync_orientation hsync]; rfl
  have hsyn : synced s1 = [] := by unfold synced; rw [q1.alignment]; rfl
  have hnet2 : s2.net = ⟨some 7, [], [7]⟩ := by
    have hg1' : (schedule s1.timers (gotoIn later).now).1 = some .t100ms := hg1
    simp only [Main.step, loop, hg1'] at h2
    have := (task100_facts (s := { s1 with timers := (schedule s1.timers (gotoIn later).now).2 }) k1.inv h2).2.2.2.2.2
    rw [this]
    show Net.checkForConnections s1.net = _
    rw [q1.net]; rfl
  have hg2 : s2.gnss = Nmea.Gnss.init 48 11 := g2.trans q1.gnss
  have hsmall : |v.actual.x| < 10 ^ 4 ∧ |v.actual.y| < 10 ^ 4 ∧ |v.reference.x| < 10 ^ 4 ∧ |v.reference.y| < 10 ^ 4 := by
    obtain ⟨-, -, -, -, z0, z1, a0, a1⟩ := C30_ranges ((leVal (slice demoGoto 12 4) : ℝ) * 360 / 2 ^ 32) ((leVal (slice demoGoto 16 4) : ℝ) * 360 / 2 ^ 32)
      (s1.gnss.latitude : ℝ) lst
    obtain ⟨-, d0, d1⟩ := k2.heading
    have p := k2.pitch
    rw [hv]
    have eo : toPt (Telescope.setOrientation s1.scope.core ⟨heading, pitch⟩).orientation = ⟨(s2.heading : ℝ), s2.pitch⟩ := by
      show toPt ⟨heading, pitch⟩ = _
      rw [hor]; rfl
    rw [eo]
    have d0' : (0 : ℝ) ≤ s2.heading := by exact_mod_cast d0
    have d1' : (s2.heading : ℝ) < 360 := by exact_mod_cast d1
    refine ⟨?_, ?_, ?_, ?_⟩
    · rw [abs_lt]; constructor <;> simp only <;> linarith
    · simp only; linarith
    · rw [abs_lt]; simp only [toPt]; constructor <;> linarith
    · rw [abs_lt]; simp only [toPt]; constructor <;> linarith
  refine ⟨h, s1, s2, o1, o2, lst, v, ?_, ?_, hr1, h2, hg1, hcl, hsyn, q1.gnss, hlst, k2, r2, t2, t1, hp2, hnet2, hg2, hu, htri, hnum, hmat, hsmall⟩
  · intro e he
    simp only [hh, List.mem_cons, List.not_mem_nil, or_false] at he
    rcases he with rfl | rfl | rfl | rfl | rfl | rfl <;> exact hn.sort
  · intro e he i hi
    simp only [hh, List.mem_cons, List.not_mem_nil, or_false] at he
    rcases he with rfl | rfl | rfl | rfl | rfl | rfl
    · cases hi
    all_goals exact calm_acc hi

/-- All hypotheses of `C58_goto_then_packet` hold of this history: a client connects and is accepted, sends a goto, and the next run of the
500 ms task reads a valid sentence. -/
theorem demo_history (env : Env ℝ (Option (Circle ℝ))) (hn : Normal env) (later : UInt32) (hlater : later = 720000) :
    ∃ (h1 : List (Env ℝ (Option (Circle ℝ)) × Event ℝ)) (s1 s2 s4 : Sys ℝ Telescope.Tel) (o1 o2 o4 : List Out) (b : List UInt8) (t1 t2 : ℝ),
      (∀ e ∈ h1, IsSort e.1.sort) ∧ firmware demoCfg h1 = .ok (s1, o1) ∧
      Main.step demoCfg (real env) s1 (.loop (gotoIn later)) = .ok (s2, o2) ∧ taskOf s1 (.loop (gotoIn later)) = some .t100ms ∧
      (s1.net.remote = some 7 ∧ 7 ∈ s1.net.open') ∧ (gotoIn later).messages = [] ∧ (gotoIn later).tcp = .data demoGoto ∧
      20 ≤ demoGoto.length ∧ demoGoto.length ≤ 256 ∧ leVal (slice demoGoto 0 2) = 20 ∧ leVal (slice demoGoto 2 2) = 0 ∧
      leVal (slice demoGoto 16 4) < 2 ^ 30 ∧ (synced s1).length < 2 ∧ pointing s2 ∉ synced s1 ∧ Quiet (σ := Option (Circle ℝ)) demoCfg s2 [] ∧
      Main.step demoCfg (real env) s2 (.loop (packetIn later)) = .ok (s4, o4) ∧ Out.tcp 7 b ∈ o4 ∧ 18 < b.length ∧
      Helper.localSiderealTime s1.gnss.utc (s1.gnss.longitude : ℝ) = .ok t1 ∧
      Helper.localSiderealTime s4.gnss.utc (s4.gnss.longitude : ℝ) = .ok t2 ∧ s4.gnss.latitude = s1.gnss.latitude := by
  obtain ⟨h, s1, s2, o1, o2, lst, v, hsort, -, hr1, h2, hg1, hcl, hsyn, hg0, hlst, k2, r2, t2, t1, hp2, hnet2, hg2, hu, htri, hnum, hmat, hsmall⟩ :=
    demo_goto env hn later hlater
  have ht2 : taskOf s2 (.loop (packetIn later)) = some .t500ms := by
    rw [packet_task t2, t1, hlater]; decide +kernel
  have hz := packet_safe (env := env) hg2 ht2 hu htri hnum hmat hsmall
  obtain ⟨s4, o4, h4, k4, r4⟩ := step_total hn k2 r2 _ hz
  have hr2 : Main.run demoCfg (h.map (fun x => (real x.1, x.2)) ++ [(real env, .loop (gotoIn later))]) (boot demoCfg Telescope.new) = .ok (s2, o1 ++ o2) :=
    Main.run_snoc.2 ⟨_, _, _, hr1, h2, rfl⟩
  have hlive : Live (polls demoCfg ((h.map (fun x => (real x.1, x.2)) ++ [(real env, .loop (gotoIn later))]) ++ [(real env, .loop (packetIn later))])
      (boot demoCfg Telescope.new)) := by
    rw [polls_snoc _ _ _ hr2]
    have : pollOf demoCfg s2 (.loop (packetIn later)) = some .valid := by
      have ht2' : (schedule s2.timers (packetIn later).now).1 = some .t500ms := ht2
      simp only [pollOf]
      rw [if_pos ht2', if_neg (by simp only [packetIn]; decide), hg2]
      have := demo_sentence
      simp only [packetIn, demoCfg]
      rw [this]; rfl
    rw [this]
    exact ⟨_, [], rfl, by simp⟩
  have hno : ¬ Happened demoCfg (boot demoCfg Telescope.new) (h.map (fun x => (real x.1, x.2)) ++ [(real env, .loop (gotoIn later))]) IsCommand := by
    intro hc
    have := (run_facts _ (inv_boot demoCfg _) hr2).2.2.2 (Or.inr hc)
    rw [hp2] at this; cases this
  obtain ⟨b, hbl, hb⟩ := C51_sent demoCfg rfl _ _ s2 _ hr2 (real env) (.loop (packetIn later)) s4 o4 h4 ht2 7 (by rw [hnet2]; exact ⟨rfl, by simp⟩)
    hlive hno
  obtain ⟨-, -, -, -, t', _, _, _, ht', -⟩ := step_packet k2.inv h4 hb (by omega)
  refine ⟨h, s1, s2, s4, o1, o2, o4, b, lst, t', hsort, hr1, h2, hg1, hcl, rfl, rfl, by decide, by decide, by decide, by decide, by decide,
    by rw [hsyn]; simp, by rw [hsyn]; simp, ?_, h4, hb, by omega, hlst, ht', ?_⟩
  · rintro ⟨_, _, _, _, _, _, e, -⟩
    simp at e
  · rw [hg0]
    have ht2' : (schedule s2.timers (packetIn later).now).1 = some .t500ms := ht2
    simp only [Main.step, loop, ht2'] at h4
    obtain ⟨-, -, -, -, -, ⟨s5, h5, e5, -⟩, -⟩ := task500_facts (s := { s2 with timers := (schedule s2.timers (packetIn later).now).2 }) k2.inv h4
    have hf : Nmea.fromBuffer demoCfg.platform s2.gnss (demoRmc.take 255) = .ok (some (1, demoGnss)) := by
      rw [hg2]; exact demo_sentence
    have e6 : s5.gnss = demoGnss := pollGnss_data (serial := demoRmc) (by exact k2.inv.2) demoRmc_ne h5 hf
    rw [e5, e6]
    rfl

/-- **C58** The hypotheses are met: such a history exists. -/
example (env : Env ℝ (Option (Circle ℝ))) (hn : Normal env) := demo_history env hn 720000 rfl

end Verif.System
