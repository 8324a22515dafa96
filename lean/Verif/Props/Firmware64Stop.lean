import Verif.Lemmas.Firmware64Stop
import Verif.Props.Firmware64Demo

/-!
# C85: in IEEE arithmetic, only the listed causes can stop the firmware
-/

namespace Verif.Firmware64

open Verif Verif.Main Verif.Align Verif.Spec Verif.Spec.NexStar Verif.Telescope64 Verif.Coord64 Printf Net Imu Verif.Linalg64 Verif.Align64
open Verif.Session64 (Ev Seen Known SiderealAt Tells SameSky wire Reports Story nothing Proper)

variable {σ : Type}

theorem run_stops {F : Formats} {cfg : Config} {x : Stop} : ∀ {h : List (World σ × Event ℚ)} {s0 : Sys}, run F cfg h s0 = .error x →
    ∃ h1 W e h2 s o, h = h1 ++ (W, e) :: h2 ∧ run F cfg h1 s0 = .ok (s, o) ∧ step F cfg W s e = .error x
  | [], s0, h => by cases h
  | (W, e) :: h, s0, hr => by
    unfold run at hr
    rcases ok_or_error (step F cfg W s0 e) with ⟨⟨s1, o1⟩, hs⟩ | ⟨w, hw⟩
    · rw [hs, bind_ok] at hr
      simp only at hr
      rcases ok_or_error (run F cfg h s1) with ⟨⟨s2, o2⟩, hs2⟩ | ⟨w, hw⟩
      · rw [hs2] at hr; cases hr
      · rw [hw] at hr
        injection hr with hr; subst hr
        obtain ⟨h1, W', e', h2, s, o, rfl, h3, h4⟩ := run_stops hw
        refine ⟨(W, e) :: h1, W', e', h2, s, o1 ++ o, rfl, ?_, h4⟩
        show (step F cfg W s0 e >>= _) = _
        rw [hs, bind_ok]
        simp only
        rw [h3]; rfl
    · rw [hw] at hr
      injection hr with hr; subst hr
      exact ⟨[], W, e, h, s0, [], rfl, rfl, hw⟩

theorem run_live {F : Formats} {cfg : Config} : ∀ {h : List (World σ × Event ℚ)} {s1 s2 : Sys} {o : List Out}, Live s1 → (∀ x ∈ h, InScale x.2) →
    run F cfg h s1 = .ok (s2, o) → Live s2
  | [], s1, s2, o, hl, _, hr => by injection hr with hr; injection hr with hr _; subst hr; exact hl
  | a :: h, s1, s2, o, hl, hs, hr => by
    unfold run at hr
    obtain ⟨⟨s3, o3⟩, h3, hr⟩ := bind_eq_ok.1 hr
    obtain ⟨⟨s4, o4⟩, h4, hr⟩ := bind_eq_ok.1 hr
    injection hr with hr; injection hr with hr _; subst hr
    exact run_live (live_step hl (hs a (by simp)) h3) (fun x hx => hs x (by simp [hx])) h4

theorem live_boot {cfg : Config} {s0 : Sys} (hb : boot cfg = .ok s0) : Live s0 := by
  obtain ⟨s, e, hg⟩ := boot_total cfg
  rw [hb] at e
  injection e with e; subst e
  exact ⟨(boot_ok hb).1, hg⟩

/-- **C85.** Whatever is received and measured since power-up: if the firmware stops - a number that is infinite or not a number, an access outside a buffer, an undefined
conversion - then one of the listed causes was present at that event, and that is the failure. -/
theorem C85_only_causes {F : Formats} (hF : F.arc = b32 ∨ F.arc = b64) (cfg : Config) (h : List (World σ × Event ℚ)) (hA : ∀ x ∈ h, Angular x.1)
    (hS : ∀ x ∈ h, InScale x.2) {x : Stop} (hstop : firmware F cfg h = .error x) :
    ∃ h1 W e h2 s o, h = h1 ++ (W, e) :: h2 ∧ firmware F cfg h1 = .ok (s, o) ∧ step F cfg W s e = .error x ∧ Cause F cfg W s e x := by
  obtain ⟨s0, hb, -⟩ := boot_total cfg
  have fw : ∀ l : List (World σ × Event ℚ), firmware F cfg l = run F cfg l s0 := by
    intro l; unfold firmware; rw [hb]; rfl
  rw [fw] at hstop
  obtain ⟨h1, W, e, h2, s, o, rfl, hr, hx⟩ := run_stops hstop
  have hl := run_live (live_boot hb) (fun x hx => hS x (by simp [hx])) hr
  exact ⟨h1, W, e, h2, s, o, rfl, by rw [fw]; exact hr, hx, step_stop hF (hA (W, e) (by simp)) hl hx⟩

/-- **C85** The sensors never fail: after every history without a failure the next reading gives a heading within [0, 360) and a pitch, both `float`s. -/
theorem C85_sensors {F : Formats} (hF : F.arc = b32 ∨ F.arc = b64) (cfg : Config) (h : List (World σ × Event ℚ)) (hS : ∀ x ∈ h, InScale x.2) {s : Sys} {o : List Out}
    (hr : firmware F cfg h = .ok (s, o)) (W : World σ) (hA : Angular W) (i : In ℚ) :
    ∃ q p, readSensors F W s i = .ok { s with heading := q, pitch := p, scope := { s.scope with core := setOrientation s.scope.core ⟨q, p⟩ } } ∧
      Representable b32 q ∧ 0 ≤ q ∧ q < 360 ∧ Representable b32 p := by
  obtain ⟨s0, hb, -⟩ := boot_total cfg
  unfold firmware at hr
  rw [hb, bind_ok] at hr
  have hl := run_live (live_boot hb) hS hr
  obtain ⟨p, q, hp, hq, hs⟩ := readSensors_total hF hA hl.gravity hl.ok.heading i
  obtain ⟨p', q', e, hrep, -⟩ := readSensors_facts hs
  have e1 : p' = p := by have := congrArg Main.Sys.pitch e; exact this.symm
  subst e1
  obtain ⟨q2, hq2, ⟨r1, r2, r3⟩, -⟩ := C27_step s.heading (frame i.encoder.1 i.encoder.2) hl.ok.heading
  have : heading [frame i.encoder.1 i.encoder.2] s.heading = .ok q := by
    show (headingStep (fl b32) (fl b64) s.heading _ >>= _) = _
    rw [hq, bind_ok]; rfl
  rw [this] at hq2
  injection hq2 with hq2; subst hq2
  exact ⟨q, p', hs, r1, r2, r3, hrep⟩

theorem finds_unique {F : Formats} {W : World σ} {s : Sys} {e : Event ℚ} {T T' : Tel} (h : Finds F W s e T) (h' : Finds F W s e T') : T = T' := by
  cases h with
  | bluetooth => cases h'; rfl
  | tcp i p q hp hq =>
    cases h' with
    | tcp _ p' q' hp' hq' =>
      rw [hp] at hp'; rw [hq] at hq'
      injection hp' with hp'; injection hq' with hq'
      rw [hp', hq']

theorem request_unique {s : Sys} {e : Event ℚ} {r r' : List UInt8} (h : Request s e r) (h' : Request s e r') : r = r' := by
  cases h <;> cases h' <;> rfl

theorem parses_branch {r : List UInt8} {c c' : Command} (h : Parses r c) (h' : Parses r c') : NexStar.cmdBranch c = NexStar.cmdBranch c' := by
  have := (NexStar.branch_of_parses h).symm.trans (NexStar.branch_of_parses h')
  injection this

/-- **C85** Stars that are well placed can always be synced: if at every moment, this event included, the telescope knows at most one star or the orientations are well placed,
then an event that teaches something is carried out without failure.  `T` is the telescope as the event finds it, after the turn `turn` to the orientation measured. -/
theorem C85_syncs (F : Formats) (hL : NexStar.Wide F.wide) (hF : F.arc = b32 ∨ F.arc = b64) (cfg : Config) (h : List (World (Option (ℚ × ℚ)) × Event ℚ))
    (s0 s : Sys) (o : List Out) (hb : boot cfg = .ok s0) (hr : run F cfg h s0 = .ok (s, o)) (hc : ∀ x ∈ h, Careful x.1) (hS : ∀ x ∈ h, InScale x.2)
    (evs : List (Libm × Align64.Env (Option (ℚ × ℚ)) × Ev)) (he : History F cfg s0 h evs) (W : World (Option (ℚ × ℚ))) (hW : Careful W) (hA : Angular W)
    (e : Event ℚ) (l turn : List Ev) (hl : Taught s e l) (hne : l ≠ []) (T : Tel) (hT : Finds F W s e T)
    (hturn : (∃ b, e = .bluetooth b ∧ turn = []) ∨ ∃ i, e = .loop i ∧ turn = [.turn T.orientation])
    (hR : ∀ e ∈ evs ++ (turn ++ l).map (fun v => (W.libm, W.env, v)), Reasonable e.2.2)
    (hE : ∀ e ∈ evs ++ (turn ++ l).map (fun v => (W.libm, W.env, v)), IeeeEnv e.1 e.2.1)
    (hP : ∀ m, m <+: evs ++ (turn ++ l).map (fun v => (W.libm, W.env, v)) → ∀ K, Story nothing (m.map fun e => e.2.2) K → Placed (K.stars.map Seen.at')) :
    ∃ s' o', step F cfg W s e = .ok (s', o') := by
  obtain ⟨h1, h2, h3⟩ := from_boot hb hr hc he (fun e he => hR e (by simp [he]))
  have hlive := run_live (live_boot hb) hS hr
  have hrun : ∃ T', Session64.run F.wide cfg.platform (l.map fun v => (W.libm, W.env, v)) T = .ok T' := by
    have hfair : ∀ e ∈ evs ++ (turn ++ l).map (fun v => (W.libm, W.env, v)), Session64.Fair e := by
      intro v hv
      rcases List.mem_append.1 hv with hv' | hv'
      · exact h3 v hv'
      · obtain ⟨w, hw, rfl⟩ := List.mem_map.1 hv'
        refine ⟨hW.1, hW.2.1, hW.2.2, ?_⟩
        have hre := hR _ hv
        cases w with
        | turn d =>
          have hd : e ≠ .arrive 0 ∧ d = T.orientation ∧ ∃ i, e = .loop i := by
            rcases List.mem_append.1 hw with hw | hw
            · rcases hturn with ⟨b, rfl, rfl⟩ | ⟨i, rfl, rfl⟩
              · cases hw
              · rw [List.mem_singleton] at hw
                injection hw with hw
                exact ⟨by simp, hw, i, rfl⟩
            · cases hl with
              | sync => rw [List.mem_singleton] at hw; cases hw
              | goto => rw [List.mem_singleton] at hw; cases hw
              | nothing => cases hw
          obtain ⟨-, rfl, i, rfl⟩ := hd
          cases hT with
          | tcp _ p q hp hq =>
            obtain ⟨p', q', hp', hq', hs⟩ := readSensors_total hF hA hlive.gravity hlive.ok.heading i
            rw [hp] at hp'; injection hp' with hp'; subst hp'
            rw [hq] at hq'; injection hq' with hq'; subst hq'
            obtain ⟨p2, q2, e2, hrep, -⟩ := readSensors_facts hs
            have e1 : p2 = p := by have := congrArg Main.Sys.pitch e2; exact this.symm
            subst e1
            obtain ⟨q3, hq3, ⟨r1, r2, r3⟩, -⟩ := C27_step s.heading (frame i.encoder.1 i.encoder.2) hlive.ok.heading
            have : heading [frame i.encoder.1 i.encoder.2] s.heading = .ok q := by
              show (headingStep (fl b32) (fl b64) s.heading _ >>= _) = _
              rw [hq, bind_ok]; rfl
            rw [this] at hq3
            injection hq3 with hq3; subst hq3
            exact ⟨⟨representable_b32_b64 r1, representable_b32_b64 hrep⟩, by rw [abs_le]; constructor <;> simp only [setOrientation] <;> linarith, hre⟩
        | goto => exact hre
        | request => exact hre
        | clear => trivial
    obtain ⟨T', hT', -⟩ := Session64.C82_evening F.wide hL cfg.platform _ hfair hE hP
    rw [Session64.session_append, h2, bind_ok, List.map_append, Session64.session_append] at hT'
    have hpre : Session64.run F.wide cfg.platform (turn.map fun v => (W.libm, W.env, v)) s.scope.core = .ok T := by
      rcases hturn with ⟨b, rfl, rfl⟩ | ⟨i, rfl, rfl⟩
      · cases hT; rfl
      · cases hT with
        | tcp _ p q hp hq => rfl
    rw [hpre, bind_ok] at hT'
    exact ⟨T', hT'⟩
  obtain ⟨T', hrun⟩ := hrun
  rcases ok_or_error (step F cfg W s e) with ⟨⟨s', o'⟩, hs⟩ | ⟨x, hx⟩
  · exact ⟨s', o', hs⟩
  exfalso
  have one : ∀ v y, l = [v] → Session64.step F.wide cfg.platform W.libm W.env v T = .error y → False := by
    intro v y hlv hy
    subst hlv
    have : (Session64.step F.wide cfg.platform W.libm W.env v T >>= fun T => .ok T) = .ok T' := hrun
    rw [hy] at this
    cases this
  have late : ∀ i, e = .loop i → taskOf s (.loop i) ≠ some .t100ms → False := by
    rintro i rfl ht
    exact hne (taught_other ht hl)
  cases step_stop hF hA hlive hx with
  | short b ha h8 hn =>
    cases hl with
    | sync _ r a d hq hp => cases hq; exact hn _ hp
    | nothing => exact hne rfl
  | location _ r _ hq hp =>
    cases hl with
    | sync _ r' a d hq' hp' => rw [request_unique hq' hq] at hp'; have := parses_branch hp hp'; cases this
    | goto i r' u v hq' hn' => rw [request_unique hq' hq] at hn'; exact hn' _ hp
    | nothing => exact hne rfl
  | position _ r _ _ hq hp =>
    cases hl with
    | sync _ r' a d hq' hp' => rw [request_unique hq' hq] at hp'; have := parses_branch hp hp'; cases this
    | goto i r' u v hq' hn' => rw [request_unique hq' hq] at hn'; exact hn' _ hp
    | nothing => exact hne rfl
  | sync _ r a d T1 _ hq hp hT1 hy =>
    rw [finds_unique hT1 hT] at hy
    cases hl with
    | sync _ r' a' d' hq' hp' => rw [request_unique hq hq'] at hy; exact one _ x rfl hy
    | goto i r' u v hq' hn' => rw [request_unique hq' hq] at hn'; exact hn' _ hp
    | nothing => exact hne rfl
  | goto i r u v T1 _ hq hn htl hT1 hy =>
    rw [finds_unique hT1 hT] at hy
    cases hl with
    | sync _ r' a' d' hq' hp' => rw [request_unique hq' hq] at hp'; exact hn _ hp'
    | goto _ r' u' v' hq' hn' => rw [request_unique hq hq'] at hy; exact one _ x rfl hy
    | nothing => exact hne rfl
  | gnss i _ ht => exact late i rfl (by rw [ht]; simp)
  | report i _ _ ht => exact late i rfl (by rw [ht]; simp)
  | status i _ ht => exact late i rfl (by rw [ht]; simp)

theorem task100_orientation {F : Formats} {cfg : Config} {W : World σ} {s s' : Sys} {i : In ℚ} {o : List Out} (hi : Inv s)
    (h : task100 F cfg W s i = .ok (s', o)) : ∃ s1, readSensors F W s i = .ok s1 ∧ s'.heading = s1.heading ∧ s'.pitch = s1.pitch := by
  unfold task100 at h
  obtain ⟨s1, h1, h⟩ := bind_eq_ok.1 h
  obtain ⟨⟨s2, o1⟩, h2, h⟩ := bind_eq_ok.1 h
  obtain ⟨⟨s3, o2⟩, h3, h⟩ := bind_eq_ok.1 h
  simp only [pure_ok] at h
  injection h with h; injection h with hs ho
  obtain ⟨p, q, e1, hp, hq⟩ := readSensors_facts h1
  have i1 : Inv s1 := by rw [e1]; exact hi
  obtain ⟨a1, a2, a3, a4, a5, -⟩ := tcpTask_facts i1 h2
  have m : s3.heading = s2.heading ∧ s3.pitch = s2.pitch := by
    unfold mqttTask at h3
    split at h3
    · obtain ⟨-, -, -, -, b2, b3, -⟩ := mqttLoop_facts (σ := σ) a1 h3
      exact ⟨b2, b3⟩
    · injection h3 with h3; injection h3 with e2 e3; subst e2 e3
      exact ⟨rfl, rfl⟩
  have fin : s'.heading = s3.heading ∧ s'.pitch = s3.pitch := by
    subst hs
    split <;> exact ⟨rfl, rfl⟩
  exact ⟨s1, h1, by rw [fin.1, m.1, a4], by rw [fin.2, m.2, a5]⟩

theorem finds_tcp {F : Formats} {W : World σ} {s : Sys} {i : In ℚ} {T : Tel} (h : Finds F W s (.loop i) T) :
    ∃ p q, Imu32.measure F.arc W.atan2f s.imu = .ok p ∧ headingStep (fl b32) (fl b64) s.heading (frame i.encoder.1 i.encoder.2) = .ok q ∧
      T = setOrientation s.scope.core ⟨q, p⟩ := by
  cases h with
  | tcp _ p q hp hq => exact ⟨p, q, hp, hq, rfl⟩

/-- **C85** Turned back to a star, the device answers the request for the position over TCP, with numbers that stand for the star (C84: for which stars and how closely
`Reports` holds); the only other possibility is the undefined conversion. -/
theorem C85_answers (F : Formats) (hF : F.arc = b32 ∨ F.arc = b64) (cfg : Config) (h : List (World σ × Event ℚ)) (hS : ∀ x ∈ h, InScale x.2) {s : Sys} {o : List Out}
    (hr : firmware F cfg h = .ok (s, o)) {tol : ℝ} {star : Seen} (hrep : Reports F.wide cfg.platform s.scope.core tol star) (W : World σ) (hM : Accurate W.libm)
    (hA : Angular W) (i : In ℚ) (ht : taskOf s (.loop i) = some .t100ms) (c : Conn) (hc : s.net.remote = some c ∧ c ∈ s.net.open') (hd : i.tcp ≠ .data [])
    (hp : Parses (afterRead s.rx i.tcp) .position) (hT : Finds F W s (.loop i) (setOrientation s.scope.core star.at')) (θ θ' : ℚ)
    (h1 : SiderealAt star.fix θ) (h2 : SiderealAt s.gnss θ') (h3 : s.gnss.latitude = star.fix.latitude) :
    (∃ s' o' u v, step F cfg W s (.loop i) = .ok (s', o') ∧ (∀ c' b', .tcp c' b' ∈ o' ↔ c' = c ∧ b' = hex8 u ++ [44] ++ hex8 v ++ [35]) ∧
      u < 2 ^ 32 ∧ v < 2 ^ 32 ∧ SameSky tol star θ (wire u) (wire v) θ') ∨
    (cfg.platform.fcast = .strict ∧ step F cfg W s (.loop i) = .error (.ub .floatToInt)) := by
  obtain ⟨s0, hb, -⟩ := boot_total cfg
  unfold firmware at hr
  rw [hb, bind_ok] at hr
  have hlive := run_live (live_boot hb) hS hr
  have hq : Request s (.loop i) (afterRead s.rx i.tcp) := .tcp i c ht hc hd
  obtain ⟨-, hrp⟩ := hrep W.libm s.gnss θ θ' s.tx hM h1 h2 h3 (by rw [hlive.ok.inv.1])
  rcases ok_or_error (step F cfg W s (.loop i)) with ⟨⟨s', o'⟩, hs⟩ | ⟨x, hx⟩
  · refine Or.inl ?_
    have hV := visible_of (σ := σ) hlive.ok hrep
    obtain ⟨b, hb⟩ := hV.answered W i s' o' c ht hs hc.1 hc.2 hd hp
    have hat : (⟨s'.heading, s'.pitch⟩ : Pt ℚ) = star.at' := by
      have hst : task100 F cfg W { s with timers := (schedule s.timers i.now).2 } i = .ok (s', o') := by
        unfold step loop at hs
        simp only at hs
        rw [show (schedule s.timers i.now).1 = some .t100ms from ht] at hs
        exact hs
      obtain ⟨p, q, hp', hq', hTT⟩ := finds_tcp hT
      have hstar : star.at' = ⟨q, p⟩ := congrArg Tel.orientation hTT
      obtain ⟨s1, r1, r2, r3⟩ := task100_orientation (s := { s with timers := (schedule s.timers i.now).2 }) hlive.ok.inv hst
      obtain ⟨p', q', hp2, hq2, hs2⟩ := readSensors_total (s := { s with timers := (schedule s.timers i.now).2 }) hF hA hlive.gravity hlive.ok.heading i
      rw [r1] at hs2
      injection hs2 with hs2
      subst hs2
      rw [hp'] at hp2; injection hp2 with hp2
      rw [hq'] at hq2; injection hq2 with hq2
      rw [r2, r3, hstar, hp2, hq2]
    obtain ⟨u, v, hu, hv, e, hsame⟩ := hV.tcp W i s' o' c b θ θ' hM ht hs hp ((hb c b).2 ⟨rfl, rfl⟩) hat h1 h2 h3
    exact ⟨s', o', u, v, hs, by rw [← e]; exact hb, hu, hv, hsame⟩
  · refine Or.inr ?_
    cases step_stop hF hA hlive hx with
    | location _ r _ hq' hp' => rw [request_unique hq' hq] at hp'; have := parses_branch hp hp'; cases this
    | position _ r T _ hq' hp' hT' hy =>
      rw [finds_unique hT' hT] at hy
      rcases hrp with ⟨u, v, -, -, e, -⟩ | ⟨e1, e2⟩
      · rw [e] at hy; cases hy
      · rw [e2] at hy; injection hy with hy; subst hy
        exact ⟨e1, hx⟩
    | sync _ r a d _ _ hq' hp' => rw [request_unique hq' hq] at hp'; have := parses_branch hp hp'; cases this
    | goto _ r _ _ _ _ hq' hn' => rw [request_unique hq' hq] at hn'; exact absurd hp (hn' _)
    | gnss _ _ ht' => rw [ht] at ht'; cases ht'
    | report _ _ _ ht' => rw [ht] at ht'; cases ht'
    | status _ _ ht' => rw [ht] at ht'; cases ht'

namespace Demo

theorem angular (M : Libm) : Angular (W M) := fun x y => by show |((0 : ℚ) : ℝ)| ≤ 3.15; norm_num

theorem in_scale : ∀ e ∈ pre ++ [Event.loop last], InScale e := by
  intro e he
  have : ∀ a b c d, InScale (call a b c d) := fun _ _ _ _ => by
    refine ⟨?_, ?_, ?_⟩ <;> (show |(0 : ℚ)| ≤ 20; norm_num)
  simp only [pre, last, List.mem_append, List.mem_cons, List.not_mem_nil, or_false] at he
  rcases he with h | rfl
  · rcases h with h | h | h | h | h | h | h
    all_goals first | exact h ▸ this _ _ _ _ | exact h ▸ trivial
  · exact this _ _ _ _

/-- C85_sensors applies after the history of C84: the next reading succeeds, whatever the sensors return. -/
example {M : Libm} (hM : Accurate M) (i : In ℚ) : ∃ s o, firmware F cfg (history M) = .ok (s, o) ∧ ∃ s', readSensors F (W M) s i = .ok s' ∧ 0 ≤ s'.heading := by
  obtain ⟨s, o, evs, K, hr, -⟩ := history_runs hM
  have hr' := (firmware_eq (history M)).trans hr
  obtain ⟨q, p, h, -, h1, -⟩ := C85_sensors (Or.inr rfl) cfg (history M) (by
    intro x hx
    rcases List.mem_append.1 hx with hx | hx
    · obtain ⟨e, he, rfl⟩ := List.mem_map.1 hx; exact in_scale e (by simp [he])
    · rw [List.mem_singleton.1 hx]; exact in_scale _ (by simp)) hr' (W M) (angular M) i
  exact ⟨s, o, hr', _, h, h1⟩

/-- A history that stops: the Arduino build, and one byte over Bluetooth that is no command.  C85_only_causes names the cause. -/
example (M : Libm) : firmware F ⟨.esp32, false, false, false, true⟩ [(W M, .bluetooth [255])] = .error (.ub .oobRead) ∧ Angular (W M) := ⟨rfl, angular M⟩

end Demo

end Verif.Firmware64
