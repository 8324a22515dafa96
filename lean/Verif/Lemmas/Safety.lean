import Verif.Lemmas.SafetyMain

/-!
# The firmware completes every step unless there is a hazard
-/

set_option linter.unusedSectionVars false

namespace Verif.Main
open Printf Net Imu Spec Spec.NexStar NexStar

variable {K : Type} [Field K] [LinearOrder K] [IsStrictOrderedRing K] [FloorRing K] {S : Type}

theorem snprintf_nul {cfg : Config} {tx tx' out : List UInt8} {n : Nat} (ht : tx.length = 256) (hN : Nul cfg tx)
    (h : snprintfAt tx 0 256 out = .ok (n, tx')) : Nul cfg tx' := by
  by_cases hl : out.length < 256
  · rw [snprintf_fits hl (by omega)] at h
    injection h with h; injection h with _ h; subst h
    simp only [List.take_zero, List.nil_append, Nat.zero_add]
    exact nul_text hN (by omega)
  · rw [Printf.snprintf_trunc (by norm_num : 0 < 256) (by omega) (by omega)] at h
    injection h with h; injection h with _ h; subst h
    have e : (out.take (256 - 1)).length = 255 := by simp; omega
    have := nul_text (out := out.take (256 - 1)) hN (by omega)
    rw [e] at this
    simpa using this

theorem task2s_total {cfg : Config} {s : Sys K S} (hi : Inv s) (hN : Nul cfg s.tx) (hg : s.gnss.Sane) (i : In K) :
    ∃ s' o, task2s cfg s i = .ok (s', o) ∧ Nul cfg s'.tx ∧ s'.imu = s.imu ∧ s'.heading = s.heading ∧ s'.pitch = s.pitch ∧
      s'.temperature = if cfg.sensor then i.temperature else s.temperature := by
  have st : ∀ (l : List UInt8) (k : Nat) (b : UInt8), k < l.length → storeByte l k b = .ok (l.set k b) := by
    intro l k b h; unfold storeByte; rw [if_pos h]
  unfold task2s
  rw [st _ _ _ (by rw [hi.1]; norm_num), bind_ok, st _ _ _ (by simp [hi.1]), bind_ok, st _ _ _ (by rw [hi.2]; norm_num), bind_ok,
    st _ _ _ (by simp [hi.2]), bind_ok]
  set s1 : Sys K S := { s with tx := (s.tx.set 0 0).set 1 0, rx := (s.rx.set 0 1).set 1 2 } with hs1
  have i1 : Inv s1 := ⟨by simp [hs1, hi.1], by simp [hs1, hi.2]⟩
  have N1 : Nul cfg s1.tx := nul_set (nul_set hN (by norm_num)) (by norm_num)
  by_cases hav : s.gnssAvailable = true
  · obtain ⟨tx, text, e, -⟩ := C57_gnss cfg s1 i1 hav hg.lat hg.lon hg.alt hg.year hg.mon hg.mday hg.hour hg.min hg.sec
    have hN' : Nul cfg tx := by
      unfold reportGnss at e
      rw [if_pos hav] at e
      obtain ⟨⟨n, tx1⟩, h1, e⟩ := bind_eq_ok.1 e
      obtain ⟨o1, h2, e⟩ := bind_eq_ok.1 e
      obtain ⟨o2, h3, e⟩ := bind_eq_ok.1 e
      injection e with e; injection e with e _
      have : tx1 = tx := congrArg Sys.tx e
      subst this
      exact snprintf_nul i1.1 N1 h1
    rw [e, bind_ok]
    exact ⟨_, _, rfl, hN', rfl, rfl, rfl, rfl⟩
  · unfold reportGnss
    rw [if_neg hav, bind_ok]
    exact ⟨_, _, rfl, N1, rfl, rfl, rfl, rfl⟩

theorem taskFilter_total {cfg : Config} {s : Sys K S} (hr : ∃ h, Ring h s.imu) (i : In K) :
    ∃ s' o, taskFilter cfg s i = .ok (s', o) ∧ ∃ h, Ring h s'.imu := by
  unfold taskFilter
  split
  · obtain ⟨h, hr⟩ := hr
    obtain ⟨m, e, r, -⟩ := ring_step hr i.acc
    rw [e, bind_ok]
    exact ⟨_, _, rfl, _, r⟩
  · exact ⟨_, _, rfl, hr⟩

theorem pollGnss_total {cfg : Config} {s : Sys K S} (hi : Inv s) (hg : s.gnss.Sane) (serial : List UInt8)
    (h : serial ≠ [] → ∃ n g, Nmea.fromBuffer cfg.platform s.gnss (serial.take 255) = .ok (some (n, g)) ∧ g.Sane) :
    ∃ s', pollGnss cfg s serial = .ok s' ∧ s'.gnss.Sane ∧ s'.imu = s.imu ∧ s'.heading = s.heading ∧ s'.pitch = s.pitch ∧
      s'.temperature = s.temperature := by
  unfold pollGnss
  simp only
  split
  · rename_i hl
    have hne : serial ≠ [] := by rintro rfl; simp at hl
    have hle : (serial.take 255).length ≤ 255 := by simp
    rw [Codec.storeSeq_ok _ _ _ (by rw [hi.2]; omega), bind_ok]
    set rx1 := s.rx.take 0 ++ serial.take 255 ++ s.rx.drop (0 + (serial.take 255).length) with hrx1
    have l1 : rx1.length = 256 := by rw [hrx1]; simp [hi.2]
    have e2 : storeByte rx1 (serial.take 255).length 0 = .ok (rx1.set (serial.take 255).length 0) := by
      unfold storeByte; rw [if_pos (by omega)]
    rw [e2, bind_ok]
    have e3 : (rx1.set (serial.take 255).length 0).take (serial.take 255).length = serial.take 255 := by
      rw [List.take_set_of_le (le_refl _), hrx1]
      simp
    rw [e3]
    obtain ⟨n, g, hb, hs⟩ := h hne
    rw [hb, bind_ok]
    simp only
    split
    · exact ⟨_, rfl, hs, rfl, rfl, rfl, rfl⟩
    · exact ⟨_, rfl, hs, rfl, rfl, rfl, rfl⟩
  · exact ⟨_, rfl, hg, rfl, rfl, rfl, rfl⟩

end Verif.Main

namespace Verif.System
open Verif.Align Verif.Spec.NexStar Verif.Main Verif.Telescope Imu

/-- What is true of every state the firmware reaches. -/
structure Safe (cfg : Config) (s : Sys ℝ Telescope.Tel) : Prop where
  inv : Main.Inv s
  nul : Nul cfg s.tx
  ring : ∃ h, Ring h s.imu
  heading : IsHeading s.heading
  pitch : |s.pitch| ≤ 180
  temp : |s.temperature| < 10 ^ 200
  sane : s.gnss.Sane

/-- The telescope is one after some history of calls. -/
def Reached (T : Telescope.Tel) : Prop :=
  ∃ g : List (Env ℝ (Option (Circle ℝ)) × Op), (∀ e ∈ g, IsSort e.1.sort) ∧ Telescope.run g Telescope.new = .ok T

theorem Reached.ready {T : Telescope.Tel} (h : Reached T) : Ready T.alignment := by
  obtain ⟨g, hg, hr⟩ := h
  exact ready_run hg ready_fresh hr

theorem Reached.moves {env : Env ℝ (Option (Circle ℝ))} (he : IsSort env.sort) {a b : Telescope.Tel} {turn : Prop} (h : Reached a)
    (hm : Main.Moves (real env) turn a b) : Reached b := by
  obtain ⟨g, hg, hr⟩ := h
  obtain ⟨g', hg', hr'⟩ := moves_run he hm
  refine ⟨g ++ g', ?_, ?_⟩
  · intro e hmem
    rcases List.mem_append.1 hmem with h1 | h1
    · exact hg e h1
    · exact hg' e h1
  · rw [tel_run_append, hr]; exact hr'

theorem Reached.sync {env : Env ℝ (Option (Circle ℝ))} (he : Normal env) {T : Telescope.Tel} (h : Reached T) (hd : ¬ Degenerate T)
    (r : Equatorial ℝ) (lat t : ℝ) : ∃ T', (real env).addReferencePoint T r lat t = .ok T' := by
  obtain ⟨g, hg, hr⟩ := h
  obtain ⟨o, ho⟩ := he.init
  refine sync_ok hg hr he.sort he.test ho r lat t ?_
  unfold Degenerate at hd
  rw [not_and_or, not_not] at hd
  rcases hd with hd | hd
  · exact Or.inl (by unfold dirs at hd; omega)
  · exact Or.inr hd

theorem Reached.position {env : Env ℝ (Option (Circle ℝ))} {T : Telescope.Tel} (h : Reached T) (lat t : ℝ) :
    ∃ ty p, Telescope.getCalibratedOrientation env T lat t = .ok (ty, p) ∧ (real env).calibrated T lat t = .ok (code ty, p) ∧
      0 ≤ p.ra ∧ p.ra < 360 ∧ -90 ≤ p.dec ∧ p.dec ≤ 90 := by
  obtain ⟨ty, p, e, h⟩ := ready_position h.ready env lat t
  refine ⟨ty, p, e, ?_, h⟩
  simp only [real, e]; rfl

theorem pitch_bound (a : ℝ × ℝ × ℝ) : |Imu.pitch a| ≤ 180 := by
  unfold Imu.pitch Coord.atan2
  have h := Complex.abs_arg_le_pi ⟨a.2.1, a.1⟩
  have hp := Real.pi_pos
  rw [abs_div, abs_mul, abs_of_pos hp, div_le_iff₀ hp, abs_of_pos (by norm_num : (0:ℝ) < 180)]
  nlinarith

theorem readSensors_total {env : Env ℝ (Option (Circle ℝ))} (he : Normal env) {cfg : Config} {s : Sys ℝ Telescope.Tel} (hs : Safe cfg s)
    (hT : Reached s.scope.core) (i : In ℝ) : ∃ s', readSensors (real env) s i = .ok s' ∧ Safe cfg s' ∧ Reached s'.scope.core := by
  obtain ⟨h, hr⟩ := hs.ring
  obtain ⟨h', e, hh, -⟩ := C27_step s.heading (frame i.encoder.1 i.encoder.2) hs.heading
  have e' : headingStep (fl b32) (fl b64) s.heading (frame i.encoder.1 i.encoder.2) = .ok h' := by
    cases hx : headingStep (fl b32) (fl b64) s.heading (frame i.encoder.1 i.encoder.2) with
    | error e2 => simp [Main.heading, headingRun, hx] at e
    | ok x => simp [Main.heading, headingRun, hx, bind_ok, pure_ok] at e; rw [e]
  have key : ∃ s', readSensors (real env) s i = .ok s' ∧ s'.heading = h' ∧ |s'.pitch| ≤ 180 ∧ s'.tx = s.tx ∧ s'.rx = s.rx ∧ s'.imu = s.imu ∧
      s'.temperature = s.temperature ∧ s'.gnss = s.gnss := by
    unfold readSensors
    rw [mean_of_ring hr, bind_ok]
    simp only
    rw [e', bind_ok]
    exact ⟨_, rfl, rfl, pitch_bound _, rfl, rfl, rfl, rfl, rfl⟩
  obtain ⟨s', h1, h2, h3, h4, h5, h6, h7, h8⟩ := key
  refine ⟨s', h1, ⟨⟨by rw [h4]; exact hs.inv.1, by rw [h5]; exact hs.inv.2⟩, by rw [h4]; exact hs.nul, ⟨h, by rw [h6]; exact hr⟩,
    by rw [h2]; exact hh, h3, by rw [h7]; exact hs.temp, by rw [h8]; exact hs.sane⟩, ?_⟩
  rw [readSensors_moves h1]
  exact hT.moves he.sort (.orient trivial _ _ (.refl (turn := True) _))

/-- The protocol handler. -/
theorem handler_total {env : Env ℝ (Option (Circle ℝ))} (he : Normal env) {cfg : Config} {s s0 : Sys ℝ Telescope.Tel} (hs : Safe cfg s)
    (hT : Reached s.scope.core) {e : Event ℝ} {r : List UInt8} (hr : Request s0 e r) (hg : s0.gnss = s.gnss) (hF : Facing env s0 e s.scope.core)
    (hz : ¬ Hazard cfg env s0 e) (h8 : (∀ c, ¬ Parses r c) → cfg.platform.arduino = true → 8 ≤ r.length) :
    ∃ k tx sc, NexStar.handleRequest cfg.platform (real env).ops s.gnss s.scope r r.length s.tx 256 = .ok (k, tx, sc) ∧
      Nul cfg tx ∧ k.toNat ≤ 18 ∧ tx.length = 256 := by
  obtain ⟨k, tx, sc, h⟩ := NexStar.handle_total cfg.platform (real env).ops s.gnss hs.sane s.scope r s.tx r.length le_rfl hs.inv.1
    (by rw [List.take_length]; exact h8)
    (by
      rw [List.take_length]
      intro hp hst
      by_contra hc
      refine hz (.location e r hr hp hst ?_)
      rw [hg]
      by_contra hn
      push Not at hn
      exact hc ⟨⟨hn.1, hn.2.1⟩, hn.2.2.1, hn.2.2.2⟩)
    (by
      rw [List.take_length]
      intro hp t ht
      obtain ⟨ty, p, e1, e2, h0, h1, h2, h3⟩ := hT.position (env := env) s.gnss.latitude t
      refine ⟨p, ?_, h0, h1, h3, ?_⟩
      · simp only [Tel.ops, e2]; rfl
      · intro hst
        by_contra hc
        exact hz (.position e r hr hp hst _ hF t (by rw [hg]; exact ht) ty p (by rw [hg]; exact e1) (not_lt.1 hc)))
    (by
      rw [List.take_length]
      intro a d hp ref t
      refine hT.sync he ?_ ref _ t
      intro hd
      exact hz (.sync e r hr a d hp _ hF hd))
  obtain ⟨h1, h2, h3⟩ := handle_nul hs.inv.1 hs.nul h
  exact ⟨k, tx, sc, h, h1, h2, h3⟩

theorem bluetooth_total {env : Env ℝ (Option (Circle ℝ))} (he : Normal env) {cfg : Config} {s : Sys ℝ Telescope.Tel} (hs : Safe cfg s)
    (hT : Reached s.scope.core) (b : List UInt8) (hz : ¬ Hazard cfg env s (.bluetooth b)) :
    ∃ s' o, onBluetoothData cfg (real env) s b = .ok (s', o) ∧ Safe cfg s' := by
  obtain ⟨k, tx, sc, h, hN, hk, hl⟩ := handler_total he hs hT (.bluetooth b) rfl rfl hz (fun hn ha => by
    by_contra hl
    exact hz (.short b ha (not_le.1 hl) hn))
  unfold onBluetoothData
  rw [h, bind_ok]
  simp only
  split
  · rw [Printf.readBytes_eq (by omega), bind_ok]
    exact ⟨_, _, rfl, ⟨⟨hl, hs.inv.2⟩, hN, hs.ring, hs.heading, hs.pitch, hs.temp, hs.sane⟩⟩
  · exact ⟨_, _, rfl, ⟨⟨hl, hs.inv.2⟩, hN, hs.ring, hs.heading, hs.pitch, hs.temp, hs.sane⟩⟩

/-- What comes from the TCP client; `s0` is the state before the task. -/
theorem tcpTask_total {env : Env ℝ (Option (Circle ℝ))} (he : Normal env) {cfg : Config} {s s0 : Sys ℝ Telescope.Tel} (hs : Safe cfg s)
    (hT : Reached s.scope.core) (i : In ℝ) (ht : taskOf s0 (.loop i) = some .t100ms) (hnet : s.net = s0.net) (hg : s0.gnss = s.gnss)
    (hrx : s.rx = s0.rx) (hF : Facing env s0 (.loop i) s.scope.core) (hz : ¬ Hazard cfg env s0 (.loop i)) :
    ∃ s' o, tcpTask cfg (real env) s i.tcp = .ok (s', o) ∧ Safe cfg s' := by
  unfold tcpTask
  cases hc : client s with
  | none => exact ⟨_, _, rfl, hs⟩
  | some c =>
    simp only
    obtain ⟨n, e, hn, hlen⟩ := tcpReceive_eq hs.inv.2 i.tcp
    have hbel : n.toNat = believed i.tcp := by
      cases htcp : i.tcp with
      | failed =>
        rw [htcp] at e
        simp only [tcpReceive, Except.ok.injEq, Prod.mk.injEq] at e
        rw [← e.1]; rfl
      | data b => exact hlen b htcp
    have hal := afterRead_length hs.inv.2 i.tcp
    unfold tcpInput
    rw [e, bind_ok]
    simp only
    split
    · rename_i hpos
      have hreq : Request s0 (.loop i) (afterRead s.rx i.tcp) := by
        rw [hrx]
        refine .tcp i c ht ?_ (hn.1 hpos)
        have := client_eq.1 hc
        rw [hnet] at this; exact this
      have hs2 : Safe cfg { s with rx := afterRead s.rx i.tcp } :=
        ⟨⟨hs.inv.1, hal⟩, hs.nul, hs.ring, hs.heading, hs.pitch, hs.temp, hs.sane⟩
      obtain ⟨k, tx, sc, h, hN, hk, hl⟩ := handler_total he hs2 hT hreq hg hF hz (fun _ _ => by rw [hal]; norm_num)
      have hsc : (∀ c, ¬ Parses (afterRead s.rx i.tcp) c) → sc = s.scope := by
        intro hno
        exact NexStar.C06_state_unchanged cfg.platform (real env).ops s.gnss s.scope _ _ _ 256 le_rfl
          (by rw [List.take_length]; exact fun a d => hno _) k tx sc h
      have hk0 : ¬ k > 0 → ∀ c, ¬ Parses (afterRead s.rx i.tcp) c := by
        intro hk0 c hc'
        apply hk0
        have := (handle_facts le_rfl hs2.inv.1 h).2.2.2.1
        rw [List.take_length] at this
        exact this.2 ⟨c, hc'⟩
      simp only [hal] at h
      rw [h, bind_ok]
      simp only
      have hs3 : Safe cfg { s with rx := afterRead s.rx i.tcp, tx := tx, scope := sc } :=
        ⟨⟨hl, hal⟩, hN, hs.ring, hs.heading, hs.pitch, hs.temp, hs.sane⟩
      split
      · rw [Printf.readBytes_eq (by omega), bind_ok]
        exact ⟨_, _, rfl, ⟨⟨hl, hal⟩, hN, hs.ring, hs.heading, hs.pitch, hs.temp, hs.sane⟩⟩
      · rename_i hk1
        have hno := hk0 hk1
        have hscope := hsc hno
        have hgoto : ∃ s', tcpGoto (real env) { s with rx := afterRead s.rx i.tcp, tx := tx, scope := sc } n = .ok s' ∧ Safe cfg s' := by
          unfold tcpGoto
          obtain ⟨o, ho⟩ := unpack_total (K := ℝ) hal n.toNat ⟨0, 0, none⟩ rfl
          simp only
          rw [ho, bind_ok]
          simp only [decide_eq_true_eq]
          split
          · rename_i hacc
            obtain ⟨t, ht', -⟩ := Helper.lst_total s.gnss.utc hs.sane.year hs.sane.mon hs.sane.mday (s.gnss.longitude : ℝ)
            rw [ht', bind_ok]
            obtain ⟨T', hT'⟩ := hT.sync he (fun hd => hz (.goto i _ hreq hno (by rw [← hbel]; exact hacc) _ hF hd)) ⟨o.ra, o.dec⟩ s.gnss.latitude t
            rw [hscope, hT', bind_ok]
            exact ⟨_, rfl, ⟨⟨hl, hal⟩, hN, hs.ring, hs.heading, hs.pitch, hs.temp, hs.sane⟩⟩
          · exact ⟨_, rfl, hs3⟩
        obtain ⟨s', e', hs'⟩ := hgoto
        rw [e', bind_ok]
        exact ⟨_, _, rfl, hs'⟩
    · exact ⟨_, _, rfl, ⟨⟨hs.inv.1, hal⟩, hs.nul, hs.ring, hs.heading, hs.pitch, hs.temp, hs.sane⟩⟩

theorem task100_total {env : Env ℝ (Option (Circle ℝ))} (he : Normal env) {cfg : Config} {s0 : Sys ℝ Telescope.Tel} (hs : Safe cfg s0)
    (hT : Reached s0.scope.core) (i : In ℝ) (tm : Timers) (ht : taskOf s0 (.loop i) = some .t100ms) (hz : ¬ Hazard cfg env s0 (.loop i)) :
    ∃ s' o, task100 cfg (real env) { s0 with timers := tm } i = .ok (s', o) ∧ Safe cfg s' := by
  have hs0 : Safe cfg { s0 with timers := tm } := ⟨hs.inv, hs.nul, hs.ring, hs.heading, hs.pitch, hs.temp, hs.sane⟩
  obtain ⟨s1, e1, hs1, hT1⟩ := readSensors_total he hs0 hT i
  obtain ⟨a1, a2, a3, a4, a5, a6⟩ := readSensors_same e1
  have hF : Facing env s0 (.loop i) s1.scope.core := by
    obtain ⟨s1', e1', -, -⟩ := readSensors_total he hs hT i
    refine ⟨s1', e1', ?_⟩
    rw [readSensors_moves e1, readSensors_moves e1']
    have : s1.heading = s1'.heading ∧ s1.pitch = s1'.pitch := by
      unfold readSensors at e1 e1'
      obtain ⟨m, h1, e1⟩ := bind_eq_ok.1 e1
      obtain ⟨m', h1', e1'⟩ := bind_eq_ok.1 e1'
      simp only at e1 e1' h1
      rw [h1] at h1'
      injection h1' with h1'; subst h1'
      obtain ⟨hd, h2, e1⟩ := bind_eq_ok.1 e1
      obtain ⟨hd', h2', e1'⟩ := bind_eq_ok.1 e1'
      rw [h2] at h2'
      injection h2' with h2'; subst h2'
      injection e1 with e1; injection e1' with e1'; subst e1 e1'
      exact ⟨rfl, rfl⟩
    rw [this.1, this.2]
  obtain ⟨s2, o2, e2, hs2⟩ := tcpTask_total he hs1 hT1 i ht a2 a5.symm a3 hF hz
  have h3 : ∃ s3 o3, mqttTask cfg (real env) s2 i.messages = .ok (s3, o3) ∧ Safe cfg s3 := by
    unfold mqttTask
    split
    · obtain ⟨s3, o3, e3, N3, f1, f2⟩ := mqttLoop_total (T := real env) i.messages hs2.inv hs2.nul
      obtain ⟨b1, b2, b3⟩ := mqttLoop_same e3
      obtain ⟨c1, c2⟩ := mqttLoop_sensors e3
      exact ⟨s3, o3, e3, ⟨b1.2.2 hs2.inv, N3, by rw [f1]; exact hs2.ring, by rw [c1]; exact hs2.heading, by rw [c2]; exact hs2.pitch,
        by rw [f2]; exact hs2.temp, by rw [b3]; exact hs2.sane⟩⟩
    · exact ⟨_, _, rfl, hs2⟩
  obtain ⟨s3, o3, e3, hs3⟩ := h3
  unfold task100
  rw [e1, bind_ok, e2, bind_ok]
  simp only
  rw [e3, bind_ok]
  simp only
  refine ⟨_, _, rfl, ?_⟩
  split <;> exact ⟨hs3.inv, hs3.nul, hs3.ring, hs3.heading, hs3.pitch, hs3.temp, hs3.sane⟩

theorem abs_lt_huge {x : ℝ} (h0 : -1000 ≤ x) (h1 : x ≤ 1000) : |x| < 10 ^ 200 := by
  rw [abs_lt]
  have : (1000 : ℝ) < 10 ^ 200 := by norm_num
  constructor <;> linarith

theorem reachedFew {T : Telescope.Tel} (h : Reached T) : T.alignment.used.length < 64 ∧ T.alignment.triangles.length ≤ 192 := by
  obtain ⟨L, hI⟩ := h.ready.inv
  refine ⟨?_, h.ready.few⟩
  rw [hI.stores.length]; exact hI.cap

theorem task500_total {env : Env ℝ (Option (Circle ℝ))} {cfg : Config} {s0 : Sys ℝ Telescope.Tel} (hs : Safe cfg s0)
    (hT : Reached s0.scope.core) (i : In ℝ) (tm : Timers) (ht : taskOf s0 (.loop i) = some .t500ms) (hz : ¬ Hazard cfg env s0 (.loop i)) :
    ∃ s' o, task500 cfg (real env) { s0 with timers := tm } i = .ok (s', o) ∧ Safe cfg s' := by
  have hser : i.serial ≠ [] → ∃ n g, Nmea.fromBuffer cfg.platform s0.gnss (i.serial.take 255) = .ok (some (n, g)) ∧ g.Sane := by
    intro hne
    by_contra hc
    refine hz (.gnss i ht hne ?_)
    intro n g h1 h2
    exact hc ⟨n, g, h1, h2⟩
  obtain ⟨s1, e1, hsane, b1, b2, b3, b4⟩ := pollGnss_total (s := { s0 with timers := tm }) hs.inv hs.sane i.serial hser
  obtain ⟨a1, a2, a3, a4, a5⟩ := pollGnss_facts e1
  have hs1 : Safe cfg s1 := ⟨a1.2.2 hs.inv, by rw [a5]; exact hs.nul, by rw [b1]; exact hs.ring, by rw [b2]; exact hs.heading,
    by rw [b3]; exact hs.pitch, by rw [b4]; exact hs.temp, hsane⟩
  unfold task500
  rw [e1, bind_ok]
  split
  · rename_i hsen
    have hT1 : Reached s1.scope.core := by rw [a3]; exact hT
    obtain ⟨t, hl, t0, t1⟩ := Helper.lst_total s1.gnss.utc hsane.year hsane.mon hsane.mday (s1.gnss.longitude : ℝ)
    obtain ⟨ty, p, p1, p2, r0, r1, d0, d1⟩ := hT1.position (env := env) s1.gnss.latitude t
    obtain ⟨M, ty', hM, -⟩ := ready_matrix hT1.ready env (toPt s1.scope.core.orientation)
    obtain ⟨c0, c1⟩ := reachedFew hT1
    obtain ⟨-, -, -, -, z0, z1, al0, al1⟩ := Coord.C30_ranges p.ra p.dec s1.gnss.latitude t
    have hpts : ∀ ps : List (ℝ × ℝ), (ps = s1.scope.core.alignment.used.map (fun v => (v.actual.x, v.actual.y)) ∨
        ps = s1.scope.core.alignment.used.map (fun v => (v.reference.x, v.reference.y))) →
        (pointList ps).length ≤ if cfg.broker then 255 else 256 := by
      intro ps hps
      by_contra hc
      rw [a3] at hps
      exact hz (.points i ht hsen ps hps (not_le.1 hc))
    obtain ⟨tx, o, e, hl', hN⟩ := reportAll_total cfg (real env) s1 hs1.inv hs1.nul t (code ty) p (rows M) hl p2
      (by
        intro hst hc hav hm
        by_contra hd
        have hpoll : ∃ s1', pollGnss cfg s0 i.serial = .ok s1' ∧ s1'.gnss = s1.gnss ∧ s1'.gnssAvailable = s1.gnssAvailable := by
          obtain ⟨s1', e1', -⟩ := pollGnss_total hs.inv hs.sane i.serial hser
          refine ⟨s1', e1', ?_⟩
          unfold pollGnss at e1 e1'
          simp only at e1 e1'
          split at e1
          · rename_i hlen
            rw [if_pos hlen] at e1'
            obtain ⟨rx1, h1, e1⟩ := bind_eq_ok.1 e1
            obtain ⟨rx1', h1', e1'⟩ := bind_eq_ok.1 e1'
            rw [h1] at h1'; injection h1' with h1'; subst h1'
            obtain ⟨rx2, h2, e1⟩ := bind_eq_ok.1 e1
            obtain ⟨rx2', h2', e1'⟩ := bind_eq_ok.1 e1'
            rw [h2] at h2'; injection h2' with h2'; subst h2'
            obtain ⟨r, h3, e1⟩ := bind_eq_ok.1 e1
            obtain ⟨r', h3', e1'⟩ := bind_eq_ok.1 e1'
            rw [h3] at h3'; injection h3' with h3'; subst h3'
            cases r with
            | none => cases e1
            | some r =>
              obtain ⟨n, g⟩ := r
              simp only at e1 e1'
              split at e1
              · rename_i hn
                rw [if_pos hn] at e1'
                injection e1 with e1; injection e1' with e1'; subst e1 e1'; exact ⟨rfl, rfl⟩
              · rename_i hn
                rw [if_neg hn] at e1'
                injection e1 with e1; injection e1' with e1'; subst e1 e1'; exact ⟨rfl, rfl⟩
          · rename_i hlen
            rw [if_neg hlen] at e1'
            injection e1 with e1; injection e1' with e1'; subst e1 e1'; exact ⟨rfl, rfl⟩
        obtain ⟨s1', e1', g1, g2⟩ := hpoll
        refine hz (.packet i ht hsen hst ?_ s1' e1' (by rw [g2]; exact hav) ?_ t (by rw [g1]; exact hl) ty p ?_ hd)
        · unfold client at hc ⊢; rw [a2] at hc; exact hc
        · rw [← hm]; exact a1.2.1.symm
        · rw [g1]
          have : s1.scope.core = s0.scope.core := by rw [a3]
          rw [← this]; exact p1)
      (by
        have hh := hs1.heading
        have hh0 : (0 : ℝ) ≤ (s1.heading : ℝ) := by exact_mod_cast hh.2.1
        have hh1 : (s1.heading : ℝ) < 360 := by exact_mod_cast hh.2.2
        have hp := abs_le.1 hs1.pitch
        unfold quantities
        simp only [List.forall_mem_cons]
        refine ⟨abs_lt_huge ?_ ?_, abs_lt_huge ?_ ?_, abs_lt_huge (by linarith) (by linarith), abs_lt_huge (by linarith) (by linarith),
          abs_lt_huge (by linarith) (by linarith), abs_lt_huge (by linarith) (by linarith), abs_lt_huge (by linarith) (by linarith), hs1.temp, by simp⟩
        · change -1000 ≤ (Coord.equatorialToHorizontal p.ra p.dec s1.gnss.latitude t).alt; linarith
        · change (Coord.equatorialToHorizontal p.ra p.dec s1.gnss.latitude t).alt ≤ 1000; linarith
        · change -1000 ≤ (Coord.equatorialToHorizontal p.ra p.dec s1.gnss.latitude t).az; linarith
        · change (Coord.equatorialToHorizontal p.ra p.dec s1.gnss.latitude t).az ≤ 1000; linarith)
      (by
        have : ((real env).vertices s1.scope.core).length = s1.scope.core.alignment.used.length := by simp [real]
        rw [this]; exact lt_trans c0 (by norm_num))
      (lt_of_le_of_lt c1 (by norm_num))
      (by cases ty <;> norm_num [code])
      (hpts _ (Or.inl (by simp [real])))
      (hpts _ (Or.inr (by simp [real])))
      (by simp only [real, hM]; rfl)
      (by
        by_contra hc
        have hcore : s1.scope.core = s0.scope.core := by rw [a3]
        rw [hcore] at hM
        exact hz (.matrix i ht hsen M hM (not_le.1 hc)))
    rw [e]
    exact ⟨_, _, rfl, ⟨hl', hs1.inv.2⟩, hN, hs1.ring, hs1.heading, hs1.pitch, hs1.temp, hs1.sane⟩
  · exact ⟨_, _, rfl, hs1⟩

/-- One event. -/
theorem step_total {env : Env ℝ (Option (Circle ℝ))} (he : Normal env) {cfg : Config} {s : Sys ℝ Telescope.Tel} (hs : Safe cfg s)
    (hT : Reached s.scope.core) (e : Event ℝ) (hz : ¬ Hazard cfg env s e) :
    ∃ s' o, Main.step cfg (real env) s e = .ok (s', o) ∧ Safe cfg s' ∧ Reached s'.scope.core := by
  have key : ∃ s' o, Main.step cfg (real env) s e = .ok (s', o) ∧ Safe cfg s' := by
    cases e with
    | bluetooth b => exact bluetooth_total he hs hT b hz
    | arrive c => exact ⟨_, _, rfl, ⟨hs.inv, hs.nul, hs.ring, hs.heading, hs.pitch, hs.temp, hs.sane⟩⟩
    | gone c => exact ⟨_, _, rfl, ⟨hs.inv, hs.nul, hs.ring, hs.heading, hs.pitch, hs.temp, hs.sane⟩⟩
    | loop i =>
      simp only [Main.step, Main.loop]
      have hs0 : Safe cfg { s with timers := (schedule s.timers i.now).2 } := ⟨hs.inv, hs.nul, hs.ring, hs.heading, hs.pitch, hs.temp, hs.sane⟩
      cases ht : (schedule s.timers i.now).1 with
      | none => exact ⟨_, _, rfl, hs0⟩
      | some k =>
        cases k with
        | filter =>
          obtain ⟨s', o, e1, r⟩ := taskFilter_total (cfg := cfg) (s := { s with timers := (schedule s.timers i.now).2 }) hs.ring i
          obtain ⟨-, imu, rfl⟩ := taskFilter_facts e1
          exact ⟨_, _, e1, ⟨hs.inv, hs.nul, r, hs.heading, hs.pitch, hs.temp, hs.sane⟩⟩
        | t25ms =>
          refine ⟨_, _, rfl, ?_⟩
          split <;> exact hs0
        | t1s => exact ⟨_, _, rfl, hs0⟩
        | t30s => exact ⟨_, _, rfl, hs0⟩
        | t100ms => exact task100_total he hs hT i _ ht hz
        | t500ms => exact task500_total hs hT i _ ht hz
        | t2s =>
          obtain ⟨s', o, e1, N, f1, f2, f3, f4⟩ := task2s_total hs0.inv hs0.nul hs0.sane i
          obtain ⟨g1, -, -, -, -, g2, -⟩ := task2s_facts hs0.inv e1
          refine ⟨s', o, e1, ⟨g1, N, by rw [f1]; exact hs.ring, by rw [f2]; exact hs.heading, by rw [f3]; exact hs.pitch, ?_, by rw [g2]; exact hs.sane⟩⟩
          rw [f4]
          split
          · by_contra hc
            exact hz (.temperature i ht (not_lt.1 hc))
          · exact hs.temp
  obtain ⟨s', o, e1, h1⟩ := key
  exact ⟨s', o, e1, h1, hT.moves he.sort (Main.step_moves hs.inv e1)⟩

theorem ring_boot (cfg : Config) : ∃ h, Ring h (boot (K := ℝ) cfg Telescope.new).imu := by
  refine ⟨[], ?_⟩
  have := ring_init (K := ℝ)
  unfold boot
  simp only
  split
  · exact ⟨this.len, this.cnt, this.slots⟩
  · exact this

theorem safe_boot (cfg : Config) : Safe cfg (boot cfg Telescope.new) where
  inv := inv_boot cfg _
  nul := fun _ => by
    show (List.replicate 256 (0 : UInt8))[255]? = some 0
    rw [List.getElem?_replicate]; rfl
  ring := ring_boot cfg
  heading := ⟨⟨180, 0, by decide, by decide, by norm_num [boot]⟩, by norm_num [boot], by norm_num [boot]⟩
  pitch := by
    show |(0 : ℝ)| ≤ _
    norm_num
  temp := by
    show |(0 : ℝ)| < _
    norm_num
  sane := Nmea.Gnss.sane_init

end Verif.System
