import Verif.Lemmas.Firmware64
import Verif.Props.Session64Run
import Verif.Props.Heading

/-!
# C84: the whole firmware in IEEE arithmetic

From the samples of the sensors, the bytes of the GNSS receiver, the planetarium program, the Bluetooth client and the MQTT server to the bytes sent: every
history since power-up is a session of `Spec/Session64.lean`, so that C80 and C82 hold of the bytes that leave the device.
-/

namespace Verif.Firmware64

open Verif Verif.Main Verif.Align Verif.Spec Verif.Spec.NexStar Verif.Telescope64 Verif.Coord64 Printf Net Imu
open Verif.Session64 (Ev Seen Known SiderealAt Tells SameSky wire Reports Story nothing)

variable {σ : Type}

/-! ### One step -/

theorem taught_exists (s : Sys) (e : Event ℚ) : ∃ l, Taught s e l ∧ ∀ l', Taught s e l' → l' = l := by
  have ur : ∀ {r r'}, Request s e r → Request s e r' → r = r' := by
    intro r r' h1 h2
    cases h1 <;> cases h2 <;> rfl
  by_cases h1 : ∃ r a d, Request s e r ∧ Parses r (.sync a d)
  · obtain ⟨r, a, d, hr, hp⟩ := h1
    refine ⟨_, .sync e r a d hr hp, fun l' h' => ?_⟩
    cases h' with
    | sync _ r' _ _ hr' _ => rw [ur hr hr']
    | goto i r' u v hr' hn _ => rw [← ur hr hr'] at hn; exact absurd hp (hn _)
    | nothing _ n1 _ => exact absurd hp (n1 r a d hr)
  · by_cases h2 : ∃ i r u v, e = .loop i ∧ Request s e r ∧ (∀ c, ¬ Parses r c) ∧ Tells (.goto s.gnss r (received i.tcp)) s.gnss u v
    · obtain ⟨i, r, u, v, rfl, hr, hn, ht⟩ := h2
      refine ⟨_, .goto i r u v hr hn ht, fun l' h' => ?_⟩
      cases h' with
      | sync _ r' a d hr' hp => rw [ur hr hr'] at hn; exact absurd hp (hn _)
      | goto _ r' u v hr' _ _ => rw [ur hr hr']
      | nothing _ _ n2 => exact absurd ht (n2 i r u v rfl hr hn)
    · push Not at h1 h2
      refine ⟨[], .nothing e h1 (fun i r u v he hr hn => h2 i r u v he hr hn), fun l' h' => ?_⟩
      cases h' with
      | sync _ r a d hr hp => exact absurd hp (h1 r a d hr)
      | goto i r u v hr hn ht => exact absurd ht (h2 i r u v rfl hr hn)
      | nothing => rfl

theorem means_exists (cfg : Config) (s s' : Sys) (e : Event ℚ) : ∃ l, Means cfg s s' e l ∧ ∀ l', Means cfg s s' e l' → l' = l := by
  obtain ⟨l, hl, hu⟩ := taught_exists s e
  by_cases ht : taskOf s e = some .t100ms
  · cases e with
    | loop i =>
      refine ⟨_, .sensors i l ht hl, fun l' h' => ?_⟩
      cases h' with
      | sensors _ l2 _ hl2 => rw [hu _ hl2]
      | other _ _ hn _ => exact absurd ht hn
    | _ => cases ht
  · refine ⟨l, .other e l ht hl, fun l' h' => ?_⟩
    cases h' with
    | sensors _ _ ht' _ => exact absurd ht' ht
    | other _ _ _ hl2 => exact hu _ hl2

theorem taught_other {s : Sys} {i : In ℚ} {l : List Ev} (ht : taskOf s (.loop i) ≠ some .t100ms) (hl : Taught s (.loop i) l) : l = [] := by
  have : ∀ r, ¬ Request s (.loop i) r := by
    intro r hr
    cases hr with
    | tcp _ _ h => exact ht h
  cases hl with
  | sync _ r _ _ hr _ => exact absurd hr (this r)
  | goto _ r _ _ hr _ => exact absurd hr (this r)
  | nothing => rfl

/-- Lengths of the buffers and range of the heading and the pitch. -/
structure Ok (s : Sys) : Prop where
  inv : Inv s
  heading : IsHeading s.heading
  pitch : Representable b32 s.pitch

theorem step_facts {F : Formats} {cfg : Config} {W : World σ} {s s' : Sys} {e : Event ℚ} {o : List Out} (hi : Ok s)
    (h : step F cfg W s e = .ok (s', o)) :
    Ok s' ∧ ∀ l, Means cfg s s' e l → Session64.run F.wide cfg.platform (l.map fun x => (W.libm, W.env, x)) s.scope.core = .ok s'.scope.core := by
  obtain ⟨hi, hh, hp⟩ := hi
  cases e with
  | arrive c =>
    injection h with h; injection h with h1 h2; subst h1
    refine ⟨⟨hi, hh, hp⟩, fun l hl => ?_⟩
    cases hl with
    | other _ _ _ hl =>
      cases hl with
      | sync _ _ _ _ hr _ => cases hr
      | nothing => rfl
  | gone c =>
    injection h with h; injection h with h1 h2; subst h1
    refine ⟨⟨hi, hh, hp⟩, fun l hl => ?_⟩
    cases hl with
    | other _ _ _ hl =>
      cases hl with
      | sync _ _ _ _ hr _ => cases hr
      | nothing => rfl
  | bluetooth b =>
    unfold step onBluetoothData at h
    obtain ⟨⟨k, tx, scope⟩, hk, h⟩ := bind_eq_ok.1 h
    obtain ⟨f1, f2, f3, f4, -⟩ := handle_facts hi.1 hk
    have hs : s'.tx = tx ∧ s'.rx = s.rx ∧ s'.scope = scope ∧ s'.heading = s.heading ∧ s'.pitch = s.pitch := by
      simp only at h
      split at h
      · obtain ⟨_, _, h⟩ := bind_eq_ok.1 h
        injection h with h; injection h with h _; subst h; exact ⟨rfl, rfl, rfl, rfl, rfl⟩
      · injection h with h; injection h with h _; subst h; exact ⟨rfl, rfl, rfl, rfl, rfl⟩
    obtain ⟨e1, e2, e3, e4, e5⟩ := hs
    refine ⟨⟨⟨by rw [e1]; exact f1, by rw [e2]; exact hi.2⟩, by rw [e4]; exact hh, by rw [e5]; exact hp⟩, fun l hl => ?_⟩
    rw [e3]
    cases hl with
    | other _ _ _ hl =>
      cases hl with
      | sync _ r a d hr hpar =>
        cases hr
        show (Session64.request F.wide cfg.platform W.libm W.env s.gnss s.scope.core b >>= _) = _
        unfold Session64.request
        rw [NexStar.branch_of_parses hpar, bind_ok]
        show (Session64.sync _ _ _ _ _ _ _ >>= _) = _
        rw [f3 a d hpar, bind_ok]; rfl
      | nothing _ n1 _ =>
        rw [f4 (fun a d => n1 b a d (.bluetooth b))]; rfl
  | loop i =>
    unfold step loop at h
    simp only at h
    set s1 : Sys := { s with timers := (schedule s.timers i.now).2 } with hs1
    have quiet : taskOf s (.loop i) ≠ some .t100ms → s'.scope = s.scope → ∀ l, Means cfg s s' (.loop i) l →
        Session64.run F.wide cfg.platform (l.map fun x => (W.libm, W.env, x)) s.scope.core = .ok s'.scope.core := by
      intro ht hsc l hl
      rw [hsc]
      cases hl with
      | sensors _ _ h _ => exact absurd h ht
      | other _ _ _ hl => rw [taught_other ht hl]; rfl
    have plain : ∀ {k}, taskOf s (.loop i) = k → k ≠ some .t100ms → s1 = s' → Ok s' ∧ ∀ l, Means cfg s s' (.loop i) l →
        Session64.run F.wide cfg.platform (l.map fun x => (W.libm, W.env, x)) s.scope.core = .ok s'.scope.core := by
      intro k hk hn e
      subst e
      exact ⟨⟨hi, hh, hp⟩, quiet (by rw [hk]; exact hn) rfl⟩
    cases hk : (schedule s.timers i.now).1 with
    | none => rw [hk] at h; injection h with h; injection h with h _; exact plain hk (by simp) h
    | some k =>
      rw [hk] at h
      cases k with
      | filter =>
        obtain ⟨-, imu, e⟩ := taskFilter_facts h
        have : s'.scope = s.scope := by rw [e]
        exact ⟨⟨by rw [e]; exact hi, by rw [e]; exact hh, by rw [e]; exact hp⟩, quiet (by rw [show taskOf s (.loop i) = _ from hk]; simp) this⟩
      | t25ms =>
        injection h with h
        have := (task25_facts s1 i).1
        rw [h] at this
        exact plain hk (by simp) this.symm
      | t100ms =>
        obtain ⟨a1, a2, a3, a4, -⟩ := task100_facts (s0 := s) (s := s1) hi h hk rfl rfl rfl
        refine ⟨⟨a1, ?_, a2⟩, fun l hl => ?_⟩
        · obtain ⟨q, hq, hq2, -⟩ := C27_step s.heading (frame i.encoder.1 i.encoder.2) hh
          have : heading [frame i.encoder.1 i.encoder.2] s.heading = .ok s'.heading := by
            show (headingStep (fl b32) (fl b64) s.heading _ >>= _) = _
            rw [a3, bind_ok]; rfl
          rw [this] at hq
          injection hq with hq
          rw [hq]; exact hq2
        · cases hl with
          | sensors _ l _ hl => exact a4 l hl
          | other _ _ hn _ => exact absurd hk hn
      | t500ms =>
        obtain ⟨a1, a2, a3, a4, -⟩ := task500_facts (s := s1) hi h
        exact ⟨⟨a1, by rw [a3]; exact hh, by rw [a4]; exact hp⟩, quiet (by rw [show taskOf s (.loop i) = _ from hk]; simp) a2⟩
      | t1s => injection h with h; injection h with h _; exact plain hk (by simp) h
      | t2s =>
        obtain ⟨a1, a2, -⟩ := task2s_facts (s := s1) hi h
        have : s'.heading = s.heading ∧ s'.pitch = s.pitch := by
          unfold task2s at h
          obtain ⟨_, _, h⟩ := bind_eq_ok.1 h
          obtain ⟨_, _, h⟩ := bind_eq_ok.1 h
          obtain ⟨_, _, h⟩ := bind_eq_ok.1 h
          obtain ⟨_, _, h⟩ := bind_eq_ok.1 h
          obtain ⟨⟨s2, o2⟩, hr, h⟩ := bind_eq_ok.1 h
          injection h with h; injection h with h _; subst h
          unfold reportGnss at hr
          split at hr
          · obtain ⟨_, _, hr⟩ := bind_eq_ok.1 hr
            obtain ⟨_, _, hr⟩ := bind_eq_ok.1 hr
            obtain ⟨_, _, hr⟩ := bind_eq_ok.1 hr
            injection hr with hr; injection hr with hr _; subst hr; exact ⟨rfl, rfl⟩
          · injection hr with hr; injection hr with hr _; subst hr; exact ⟨rfl, rfl⟩
        exact ⟨⟨a1, by rw [this.1]; exact hh, by rw [this.2]; exact hp⟩, quiet (by rw [show taskOf s (.loop i) = _ from hk]; simp) a2⟩
      | t30s => injection h with h; injection h with h _; exact plain hk (by simp) h

/-! ### Histories -/

theorem boot_ok {cfg : Config} {s : Sys} (h : boot cfg = .ok s) : Ok s ∧ s.scope.core = new := by
  have h : ∃ imu, s = { Main.boot cfg new with imu } := by
    unfold boot at h
    split at h
    · obtain ⟨imu, _, h⟩ := bind_eq_ok.1 h
      injection h with h; exact ⟨imu, h.symm⟩
    · injection h with h; exact ⟨_, h.symm⟩
  obtain ⟨imu, rfl⟩ := h
  exact ⟨⟨inv_boot (K := ℚ) cfg new, ⟨⟨180, 0, by decide, by decide, by norm_num [Main.boot]⟩, by norm_num [Main.boot], by norm_num [Main.boot]⟩,
    ⟨0, 0, by decide, by decide, by norm_num [Main.boot]⟩⟩, rfl⟩

theorem run_facts {F : Formats} {cfg : Config} : ∀ (h : List (World σ × Event ℚ)) {s s' : Sys} {o : List Out}, Ok s → run F cfg h s = .ok (s', o) →
    Ok s' ∧ (∃ evs, History F cfg s h evs ∧ ∀ evs', History F cfg s h evs' → evs' = evs) ∧
      ∀ evs, History F cfg s h evs → Session64.run F.wide cfg.platform evs s.scope.core = .ok s'.scope.core ∧
        ∀ e ∈ evs, (∃ x ∈ h, x.1.libm = e.1 ∧ x.1.env = e.2.1) ∧ ∀ d, e.2.2 = .turn d → IsHeading d.x ∧ Representable b32 d.y
  | [], s, s', o, hs, hr => by
    injection hr with hr; injection hr with hr _; subst hr
    refine ⟨hs, ⟨[], .nil s, fun evs' h' => by cases h'; rfl⟩, fun evs he => ?_⟩
    cases he
    exact ⟨rfl, by simp⟩
  | (W, e) :: h, s, s', o, hs, hr => by
    unfold run at hr
    obtain ⟨⟨s1, o1⟩, h1, hr⟩ := bind_eq_ok.1 hr
    obtain ⟨⟨s2, o2⟩, h2, hr⟩ := bind_eq_ok.1 hr
    injection hr with hr; injection hr with hr _; subst hr
    obtain ⟨hs1, hm⟩ := step_facts hs h1
    obtain ⟨hs2, ⟨evs, he, hu⟩, hall⟩ := run_facts h hs1 h2
    obtain ⟨l, hl, hul⟩ := means_exists cfg s s1 e
    refine ⟨hs2, ⟨_, .cons s s1 W e o1 l h evs h1 hl he, fun evs' h' => ?_⟩, fun evs' h' => ?_⟩
    · cases h' with
      | cons _ s1' _ _ _ l' _ ls' hst hl' he' =>
        rw [hst] at h1
        injection h1 with h1; injection h1 with h1 _; subst h1
        rw [hul _ hl', hu _ he']
    · cases h' with
      | cons _ s1' _ _ _ l' _ ls' hst hl' he' =>
        rw [hst] at h1
        injection h1 with h1; injection h1 with h1 _; subst h1
        obtain ⟨r1, r2⟩ := hall _ he'
        refine ⟨by rw [session_append, hm _ hl', bind_ok, r1], fun x hx => ?_⟩
        rcases List.mem_append.1 hx with hx | hx
        · obtain ⟨y, hy, rfl⟩ := List.mem_map.1 hx
          refine ⟨⟨(W, e), List.mem_cons_self, rfl, rfl⟩, fun d hd => ?_⟩
          simp only at hd
          subst hd
          have none : ∀ {e l}, Taught s e l → Ev.turn d ∉ l := by
            intro e l hl hmem
            cases hl <;> simp at hmem
          cases hl' with
          | sensors i l _ ht =>
            rcases List.mem_cons.1 hy with hy | hy
            · injection hy with hy; subst hy
              exact ⟨hs1.heading, hs1.pitch⟩
            · rcases List.mem_append.1 hy with hy | hy
              · exact absurd hy (none ht)
              · unfold resets at hy
                split at hy
                · obtain ⟨_, _, hy⟩ := List.mem_map.1 hy; cases hy
                · simp at hy
          | other _ _ _ hl => exact absurd hy (none hl)
        · obtain ⟨⟨z, hz, e1⟩, h3⟩ := r2 x hx
          exact ⟨⟨z, List.mem_cons_of_mem _ hz, e1⟩, h3⟩

/-- **C84** Every history of the firmware since power-up is, for the telescope, a session - exactly one: the events it means (`Spec/Firmware64.lean`) in that order.
The telescope ends up in the state that session leads to. -/
theorem C84_history (F : Formats) (cfg : Config) (h : List (World σ × Event ℚ)) (s0 s : Sys) (o : List Out) (hb : boot cfg = .ok s0)
    (hr : run F cfg h s0 = .ok (s, o)) :
    ∃! evs, History F cfg s0 h evs ∧ Session64.run F.wide cfg.platform evs new = .ok s.scope.core := by
  obtain ⟨hk, hc⟩ := boot_ok hb
  obtain ⟨-, ⟨evs, he, hu⟩, hall⟩ := run_facts h hk hr
  rw [← hc]
  exact ⟨evs, ⟨he, (hall evs he).1⟩, fun evs' h' => hu _ h'.1⟩

end Verif.Firmware64
