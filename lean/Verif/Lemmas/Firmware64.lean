import Verif.Spec.Firmware64
import Verif.Lemmas.FloatRep
import Verif.Lemmas.MainStep

/-!
# Lemmas: what a step of the firmware does to the telescope
-/

namespace Verif.Firmware64

open Verif Verif.Main Verif.Align Verif.Spec Verif.Spec.NexStar Verif.Telescope64 Verif.Coord64 Printf Net Imu
open Verif.Session64 (Ev Seen Known SiderealAt Tells SameSky wire)

variable {σ : Type}

/-! ### The protocol handler -/

theorem handle_other {F : Formats} {P : Platform} {W : World σ} {g : Nmea.Gnss} {sc : NexStar.Scope Tel} {r resp : List UInt8} {n max : Nat}
    {b : NexStar.Branch} (hb : NexStar.branch r n = .ok b) (h1 : b ≠ .position) (h2 : b ≠ .sync) :
    handleRequest F P W g sc r n resp max = NexStar.handleRequest P reset.ops g sc r n resp max := by
  unfold handleRequest NexStar.handleRequest
  rw [hb, bind_ok, bind_ok]
  cases b <;> first | rfl | exact absurd rfl h1 | exact absurd rfl h2

theorem cmdBranch_cases (c : Command) : (NexStar.cmdBranch c = .position ∧ c = .position) ∨ (NexStar.cmdBranch c = .sync ∧ ∃ a d, c = .sync a d) ∨
    (NexStar.cmdBranch c ≠ .position ∧ NexStar.cmdBranch c ≠ .sync ∧ c ≠ .position ∧ ∀ a d, c ≠ .sync a d) := by
  cases c <;> simp [NexStar.cmdBranch]

/-- What the protocol handler does, for a request whose length is given truthfully. -/
theorem handle_facts {F : Formats} {P : Platform} {W : World σ} {g : Nmea.Gnss} {sc sc' : NexStar.Scope Tel} {r resp resp' : List UInt8} {k : UInt32}
    (hr : resp.length = 256) (h : handleRequest F P W g sc r r.length resp 256 = .ok (k, resp', sc')) :
    resp'.length = 256 ∧ (0 < k ↔ ∃ c, Parses r c) ∧ (∀ a d, Parses r (.sync a d) → Session64.sync F.wide P W.libm W.env g sc.core r = .ok sc'.core) ∧
      ((∀ a d, ¬ Parses r (.sync a d)) → sc' = sc) ∧
      (Parses r .position → ∃ o, Session64.reply F.wide P W.libm g sc.core = .ok o ∧ k = UInt32.ofNat o.length ∧ (o.length ≤ 254 → resp'.take o.length = o)) := by
  have uniq : ∀ {c c'}, Parses r c → Parses r c' → NexStar.cmdBranch c = NexStar.cmdBranch c' := by
    intro c c' h1 h2
    have := (NexStar.branch_of_parses h1).symm.trans (NexStar.branch_of_parses h2)
    injection this
  by_cases hc : ∃ c, Parses r c
  · obtain ⟨c, hc⟩ := hc
    have hb := NexStar.branch_of_parses hc
    rcases cmdBranch_cases c with ⟨e, rfl⟩ | ⟨e, a, d, rfl⟩ | ⟨e1, e2, e3, e4⟩
    · unfold handleRequest at h
      rw [hb, bind_ok, e] at h
      obtain ⟨⟨out, sc1⟩, hbody, h⟩ := bind_eq_ok.1 h
      obtain ⟨o, ho, hbody⟩ := bind_eq_ok.1 hbody
      injection hbody with hbody; injection hbody with h1 h2; subst h1 h2
      obtain ⟨⟨k', r'⟩, hs, h⟩ := bind_eq_ok.1 h
      injection h with h; injection h with h1 h; injection h with h2 h3; subst h1 h2 h3
      unfold NexStar.snprintf at hs
      rw [if_neg (by decide)] at hs
      obtain ⟨m, hm, hs⟩ := bind_eq_ok.1 hs
      injection hs with hs; injection hs with h1 h2; subst h1 h2
      have hlen : o.length = 18 := by
        unfold Session64.reply at ho
        obtain ⟨_, _, ho⟩ := bind_eq_ok.1 ho
        obtain ⟨_, _, ho⟩ := bind_eq_ok.1 ho
        unfold NexStar.positionBytes64 at ho
        obtain ⟨_, _, ho⟩ := bind_eq_ok.1 ho
        obtain ⟨_, _, ho⟩ := bind_eq_ok.1 ho
        injection ho with ho; subst ho
        simp [NexStar.fmt08X]
      refine ⟨(storeSeq_length hm).trans hr, ⟨fun _ => ⟨_, hc⟩, fun _ => by rw [hlen]; decide⟩, fun a d hp => ?_, fun _ => rfl, fun _ => ⟨o, ho, rfl, fun _ => ?_⟩⟩
      · have := uniq hc hp; rw [e] at this; cases this
      · have hfit : o.take 255 = o := List.take_of_length_le (by omega)
        have := Codec.storeSeq_ok (o.take (256 - 1) ++ [0]) resp 0 (by simp; omega)
        rw [this] at hm
        injection hm with hm; subst hm
        simp [hfit]
    · unfold handleRequest at h
      rw [hb, bind_ok, e] at h
      obtain ⟨⟨out, sc1⟩, hbody, h⟩ := bind_eq_ok.1 h
      obtain ⟨core, ho, hbody⟩ := bind_eq_ok.1 hbody
      injection hbody with hbody; injection hbody with h1 h2; subst h1 h2
      obtain ⟨⟨k', r'⟩, hs, h⟩ := bind_eq_ok.1 h
      injection h with h; injection h with h1 h; injection h with h2 h3; subst h1 h2 h3
      unfold NexStar.snprintf at hs
      rw [if_neg (by decide)] at hs
      obtain ⟨m, hm, hs⟩ := bind_eq_ok.1 hs
      injection hs with hs; injection hs with h1 h2; subst h1 h2
      refine ⟨(storeSeq_length hm).trans hr, ⟨fun _ => ⟨_, hc⟩, fun _ => by decide⟩, fun _ _ _ => ho, fun hn => absurd hc (hn a d), fun hp => ?_⟩
      have := uniq hc hp; rw [e] at this; cases this
    · rw [handle_other hb e1 e2] at h
      obtain ⟨q1, -, -, q2, q3⟩ := Main.handle_facts le_rfl hr h
      rw [List.take_length] at q2 q3
      refine ⟨q1, q2, fun a d hp => absurd (uniq hc hp) e2, q3, fun hp => absurd (uniq hc hp) e1⟩
  · have hn : ∀ c, ¬ Parses r c := fun c h => hc ⟨c, h⟩
    rw [handle_other (NexStar.branch_of_not_parses hn) (by decide) (by decide)] at h
    obtain ⟨q1, -, -, q2, q3⟩ := Main.handle_facts le_rfl hr h
    rw [List.take_length] at q2 q3
    exact ⟨q1, q2, fun a d hp => absurd hp (hn _), q3, fun hp => absurd hp (hn _)⟩

/-! ### Sensors, goto, MQTT -/

theorem readSensors_facts {F : Formats} {W : World σ} {s s' : Sys} {i : In ℚ} (h : readSensors F W s i = .ok s') :
    ∃ p q, s' = { s with heading := q, pitch := p, scope := { s.scope with core := setOrientation s.scope.core ⟨q, p⟩ } } ∧ Representable b32 p ∧
      headingStep (fl b32) (fl b64) s.heading (frame i.encoder.1 i.encoder.2) = .ok q := by
  unfold readSensors at h
  obtain ⟨p, hp, h⟩ := bind_eq_ok.1 h
  obtain ⟨q, hq, h⟩ := bind_eq_ok.1 h
  injection h with h; subst h
  refine ⟨p, q, rfl, ?_, hq⟩
  unfold Imu32.measure at hp
  obtain ⟨_, _, hp⟩ := bind_eq_ok.1 hp
  obtain ⟨_, _, hp⟩ := bind_eq_ok.1 hp
  unfold Imu32.pitch at hp
  obtain ⟨_, _, hp⟩ := bind_eq_ok.1 hp
  obtain ⟨x, _, hp⟩ := bind_eq_ok.1 hp
  unfold fl at hp
  split at hp
  · injection hp with hp; subst hp; exact representable_rnd (by decide) _
  · cases hp

theorem goto_silent {L : Fmt} {M : Libm} {env : Align64.Env σ} {g : Nmea.Gnss} {T : Tel} {rx : List UInt8} {n : Nat} (hr : 20 ≤ rx.length)
    (h : ∀ u v, ¬ Tells (.goto g rx n) g u v) : Session64.goto L M env g T rx n = .ok T := by
  unfold Session64.goto
  rw [Codec.C66_unpack_exact, Codec.unpack_accepts _ _ _ (by omega) (Or.inr hr), if_neg (fun k => h _ _ (.goto g rx n k.1 k.2.1 k.2.2)), bind_ok]
  rfl

theorem mqttLoop_facts {ms : List (List UInt8 × List UInt8)} {s s' : Sys} {o : List Out} (hi : Inv s) (h : mqttLoop reset ms s = .ok (s', o)) :
    Inv s' ∧ s'.net = s.net ∧ s'.rx = s.rx ∧ s'.gnss = s.gnss ∧ s'.heading = s.heading ∧ s'.pitch = s.pitch ∧ s'.nexStarMode = s.nexStarMode ∧ NoTcp o ∧
      ∀ (L : Fmt) (P : Platform) (M : Libm) (env : Align64.Env σ),
      Session64.run L P ((resets ⟨P, true, true, true, true⟩ ms).map fun x => (M, env, x)) s.scope.core = .ok s'.scope.core := by
  induction ms generalizing s o with
  | nil =>
    injection h with h; injection h with h1 h2; subst h1 h2
    exact ⟨hi, rfl, rfl, rfl, rfl, rfl, rfl, NoTcp.nil, fun _ _ _ _ => rfl⟩
  | cons m ms ih =>
    obtain ⟨topic, payload⟩ := m
    unfold mqttLoop at h
    obtain ⟨⟨s1, o1⟩, h1, h⟩ := bind_eq_ok.1 h
    obtain ⟨⟨s2, o2⟩, h2, h⟩ := bind_eq_ok.1 h
    injection h with h; injection h with e1 e2; subst e1 e2
    have nt := mqttCallback_noTcp h1
    by_cases hc : Main.IsReset topic payload
    · obtain ⟨tx, hx⟩ := C52_reset reset s (by intro e; have := hi.1; rw [e] at this; simp at this) topic payload hc
      have hsame := (mqttCallback_same h1).1.2.2 hi
      rw [hx] at h1
      injection h1 with h1; injection h1 with e1 e2
      rw [← e1] at h2 hsame
      obtain ⟨a1, a2, a3, a4, a5, a6, a7, a8, a9⟩ := ih hsame h2
      refine ⟨a1, a2, a3, a4, a5, a6, a7, nt.append a8, fun L P M env => ?_⟩
      have := a9 L P M env
      unfold resets at this ⊢
      rw [if_pos rfl] at this ⊢
      rw [List.filter_cons_of_pos (by simpa using hc), List.map_cons, List.map_cons]
      exact this
    · rw [C52_ignored reset s topic payload hc] at h1
      injection h1 with h1; injection h1 with e1 e2
      subst e1
      obtain ⟨a1, a2, a3, a4, a5, a6, a7, a8, a9⟩ := ih hi h2
      refine ⟨a1, a2, a3, a4, a5, a6, a7, nt.append a8, fun L P M env => ?_⟩
      have := a9 L P M env
      unfold resets at this ⊢
      rw [if_pos rfl] at this ⊢
      rw [List.filter_cons_of_neg (by simpa using hc)]
      exact this

theorem tcpReceive_facts {rx : List UInt8} (h : rx.length = 256) (r : TcpRead) :
    ∃ n, tcpReceive rx r = .ok (n, afterRead rx r) ∧ (0 < n ↔ r ≠ .data []) ∧ n.toNat = received r := by
  obtain ⟨n, h1, h2, h3⟩ := tcpReceive_eq h r
  refine ⟨n, h1, h2, ?_⟩
  cases r with
  | failed => injection h1 with h1; injection h1 with h1 _; rw [← h1]; rfl
  | data b => exact h3 b rfl

/-- Data from the TCP client. -/
theorem tcpTask_facts {F : Formats} {cfg : Config} {W : World σ} {s s' : Sys} {r : TcpRead} {o : List Out} (hi : Inv s)
    (h : tcpTask F cfg W s r = .ok (s', o)) :
    Inv s' ∧ s'.net = s.net ∧ s'.gnss = s.gnss ∧ s'.heading = s.heading ∧ s'.pitch = s.pitch ∧ s'.imu = s.imu ∧
    ((client s = none ∨ r = .data []) → s'.scope.core = s.scope.core ∧ o = []) ∧
    (client s ≠ none → r ≠ .data [] →
      (∀ a d, Parses (afterRead s.rx r) (.sync a d) →
        Session64.sync F.wide cfg.platform W.libm W.env s.gnss s.scope.core (afterRead s.rx r) = .ok s'.scope.core) ∧
      ((∀ c, ¬ Parses (afterRead s.rx r) c) →
        Session64.goto F.wide W.libm W.env s.gnss s.scope.core (afterRead s.rx r) (received r) = .ok s'.scope.core) ∧
      ((∃ c, Parses (afterRead s.rx r) c) → (∀ a d, ¬ Parses (afterRead s.rx r) (.sync a d)) → s'.scope.core = s.scope.core) ∧
      (Parses (afterRead s.rx r) .position → ∀ c b, Out.tcp c b ∈ o → ∃ out, Session64.reply F.wide cfg.platform W.libm s.gnss s.scope.core = .ok out ∧
        (out.length ≤ 254 → b = out))) := by
  unfold tcpTask at h
  cases hc : client s with
  | none =>
    rw [hc] at h
    injection h with h; injection h with h1 h2; subst h1 h2
    exact ⟨hi, rfl, rfl, rfl, rfl, rfl, fun _ => ⟨rfl, rfl⟩, fun hn => absurd rfl hn⟩
  | some c =>
    rw [hc] at h
    obtain ⟨n, hrx, hn, hrec⟩ := tcpReceive_facts hi.2 r
    simp only at h
    unfold tcpInput at h
    rw [hrx, bind_ok] at h
    simp only at h
    have hrl := afterRead_length hi.2 r
    split at h
    · rename_i hpos
      have hr := hn.1 hpos
      obtain ⟨⟨k, tx, scope⟩, hh, h⟩ := bind_eq_ok.1 h
      have hh' : handleRequest F cfg.platform W s.gnss s.scope (afterRead s.rx r) (afterRead s.rx r).length s.tx 256 = .ok (k, tx, scope) := by
        rw [hrl]; exact hh
      obtain ⟨f1, f2, f3, f4, f5⟩ := handle_facts hi.1 hh'
      simp only at h
      split at h
      · rename_i hk
        obtain ⟨bytes, hb, h⟩ := bind_eq_ok.1 h
        injection h with h; injection h with h ho; subst h ho
        refine ⟨⟨f1, hrl⟩, rfl, rfl, rfl, rfl, rfl, fun e => ?_, fun _ _ => ⟨f3, fun hnc => ?_, fun _ hns => ?_, fun hp c' b' hm => ?_⟩⟩
        · rcases e with e | e
          · cases e
          · exact absurd e hr
        · obtain ⟨c, hc⟩ := f2.1 hk
          exact absurd hc (hnc c)
        · show scope.core = _
          rw [f4 hns]
        · simp only [List.mem_singleton] at hm
          injection hm with _ hm; subst hm
          obtain ⟨out, e1, e2, e3⟩ := f5 hp
          refine ⟨out, e1, fun hle => ?_⟩
          obtain ⟨rfl, -⟩ := readBytes_ok hb
          have : k.toNat = out.length := by rw [e2, UInt32.toNat_ofNat', Nat.mod_eq_of_lt (by omega)]
          rw [this, e3 hle]
      · rename_i hk
        obtain ⟨s1, hg, h⟩ := bind_eq_ok.1 h
        injection h with h; injection h with h ho; subst h ho
        unfold tcpGoto at hg
        obtain ⟨core, hcore, hg⟩ := bind_eq_ok.1 hg
        injection hg with hg; subst hg
        have hnc : ∀ c, ¬ Parses (afterRead s.rx r) c := fun c hc => hk (f2.2 ⟨c, hc⟩)
        have hsc := f4 (fun a d => hnc _)
        subst hsc
        rw [hrec] at hcore
        refine ⟨⟨f1, hrl⟩, rfl, rfl, rfl, rfl, rfl, fun e => ?_, fun _ _ => ⟨fun a d hp => absurd hp (hnc _), fun _ => hcore, fun ⟨c, hc⟩ => absurd hc (hnc _),
          fun hp => absurd hp (hnc _)⟩⟩
        rcases e with e | e
        · cases e
        · exact absurd e hr
    · rename_i hpos
      injection h with h; injection h with h ho; subst h ho
      exact ⟨⟨hi.1, hrl⟩, rfl, rfl, rfl, rfl, rfl, fun _ => ⟨rfl, rfl⟩, fun _ hr => absurd (hn.2 hr) hpos⟩

theorem session_append {L : Fmt} {P : Platform} : ∀ (h1 h2 : List (Libm × Align64.Env σ × Ev)) (T : Tel),
    Session64.run L P (h1 ++ h2) T = (Session64.run L P h1 T >>= fun T' => Session64.run L P h2 T')
  | [], _, _ => rfl
  | (M, env, e) :: h1, h2, T => by
    show (_ >>= _) = ((_ >>= _) >>= _)
    cases hs : Session64.step L P M env e T with
    | error x => rfl
    | ok T' => exact session_append h1 h2 T'

theorem client_some {s : Sys} : client s ≠ none ↔ ∃ c, s.net.remote = some c ∧ c ∈ s.net.open' := by
  constructor
  · intro h
    cases hc : client s with
    | none => exact absurd hc h
    | some c => exact ⟨c, client_eq.1 hc⟩
  · rintro ⟨c, hc⟩ h
    rw [client_eq.2 hc] at h; cases h

/-- What the TCP data teach. -/
theorem tcp_taught {F : Formats} {cfg : Config} {W : World σ} {s0 s s' : Sys} {i : In ℚ} {o : List Out} (hi : Inv s)
    (h : tcpTask F cfg W s i.tcp = .ok (s', o)) (ht : taskOf s0 (.loop i) = some .t100ms) (hnet : s.net = s0.net) (hrx : s.rx = s0.rx)
    (hg : s.gnss = s0.gnss) {l : List Ev} (hl : Taught s0 (.loop i) l) :
    Session64.run F.wide cfg.platform (l.map fun x => (W.libm, W.env, x)) s.scope.core = .ok s'.scope.core := by
  obtain ⟨-, -, -, -, -, -, q1, q2⟩ := tcpTask_facts hi h
  have hreq : ∀ r, Request s0 (.loop i) r ↔ (client s ≠ none ∧ i.tcp ≠ .data [] ∧ r = afterRead s.rx i.tcp) := by
    intro r
    rw [client_some, hnet, hrx]
    constructor
    · intro hr; cases hr with
      | tcp _ c _ hc hd => exact ⟨⟨c, hc⟩, hd, rfl⟩
    · rintro ⟨⟨c, hc⟩, hd, rfl⟩; exact .tcp i c ht hc hd
  rw [hg] at q2
  cases hl with
  | sync _ r a d hr hp =>
    obtain ⟨h1, h2, rfl⟩ := (hreq r).1 hr
    have := (q2 h1 h2).1 a d hp
    show (Session64.request F.wide cfg.platform W.libm W.env s0.gnss s.scope.core _ >>= _) = _
    unfold Session64.request
    rw [NexStar.branch_of_parses hp, bind_ok]
    show (Session64.sync _ _ _ _ _ _ _ >>= _) = _
    rw [this, bind_ok]; rfl
  | goto _ r u v hr hp hT =>
    obtain ⟨h1, h2, rfl⟩ := (hreq r).1 hr
    have := (q2 h1 h2).2.1 hp
    show (Session64.goto F.wide W.libm W.env s0.gnss s.scope.core _ _ >>= _) = _
    rw [this, bind_ok]; rfl
  | nothing _ n1 n2 =>
    show Except.ok _ = _
    by_cases hc : client s ≠ none ∧ i.tcp ≠ .data []
    · obtain ⟨h1, h2⟩ := hc
      have hr := (hreq _).2 ⟨h1, h2, rfl⟩
      obtain ⟨-, p2, p3, -⟩ := q2 h1 h2
      by_cases hp : ∃ c, Parses (afterRead s.rx i.tcp) c
      · rw [p3 hp (fun a d => n1 _ a d hr)]
      · have hp' : ∀ c, ¬ Parses (afterRead s.rx i.tcp) c := fun c h => hp ⟨c, h⟩
        have := p2 hp'
        rw [goto_silent (by rw [afterRead_length hi.2]; omega) (fun u v => n2 i _ u v rfl hr hp')] at this
        exact this
    · rw [(q1 (by tauto)).1]

/-- The 100 ms task. -/
theorem task100_facts {F : Formats} {cfg : Config} {W : World σ} {s0 s s' : Sys} {i : In ℚ} {o : List Out} (hi : Inv s)
    (h : task100 F cfg W s i = .ok (s', o)) (ht : taskOf s0 (.loop i) = some .t100ms) (hnet : s.net = s0.net) (hrx : s.rx = s0.rx)
    (hg : s.gnss = s0.gnss) :
    Inv s' ∧ Representable b32 s'.pitch ∧ headingStep (fl b32) (fl b64) s.heading (frame i.encoder.1 i.encoder.2) = .ok s'.heading ∧
      (∀ l, Taught s0 (.loop i) l →
        Session64.run F.wide cfg.platform ((Ev.turn ⟨s'.heading, s'.pitch⟩ :: (l ++ resets cfg i.messages)).map fun x => (W.libm, W.env, x)) s.scope.core =
          .ok s'.scope.core) ∧
      (Parses (afterRead s.rx i.tcp) .position → ∀ c b, Out.tcp c b ∈ o →
        ∃ out, Session64.reply F.wide cfg.platform W.libm s.gnss (setOrientation s.scope.core ⟨s'.heading, s'.pitch⟩) = .ok out ∧
          (out.length ≤ 254 → b = out)) := by
  unfold task100 at h
  obtain ⟨s1, h1, h⟩ := bind_eq_ok.1 h
  obtain ⟨⟨s2, o1⟩, h2, h⟩ := bind_eq_ok.1 h
  obtain ⟨⟨s3, o2⟩, h3, h⟩ := bind_eq_ok.1 h
  simp only [pure_ok] at h
  injection h with h; injection h with hs ho
  obtain ⟨p, q, e1, hp, hq⟩ := readSensors_facts h1
  have i1 : Inv s1 := by rw [e1]; exact hi
  obtain ⟨a1, a2, a3, a4, a5, a6, a7, a8⟩ := tcpTask_facts i1 h2
  have fin : s'.scope = s3.scope ∧ (Inv s3 → Inv s') ∧ s'.heading = s3.heading ∧ s'.pitch = s3.pitch := by
    subst hs
    split <;> exact ⟨rfl, id, rfl, rfl⟩
  obtain ⟨f1, f2, f3, f4⟩ := fin
  have m : Inv s3 ∧ s3.heading = s2.heading ∧ s3.pitch = s2.pitch ∧ NoTcp o2 ∧
      Session64.run F.wide cfg.platform ((resets cfg i.messages).map fun x => (W.libm, W.env, x)) s2.scope.core = .ok s3.scope.core := by
    unfold mqttTask at h3
    split at h3
    · rename_i hm
      obtain ⟨b1, -, -, -, b2, b3, -, b4, b5⟩ := mqttLoop_facts a1 h3
      refine ⟨b1, b2, b3, b4, ?_⟩
      have := b5 F.wide cfg.platform W.libm W.env
      unfold resets at this ⊢
      rw [if_pos rfl] at this
      rw [if_pos hm]
      exact this
    · rename_i hm
      injection h3 with h3; injection h3 with e2 e3; subst e2 e3
      refine ⟨a1, rfl, rfl, NoTcp.nil, ?_⟩
      unfold resets
      rw [if_neg hm]; rfl
  obtain ⟨m1, m2, m3, m4, m5⟩ := m
  have hh : s'.heading = q := by rw [f3, m2, a4, e1]
  have hpp : s'.pitch = p := by rw [f4, m3, a5, e1]
  rw [hh, hpp]
  refine ⟨f2 m1, hp, hq, fun l hl => ?_, fun hpos c b hb => ?_⟩
  · have ht1 := tcp_taught i1 h2 ht (by rw [e1]; exact hnet) (by rw [e1]; exact hrx) (by rw [e1]; exact hg) hl
    have hs1 : s1.scope.core = setOrientation s.scope.core ⟨q, p⟩ := by rw [e1]
    rw [hs1] at ht1
    show (Except.ok (setOrientation s.scope.core ⟨q, p⟩) >>= _) = _
    rw [bind_ok, List.map_append, session_append, ht1, bind_ok, m5, f1]
  · rw [← ho] at hb
    have hb1 : Out.tcp c b ∈ o1 := by
      rcases List.mem_append.1 hb with hb | hb
      · exact hb
      · exact absurd rfl (m4 _ hb c b)
    have hs1 : s1.scope.core = setOrientation s.scope.core ⟨q, p⟩ := by rw [e1]
    have hr1 : s1.rx = s.rx := by rw [e1]
    have hg1 : s1.gnss = s.gnss := by rw [e1]
    by_cases hc : client s1 ≠ none ∧ i.tcp ≠ .data []
    · have := (a8 hc.1 hc.2).2.2.2 (by rw [hr1]; exact hpos) c b hb1
      rw [hs1, hg1] at this
      exact this
    · rw [(a7 (by tauto)).2] at hb1
      simp at hb1

/-- The position packet. -/
theorem sendPosition_facts {cfg : Config} {s s' : Sys} {p : ℚ × ℚ} {o : List Out} (hi : Inv s) (h : sendPosition cfg s p = .ok (s', o)) :
    (∃ tx, s' = { s with tx } ∧ tx.length = 256) ∧
    (o = [] ∨ ∃ c tx, Codec.packPosition64 cfg.platform p.1 p.2 0 s.tx 256 = .ok (24, tx) ∧ o = [.tcp c (tx.take 24)] ∧ 24 ≤ tx.length) := by
  have len : ∀ {n tx}, Codec.packPosition64 cfg.platform p.1 p.2 0 s.tx 256 = .ok (n, tx) → tx.length = 256 := by
    intro n tx h
    unfold Codec.packPosition64 at h
    rw [if_neg (by decide)] at h
    obtain ⟨b1, e1, h⟩ := bind_eq_ok.1 h
    obtain ⟨b2, e2, h⟩ := bind_eq_ok.1 h
    obtain ⟨b3, e3, h⟩ := bind_eq_ok.1 h
    obtain ⟨_, _, h⟩ := bind_eq_ok.1 h
    obtain ⟨b4, e4, h⟩ := bind_eq_ok.1 h
    obtain ⟨_, _, h⟩ := bind_eq_ok.1 h
    obtain ⟨b5, e5, h⟩ := bind_eq_ok.1 h
    obtain ⟨b6, e6, h⟩ := bind_eq_ok.1 h
    injection h with h; injection h with _ h; subst h
    rw [storeSeq_length e6, storeSeq_length e5, storeSeq_length e4, storeSeq_length e3, storeSeq_length e2, storeSeq_length e1, hi.1]
  unfold sendPosition at h
  cases hc : client s with
  | none =>
    rw [hc] at h
    injection h with h; injection h with h ho; subst h ho
    exact ⟨⟨_, rfl, hi.1⟩, Or.inl rfl⟩
  | some c =>
    rw [hc] at h
    simp only at h
    split at h
    · obtain ⟨⟨n, tx⟩, hp, h⟩ := bind_eq_ok.1 h
      simp only at h
      split at h
      · rename_i hn
        obtain ⟨b, hb, h⟩ := bind_eq_ok.1 h
        injection h with h; injection h with h ho; subst h ho hn
        obtain ⟨rfl, hl⟩ := readBytes_ok hb
        exact ⟨⟨_, rfl, len hp⟩, Or.inr ⟨c, tx, hp, rfl, hl⟩⟩
      · injection h with h; injection h with h ho; subst h ho
        exact ⟨⟨_, rfl, len hp⟩, Or.inl rfl⟩
    · injection h with h; injection h with h ho; subst h ho
      exact ⟨⟨_, rfl, hi.1⟩, Or.inl rfl⟩

/-- The 500 ms task. -/
theorem task500_facts {F : Formats} {cfg : Config} {W : World σ} {s s' : Sys} {i : In ℚ} {o : List Out} (hi : Inv s)
    (h : task500 F cfg W s i = .ok (s', o)) :
    Inv s' ∧ s'.scope = s.scope ∧ s'.heading = s.heading ∧ s'.pitch = s.pitch ∧
    (∀ c b, Out.tcp c b ∈ o → Session64.packet F.wide cfg.platform W.libm s'.gnss s.scope.core s.tx = .ok b) := by
  unfold task500 at h
  obtain ⟨s1, h1, h⟩ := bind_eq_ok.1 h
  obtain ⟨a1, a2, a3, a4, a5⟩ := pollGnss_facts h1
  have i1 := a1.2.2 hi
  have hhp : s1.heading = s.heading ∧ s1.pitch = s.pitch := by
    unfold pollGnss at h1
    simp only at h1
    split at h1
    · obtain ⟨rx1, _, h1⟩ := bind_eq_ok.1 h1
      obtain ⟨rx2, _, h1⟩ := bind_eq_ok.1 h1
      obtain ⟨r, _, h1⟩ := bind_eq_ok.1 h1
      cases r with
      | none => cases h1
      | some r =>
        simp only at h1
        split at h1 <;> (injection h1 with h1; subst h1; exact ⟨rfl, rfl⟩)
    · injection h1 with h1; subst h1; exact ⟨rfl, rfl⟩
  split at h
  · unfold reportAll at h
    obtain ⟨lst, hl, h⟩ := bind_eq_ok.1 h
    obtain ⟨p, hpos, h⟩ := bind_eq_ok.1 h
    obtain ⟨corr, _, h⟩ := bind_eq_ok.1 h
    obtain ⟨⟨s2, o1⟩, h2, h⟩ := bind_eq_ok.1 h
    obtain ⟨hours, _, h⟩ := bind_eq_ok.1 h
    obtain ⟨⟨tx1, o2⟩, h3, h⟩ := bind_eq_ok.1 h
    obtain ⟨⟨tx2, o3⟩, h4, h⟩ := bind_eq_ok.1 h
    obtain ⟨⟨tx3, o4⟩, h5, h⟩ := bind_eq_ok.1 h
    obtain ⟨m, hm, h⟩ := bind_eq_ok.1 h
    obtain ⟨⟨tx4, o5⟩, h6, h⟩ := bind_eq_ok.1 h
    injection h with h; injection h with h ho; subst h ho
    obtain ⟨⟨txs, rfl, htx⟩, hout⟩ := sendPosition_facts i1 h2
    obtain ⟨l3, n3⟩ := publishAll_facts h3
    obtain ⟨l4, n4⟩ := publishVertices_facts h4
    obtain ⟨l5, n5⟩ := publishVertices_facts h5
    obtain ⟨l6, n6⟩ := publish_facts h6
    simp only at l3 l4 l5 l6
    refine ⟨⟨by simp only; omega, i1.2⟩, a3, hhp.1, hhp.2, ?_⟩
    intro c b hcb
    rcases hout with rfl | ⟨c', tx, hpk, rfl, hlen⟩
    · exact absurd rfl ((((NoTcp.nil.append n3).append n4).append n5).append n6 _ hcb c b)
    · have : Out.tcp c b ∈ [Out.tcp c' (tx.take 24)] := by
        simp only [List.mem_append] at hcb
        rcases hcb with (((hcb | hcb) | hcb) | hcb) | hcb
        · exact hcb
        · exact absurd rfl (n3 _ hcb c b)
        · exact absurd rfl (n4 _ hcb c b)
        · exact absurd rfl (n5 _ hcb c b)
        · exact absurd rfl (n6 _ hcb c b)
      simp only [List.mem_singleton] at this
      injection this with e1 e2
      subst e1 e2
      show Session64.packet F.wide cfg.platform W.libm s1.gnss s.scope.core s.tx = _
      unfold Session64.packet
      rw [hl, bind_ok, ← a3, hpos, bind_ok, ← a5, hpk, bind_ok]
      unfold readBytes
      rw [if_pos hlen]
  · injection h with h; injection h with h ho; subst h ho
    exact ⟨i1, a3, hhp.1, hhp.2, by simp⟩

/-! ### What is sent -/

theorem tcp_answers {F : Formats} {cfg : Config} {W : World σ} {s s' : Sys} {r : TcpRead} {o : List Out} {c : Conn} {k : Command} (hi : Inv s)
    (h : tcpTask F cfg W s r = .ok (s', o)) (hc : client s = some c) (hr : r ≠ .data []) (hp : Parses (afterRead s.rx r) k) : ∃ b, o = [.tcp c b] := by
  unfold tcpTask at h
  rw [hc] at h
  obtain ⟨n, hrx, hn, -⟩ := tcpReceive_facts hi.2 r
  simp only at h
  unfold tcpInput at h
  rw [hrx, bind_ok] at h
  simp only at h
  rw [if_pos (hn.2 hr)] at h
  obtain ⟨⟨m, tx, scope⟩, hh, h⟩ := bind_eq_ok.1 h
  have hh' : handleRequest F cfg.platform W s.gnss s.scope (afterRead s.rx r) (afterRead s.rx r).length s.tx 256 = .ok (m, tx, scope) := by
    rw [afterRead_length hi.2 r]; exact hh
  obtain ⟨-, f2, -⟩ := handle_facts hi.1 hh'
  simp only at h
  rw [if_pos (f2.2 ⟨k, hp⟩)] at h
  obtain ⟨bytes, -, h⟩ := bind_eq_ok.1 h
  injection h with h; injection h with _ ho
  exact ⟨bytes, ho.symm⟩

theorem only_one {o1 o2 : List Out} {c : Conn} {b : List UInt8} (h1 : o1 = [.tcp c b]) (h2 : NoTcp o2) :
    ∃ b, ∀ c' b', Out.tcp c' b' ∈ o1 ++ o2 ↔ c' = c ∧ b' = b := by
  refine ⟨b, fun c' b' => ⟨fun h => ?_, fun ⟨e1, e2⟩ => ?_⟩⟩
  · rcases List.mem_append.1 h with h | h
    · rw [h1, List.mem_singleton] at h
      injection h with e1 e2
      exact ⟨e1, e2⟩
    · exact absurd rfl (h2 _ h c' b')
  · rw [e1, e2, h1]; simp

theorem task100_answers {F : Formats} {cfg : Config} {W : World σ} {s s' : Sys} {i : In ℚ} {o : List Out} {c : Conn} {k : Command} (hi : Inv s)
    (h : task100 F cfg W s i = .ok (s', o)) (hc : client s = some c) (hr : i.tcp ≠ .data []) (hp : Parses (afterRead s.rx i.tcp) k) :
    ∃ b, ∀ c' b', Out.tcp c' b' ∈ o ↔ c' = c ∧ b' = b := by
  unfold task100 at h
  obtain ⟨s1, h1, h⟩ := bind_eq_ok.1 h
  obtain ⟨⟨s2, o1⟩, h2, h⟩ := bind_eq_ok.1 h
  obtain ⟨⟨s3, o2⟩, h3, h⟩ := bind_eq_ok.1 h
  simp only [pure_ok] at h
  injection h with h; injection h with _ ho
  obtain ⟨p, q, e1, -, -⟩ := readSensors_facts h1
  have i1 : Inv s1 := by rw [e1]; exact hi
  obtain ⟨b, hb⟩ := tcp_answers i1 h2 (c := c) (by rw [e1]; exact hc) hr (k := k) (by rw [e1]; exact hp)
  have hn : NoTcp o2 := by
    unfold mqttTask at h3
    split at h3
    · obtain ⟨-, -, -, -, -, -, -, b4, -⟩ := mqttLoop_facts (σ := σ) (tcpTask_facts i1 h2).1 h3
      exact b4
    · injection h3 with h3; injection h3 with _ e3; subst e3
      exact NoTcp.nil
  rw [← ho]
  exact only_one hb hn

theorem sendPosition_sends {cfg : Config} {s s' : Sys} {p : ℚ × ℚ} {o : List Out} {c : Conn} (h : sendPosition cfg s p = .ok (s', o)) (hc : client s = some c)
    (ha : s.gnssAvailable = true) (hn : s.nexStarMode = false) : ∃ b, o = [.tcp c b] := by
  unfold sendPosition at h
  rw [hc] at h
  simp only [ha, hn, Bool.not_false, Bool.and_self, if_true] at h
  obtain ⟨⟨n, tx⟩, hp, h⟩ := bind_eq_ok.1 h
  have hn : n = 24 := by
    unfold Codec.packPosition64 at hp
    rw [if_neg (by decide)] at hp
    obtain ⟨_, -, hp⟩ := bind_eq_ok.1 hp
    obtain ⟨_, -, hp⟩ := bind_eq_ok.1 hp
    obtain ⟨_, -, hp⟩ := bind_eq_ok.1 hp
    obtain ⟨_, -, hp⟩ := bind_eq_ok.1 hp
    obtain ⟨_, -, hp⟩ := bind_eq_ok.1 hp
    obtain ⟨_, -, hp⟩ := bind_eq_ok.1 hp
    obtain ⟨_, -, hp⟩ := bind_eq_ok.1 hp
    obtain ⟨_, -, hp⟩ := bind_eq_ok.1 hp
    injection hp with hp; injection hp with hp _; exact hp.symm
  simp only at h
  rw [if_pos hn] at h
  obtain ⟨b, -, h⟩ := bind_eq_ok.1 h
  injection h with h; injection h with _ ho
  exact ⟨b, ho.symm⟩

theorem task500_sends {F : Formats} {cfg : Config} {W : World σ} {s s' : Sys} {i : In ℚ} {o : List Out} {c : Conn} (hs : cfg.sensor = true)
    (h : task500 F cfg W s i = .ok (s', o)) (hc : client s = some c) (ha : s'.gnssAvailable = true) (hn : s.nexStarMode = false) (hi : Inv s) :
    ∃ b, ∀ c' b', Out.tcp c' b' ∈ o ↔ c' = c ∧ b' = b := by
  unfold task500 at h
  obtain ⟨s1, h1, h⟩ := bind_eq_ok.1 h
  obtain ⟨a1, a2, -, -, -⟩ := pollGnss_facts h1
  have hnx : s1.nexStarMode = s.nexStarMode := by
    unfold pollGnss at h1
    simp only at h1
    split at h1
    · obtain ⟨rx1, _, h1⟩ := bind_eq_ok.1 h1
      obtain ⟨rx2, _, h1⟩ := bind_eq_ok.1 h1
      obtain ⟨r, _, h1⟩ := bind_eq_ok.1 h1
      cases r with
      | none => cases h1
      | some r =>
        simp only at h1
        split at h1 <;> (injection h1 with h1; subst h1; rfl)
    · injection h1 with h1; subst h1; rfl
  have hc1 : client s1 = some c := by unfold client at hc ⊢; rw [a2]; exact hc
  rw [if_pos hs] at h
  unfold reportAll at h
  obtain ⟨lst, hl, h⟩ := bind_eq_ok.1 h
  obtain ⟨p, hpos, h⟩ := bind_eq_ok.1 h
  obtain ⟨corr, _, h⟩ := bind_eq_ok.1 h
  obtain ⟨⟨s2, o1⟩, h2, h⟩ := bind_eq_ok.1 h
  obtain ⟨hours, _, h⟩ := bind_eq_ok.1 h
  obtain ⟨⟨tx1, o2⟩, h3, h⟩ := bind_eq_ok.1 h
  obtain ⟨⟨tx2, o3⟩, h4, h⟩ := bind_eq_ok.1 h
  obtain ⟨⟨tx3, o4⟩, h5, h⟩ := bind_eq_ok.1 h
  obtain ⟨m, hm, h⟩ := bind_eq_ok.1 h
  obtain ⟨⟨tx4, o5⟩, h6, h⟩ := bind_eq_ok.1 h
  injection h with h; injection h with h ho; subst h
  obtain ⟨⟨txs, rfl, -⟩, -⟩ := sendPosition_facts (a1.2.2 hi) h2
  obtain ⟨b, hb⟩ := sendPosition_sends h2 hc1 ha (by rw [hnx]; exact hn)
  obtain ⟨-, n3⟩ := publishAll_facts h3
  obtain ⟨-, n4⟩ := publishVertices_facts h4
  obtain ⟨-, n5⟩ := publishVertices_facts h5
  obtain ⟨-, n6⟩ := publish_facts h6
  have := only_one hb (((n3.append n4).append n5).append n6)
  rw [← ho]
  simpa only [List.append_assoc] using this

end Verif.Firmware64
