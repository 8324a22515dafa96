import Verif.Props.Firmware64Stars
import Verif.Props.Session64Demo

/-!
# C84: a history from power-up

The device starts; a planetarium program connects; the sensors report two directions; the GNSS receiver sends a sentence; the program sends a goto message.  The
hypotheses of `Props/Firmware64Stars.lean` are met with every accurate C library.
-/

namespace Verif.Firmware64

open Verif Verif.Main Verif.Align Verif.Spec Verif.Spec.NexStar Verif.Telescope64 Verif.Coord64 Printf Net Imu Verif.Linalg64
open Verif.Session64 (Ev Seen Known SiderealAt Tells SameSky wire Reports Story nothing Proper Learns)

namespace Demo

def F : Formats := ⟨x87, b64⟩
/-- No orientation sensor, no MQTT; conversions of numbers out of range wrap. -/
def cfg : Config := ⟨.nativeWrap, false, false, false, true⟩
def W (M : Libm) : World (Option (ℚ × ℚ)) := ⟨M, fun _ _ => 0, Telescope64.demoEnv, fun _ => []⟩
/-- A C library that is wrong, to calculate with. -/
def W0 : World (Option (ℚ × ℚ)) := W ⟨fun _ => 0, fun _ => 0, fun _ => 0, fun _ _ => 0⟩
def call (now : UInt32) (e : UInt8 × UInt8) (tcp serial : List UInt8) : Event ℚ := .loop ⟨now, (0, 0, 0), e, .data tcp, serial, [], 20⟩

/-- A valid RMC sentence. -/
def rmc : List UInt8 := ascii "$GPRMC,092725.00,A,4717.0,N,00833.0,E,0,0,100301,,*36\r\n"

/-- Before the goto message. -/
def pre : List (Event ℚ) := [call 600000 (0x95, 0x55) [] [], call 600001 (0x95, 0x55) [] [], .arrive 7, call 600002 (0x95, 0x55) [] [],
  call 600003 (0x95, 0x55) [] rmc, call 710000 (0x9a, 0x55) [] [], call 710001 (0x9a, 0x55) [] []]
def msg : List UInt8 := positionMessage 0 357913941 238609294
def last : In ℚ := ⟨710002, (0, 0, 0), (0x9a, 0x55), .data msg, [], [], 20⟩

def s0 : Sys := Main.boot cfg new

/-- The event uses neither the C library nor the environment. -/
def simple (s : Sys) (e : Event ℚ) : Bool :=
  match e with
  | .bluetooth _ => false
  | .arrive _ => true
  | .gone _ => true
  | .loop i => decide (taskOf s (.loop i) ≠ some .t100ms ∨ client s = none)

def simples : List (Event ℚ) → Sys → Bool
  | [], _ => true
  | e :: es, s =>
    match step F cfg W0 s e with
    | .ok (s', _) => simple s e && simples es s'
    | .error _ => false

theorem sensors_same (M : Libm) (s : Sys) (i : In ℚ) : readSensors F (W M) s i = readSensors F W0 s i := by
  unfold readSensors; rfl

theorem task100_idle (V : World (Option (ℚ × ℚ))) {s : Sys} {i : In ℚ} (h : client s = none) : task100 F cfg V s i =
    (readSensors F V s i >>= fun s => .ok ({ { s with ledMode := chooseLed s } with net := checkForConnections s.net }, [])) := by
  unfold task100
  cases hs : readSensors F V s i with
  | error => rfl
  | ok s1 =>
    rw [bind_ok, bind_ok]
    obtain ⟨p, q, e1, -, -⟩ := readSensors_facts hs
    have hc : client s1 = none := by rw [e1]; exact h
    have ht : tcpTask F cfg V s1 i.tcp = .ok (s1, []) := by unfold tcpTask; rw [hc]
    rw [ht, bind_ok]
    rfl

theorem task500_plain (V : World (Option (ℚ × ℚ))) (s : Sys) (i : In ℚ) : task500 F cfg V s i = (pollGnss cfg s i.serial >>= fun s => .ok (s, [])) := by
  unfold task500
  simp only [show cfg.sensor = false from rfl, Bool.false_eq_true, if_false, pure_ok]

theorem simple_step {M : Libm} {s : Sys} {e : Event ℚ} (h : simple s e = true) : step F cfg (W M) s e = step F cfg W0 s e := by
  cases e with
  | bluetooth => cases h
  | arrive => rfl
  | gone => rfl
  | loop i =>
    have h : taskOf s (.loop i) ≠ some .t100ms ∨ client s = none := of_decide_eq_true h
    unfold step loop
    simp only
    cases hk : (schedule s.timers i.now).1 with
    | none => rfl
    | some k =>
      cases k with
      | t100ms =>
        rcases h with h | h
        · exact absurd hk h
        · have h' : client ({ s with timers := (schedule s.timers i.now).2 } : Sys) = none := h
          simp only
          rw [task100_idle _ h', task100_idle _ h', sensors_same]
      | t500ms => simp only; rw [task500_plain, task500_plain]
      | filter => rfl
      | t25ms => rfl
      | t1s => rfl
      | t2s => rfl
      | t30s => rfl

/-- The directions the sensors report. -/
def turns : List (Event ℚ) → Sys → List (Pt ℚ)
  | [], _ => []
  | e :: es, s =>
    match step F cfg W0 s e with
    | .ok (s', _) => (if taskOf s e = some .t100ms then [⟨s'.heading, s'.pitch⟩] else []) ++ turns es s'
    | .error _ => []

/-- The state at the end. -/
def final : List (Event ℚ) → Sys → Sys
  | [], s => s
  | e :: es, s =>
    match step F cfg W0 s e with
    | .ok (s', _) => final es s'
    | .error _ => s

theorem simple_request {s : Sys} {e : Event ℚ} (h : simple s e = true) (r : List UInt8) : ¬ Request s e r := by
  intro hr
  cases hr with
  | bluetooth => cases h
  | tcp i c ht hc _ =>
    rcases (of_decide_eq_true h : _ ∨ _) with h | h
    · exact h ht
    · exact absurd h (client_some.2 ⟨c, hc⟩)

theorem simple_means {s s' : Sys} {e : Event ℚ} (h : simple s e = true) :
    Means cfg s s' e ((if taskOf s e = some .t100ms then [(⟨s'.heading, s'.pitch⟩ : Pt ℚ)] else []).map Ev.turn) := by
  have hq : Taught s e [] := .nothing e (fun r _ _ hr => absurd hr (simple_request h r)) (fun i r _ _ he hr => absurd hr (he ▸ simple_request (he ▸ h) r))
  by_cases ht : taskOf s e = some .t100ms
  · cases e with
    | loop i =>
      rw [if_pos ht]
      exact .sensors i [] ht hq
    | _ => cases ht
  · rw [if_neg ht]
    exact .other e [] ht hq

theorem simple_run (M : Libm) : ∀ (es : List (Event ℚ)) (s : Sys), simples es s = true →
    (∃ o, run F cfg (es.map fun e => (W M, e)) s = .ok (final es s, o)) ∧
    (∀ rest s' o', run F cfg rest (final es s) = .ok (s', o') → ∃ o, run F cfg ((es.map fun e => (W M, e)) ++ rest) s = .ok (s', o)) ∧
    ∀ rest ls, History F cfg (final es s) rest ls →
      History F cfg s ((es.map fun e => (W M, e)) ++ rest) (((turns es s).map fun d => (M, Telescope64.demoEnv, Ev.turn d)) ++ ls)
  | [], s, _ => ⟨⟨[], rfl⟩, fun _ _ o' h => ⟨o', h⟩, fun _ _ h => h⟩
  | e :: es, s, h => by
    unfold simples at h
    unfold turns final
    cases h1 : step F cfg W0 s e with
    | error => rw [h1] at h; cases h
    | ok x =>
      obtain ⟨s1, o1⟩ := x
      rw [h1] at h
      simp only [Bool.and_eq_true] at h
      obtain ⟨⟨o, a⟩, b, c⟩ := simple_run M es s1 h.2
      have h2 := (simple_step (M := M) h.1).trans h1
      refine ⟨⟨o1 ++ o, ?_⟩, fun rest s' o' hr => ?_, fun rest ls hh => ?_⟩
      · simp only [List.map_cons, run]
        rw [h2, bind_ok]
        simp only
        rw [a]; rfl
      · obtain ⟨o2, b⟩ := b rest s' o' hr
        refine ⟨o1 ++ o2, ?_⟩
        simp only [List.map_cons, List.cons_append, run]
        rw [h2, bind_ok]
        simp only
        rw [b]; rfl
      · have := History.cons s s1 (W M) e o1 _ _ _ h2 (simple_means h.1) (c rest ls hh)
        simp only [List.map_cons, List.cons_append, List.map_append, List.append_assoc]
        convert this using 2
        split <;> rfl

/-- A goto message in the 100 ms task. -/
theorem goto_step {V : World (Option (ℚ × ℚ))} {s : Sys} {i : In ℚ} {p q : ℚ} {c : Conn} {n : UInt32} {rx : List UInt8} {T : Tel}
    (ht : taskOf s (.loop i) = some .t100ms) (h1 : Imu32.measure F.arc V.atan2f s.imu = .ok p)
    (h2 : headingStep (fl b32) (fl b64) s.heading (frame i.encoder.1 i.encoder.2) = .ok q) (hc : client s = some c)
    (hrecv : tcpReceive s.rx i.tcp = .ok (n, rx)) (hn : n > 0) (hb : NexStar.branch rx 256 = .ok .unknown)
    (hlog : NexStar.unknownLog cfg.platform rx = .ok ())
    (hg : Session64.goto F.wide V.libm V.env s.gnss (setOrientation s.scope.core ⟨q, p⟩) rx n.toNat = .ok T) :
    ∃ s', step F cfg V s (.loop i) = .ok (s', []) ∧ s'.gnss = s.gnss ∧ s'.scope.core = T ∧ s'.heading = q ∧ s'.pitch = p := by
  obtain ⟨s1, e1⟩ : ∃ s1 : Sys, s1 = { s with timers := (schedule s.timers i.now).2 } := ⟨_, rfl⟩
  obtain ⟨s2, e2⟩ : ∃ s2 : Sys, s2 = { s1 with heading := q, pitch := p, scope := { s1.scope with core := setOrientation s1.scope.core ⟨q, p⟩ } } := ⟨_, rfl⟩
  have hsens : readSensors F V s1 i = .ok s2 := by
    have h1' : Imu32.measure F.arc V.atan2f s1.imu = .ok p := by rw [e1]; exact h1
    have h2' : headingStep (fl b32) (fl b64) s1.heading (frame i.encoder.1 i.encoder.2) = .ok q := by rw [e1]; exact h2
    unfold readSensors
    rw [h1', bind_ok, h2', bind_ok, e2]; rfl
  have hreq : handleRequest F cfg.platform V s2.gnss s2.scope rx 256 s2.tx 256 = .ok (0, s2.tx, s2.scope) := by
    rw [handle_other hb (by decide) (by decide)]
    unfold NexStar.handleRequest NexStar.body
    rw [hb, bind_ok]
    simp only
    rw [hlog]; rfl
  have htcp : tcpTask F cfg V s2 i.tcp = .ok ({ { s2 with rx } with scope := { s2.scope with core := T } }, []) := by
    unfold tcpTask
    rw [show client s2 = some c by rw [e2, e1]; exact hc]
    simp only
    unfold tcpInput
    rw [show s2.rx = s.rx by rw [e2, e1], hrecv, bind_ok]
    simp only
    rw [if_pos hn, hreq, bind_ok]
    simp only
    rw [if_neg (by decide)]
    unfold tcpGoto
    simp only
    rw [show s2.gnss = s.gnss by rw [e2, e1], show s2.scope.core = setOrientation s.scope.core ⟨q, p⟩ by rw [e2, e1], hg]
    rfl
  have hstep : step F cfg V s (.loop i) = task100 F cfg V s1 i := by
    rw [e1]
    unfold step loop
    simp only
    rw [show (schedule s.timers i.now).1 = some .t100ms from ht]
  rw [hstep]
  unfold task100
  rw [hsens, bind_ok, htcp, bind_ok]
  refine ⟨_, rfl, ?_, ?_, ?_, ?_⟩
  all_goals (rw [e2, e1]; try rfl)

/-- What is needed of the state before the message. -/
def view (s : Sys) := (s.gnss, taskOf s (.loop last), client s, s.heading, s.scope.core.orientation)

/-- 10 March 2001, 9:27:25 UTC, 47.2833° north, 8.55° east. -/
def fix : Nmea.Gnss := ⟨⟨25, 27, 9, 10, 3, 2001⟩, true, 0, 0, 0, 6197521 / 131072, 8965325 / 1048576, true, true, 0, 0, 0⟩

def here : Pt ℚ := ⟨331767 / 2048, 0⟩
def there : Pt ℚ := ⟨10343515 / 65536, 0⟩

set_option maxRecDepth 100000 in
theorem pre_simple : simples pre s0 = true := by decide +kernel
set_option maxRecDepth 100000 in
theorem pre_view : view (final pre s0) = (fix, some .t100ms, some 7, 331767 / 2048, here) := by decide +kernel
set_option maxRecDepth 100000 in
theorem pre_turns : turns pre s0 = [here] := by decide +kernel
theorem turned : headingStep (fl b32) (fl b64) (331767 / 2048) (frame 0x9a 0x55) = .ok there.x := by decide +kernel

theorem fix_valid : ∃ θ, SiderealAt fix θ :=
  ⟨_, 434, ⟨2001, 3, 10⟩, by decide, ⟨rfl, rfl, rfl⟩, ⟨434, Or.inl ⟨by decide, by decide +kernel⟩⟩, by decide, by decide, by decide,
    ⟨by norm_num [fix], by norm_num [fix], by norm_num [fix], by norm_num [fix], by norm_num [fix], by norm_num [fix]⟩,
    by show |(8965325 / 1048576 : ℚ)| ≤ 360; rw [abs_le]; constructor <;> norm_num, rfl⟩

deriving instance DecidableEq for Imu.Imu
set_option maxRecDepth 100000 in
theorem pre_imu : (final pre s0).imu = Imu.init := by decide +kernel
theorem zero_add_fl : fl b32 (0 + 0 : ℚ) = .ok 0 := by decide +kernel

theorem zero_loop : ∀ (k i : Nat), 3 * (i + k) ≤ 150 → Imu32.sumLoop (List.replicate 150 0) i k (0, 0, 0) = .ok (0, 0, 0)
  | 0, _, _ => rfl
  | k + 1, i, h => by
    have hg : ∀ j, j < 150 → Imu.get (List.replicate 150 (0 : ℚ)) j = .ok 0 := by
      intro j hj
      unfold Imu.get
      rw [dif_pos (by simpa using hj), List.getElem_replicate]
    unfold Imu32.sumLoop
    rw [hg _ (by omega), hg _ (by omega), hg _ (by omega)]
    simp only [bind_ok, zero_add_fl]
    exact zero_loop k (i + 1) (by omega)

theorem level_sum : Imu32.sumLoop (Imu.init (K := ℚ)).samples 0 Imu.ACC_FILTER_SAMPLES (0, 0, 0) = .ok (0, 0, 0) := zero_loop 50 0 (by norm_num)

theorem level_count : fl b32 ((Imu.ACC_FILTER_SAMPLES : Nat) : ℚ) = .ok 50 := by decide +kernel
theorem level_div : fl b32 (0 / 50 : ℚ) = .ok 0 := by decide +kernel
theorem level_mean : Imu32.getMeanAcc Imu.init = .ok (0, 0, 0) := by
  unfold Imu32.getMeanAcc Imu32.meanVec3
  rw [level_sum, bind_ok, level_count, bind_ok]
  simp only [level_div, bind_ok, pure_ok]
theorem level_rest : (Imu32.calibrate Imu.init (0, 0, 0) >>= fun a => Imu32.pitch F.arc W0.atan2f a) = .ok 0 := by decide +kernel

theorem level : Imu32.measure F.arc W0.atan2f Imu.init = .ok 0 := by
  unfold Imu32.measure
  rw [level_mean, bind_ok]
  exact level_rest

/-- The star the message tells. -/
def star : Seen := ⟨there, wire 357913941, wire 238609294, fix⟩

theorem firmware_eq (h : List (World (Option (ℚ × ℚ)) × Event ℚ)) : firmware F cfg h = run F cfg h s0 := by unfold firmware; rfl
theorem star_at : star.at' = there := rfl
theorem star_fix : star.fix = fix := rfl

theorem rx_of (s : Sys) : ∃ tail, afterRead s.rx last.tcp = msg ++ tail := ⟨_, rfl⟩

theorem msg_slices (tail : List UInt8) : slice (msg ++ tail) 0 2 = slice msg 0 2 ∧ slice (msg ++ tail) 2 2 = slice msg 2 2 ∧
    slice (msg ++ tail) 12 4 = slice msg 12 4 ∧ slice (msg ++ tail) 16 4 = slice msg 16 4 := by
  have hl : msg.length = 24 := by decide
  unfold slice
  refine ⟨?_, ?_, ?_, ?_⟩ <;> rw [List.drop_append_of_le_length (by omega), List.take_append_of_le_length (by rw [List.length_drop]; omega)]

theorem tells (g : Nmea.Gnss) (tail : List UInt8) : Tells (.goto g (msg ++ tail) 24) g 357913941 238609294 := by
  obtain ⟨a, b, c, d⟩ := msg_slices tail
  have h1 : leVal (slice msg 0 2) = 24 := by decide +kernel
  have h2 : leVal (slice msg 2 2) = 0 := by decide +kernel
  have h3 : leVal (slice msg 12 4) = 357913941 := by decide +kernel
  have h4 : leVal (slice msg 16 4) = 238609294 := by decide +kernel
  have := Tells.goto g (msg ++ tail) 24 (by rw [a, h1]; norm_num) (by rw [a, h1]) (by rw [b, h2])
  rwa [c, d, h3, h4] at this

theorem no_command (tail : List UInt8) (c : Command) : ¬ Parses (msg ++ tail) c := by
  intro h
  have : msg ++ tail = 24 :: (msg.tail ++ tail) := rfl
  rw [this] at h
  cases h

/-- The history: the device is switched on, the program connects, the telescope moves, the message arrives. -/
def history (M : Libm) : List (World (Option (ℚ × ℚ)) × Event ℚ) := (pre.map fun e => (W M, e)) ++ [(W M, .loop last)]

/-- It runs, and means one star. -/
theorem history_runs {M : Libm} (hM : Accurate M) : ∃ s o evs K, run F cfg (history M) s0 = .ok (s, o) ∧ s.gnss = fix ∧ s.scope.core.orientation = there ∧
    History F cfg s0 (history M) evs ∧ (∀ e ∈ evs, Reasonable e.2.2) ∧ Story nothing (evs.map fun e => e.2.2) K ∧ K.stars = [star] := by
  obtain ⟨⟨o1, hr⟩, happ, hhist⟩ := simple_run M pre s0 pre_simple
  obtain ⟨hok, -⟩ := boot_ok (cfg := cfg) (s := s0) rfl
  obtain ⟨hok1, -, hsess⟩ := run_facts _ hok hr
  have hv := pre_view
  have pimu := pre_imu
  generalize hs1 : final pre s0 = s1 at *
  simp only [view, Prod.mk.injEq] at hv
  obtain ⟨v1, v2, v3, v4, v5⟩ := hv
  obtain ⟨tail, hrx⟩ := rx_of s1
  have st : ∀ i, |Telescope64.demoEnv.stray i| ≤ 1 := fun i => by show |(0 : ℚ)| ≤ 1; norm_num
  -- the session so far
  have hh0 := hhist [] [] (.nil s1)
  rw [List.append_nil, List.append_nil, pre_turns] at hh0
  have h0 := (hsess _ hh0).1
  rw [show s0.scope.core = new from rfl] at h0
  have hproper : Proper (.goto fix (msg ++ tail) 24) := ⟨fix_valid, by show |(6197521 / 131072 : ℚ)| ≤ 361; rw [abs_le]; constructor <;> norm_num, by simp [msg, positionMessage, le]⟩
  have hthere : SaneDirection there := ⟨⟨rep_of (by decide +kernel), rep_of (by decide +kernel)⟩, by decide +kernel, by decide +kernel⟩
  have hhere : SaneDirection here := ⟨⟨rep_of (by decide +kernel), rep_of (by decide +kernel)⟩, by decide +kernel, by decide +kernel⟩
  have hstart : (∀ e ∈ [here].map (fun d => (M, Telescope64.demoEnv, Ev.turn d)), Session64.Fair e) ∧ ∃ T K,
      Session64.run F.wide cfg.platform ([here].map fun d => (M, Telescope64.demoEnv, Ev.turn d)) new = .ok T ∧
        Story nothing (([here].map fun d => (M, Telescope64.demoEnv, Ev.turn d)).map (fun e => e.2.2)) K ∧ K.stars = [] := by
    refine ⟨fun e he => ?_, _, ⟨here, []⟩, rfl, .cons (.turn _ _) (.nil _), rfl⟩
    simp only [List.map_cons, List.map_nil, List.mem_singleton] at he
    subst he
    exact ⟨hM, demo_sort, st, hhere⟩
  obtain ⟨-, T, K, hrun, hstory, hK⟩ := Session64.session_visit (L := F.wide) NexStar.wide_x87 hM hstart hthere (tells fix tail) hproper (by simp) (by simp) [there] (by simp)
    (by simp) [] (by decide +kernel) (by simp)
  rw [Session64.run_append, h0, bind_ok] at hrun
  have hgoto : Session64.goto F.wide M Telescope64.demoEnv fix (setOrientation s1.scope.core there) (msg ++ tail) 24 = .ok T := by
    unfold Session64.visitEv at hrun
    simp only [Session64.run, Session64.step, bind_ok] at hrun
    obtain ⟨T', h1, h2⟩ := bind_eq_ok.1 hrun
    rw [← Except.ok.inj h2]; exact h1
  -- the message
  have hlen : (msg ++ tail).length = 256 := by rw [← hrx]; exact afterRead_length hok1.inv.2 _
  obtain ⟨n, hrecv, hpos, hcount⟩ := tcpReceive_facts hok1.inv.2 last.tcp
  rw [hrx] at hrecv
  have hne : last.tcp ≠ .data [] := by
    intro h
    have h : TcpRead.data msg = .data [] := h
    injection h with h
    exact absurd h (by decide)
  have hn : n > 0 := hpos.2 hne
  have hn24 : n.toNat = 24 := by rw [hcount]; decide
  have hbranch : NexStar.branch (msg ++ tail) 256 = .ok .unknown := by
    have := NexStar.branch_of_not_parses (no_command tail)
    rwa [hlen] at this
  have hlog : NexStar.unknownLog cfg.platform (msg ++ tail) = .ok () := rfl
  obtain ⟨s', hstep, g1, g2, g3, g4⟩ := goto_step (V := W M) (s := s1) (i := last) (p := 0) (q := 10343515 / 65536) v2 (by rw [pimu]; exact level)
    (by rw [v4]; exact turned) v3 hrecv hn hbranch hlog (by rw [hn24, v1]; exact hgoto)
  obtain ⟨c, hc⟩ := client_some.1 (show client s1 ≠ none by rw [v3]; exact Option.some_ne_none 7)
  have hdir : (⟨s'.heading, s'.pitch⟩ : Pt ℚ) = there := by rw [g3, g4]; rfl
  have ht : Taught s1 (.loop last) [.goto fix (msg ++ tail) 24] := by
    have := Taught.goto (s := s1) last (afterRead s1.rx last.tcp) 357913941 238609294 (.tcp last c v2 hc hne) (by rw [hrx]; exact no_command tail)
      (by rw [hrx, ← hcount, hn24]; exact tells _ tail)
    rwa [hrx, ← hcount, hn24, v1] at this
  have hm : Means cfg s1 s' (.loop last) [Ev.turn there, Ev.goto fix (msg ++ tail) 24] := by
    have := Means.sensors (cfg := cfg) (s' := s') last _ v2 ht
    rw [hdir] at this
    exact this
  obtain ⟨o, hfull⟩ := happ [(W M, .loop last)] s' [] (by unfold run; rw [hstep, bind_ok]; rfl)
  have hhist := hhist _ _ (.cons s1 s' (W M) (.loop last) [] _ [] [] hstep hm (.nil s'))
  rw [pre_turns] at hhist
  refine ⟨s', o, _, K, hfull, by rw [g1, v1], ?_, hhist, fun e he => ?_, hstory, hK⟩
  · rw [g2]
    unfold Session64.goto at hgoto
    obtain ⟨⟨b, r⟩, -, hgoto⟩ := bind_eq_ok.1 hgoto
    simp only at hgoto
    split at hgoto
    · obtain ⟨t, -, hgoto⟩ := bind_eq_ok.1 hgoto
      unfold addReferencePoint at hgoto
      obtain ⟨_, -, hgoto⟩ := bind_eq_ok.1 hgoto
      obtain ⟨_, -, hgoto⟩ := bind_eq_ok.1 hgoto
      obtain ⟨_, -, hgoto⟩ := bind_eq_ok.1 hgoto
      rw [← Except.ok.inj hgoto]; rfl
    · rw [← Except.ok.inj hgoto]; rfl
  · have : e.2.2 = Ev.turn here ∨ e.2.2 = Ev.turn there ∨ e.2.2 = Ev.goto fix (msg ++ tail) 24 := by
      simp only [List.map_cons, List.map_nil, List.append_nil, List.cons_append, List.nil_append, List.mem_cons, List.not_mem_nil, or_false] at he
      rcases he with rfl | rfl | rfl
      · exact Or.inl rfl
      · exact Or.inr (Or.inl rfl)
      · exact Or.inr (Or.inr rfl)
    rcases this with h | h | h <;> rw [h]
    · exact hhere.2.2
    · exact hthere.2.2
    · exact hproper

/-- C84_one_star applies: asked over Bluetooth, the device sends the position of the star. -/
example : ∃ M, Accurate M ∧ ∃ s o, firmware F cfg (history M) = .ok (s, o) ∧ ∀ rest, ∃ u v s', u < 2 ^ 32 ∧ v < 2 ^ 32 ∧
    step F cfg (W M) s (.bluetooth (101 :: rest)) = .ok (s', [.bluetooth (hex8 u ++ [44] ++ hex8 v ++ [35])]) ∧
    |sind (wire v) - sind star.dec| ≤ 1 / 10000000 := by
  obtain ⟨M, hM⟩ := accurate_exists
  obtain ⟨s, o, evs, K, hr, hg, ho, hh, hR, hs, hK⟩ := history_runs hM
  have hc : ∀ x ∈ history M, Careful x.1 := by
    intro x hx
    have : x.1 = W M := by
      rcases List.mem_append.1 hx with hx | hx
      · obtain ⟨e, -, rfl⟩ := List.mem_map.1 hx; rfl
      · rw [List.mem_singleton.1 hx]
    rw [this]
    exact ⟨hM, demo_sort, fun i => by show |(0 : ℚ)| ≤ 1; norm_num⟩
  obtain ⟨θ, hθ⟩ := fix_valid
  have key := C84_one_star F NexStar.wide_x87 cfg (history M) s0 s o rfl hr hc evs hh hR K hs star hK
  refine ⟨M, hM, s, o, (firmware_eq _).trans hr, fun rest => ?_⟩
  rcases key.bluetooth (W M) rest θ θ hM (by rw [ho, star_at]) (by rw [star_fix]; exact hθ) (by rw [hg]; exact hθ) (by rw [hg, star_fix]) with ⟨u, v, s', h1, h2, h3, h4⟩ | ⟨h, -⟩
  · exact ⟨u, v, s', h1, h2, h3, h4.2.2.trans (by norm_num)⟩
  · exact absurd h (by decide)

end Demo

end Verif.Firmware64
