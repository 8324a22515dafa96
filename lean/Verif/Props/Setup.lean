import Verif.Model.Setup
import Verif.Lemmas.MainStep

/-!
# C67: what `setup()` makes available

For every behaviour of the hardware; `C67_switches` for every setting of the compile-time switches, too.
-/

namespace Verif.Setup

open Main Printf

/-- Milliseconds spent waiting. -/
def waited : List Call → Nat
  | [] => 0
  | .delay ms :: l => ms + waited l
  | _ :: l => waited l

theorem waited_append (a b : List Call) : waited (a ++ b) = waited a + waited b := by
  induction a with
  | nil => simp [waited]
  | cons c a ih => cases c <;> simp [waited, ih, Nat.add_assoc]

/-- The waiting loop only counts checks and waits. -/
theorem waitWifi_spec (a : Answers) (r : Nat) (s : St) :
    ∃ d, d ≤ r ∧ (∀ k < d, a.status (s.checks + k) = false) ∧ (a.status (s.checks + d) = true ∨ d = r) ∧
      waitWifi a r s = { s with checks := s.checks + d + 1, calls := s.calls ++ List.replicate d (.delay 1000) } := by
  induction r generalizing s with
  | zero => exact ⟨0, le_refl _, by simp, Or.inr rfl, by simp [waitWifi, St.check]⟩
  | succ r ih =>
    cases h : a.status s.checks with
    | true => exact ⟨0, Nat.zero_le _, by simp, Or.inl h, by simp [waitWifi, St.check, h]⟩
    | false =>
      obtain ⟨d, h1, h2, h3, h4⟩ := ih ((s.check a).2.call (.delay 1000))
      simp only [St.check, St.call] at h2 h3 h4
      refine ⟨d + 1, by omega, ?_, ?_, ?_⟩
      · intro k hk
        cases k with
        | zero => exact h
        | succ k => have := h2 k (by omega); rwa [Nat.add_assoc, Nat.add_comm 1] at this
      · rcases h3 with h3 | h3
        · left; rwa [Nat.add_assoc, Nat.add_comm 1] at h3
        · right; omega
      · simp only [waitWifi, St.check, h, St.call]
        rw [if_neg (by simp), h4]
        simp [List.replicate_succ, Nat.add_assoc, Nat.add_comm 1]

theorem waited_replicate (d ms : Nat) : waited (List.replicate d (.delay ms)) = d * ms := by
  induction d with
  | zero => simp [waited]
  | succ d ih => rw [List.replicate_succ, waited, ih]; ring

/-- Joining the network, from a state in which nothing was checked before. -/
theorem joinWifi_spec (a : Answers) (s : St) (h0 : s.checks = 0) (hc : s.clientMode = false) :
    ∃ d ≤ 5, (∀ k < d, a.status k = false) ∧ (a.status d = true ∨ d = 5) ∧
      joinWifi a s = { s with checks := d + 2, clientMode := a.status (d + 1), calls := s.calls ++ ([.wifiBegin] ++
        List.replicate d (.delay 1000) ++ [if a.status (d + 1) then .wifiHandlers else .wifiDisconnect]) } := by
  obtain ⟨d, h1, h2, h3, h4⟩ := waitWifi_spec a 5 (s.call .wifiBegin)
  have e0 : (s.call .wifiBegin).checks = 0 := h0
  rw [e0] at h2 h3 h4
  simp only [Nat.zero_add] at h2 h3 h4
  refine ⟨d, h1, h2, h3, ?_⟩
  unfold joinWifi
  simp only [h4]
  simp only [St.check, St.call]
  rcases Bool.eq_false_or_eq_true (a.status (d + 1)) with hs | hs <;> simp [hs, hc]

theorem setupFiles_eq (a : Answers) (s : St) (h : s.filesystem = false) :
    setupFiles a s = { s with calls := s.calls ++ [.mount], filesystem := a.spiffs, stage := s.stage + 1 + a.spiffs.toNat } := by
  cases hf : a.spiffs <;> simp [setupFiles, St.call, St.next, hf, h]

theorem setupSensor_eq (w : Switches) (a : Answers) (s : St) (h : s.sensor = false) :
    setupSensor w a s = { s with
      calls := s.calls ++ if w.orientation then [.delay 500, .i2cBegin] ++ (if a.i2c then [.imuBegin] else []) else [],
      sensor := w.orientation && a.i2c && a.imu,
      stage := s.stage + w.orientation.toNat + (w.orientation && a.i2c).toNat + (w.orientation && a.i2c && a.imu).toNat } := by
  cases s; simp only at h; subst h
  cases ho : w.orientation <;> cases hi : a.i2c <;> cases hm : a.imu <;> simp [setupSensor, St.call, St.next, ho, hi, hm]

theorem setupServers_eq (w : Switches) (s : St) (h : s.broker = false) (h' : s.mqtt = false) :
    setupServers w s = { s with
      calls := s.calls ++ ((if s.clientMode || s.apMode then [.tcpServer 10001] ++ (if w.broker then [.broker 1883] else []) else []) ++
        if w.mqtt && s.clientMode then [.mqttServer 1883] else []),
      broker := w.broker && (s.clientMode || s.apMode),
      mqtt := w.mqtt && s.clientMode,
      stage := s.stage + (s.clientMode || s.apMode).toNat + (w.mqtt && s.clientMode).toNat } := by
  obtain ⟨_, c, p, _, _, _, _, _, _, _, _⟩ := s; simp only at h h'; subst h h'
  cases c <;> cases p <;> cases hb : w.broker <;> cases hm : w.mqtt <;> simp [setupServers, St.call, St.next, hb, hm]

theorem setupBluetooth_eq (w : Switches) (a : Answers) (s : St) (h : s.bluetooth = false) :
    setupBluetooth w a s = { s with
      calls := s.calls ++ if w.bluetooth then [.bluetooth] ++ (if a.bluetooth then [.bluetoothHandlers] else []) else [],
      bluetooth := w.bluetooth && a.bluetooth } := by
  cases s; simp only at h; subst h
  cases hw : w.bluetooth <;> cases hb : a.bluetooth <;> simp [setupBluetooth, St.call, hw, hb]

/-- The result of `setup()`, given the result of the WiFi part. -/
theorem setup_eq (w : Switches) (a : Answers) (n c : Nat) (client ap : Bool) (calls : List Call)
    (h : setupWifi w a { stage := 3, calls := [.led true, .delay 500] } =
      { checks := c, clientMode := client, apMode := ap, stage := n, calls }) :
    setup w a =
      { checks := c, clientMode := client, apMode := ap, filesystem := a.spiffs, sensor := w.orientation && a.i2c && a.imu,
        mqtt := w.mqtt && client, broker := w.broker && (client || ap), bluetooth := w.bluetooth && a.bluetooth, ledMode := .ready,
        stage := n + 1 + a.spiffs.toNat + w.orientation.toNat + (w.orientation && a.i2c).toNat + (w.orientation && a.i2c && a.imu).toNat +
          (client || ap).toNat + (w.mqtt && client).toNat,
        calls := calls ++ [.mount] ++ (if w.orientation then [.delay 500, .i2cBegin] ++ (if a.i2c then [.imuBegin] else []) else []) ++
          ((if client || ap then [.tcpServer 10001] ++ (if w.broker then [.broker 1883] else []) else []) ++
            if w.mqtt && client then [.mqttServer 1883] else []) ++
          (if w.bluetooth then [.bluetooth] ++ (if a.bluetooth then [.bluetoothHandlers] else []) else []) } := by
  have h' : setupWifi w a (((({} : St).call (.led true)).next.call (.delay 500)).next.next) = _ := h
  unfold setup
  simp only [h']
  rw [setupFiles_eq _ _ rfl, setupSensor_eq _ _ _ rfl, setupServers_eq _ _ rfl rfl, setupBluetooth_eq _ _ _ rfl]

/-- The WiFi part, shipped switches. -/
theorem setupWifi_shipped (a : Answers) (calls : List Call) :
    ∃ d ≤ 5, (∀ k < d, a.status k = false) ∧ (a.status d = true ∨ d = 5) ∧
      setupWifi shipped a { stage := 3, calls } =
        { checks := d + 2, clientMode := a.status (d + 1), apMode := !a.status (d + 1) && a.softAP, stage := 4,
          calls := calls ++ ([.wifiBegin] ++ List.replicate d (.delay 1000) ++
            if a.status (d + 1) then [.wifiHandlers] else [.wifiDisconnect, .softAP]) } := by
  obtain ⟨d, h1, h2, h3, h4⟩ := joinWifi_spec a { stage := 3, calls } rfl rfl
  refine ⟨d, h1, h2, h3, ?_⟩
  simp only [setupWifi, shipped, Bool.not_false, Bool.and_self, if_true, h4, Bool.true_and, Bool.or_false]
  cases hs : a.status (d + 1) <;> cases hp : a.softAP <;> simp [startAP, St.call, St.next, hp]

/-- **C67.** What the shipped `setup()` does, for every behaviour of the hardware: it waits `d ≤ 5` seconds for the network - until it is
there at a check, or five times; one more check decides whether the device is a client of the network; if not, it opens an access point,
never both.  Everything it makes available, every call it makes in order, and the stage number it reports follow. -/
theorem C67_setup (a : Answers) :
    ∃ d ≤ 5, (∀ k < d, a.status k = false) ∧ (a.status d = true ∨ d = 5) ∧
      let client := a.status (d + 1)
      let ap := !client && a.softAP
      setup shipped a =
        { checks := d + 2, clientMode := client, apMode := ap, filesystem := a.spiffs, sensor := a.i2c && a.imu,
          mqtt := client, broker := client || ap, bluetooth := a.bluetooth, ledMode := .ready,
          stage := 6 + a.spiffs.toNat + a.i2c.toNat + (a.i2c && a.imu).toNat + (client || ap).toNat + client.toNat,
          calls := [.led true, .delay 500, .wifiBegin] ++ List.replicate d (.delay 1000) ++
            (if client then [.wifiHandlers] else [.wifiDisconnect, .softAP]) ++ [.mount, .delay 500, .i2cBegin] ++
            (if a.i2c then [.imuBegin] else []) ++ (if client || ap then [.tcpServer 10001, .broker 1883] else []) ++
            (if client then [.mqttServer 1883] else []) ++ [.bluetooth] ++ (if a.bluetooth then [.bluetoothHandlers] else []) } := by
  obtain ⟨d, h1, h2, h3, h4⟩ := setupWifi_shipped a [.led true, .delay 500]
  refine ⟨d, h1, h2, h3, ?_⟩
  rw [setup_eq shipped a _ _ _ _ _ h4]
  cases hs : a.status (d + 1) <;> cases hp : a.softAP <;> cases hi : a.i2c <;> cases hb : a.bluetooth <;>
    simp [shipped] <;> omega

/-- **C67.** The device is never client and access point at the same time, there is an MQTT connection only for a client and a local broker
only with a network, the orientation sensor only if bus and chip answered; whatever the compile-time switches are. -/
theorem C67_switches (w : Switches) (a : Answers) :
    let s := setup w a
    ¬ (s.clientMode = true ∧ s.apMode = true) ∧ (s.mqtt = true ↔ w.mqtt = true ∧ s.clientMode = true) ∧
    (s.broker = true ↔ w.broker = true ∧ (s.clientMode = true ∨ s.apMode = true)) ∧
    (s.sensor = true ↔ w.orientation = true ∧ a.i2c = true ∧ a.imu = true) ∧ s.ledMode = .ready ∧
    waited s.calls ≤ 6000 := by
  have key : ∃ n c client ap calls, setupWifi w a { stage := 3, calls := [.led true, .delay 500] } =
      { checks := c, clientMode := client, apMode := ap, stage := n, calls } ∧ ¬ (client = true ∧ ap = true) ∧ waited calls ≤ 5500 := by
    obtain ⟨d, h1, -, -, h4⟩ := joinWifi_spec a { stage := 3, calls := [.led true, .delay 500] } rfl rfl
    cases hw : w.wifi with
    | false => exact ⟨3, 0, false, false, _, by simp [setupWifi, hw]; rfl, by simp, by simp [waited]⟩
    | true =>
      by_cases hj : (w.wifiAuto && !w.forceAP) = true
      · have hf : w.forceAP = false := by simp only [Bool.and_eq_true, Bool.not_eq_true'] at hj; exact hj.2
        have ha : w.wifiAuto = true := by simp only [Bool.and_eq_true] at hj; exact hj.1
        refine ⟨4, d + 2, a.status (d + 1), !a.status (d + 1) && a.softAP, [.led true, .delay 500] ++ ([.wifiBegin] ++ List.replicate d (.delay 1000) ++
            if a.status (d + 1) then [.wifiHandlers] else [.wifiDisconnect, .softAP]), ?_, by cases a.status (d + 1) <;> simp, ?_⟩
        · simp only [setupWifi, hw, if_true, h4, ha, hf, Bool.true_and, Bool.or_false]
          cases hs : a.status (d + 1) <;> cases hp : a.softAP <;> simp [startAP, St.call, St.next, hp]
        · cases hs : a.status (d + 1) <;> simp [waited, waited_append, waited_replicate] <;> omega
      · refine ⟨4, 0, false, (w.wifiAuto || w.forceAP) && a.softAP, [.led true, .delay 500] ++ if w.wifiAuto || w.forceAP then [.softAP] else [], ?_,
          by simp, ?_⟩
        · simp only [setupWifi, hw, if_true, hj, if_false, Bool.false_eq_true, Bool.not_false, Bool.and_true]
          cases w.wifiAuto <;> cases w.forceAP <;> cases hp : a.softAP <;> simp [startAP, St.call, St.next, hp]
        · cases w.wifiAuto <;> cases w.forceAP <;> simp [waited]
  obtain ⟨n, c, client, ap, calls, h, hne, hwait⟩ := key
  rw [setup_eq w a n c client ap calls h]
  refine ⟨hne, by simp, by simp, by simp [and_assoc], rfl, ?_⟩
  have w1 : waited (if w.orientation then [.delay 500, .i2cBegin] ++ (if a.i2c then [.imuBegin] else []) else []) ≤ 500 := by
    cases w.orientation <;> cases a.i2c <;> simp [waited]
  have w2 : waited (if client || ap then [.tcpServer 10001] ++ (if w.broker then [.broker 1883] else []) else []) = 0 := by
    cases (client || ap) <;> cases w.broker <;> simp [waited]
  have w3 : waited (if w.mqtt && client then [.mqttServer 1883] else []) = 0 := by
    cases (w.mqtt && client) <;> simp [waited]
  have w4 : waited (if w.bluetooth then [.bluetooth] ++ (if a.bluetooth then [.bluetoothHandlers] else []) else []) = 0 := by
    cases w.bluetooth <;> cases a.bluetooth <;> simp [waited]
  simp only [waited_append]
  rw [w2, w3, w4]
  simp only [waited]
  omega

/-- **C67.** A network that is there from check `n ≤ 5` on (and not before) makes the device its client after `n` seconds. -/
theorem C67_steady (a : Answers) (n : Nat) (hn : n ≤ 5) (h0 : ∀ k < n, a.status k = false) (h1 : ∀ k, n ≤ k → a.status k = true) :
    (setup shipped a).clientMode = true ∧ (setup shipped a).apMode = false ∧ waited (setup shipped a).calls = 1000 + 1000 * n := by
  obtain ⟨d, d1, d2, d3, e⟩ := C67_setup a
  have hd : d = n := by
    rcases lt_trichotomy d n with h | h | h
    · rcases d3 with d3 | d3
      · rw [h0 d h] at d3; cases d3
      · omega
    · exact h
    · have := d2 n h; rw [h1 n le_rfl] at this; cases this
  subst hd
  have hc : a.status (d + 1) = true := h1 _ (by omega)
  rw [e]
  simp only [hc]
  refine ⟨trivial, rfl, ?_⟩
  cases a.i2c <;> cases a.bluetooth <;> simp [waited, waited_append, waited_replicate] <;> omega

/-- **C67.** Without a network the device opens an access point after five seconds (if that works). -/
theorem C67_alone (a : Answers) (h : ∀ k, a.status k = false) :
    (setup shipped a).clientMode = false ∧ (setup shipped a).apMode = a.softAP ∧ waited (setup shipped a).calls = 6000 := by
  obtain ⟨d, d1, d2, d3, e⟩ := C67_setup a
  have hd : d = 5 := d3.resolve_left (by rw [h]; simp)
  subst hd
  rw [e]
  simp only [h]
  refine ⟨trivial, by simp, ?_⟩
  cases a.i2c <;> cases a.bluetooth <;> cases a.softAP <;> simp [waited]

/-- The network comes up at the third check; no sensor chip. -/
example : ((setup shipped ⟨fun k => decide (2 ≤ k), true, true, true, false, true⟩).clientMode,
    (setup shipped ⟨fun k => decide (2 ≤ k), true, true, true, false, true⟩).sensor,
    (setup shipped ⟨fun k => decide (2 ≤ k), true, true, true, false, true⟩).stage) = (true, false, 10) := by decide

/-- The network is there at the first check and lost at the second: access point. -/
example : (setup shipped ⟨fun k => k == 0, true, true, true, true, true⟩).apMode = true := by decide

/-! ### The main loop after `setup()` -/

set_option linter.unusedSectionVars false

variable {K : Type} [Field K] [LinearOrder K] [IsStrictOrderedRing K] [FloorRing K] {S : Type}

/-- An output a device with these means can make. -/
def Possible (cfg : Config) : Out → Prop
  | .tcp _ _ => cfg.wifi = true
  | .mqtt _ _ => cfg.mqtt = true
  | .broker _ _ => cfg.broker = true
  | .bluetooth _ => True
  | .pin _ => True

/-- All of them. -/
def AllPossible (cfg : Config) (o : List Out) : Prop := ∀ x ∈ o, Possible cfg x

theorem AllPossible.nil {cfg : Config} : AllPossible cfg [] := by intro x hx; simp at hx
theorem AllPossible.append {cfg : Config} {a b : List Out} (ha : AllPossible cfg a) (hb : AllPossible cfg b) : AllPossible cfg (a ++ b) := by
  intro x hx
  rcases List.mem_append.1 hx with h | h
  · exact ha x h
  · exact hb x h

theorem sendMqtt_possible {cfg : Config} {topic : String} {tx : List UInt8} {len : Nat} {o : List Out} (h : sendMqtt cfg topic tx len = .ok o) :
    AllPossible cfg o := by
  unfold sendMqtt at h
  split at h
  · cases hb : readBytes tx len with
    | error e => rw [hb] at h; cases h
    | ok b => rw [hb] at h; injection h with h; subst h; intro x hx; simp only [List.mem_singleton] at hx; subst hx; assumption
  · injection h with h; subst h; exact AllPossible.nil

theorem sendBroker_possible {cfg : Config} {topic : String} {tx : List UInt8} {o : List Out} (h : sendBroker cfg topic tx = .ok o) :
    AllPossible cfg o := by
  unfold sendBroker at h
  split at h
  · cases hb : readCString tx with
    | error e => rw [hb] at h; cases h
    | ok b => rw [hb] at h; injection h with h; subst h; intro x hx; simp only [List.mem_singleton] at hx; subst hx; assumption
  · injection h with h; subst h; exact AllPossible.nil

theorem send_possible {cfg : Config} {topic : String} {tx : List UInt8} {len : Nat} {o : List Out} (h : send cfg topic tx len = .ok o) :
    AllPossible cfg o := by
  unfold send at h
  obtain ⟨o1, h1, h⟩ := bind_eq_ok.1 h
  obtain ⟨o2, h2, h⟩ := bind_eq_ok.1 h
  injection h with h; subst h
  exact (sendMqtt_possible h1).append (sendBroker_possible h2)

theorem publish_possible {cfg : Config} {topic : String} {out tx tx' : List UInt8} {o : List Out}
    (h : publish cfg topic out tx = .ok (tx', o)) : AllPossible cfg o := by
  unfold publish at h
  obtain ⟨⟨n, tx1⟩, h1, h⟩ := bind_eq_ok.1 h
  obtain ⟨o1, h2, h⟩ := bind_eq_ok.1 h
  injection h with h; injection h with _ h; subst h
  exact send_possible h2

theorem publishAll_possible {cfg : Config} {l : List (String × List UInt8)} {tx tx' : List UInt8} {o : List Out}
    (h : publishAll cfg l tx = .ok (tx', o)) : AllPossible cfg o := by
  induction l generalizing tx tx' o with
  | nil => injection h with h; injection h with _ h; subst h; exact AllPossible.nil
  | cons x l ih =>
    obtain ⟨topic, out⟩ := x
    unfold publishAll at h
    obtain ⟨⟨tx1, o1⟩, h1, h⟩ := bind_eq_ok.1 h
    obtain ⟨⟨tx2, o2⟩, h2, h⟩ := bind_eq_ok.1 h
    injection h with h; injection h with _ h; subst h
    exact (publish_possible h1).append (ih h2)

theorem publishVertices_possible {cfg : Config} {topic : String} {ps : List (K × K)} {tx tx' : List UInt8} {o : List Out}
    (h : publishVertices cfg topic ps tx = .ok (tx', o)) : AllPossible cfg o := by
  unfold publishVertices at h
  obtain ⟨tx1, h1, h⟩ := bind_eq_ok.1 h
  obtain ⟨⟨len, tx2⟩, h2, h⟩ := bind_eq_ok.1 h
  obtain ⟨tx3, h3, h⟩ := bind_eq_ok.1 h
  obtain ⟨o1, h4, h⟩ := bind_eq_ok.1 h
  injection h with h; injection h with _ h; subst h
  exact send_possible h4

theorem mqttLoop_possible {cfg : Config} {T : Tel K S} (hc : cfg.mqtt = true) {ms : List (List UInt8 × List UInt8)} {s s' : Sys K S} {o : List Out}
    (h : mqttLoop T ms s = .ok (s', o)) : AllPossible cfg o := by
  induction ms generalizing s s' o with
  | nil => injection h with h; injection h with _ h; subst h; exact AllPossible.nil
  | cons x ms ih =>
    obtain ⟨topic, payload⟩ := x
    unfold mqttLoop at h
    obtain ⟨⟨s1, o1⟩, h1, h⟩ := bind_eq_ok.1 h
    obtain ⟨⟨s2, o2⟩, h2, h⟩ := bind_eq_ok.1 h
    injection h with h; injection h with _ h; subst h
    refine AllPossible.append ?_ (ih h2)
    unfold mqttCallback at h1
    split at h1
    · injection h1 with h1; injection h1 with _ h1; subst h1; exact AllPossible.nil
    split at h1
    · injection h1 with h1; injection h1 with _ h1; subst h1; exact AllPossible.nil
    obtain ⟨p0, hp, h1⟩ := bind_eq_ok.1 h1
    split at h1
    · obtain ⟨tx, htx, h1⟩ := bind_eq_ok.1 h1
      obtain ⟨b, hb, h1⟩ := bind_eq_ok.1 h1
      injection h1 with h1; injection h1 with _ h1; subst h1
      intro x hx; simp only [List.mem_singleton] at hx; subst hx; exact hc
    · injection h1 with h1; injection h1 with _ h1; subst h1; exact AllPossible.nil

/-- Nobody is connected to a device without a network. -/
def Alone (cfg : Config) (s : Sys K S) : Prop := cfg.wifi = false → s.net.remote = none

theorem client_wifi {cfg : Config} {s : Sys K S} (h : Alone cfg s) {c : Net.Conn} (hc : client s = some c) : cfg.wifi = true := by
  cases hw : cfg.wifi with
  | true => rfl
  | false => have := h hw; rw [(client_eq.1 hc).1] at this; cases this

theorem step_possible {cfg : Config} {T : Tel K S} {s s' : Sys K S} {e : Main.Event K} {o : List Out} (hi : Main.Inv s) (ha : Alone cfg s)
    (h : Main.step cfg T s e = .ok (s', o)) : AllPossible cfg o ∧ Alone cfg s' := by
  cases e with
  | arrive c => injection h with h; injection h with h ho; subst h ho; exact ⟨AllPossible.nil, ha⟩
  | gone c =>
    injection h with h; injection h with h ho; subst h ho
    exact ⟨AllPossible.nil, ha⟩
  | bluetooth b =>
    simp only [Main.step, onBluetoothData] at h
    obtain ⟨⟨n, tx, scope⟩, h1, h⟩ := bind_eq_ok.1 h
    simp only at h
    split at h
    · obtain ⟨bs, h2, h⟩ := bind_eq_ok.1 h
      injection h with h; injection h with h ho; subst h ho
      exact ⟨by intro x hx; simp only [List.mem_singleton] at hx; subst hx; trivial, ha⟩
    · injection h with h; injection h with h ho; subst h ho
      exact ⟨AllPossible.nil, ha⟩
  | loop i =>
    simp only [Main.step, loop] at h
    set s0 : Sys K S := { s with timers := (schedule s.timers i.now).2 } with hs0
    have hi0 : Main.Inv s0 := hi
    have ha0 : Alone cfg s0 := ha
    cases ht : (schedule s.timers i.now).1 with
    | none => rw [ht] at h; injection h with h; injection h with h ho; subst h ho; exact ⟨AllPossible.nil, ha0⟩
    | some k =>
      rw [ht] at h
      cases k with
      | filter => obtain ⟨rfl, imu, rfl⟩ := taskFilter_facts h; exact ⟨AllPossible.nil, ha0⟩
      | t25ms =>
        simp only at h
        injection h with h
        have e1 := (task25_facts s0 i).1
        rw [h] at e1
        simp only at e1
        subst e1
        refine ⟨?_, ha0⟩
        have : o = (task25 s0 i).2 := by rw [h]
        subst this
        unfold task25
        split
        · intro x hx; simp only [List.mem_singleton] at hx; subst hx; trivial
        · exact AllPossible.nil
      | t1s => injection h with h; injection h with h ho; subst h ho; exact ⟨AllPossible.nil, ha0⟩
      | t30s => injection h with h; injection h with h ho; subst h ho; exact ⟨AllPossible.nil, ha0⟩
      | t500ms =>
        have hn := (task500_facts hi0 h).2.2.2.2.1
        refine ⟨?_, fun hw => by rw [hn]; exact ha0 hw⟩
        simp only [task500] at h
        obtain ⟨s1, h1, h⟩ := bind_eq_ok.1 h
        obtain ⟨a1, a2, a3, a4, a5⟩ := pollGnss_facts h1
        split at h
        · unfold reportAll at h
          obtain ⟨lst, hl, h⟩ := bind_eq_ok.1 h
          obtain ⟨⟨ty, position⟩, hpos, h⟩ := bind_eq_ok.1 h
          obtain ⟨⟨s2, o1⟩, h2, h⟩ := bind_eq_ok.1 h
          obtain ⟨⟨tx1, o2⟩, h3, h⟩ := bind_eq_ok.1 h
          obtain ⟨⟨tx2, o3⟩, h4, h⟩ := bind_eq_ok.1 h
          obtain ⟨⟨tx3, o4⟩, h5, h⟩ := bind_eq_ok.1 h
          obtain ⟨m, hm, h⟩ := bind_eq_ok.1 h
          obtain ⟨⟨tx4, o5⟩, h6, h⟩ := bind_eq_ok.1 h
          injection h with h; injection h with h ho; subst h ho
          have p1 : AllPossible cfg o1 := by
            obtain ⟨-, hout⟩ := sendPosition_facts (a1.2.2 hi0) h2
            rcases hout with rfl | ⟨c', tx, hc', -, -, -, rfl⟩
            · exact AllPossible.nil
            · intro x hx; simp only [List.mem_singleton] at hx; subst hx
              exact client_wifi (s := s1) (fun hw => by rw [a2]; exact ha0 hw) hc'
          exact ((((p1.append (publishAll_possible h3)).append (publishVertices_possible h4)).append (publishVertices_possible h5)).append
            (publish_possible h6))
        · injection h with h; injection h with h ho; subst h ho; exact AllPossible.nil
      | t2s =>
        have hn := (task2s_facts hi0 h).2.2.2.2.1
        refine ⟨?_, fun hw => by rw [hn]; exact ha0 hw⟩
        simp only [task2s] at h
        obtain ⟨tx1, h1, h⟩ := bind_eq_ok.1 h
        obtain ⟨tx2, h2, h⟩ := bind_eq_ok.1 h
        obtain ⟨rx1, h3, h⟩ := bind_eq_ok.1 h
        obtain ⟨rx2, h4, h⟩ := bind_eq_ok.1 h
        obtain ⟨⟨s1, o1⟩, h5, h⟩ := bind_eq_ok.1 h
        injection h with h; injection h with h ho; subst h ho
        unfold reportGnss at h5
        split at h5
        · obtain ⟨⟨n, tx3⟩, h6, h5⟩ := bind_eq_ok.1 h5
          obtain ⟨o2, h7, h5⟩ := bind_eq_ok.1 h5
          obtain ⟨o3, h8, h5⟩ := bind_eq_ok.1 h5
          injection h5 with h5; injection h5 with h5 ho; subst h5 ho
          exact (sendBroker_possible h7).append (sendMqtt_possible h8)
        · injection h5 with h5; injection h5 with h5 ho; subst h5 ho; exact AllPossible.nil
      | t100ms =>
        have hn := (task100_facts hi0 h).2.2.2.2.2
        refine ⟨?_, fun hw => by rw [hn, if_neg (by rw [hw]; simp)]; exact ha0 hw⟩
        simp only [task100] at h
        obtain ⟨s1, h1, h⟩ := bind_eq_ok.1 h
        obtain ⟨⟨s2, o1⟩, h2, h⟩ := bind_eq_ok.1 h
        obtain ⟨⟨s3, o2⟩, h3, h⟩ := bind_eq_ok.1 h
        simp only [pure_ok] at h
        injection h with h; injection h with hs ho; subst ho
        obtain ⟨a1, a2, -⟩ := readSensors_same h1
        refine AllPossible.append ?_ ?_
        · unfold tcpTask at h2
          split at h2
          · rename_i c hc
            have hw : cfg.wifi = true := client_wifi (s := s1) (fun hw => by rw [a2]; exact ha0 hw) hc
            unfold tcpInput at h2
            obtain ⟨⟨r, rx⟩, h4, h2⟩ := bind_eq_ok.1 h2
            simp only at h2
            split at h2
            · obtain ⟨⟨n, tx, scope⟩, h5, h2⟩ := bind_eq_ok.1 h2
              simp only at h2
              split at h2
              · obtain ⟨bs, h6, h2⟩ := bind_eq_ok.1 h2
                injection h2 with h2; injection h2 with _ h2; subst h2
                intro x hx; simp only [List.mem_singleton] at hx; subst hx; exact hw
              · obtain ⟨s4, h6, h2⟩ := bind_eq_ok.1 h2
                injection h2 with h2; injection h2 with _ h2; subst h2; exact AllPossible.nil
            · injection h2 with h2; injection h2 with _ h2; subst h2; exact AllPossible.nil
          · injection h2 with h2; injection h2 with _ h2; subst h2; exact AllPossible.nil
        · unfold mqttTask at h3
          split at h3
          · exact mqttLoop_possible ‹_› h3
          · injection h3 with h3; injection h3 with _ h3; subst h3; exact AllPossible.nil

/-- **C67.** After the shipped `setup()`, for every behaviour of the hardware and every history of the main loop: messages go to the MQTT server
only from a client of the network, to the local broker and to TCP clients only with a network; without one, Bluetooth replies and the LED
are all there is. -/
theorem C67_only_with (p : Platform) (a : Answers) (core : S) (h : List (Tel K S × Main.Event K)) (s : Sys K S) (o : List Out)
    (hr : run ((setup shipped a).config p) h (boot ((setup shipped a).config p) core) = .ok (s, o)) :
    ∀ x ∈ o, match x with
      | .mqtt _ _ => (setup shipped a).clientMode = true
      | .broker _ _ | .tcp _ _ => (setup shipped a).clientMode = true ∨ (setup shipped a).apMode = true
      | .bluetooth _ | .pin _ => True := by
  have key : AllPossible ((setup shipped a).config p) o ∧ Alone ((setup shipped a).config p) s := by
    induction h using List.reverseRecOn generalizing s o with
    | nil => injection hr with hr; injection hr with hr ho; subst hr ho; exact ⟨AllPossible.nil, fun _ => rfl⟩
    | append_singleton h x ih =>
      obtain ⟨T, e⟩ := x
      obtain ⟨s1, o1, o2, h1, h2, rfl⟩ := run_snoc.1 hr
      obtain ⟨k1, k2⟩ := ih _ _ h1
      obtain ⟨k3, k4⟩ := step_possible (run_facts h (inv_boot _ core) h1).1 k2 h2
      exact ⟨k1.append k3, k4⟩
  obtain ⟨-, w1, w2, -⟩ := C67_switches shipped a
  intro x hx
  have hp := key.1 x hx
  cases x with
  | mqtt t b => exact (w1.1 hp).2
  | broker t b => exact (w2.1 hp).2
  | tcp c b => simpa [Possible, St.config] using hp
  | bluetooth b => trivial
  | pin b => trivial

/-- Everything answers: the configuration of the example of C65.  Only the access point: no MQTT server. -/
example (p : Platform) : (setup shipped ⟨fun _ => true, true, true, true, true, true⟩).config p = ⟨p, true, true, true, true⟩ ∧
    (setup shipped ⟨fun _ => false, true, true, true, true, true⟩).config p = ⟨p, true, false, true, true⟩ := ⟨rfl, rfl⟩

end Verif.Setup
