import Verif.Model.Link
import Verif.Props.MainProtocol
import Verif.Spec.MainDemo

/-!
# C68: the connection to the MQTT server
-/

namespace Verif.Link

open Main Printf

set_option linter.unusedSectionVars false

variable {K : Type} [Field K] [LinearOrder K] [IsStrictOrderedRing K] [FloorRing K] {S : Type}

/-! ### Specification -/

/-- The answer to a reset: `0` on the control topic. -/
def reply : Seen := .out (.mqtt "home/appliance/telescope/control" [48])

open Classical in
/-- The number of messages that ask for a reset. -/
noncomputable def resets (ms : List (List UInt8 × List UInt8)) : Nat := ms.countP fun m => IsReset m.1 m.2

/-- Messages others publish on the control topic in a history. -/
def requests : List (Tel K S × Event K) → List (List UInt8 × List UInt8)
  | [] => []
  | (_, .published topic payload) :: h => if topic = CONTROL_TOPIC then (topic, payload) :: requests h else requests h
  | _ :: h => requests h

/-- The connection is not lost in this history. -/
def Unbroken (h : List (Tel K S × Event K)) : Prop := ∀ x ∈ h, match x.2 with | .lost => False | _ => True

/-- The events of the device. -/
def deviceEvents : List (Tel K S × Event K) → List (Tel K S × Main.Event K)
  | [] => []
  | (T, .device e _ _) :: h => (T, e) :: deviceEvents h
  | _ :: h => deviceEvents h

/-- The outputs among what is seen. -/
def outputs : List Seen → List Out
  | [] => []
  | .out o :: l => o :: outputs l
  | .attempt :: l => outputs l

/-! ### Messages on the control topic -/

theorem echo_append (a b : List Out) : echo (a ++ b) = echo a ++ echo b := by simp [echo]

theorem echo_sendMqtt {cfg : Config} {topic : String} (ht : topic ≠ "home/appliance/telescope/control") {tx : List UInt8} {len : Nat}
    {o : List Out} (h : sendMqtt cfg topic tx len = .ok o) : echo o = [] := by
  unfold sendMqtt at h
  split at h
  · cases hb : readBytes tx len with
    | error e => rw [hb] at h; cases h
    | ok b => rw [hb] at h; injection h with h; subst h; simp [echo, ht]
  · injection h with h; subst h; rfl

theorem echo_sendBroker {cfg : Config} {topic : String} {tx : List UInt8} {o : List Out} (h : sendBroker cfg topic tx = .ok o) :
    echo o = [] := by
  unfold sendBroker at h
  split at h
  · cases hb : readCString tx with
    | error e => rw [hb] at h; cases h
    | ok b => rw [hb] at h; injection h with h; subst h; rfl
  · injection h with h; subst h; rfl

theorem echo_send {cfg : Config} {topic : String} (ht : topic ≠ "home/appliance/telescope/control") {tx : List UInt8} {len : Nat}
    {o : List Out} (h : send cfg topic tx len = .ok o) : echo o = [] := by
  unfold send at h
  obtain ⟨o1, h1, h⟩ := bind_eq_ok.1 h
  obtain ⟨o2, h2, h⟩ := bind_eq_ok.1 h
  injection h with h; subst h
  rw [echo_append, echo_sendMqtt ht h1, echo_sendBroker h2]; rfl

theorem echo_publish {cfg : Config} {topic : String} (ht : topic ≠ "home/appliance/telescope/control") {out tx tx' : List UInt8}
    {o : List Out} (h : publish cfg topic out tx = .ok (tx', o)) : echo o = [] := by
  unfold publish at h
  obtain ⟨⟨n, tx1⟩, h1, h⟩ := bind_eq_ok.1 h
  obtain ⟨o1, h2, h⟩ := bind_eq_ok.1 h
  injection h with h; injection h with _ h; subst h
  exact echo_send ht h2

theorem echo_publishAll {cfg : Config} {l : List (String × List UInt8)} (ht : ∀ x ∈ l, x.1 ≠ "home/appliance/telescope/control")
    {tx tx' : List UInt8} {o : List Out} (h : publishAll cfg l tx = .ok (tx', o)) : echo o = [] := by
  induction l generalizing tx tx' o with
  | nil => injection h with h; injection h with _ h; subst h; rfl
  | cons x l ih =>
    obtain ⟨topic, out⟩ := x
    unfold publishAll at h
    obtain ⟨⟨tx1, o1⟩, h1, h⟩ := bind_eq_ok.1 h
    obtain ⟨⟨tx2, o2⟩, h2, h⟩ := bind_eq_ok.1 h
    injection h with h; injection h with _ h; subst h
    rw [echo_append, echo_publish (ht _ (List.mem_cons_self ..)) h1, ih (fun x hx => ht x (List.mem_cons_of_mem _ hx)) h2]; rfl

theorem echo_publishVertices {cfg : Config} {topic : String} (ht : topic ≠ "home/appliance/telescope/control") {ps : List (K × K)}
    {tx tx' : List UInt8} {o : List Out} (h : publishVertices cfg topic ps tx = .ok (tx', o)) : echo o = [] := by
  unfold publishVertices at h
  obtain ⟨tx1, h1, h⟩ := bind_eq_ok.1 h
  obtain ⟨⟨len, tx2⟩, h2, h⟩ := bind_eq_ok.1 h
  obtain ⟨tx3, h3, h⟩ := bind_eq_ok.1 h
  obtain ⟨o1, h4, h⟩ := bind_eq_ok.1 h
  injection h with h; injection h with _ h; subst h
  exact echo_send ht h4

theorem echo_tcp {o : List Out} (h : ∀ x ∈ o, ∃ c b, x = Out.tcp c b) : echo o = [] := by
  induction o with
  | nil => rfl
  | cons x o ih =>
    obtain ⟨c, b, rfl⟩ := h x (List.mem_cons_self ..)
    exact ih fun y hy => h y (List.mem_cons_of_mem _ hy)

/-- The messages the callback is called with in this event. -/
def handled (cfg : Config) (s : Sys K S) : Main.Event K → List (List UInt8 × List UInt8)
  | .loop i => if cfg.mqtt && (runs s (.loop i) == some .t100ms) then i.messages else []
  | _ => []

theorem echo_task500 {cfg : Config} {T : Tel K S} {s0 s' : Sys K S} {i : In K} {o : List Out} (hi0 : Main.Inv s0)
    (h : task500 cfg T s0 i = .ok (s', o)) : echo o = [] := by
  simp only [task500] at h
  obtain ⟨s1, h1, h⟩ := bind_eq_ok.1 h
  obtain ⟨a1, a2, a3, a4, a5⟩ := pollGnss_facts h1
  split at h
  · unfold reportAll at h
    obtain ⟨lst, hl, h⟩ := bind_eq_ok.1 h
    obtain ⟨⟨ty, position⟩, hpos, h⟩ := bind_eq_ok.1 h
    obtain ⟨⟨s2, o1⟩, h2, h⟩ := bind_eq_ok.1 h
    obtain ⟨⟨tx1, o2⟩, h3, h⟩ := bind_eq_ok.1 h
    obtain ⟨⟨tx2, o3⟩, h4, h⟩ := bind_eq_ok.1 h
    obtain ⟨⟨tx3, o4⟩, h5, h⟩ := bind_eq_ok.1 h
    obtain ⟨m, hm, h⟩ := bind_eq_ok.1 h
    obtain ⟨⟨tx4, o5⟩, h6, h⟩ := bind_eq_ok.1 h
    injection h with h; injection h with h ho; subst h ho
    have p1 : echo o1 = [] := by
      obtain ⟨-, hout⟩ := sendPosition_facts (a1.2.2 hi0) h2
      rcases hout with rfl | ⟨c', tx, hc', -, -, -, rfl⟩ <;> rfl
    rw [echo_append, echo_append, echo_append, echo_append, p1, echo_publishAll (by simp [report]) h3,
      echo_publishVertices (by simp) h4, echo_publishVertices (by simp) h5, echo_publish (by simp) h6]
    rfl
  · injection h with h; injection h with h ho; subst h ho; rfl

theorem echo_task2s {cfg : Config} {s0 s' : Sys K S} {i : In K} {o : List Out}
    (h : task2s cfg s0 i = .ok (s', o)) : echo o = [] := by
  simp only [task2s] at h
  obtain ⟨tx1, h1, h⟩ := bind_eq_ok.1 h
  obtain ⟨tx2, h2, h⟩ := bind_eq_ok.1 h
  obtain ⟨rx1, h3, h⟩ := bind_eq_ok.1 h
  obtain ⟨rx2, h4, h⟩ := bind_eq_ok.1 h
  obtain ⟨⟨s1, o1⟩, h5, h⟩ := bind_eq_ok.1 h
  injection h with h; injection h with h ho; subst h ho
  unfold reportGnss at h5
  split at h5
  · obtain ⟨⟨n, tx3⟩, h6, h5⟩ := bind_eq_ok.1 h5
    obtain ⟨o2, h7, h5⟩ := bind_eq_ok.1 h5
    obtain ⟨o3, h8, h5⟩ := bind_eq_ok.1 h5
    have ho : o2 ++ o3 = o1 := (Prod.mk.inj (Except.ok.inj h5)).2
    subst ho
    have e2 := echo_sendMqtt (topic := "home/appliance/telescope/gnss") (by simp) h8
    rw [echo_append, echo_sendBroker h7, e2, List.append_nil]
  · injection h5 with h5; injection h5 with h5 ho; subst h5 ho; rfl

theorem echo_task100 {cfg : Config} {T : Tel K S} {s0 s' : Sys K S} {i : In K} {o : List Out} (hi0 : Main.Inv s0)
    (h : task100 cfg T s0 i = .ok (s', o)) :
    echo o = List.replicate (resets (if cfg.mqtt = true then i.messages else [])) (CONTROL_TOPIC, [48]) ∧
      (0 < resets (if cfg.mqtt = true then i.messages else []) → ∃ c, s'.scope.core = T.clear c) := by
  have zero : resets [] = 0 := rfl
  simp only [task100] at h
  obtain ⟨s1, h1, h⟩ := bind_eq_ok.1 h
  obtain ⟨⟨s2, o1⟩, h2, h⟩ := bind_eq_ok.1 h
  obtain ⟨⟨s3, o2⟩, h3, h⟩ := bind_eq_ok.1 h
  simp only [pure_ok] at h
  injection h with h; injection h with hs ho; subst ho
  have hsc : s'.scope = s3.scope := by subst hs; split <;> rfl
  obtain ⟨a1, a2, -⟩ := readSensors_same h1
  have i1 : Main.Inv s1 := a1.2.2 hi0
  have p1 : echo o1 = [] ∧ Main.Inv s2 := by
    unfold tcpTask at h2
    split at h2
    · rename_i c hc
      refine ⟨?_, by
        by_cases hd : i.tcp = .data []
        · exact ((tcpInput_facts i1 h2).1.1 hd).2.2 i1
        · exact ((tcpInput_facts i1 h2).1.2 hd).1⟩
      unfold tcpInput at h2
      obtain ⟨⟨r, rx⟩, h4, h2⟩ := bind_eq_ok.1 h2
      simp only at h2
      split at h2
      · obtain ⟨⟨n, tx, scope⟩, h5, h2⟩ := bind_eq_ok.1 h2
        simp only at h2
        split at h2
        · obtain ⟨bs, h6, h2⟩ := bind_eq_ok.1 h2
          injection h2 with h2; injection h2 with _ h2; subst h2; rfl
        · obtain ⟨s4, h6, h2⟩ := bind_eq_ok.1 h2
          injection h2 with h2; injection h2 with _ h2; subst h2; rfl
      · injection h2 with h2; injection h2 with _ h2; subst h2; rfl
    · injection h2 with h2; injection h2 with h2 h2'; subst h2 h2'; exact ⟨rfl, i1⟩
  obtain ⟨p1, i2⟩ := p1
  rw [echo_append, p1, List.nil_append]
  unfold mqttTask at h3
  by_cases hm : cfg.mqtt = true
  · rw [if_pos hm] at h3 ⊢
    have htx : s2.tx ≠ [] := by intro hc; have := i2.1; rw [hc] at this; simp at this
    obtain ⟨m1, m2⟩ := mqttLoop_core htx h3
    subst m2
    refine ⟨?_, fun hp => ?_⟩
    · unfold resets echo
      rw [List.filterMap_replicate]; simp
    · rw [hsc, m1]
      obtain ⟨n, hn⟩ : ∃ n, resets i.messages = n + 1 := ⟨_, (Nat.succ_pred_eq_of_pos hp).symm⟩
      unfold resets at hn
      simp only [hn]
      rw [Function.iterate_succ_apply']
      exact ⟨_, rfl⟩
  · rw [if_neg hm] at h3 ⊢
    injection h3 with h3; injection h3 with h3 h4; subst h3 h4
    exact ⟨rfl, by simp [zero]⟩

/-- One event of the firmware answers each reset it handles, and sends nothing else on the control topic. -/
theorem step_echo {cfg : Config} {T : Tel K S} {s s' : Sys K S} {e : Main.Event K} {o : List Out} (hi : Main.Inv s)
    (h : Main.step cfg T s e = .ok (s', o)) :
    echo o = List.replicate (resets (handled cfg s e)) (CONTROL_TOPIC, [48]) ∧
      (0 < resets (handled cfg s e) → ∃ c, s'.scope.core = T.clear c) := by
  have zero : resets [] = 0 := rfl
  cases e with
  | arrive c => injection h with h; injection h with h ho; subst h ho; exact ⟨rfl, by simp [handled, zero]⟩
  | gone c => injection h with h; injection h with h ho; subst h ho; exact ⟨rfl, by simp [handled, zero]⟩
  | bluetooth b =>
    simp only [handled, zero, lt_irrefl, false_imp_iff, and_true, List.replicate_zero]
    simp only [Main.step, onBluetoothData] at h
    obtain ⟨⟨n, tx, scope⟩, h1, h⟩ := bind_eq_ok.1 h
    simp only at h
    split at h
    · obtain ⟨bs, h2, h⟩ := bind_eq_ok.1 h
      injection h with h; injection h with h ho; subst h ho; rfl
    · injection h with h; injection h with h ho; subst h ho; rfl
  | loop i =>
    simp only [Main.step, loop] at h
    set s0 : Sys K S := { s with timers := (schedule s.timers i.now).2 } with hs0
    have hi0 : Main.Inv s0 := hi
    obtain ⟨k, ht⟩ : ∃ k, (schedule s.timers i.now).1 = k := ⟨_, rfl⟩
    rw [ht] at h
    simp only [handled, runs, ht]
    cases k with
    | none =>
      injection h with h; injection h with h ho; subst h ho
      simp [zero, echo]
    | some k =>
      cases k with
      | filter => obtain ⟨rfl, imu, rfl⟩ := taskFilter_facts h; simp [zero, echo]
      | t25ms =>
        simp only at h
        injection h with h
        have : o = (task25 s0 i).2 := by rw [h]
        subst this
        have hz : (some Task.t25ms == some Task.t100ms) = false := rfl
        simp only [hz, Bool.and_false, Bool.false_eq_true, if_false, zero, lt_irrefl, false_imp_iff, and_true, List.replicate_zero]
        unfold task25
        split <;> rfl
      | t1s => injection h with h; injection h with h ho; subst h ho; simp [zero, echo]
      | t30s => injection h with h; injection h with h ho; subst h ho; simp [zero, echo]
      | t500ms =>
        have hz : (some Task.t500ms == some Task.t100ms) = false := rfl
        simp only [hz, Bool.and_false, Bool.false_eq_true, if_false, zero, lt_irrefl, false_imp_iff, and_true, List.replicate_zero]
        exact echo_task500 hi0 h
      | t2s =>
        have hz : (some Task.t2s == some Task.t100ms) = false := rfl
        simp only [hz, Bool.and_false, Bool.false_eq_true, if_false, zero, lt_irrefl, false_imp_iff, and_true, List.replicate_zero]
        exact echo_task2s h
      | t100ms =>
        have hz : (some Task.t100ms == some Task.t100ms) = true := rfl
        simp only [hz, Bool.and_true]
        exact echo_task100 hi0 h

/-! ### One event -/

/-- What holds in every reachable state. -/
structure LInv (cfg : Config) (l : Dev K S) : Prop where
  sys : Main.Inv l.sys
  mqtt : l.connected = true → cfg.mqtt = true
  conn : l.subscribed = true → l.connected = true
  idle : l.connected = false → l.queue = []

theorem linv_boot (cfg : Config) (core : S) : LInv cfg (boot cfg core : Dev K S) :=
  ⟨inv_boot cfg core, by simp [boot], by simp [boot], fun _ => rfl⟩

theorem runs_withMessages (s : Sys K S) (e : Main.Event K) (ms : List (List UInt8 × List UInt8)) : runs s (withMessages e ms) = runs s e := by
  cases e <;> rfl

theorem handled_withMessages (cfg : Config) (s : Sys K S) (e : Main.Event K) (ms : List (List UInt8 × List UInt8)) :
    handled cfg s (withMessages e ms) = if cfg.mqtt && (runs s e == some .t100ms) then ms else [] := by
  cases e with
  | loop i => rfl
  | _ => simp [withMessages, handled, runs]

theorem resets_append (a b : List (List UInt8 × List UInt8)) : resets (a ++ b) = resets a + resets b := by simp [resets]

theorem resets_replies (n : Nat) : resets (List.replicate n (CONTROL_TOPIC, [48])) = 0 := by
  unfold resets
  rw [List.countP_replicate]
  simp [IsReset]

theorem resets_split (q : List (List UInt8 × List UInt8)) : resets (q.take 1) + resets q.tail = resets q := by
  cases q with
  | nil => rfl
  | cons m q => rw [List.take_succ_cons, List.take_zero, List.tail_cons, ← resets_append]; rfl

theorem count_control (o : List Out) (b : List UInt8) :
    o.count (.mqtt "home/appliance/telescope/control" b) = (echo o).count (CONTROL_TOPIC, b) := by
  induction o with
  | nil => rfl
  | cons x o ih =>
    rw [List.count_cons, ih]
    cases x with
    | mqtt t c =>
      by_cases ht : t = "home/appliance/telescope/control"
      · subst ht
        simp [echo, List.count_cons]
      · simp [echo, ht]
    | _ => simp [echo]

theorem count_reply (o : List Out) : (o.map Seen.out).count reply = (echo o).count (CONTROL_TOPIC, [48]) := by
  rw [← count_control]
  unfold reply
  rw [List.count_map_of_injective _ _ (fun a b h => by injection h)]

theorem deliver_true (o : List Out) : deliver true o = o := by
  unfold deliver
  rw [List.filter_eq_self]
  intro x _
  cases x <;> rfl

theorem echo_deliver_false (o : List Out) : echo (deliver false o) = [] := by
  induction o with
  | nil => rfl
  | cons x o ih => cases x <;> simpa [deliver, echo] using ih

/-- An event of the device. -/
theorem step_device {cfg : Config} {T : Tel K S} {l l' : Dev K S} {e : Main.Event K} {c b : Bool} {seen : List Seen}
    (h : step cfg T l (.device e c b) = .ok (l', seen)) :
    ∃ sys o, Main.step cfg T l.sys (withMessages e (received l)) = .ok (sys, o) ∧ l'.sys = sys ∧
      l'.queue = (if cfg.mqtt && (runs l.sys e == some .t100ms) && l.connected then l.queue.tail else l.queue) ++
        (if l.subscribed then echo (deliver l.connected o) else []) ∧
      ((cfg.mqtt = true ∧ runs l.sys e = some .t2s ∧ l.connected = false ∧ seen = (deliver l.connected o).map .out ++ [.attempt] ∧
          l'.connected = c ∧ l'.subscribed = if c then b else l.subscribed) ∨
        (¬ (cfg.mqtt = true ∧ runs l.sys e = some .t2s ∧ l.connected = false) ∧ seen = (deliver l.connected o).map .out ∧
          l'.connected = l.connected ∧ l'.subscribed = l.subscribed)) := by
  simp only [step] at h
  obtain ⟨⟨sys, o⟩, h1, h⟩ := bind_eq_ok.1 h
  refine ⟨sys, o, h1, ?_⟩
  simp only at h
  split at h
  · rename_i hc
    simp only [Bool.and_eq_true, beq_iff_eq, Bool.not_eq_true'] at hc
    obtain ⟨⟨hm, ht⟩, hn⟩ := hc
    have e := Prod.mk.inj (Except.ok.inj h)
    obtain ⟨e1, e2⟩ := e
    subst e1 e2
    unfold reconnect
    refine ⟨?_, ?_, Or.inl ⟨hm, ht, hn, rfl, ?_⟩⟩
    · split <;> rfl
    · cases c <;> cases l.subscribed <;> simp
    · cases c <;> simp [hn]
  · rename_i hc
    simp only [Bool.and_eq_true, beq_iff_eq, Bool.not_eq_true'] at hc
    obtain ⟨e1, e2⟩ := Prod.mk.inj (Except.ok.inj h)
    subst e1 e2
    refine ⟨rfl, ?_, Or.inr ⟨fun ⟨x, y, z⟩ => hc ⟨⟨x, y⟩, z⟩, rfl, rfl, rfl⟩⟩
    cases l.subscribed <;> simp

/-- The replies of one event of the device, and what remains to be handled. -/
theorem device_account {cfg : Config} {T : Tel K S} {l l' : Dev K S} {e : Main.Event K} {c b : Bool} {seen : List Seen} (hi : LInv cfg l)
    (h : step cfg T l (.device e c b) = .ok (l', seen)) :
    LInv cfg l' ∧ seen.count reply + resets l'.queue = resets l.queue ∧
      (0 < seen.count reply → runs l.sys e = some .t100ms ∧ ∃ c, l'.sys.scope.core = T.clear c) := by
  obtain ⟨sys, o, h1, rfl, hq, hl⟩ := step_device h
  obtain ⟨p1, p2⟩ := step_echo hi.sys h1
  rw [handled_withMessages] at p1 p2
  have hinv : Main.Inv l'.sys := (step_facts hi.sys h1).1
  have hcnt : seen.count reply = (echo (deliver l.connected o)).count (CONTROL_TOPIC, [48]) := by
    rw [← count_reply]
    rcases hl with ⟨-, -, -, rfl, -⟩ | ⟨-, rfl, -⟩
    · rw [List.count_append]; simp [reply]
    · rfl
  cases hcon : l.connected with
  | false =>
    have hz := hi.idle hcon
    have hs : l.subscribed = false := by
      cases hs : l.subscribed with
      | false => rfl
      | true => have := hi.conn hs; rw [hcon] at this; cases this
    rw [hcon] at hcnt hl
    rw [echo_deliver_false] at hcnt
    rw [hz, hs] at hq
    simp only [List.tail_nil, ite_self, Bool.false_eq_true, if_false, List.append_nil] at hq
    refine ⟨⟨hinv, ?_, ?_, fun _ => hq⟩, by rw [hcnt, hq, hz]; rfl, fun hp => absurd hp (by rw [hcnt]; simp)⟩
    · intro hc
      rcases hl with ⟨hm, -, -, -, -, -⟩ | ⟨-, -, hc', -⟩
      · exact hm
      · rw [hc'] at hc; cases hc
    · intro hsub
      rcases hl with ⟨-, -, -, -, e1, e2⟩ | ⟨-, -, hc', hs'⟩
      · rw [e2, hs] at hsub
        rw [e1]
        cases c <;> simp_all
      · rw [hs', hs] at hsub; cases hsub
  | true =>
    have hm := hi.mqtt hcon
    rw [hcon] at hcnt hl hq
    rw [deliver_true] at hcnt hq
    have hl' : l'.connected = true ∧ l'.subscribed = l.subscribed := by
      rcases hl with ⟨-, -, hc, -⟩ | ⟨-, -, e1, e2⟩
      · cases hc
      · exact ⟨e1, e2⟩
    simp only [received, hcon, if_true] at p1 p2
    simp only [hm, Bool.true_and, Bool.and_true] at p1 p2 hq
    refine ⟨⟨hinv, fun _ => hm, fun _ => hl'.1, fun hc => by rw [hl'.1] at hc; cases hc⟩, ?_, ?_⟩
    · rw [hcnt, p1, List.count_replicate_self, hq, resets_append]
      have : resets (if l.subscribed = true then echo o else []) = 0 := by
        split
        · rw [p1, resets_replies]
        · rfl
      rw [this]
      split
      · rw [Nat.add_zero]; exact resets_split _
      · simp [resets]
    · intro hp
      rw [hcnt, p1, List.count_replicate_self] at hp
      refine ⟨?_, p2 hp⟩
      by_contra hne
      rw [if_neg (by simpa using hne)] at hp
      simp [resets] at hp

theorem requests_cons (x : Tel K S × Event K) (h : List (Tel K S × Event K)) : requests (x :: h) = requests [x] ++ requests h := by
  obtain ⟨T, e⟩ := x
  cases e with
  | published t p => by_cases ht : t = CONTROL_TOPIC <;> simp [requests, ht]
  | _ => rfl

/-- One event, whatever it is. -/
theorem step_account {cfg : Config} {T : Tel K S} {l l' : Dev K S} {e : Event K} {seen : List Seen} (hi : LInv cfg l)
    (h : step cfg T l e = .ok (l', seen)) :
    LInv cfg l' ∧ seen.count reply + resets l'.queue ≤ resets l.queue + resets (requests [(T, e)]) ∧
      (e ≠ .lost → l.connected = true → l.subscribed = true → l'.connected = true ∧ l'.subscribed = true ∧
        seen.count reply + resets l'.queue = resets l.queue + resets (requests [(T, e)])) := by
  cases e with
  | lost =>
    injection h with h; injection h with h ho; subst h ho
    refine ⟨⟨hi.sys, by simp, by simp, fun _ => rfl⟩, by simp [resets], by simp⟩
  | published t p =>
    simp only [step] at h
    split at h
    · rename_i hc
      simp only [Bool.and_eq_true, beq_iff_eq] at hc
      obtain ⟨⟨h1, h2⟩, rfl⟩ := hc
      injection h with h; injection h with h ho; subst h ho
      have e : requests [((T, .published CONTROL_TOPIC p) : Tel K S × Event K)] = [(CONTROL_TOPIC, p)] := by simp [requests]
      rw [e, resets_append]
      refine ⟨⟨hi.sys, hi.mqtt, hi.conn, fun hc => by simp only at hc; rw [h1] at hc; cases hc⟩, by simp, fun _ _ _ => ⟨h1, h2, by simp⟩⟩
    · rename_i hc
      injection h with h; injection h with h ho; subst h ho
      refine ⟨hi, by simp, fun _ h1 h2 => ⟨h1, h2, ?_⟩⟩
      have ht : t ≠ CONTROL_TOPIC := by rintro rfl; simp [h1, h2] at hc
      simp [requests, ht, resets]
  | device e c b =>
    obtain ⟨d1, d2, -⟩ := device_account hi h
    have e0 : requests [((T, .device e c b) : Tel K S × Event K)] = [] := rfl
    have z : resets [] = 0 := rfl
    rw [e0, z]
    refine ⟨d1, by omega, fun _ h1 h2 => ?_⟩
    obtain ⟨sys, o, -, -, -, hl⟩ := step_device h
    rcases hl with ⟨-, -, hc, -⟩ | ⟨-, -, e1, e2⟩
    · rw [h1] at hc; cases hc
    · exact ⟨e1.trans h1, e2.trans h2, by omega⟩

theorem run_linv {cfg : Config} {h : List (Tel K S × Event K)} {l l' : Dev K S} {seen : List Seen} (hi : LInv cfg l)
    (hr : run cfg h l = .ok (l', seen)) :
    LInv cfg l' ∧ seen.count reply + resets l'.queue ≤ resets l.queue + resets (requests h) ∧
      (Unbroken h → l.connected = true → l.subscribed = true → l'.connected = true ∧ l'.subscribed = true ∧
        seen.count reply + resets l'.queue = resets l.queue + resets (requests h)) := by
  induction h generalizing l l' seen with
  | nil =>
    obtain ⟨rfl, rfl⟩ := Prod.mk.inj (Except.ok.inj hr)
    exact ⟨hi, by simp [resets, requests], fun _ a b => ⟨a, b, by simp [resets, requests]⟩⟩
  | cons x h ih =>
    obtain ⟨T, e⟩ := x
    simp only [run] at hr
    obtain ⟨⟨l1, o1⟩, h1, hr⟩ := bind_eq_ok.1 hr
    obtain ⟨⟨l2, o2⟩, h2, hr⟩ := bind_eq_ok.1 hr
    obtain ⟨rfl, rfl⟩ : l2 = l' ∧ o1 ++ o2 = seen := Prod.mk.inj (Except.ok.inj hr)
    obtain ⟨a1, a2, a3⟩ := step_account hi h1
    obtain ⟨b1, b2, b3⟩ := ih a1 h2
    rw [requests_cons, resets_append, List.count_append]
    refine ⟨b1, by omega, fun hu hc hs => ?_⟩
    have hne : e ≠ .lost := by
      rintro rfl
      exact hu (T, .lost) (List.mem_cons_self ..)
    obtain ⟨c1, c2, c3⟩ := a3 hne hc hs
    obtain ⟨d1, d2, d3⟩ := b3 (fun y hy => hu y (List.mem_cons_of_mem _ hy)) c1 c2
    exact ⟨d1, d2, by omega⟩

/-! ### Histories -/

/-- **C68.** No feedback: in every history since power-up the device has sent at most as many replies on the control topic as others have
asked for resets there - although it receives its own replies. -/
theorem C68_no_storm (cfg : Config) (core : S) (h : List (Tel K S × Event K)) (l : Dev K S) (seen : List Seen)
    (hr : run cfg h (boot cfg core) = .ok (l, seen)) : seen.count reply ≤ resets (requests h) := by
  have := (run_linv (linv_boot cfg core) hr).2.1
  have e : resets (boot cfg core : Dev K S).queue = 0 := rfl
  omega

/-- **C68.** Exactly one reply for each reset: as long as the connection stands, every message that asks for a reset is either answered or
still on its way. -/
theorem C68_each_once (cfg : Config) (core : S) (h : List (Tel K S × Event K)) (l : Dev K S) (seen : List Seen)
    (hr : run cfg h (boot cfg core) = .ok (l, seen)) (hc : l.connected = true) (hs : l.subscribed = true)
    (g : List (Tel K S × Event K)) (hu : Unbroken g) (l' : Dev K S) (seen' : List Seen) (hr' : run cfg g l = .ok (l', seen')) :
    l'.connected = true ∧ l'.subscribed = true ∧
      seen'.count reply + resets l'.queue = resets l.queue + resets (requests g) :=
  (run_linv (run_linv (linv_boot cfg core) hr).1 hr').2.2 hu hc hs

/-- How many times the 100 ms task runs. -/
def ticks (cfg : Config) : List (Tel K S × Event K) → Dev K S → Nat
  | [], _ => 0
  | (T, e) :: h, l =>
    (match e with
      | .device e _ _ => if runs l.sys e = some .t100ms then 1 else 0
      | _ => 0) +
    match step cfg T l e with
    | .ok (l', _) => ticks cfg h l'
    | .error _ => 0

/-- **C68.** In order, one per 100 ms: a reset with `k` messages before it is carried out by the time the 100 ms task has run `k + 1` times
(if the connection stands until then): there is an event that clears the alignment and sends the reply. -/
theorem C68_in_order (cfg : Config) (core : S) (h : List (Tel K S × Event K)) (l : Dev K S) (seen : List Seen)
    (hr : run cfg h (boot cfg core) = .ok (l, seen)) (hc : l.connected = true) (hs : l.subscribed = true)
    (before after : List (List UInt8 × List UInt8)) (m : List UInt8 × List UInt8) (hm : IsReset m.1 m.2) (hq : l.queue = before ++ m :: after)
    (g : List (Tel K S × Event K)) (hu : Unbroken g) (l' : Dev K S) (seen' : List Seen) (hr' : run cfg g l = .ok (l', seen'))
    (ht : before.length < ticks cfg g l) :
    ∃ g1 T e c b g2 l1 l2 s1 s2, g = g1 ++ (T, .device e c b) :: g2 ∧ run cfg g1 l = .ok (l1, s1) ∧
      step cfg T l1 (.device e c b) = .ok (l2, s2) ∧ ticks cfg g1 l = before.length ∧
      reply ∈ s2 ∧ ∃ t, l2.sys.scope.core = T.clear t := by
  have hi : LInv cfg l := (run_linv (linv_boot cfg core) hr).1
  clear hr
  induction g generalizing l before after seen' with
  | nil => simp [ticks] at ht
  | cons x g ih =>
    obtain ⟨T, e⟩ := x
    simp only [run] at hr'
    obtain ⟨⟨l1, o1⟩, h1, hr'⟩ := bind_eq_ok.1 hr'
    obtain ⟨⟨l2, o2⟩, h2, hr'⟩ := bind_eq_ok.1 hr'
    obtain ⟨rfl, rfl⟩ : l2 = l' ∧ o1 ++ o2 = seen' := Prod.mk.inj (Except.ok.inj hr')
    have hne : e ≠ .lost := by
      rintro rfl
      exact hu (T, .lost) (List.mem_cons_self ..)
    obtain ⟨a1, -, a3⟩ := step_account hi h1
    obtain ⟨c1, c2, -⟩ := a3 hne hc hs
    have hu' : Unbroken g := fun y hy => hu y (List.mem_cons_of_mem _ hy)
    simp only [ticks, h1] at ht
    -- continue with the rest of the history
    have go : ∀ before' after', l1.queue = before' ++ m :: after' →
        ticks cfg [(T, e)] l + before'.length = before.length → before'.length < ticks cfg g l1 →
        ∃ g1 T' e' c b g2 l3 l4 s1 s2, (T, e) :: g = g1 ++ (T', .device e' c b) :: g2 ∧ run cfg g1 l = .ok (l3, s1) ∧
          step cfg T' l3 (.device e' c b) = .ok (l4, s2) ∧ ticks cfg g1 l = before.length ∧
          reply ∈ s2 ∧ ∃ t, l4.sys.scope.core = T'.clear t := by
      intro before' after' hq' htick hlt
      obtain ⟨g1, T', e', c, b, g2, l3, l4, s1, s2, p1, p2, p3, p4, p5, p6⟩ := ih l1 c1 c2 before' after' hq' hu' _ h2 hlt a1
      refine ⟨(T, e) :: g1, T', e', c, b, g2, l3, l4, o1 ++ s1, s2, by rw [p1]; rfl, ?_, p3, ?_, p5, p6⟩
      · simp only [run, h1, bind_ok, p2, pure_ok]
      · simp only [ticks, h1] at htick ⊢; omega
    cases e with
    | lost => exact absurd rfl hne
    | published t p =>
      simp only [step] at h1
      simp only [Nat.zero_add] at ht
      split at h1
      · obtain ⟨rfl, rfl⟩ := Prod.mk.inj (Except.ok.inj h1)
        exact go before (after ++ [(t, p)]) (by simp [hq]) (by simp [ticks, step]; split <;> simp) ht
      · obtain ⟨rfl, rfl⟩ := Prod.mk.inj (Except.ok.inj h1)
        exact go before after hq (by simp [ticks, step]; split <;> simp) ht
    | device e c b =>
      obtain ⟨sys, o, d1, d2, d3, -⟩ := step_device h1
      have hmq := hi.mqtt hc
      simp only [hmq, hc, Bool.true_and, Bool.and_true, hs, if_true, hq] at d3
      by_cases hr100 : runs l.sys e = some .t100ms
      · simp only [hr100, if_true] at ht
        rw [if_pos (by simp [hr100])] at d3
        cases before with
        | cons m0 before =>
          refine go before (after ++ echo (deliver true o)) (by rw [d3]; simp) ?_ (by simp only [List.length_cons] at ht; omega)
          simp only [ticks, h1, hr100, if_true, List.length_cons]; omega
        | nil =>
          refine ⟨[], T, e, c, b, g, l, l1, [], o1, rfl, rfl, h1, rfl, ?_⟩
          obtain ⟨-, f2, f3⟩ := device_account hi h1
          have hpos : 0 < o1.count reply := by
            obtain ⟨p1, -⟩ := step_echo hi.sys d1
            have hz : resets l1.queue = resets after := by
              rw [d3, deliver_true, resets_append, p1, resets_replies]; simp
            have : resets l.queue = 1 + resets after := by
              rw [hq, List.nil_append]
              unfold resets
              rw [List.countP_cons_of_pos (by simpa using hm)]; omega
            omega
          exact ⟨List.count_pos_iff.1 hpos, (f3 hpos).2⟩
      · simp only [hr100, if_false, Nat.zero_add] at ht
        rw [if_neg (by simpa using hr100)] at d3
        refine go before (after ++ echo (deliver true o)) (by rw [d3]; simp) ?_ ht
        simp only [ticks, h1, hr100, if_false]; omega

/-- Nothing is on its way to a device that has not subscribed. -/
def Quiet (l : Dev K S) : Prop := l.subscribed = false → l.queue = []

theorem step_quiet {cfg : Config} {T : Tel K S} {l l' : Dev K S} {e : Event K} {seen : List Seen} (hi : LInv cfg l) (hq : Quiet l)
    (h : step cfg T l e = .ok (l', seen)) : Quiet l' := by
  cases e with
  | lost => obtain ⟨rfl, rfl⟩ := Prod.mk.inj (Except.ok.inj h); exact fun _ => rfl
  | published t p =>
    simp only [step] at h
    split at h
    · rename_i hc
      obtain ⟨rfl, rfl⟩ := Prod.mk.inj (Except.ok.inj h)
      simp only [Bool.and_eq_true] at hc
      intro hs; simp only at hs; rw [hc.1.2] at hs; cases hs
    · obtain ⟨rfl, rfl⟩ := Prod.mk.inj (Except.ok.inj h); exact hq
  | device e c b =>
    obtain ⟨sys, o, -, -, h3, hl⟩ := step_device h
    intro hs
    have key : l.subscribed = false := by
      rcases hl with ⟨-, -, hc, -, e1, e2⟩ | ⟨-, -, -, e2⟩
      · cases hl : l.subscribed with
        | false => rfl
        | true => have := hi.conn hl; rw [hc] at this; cases this
      · rw [← e2]; exact hs
    rw [h3, hq key, key]
    simp

theorem run_quiet {cfg : Config} {h : List (Tel K S × Event K)} {l l' : Dev K S} {seen : List Seen} (hi : LInv cfg l) (hq : Quiet l)
    (hr : run cfg h l = .ok (l', seen)) : Quiet l' := by
  induction h generalizing l l' seen with
  | nil => obtain ⟨rfl, rfl⟩ := Prod.mk.inj (Except.ok.inj hr); exact hq
  | cons x h ih =>
    obtain ⟨T, e⟩ := x
    simp only [run] at hr
    obtain ⟨⟨l1, o1⟩, h1, hr⟩ := bind_eq_ok.1 hr
    obtain ⟨⟨l2, o2⟩, h2, hr⟩ := bind_eq_ok.1 hr
    obtain ⟨rfl, rfl⟩ : l2 = l' ∧ o1 ++ o2 = seen := Prod.mk.inj (Except.ok.inj hr)
    exact ih (step_account hi h1).1 (step_quiet hi hq h1) h2

/-- **C68.** The device tries to connect exactly in the 2 s task while it is not connected; the attempt succeeds if the server accepts it, and
only then the subscription is asked for. -/
theorem C68_attempt (cfg : Config) (core : S) (h : List (Tel K S × Event K)) (l : Dev K S) (seen : List Seen)
    (hr : run cfg h (boot cfg core) = .ok (l, seen)) (T : Tel K S) (e : Event K) (l' : Dev K S) (seen' : List Seen)
    (hs : step cfg T l e = .ok (l', seen')) :
    (Seen.attempt ∈ seen' ↔ cfg.mqtt = true ∧ l.connected = false ∧ ∃ d c b, e = .device d c b ∧ runs l.sys d = some .t2s) ∧
    (l.connected = false → l'.connected = true → ∃ d b, e = .device d true b ∧ Seen.attempt ∈ seen' ∧ l'.subscribed = b) ∧
    (l.connected = true → l'.connected = false → e = .lost) := by
  have hi := (run_linv (linv_boot cfg core) hr).1
  have noatt : ∀ o : List Out, Seen.attempt ∉ o.map Seen.out := by simp
  cases e with
  | lost =>
    obtain ⟨rfl, rfl⟩ := Prod.mk.inj (Except.ok.inj hs)
    simp
  | published t p =>
    have : l'.connected = l.connected ∧ seen' = [] := by
      simp only [step] at hs
      split at hs <;> (obtain ⟨rfl, rfl⟩ := Prod.mk.inj (Except.ok.inj hs); exact ⟨rfl, rfl⟩)
    obtain ⟨e1, rfl⟩ := this
    rw [e1]
    refine ⟨⟨fun h => by simp at h, by rintro ⟨-, -, d, c, b, h, -⟩; cases h⟩, fun a b => (by rw [a] at b; cases b), fun a b => (by rw [a] at b; cases b)⟩
  | device d c b =>
    obtain ⟨sys, o, -, -, -, hl⟩ := step_device hs
    rcases hl with ⟨hm, ht, hc, rfl, e1, e2⟩ | ⟨hn, rfl, e1, e2⟩
    · refine ⟨⟨fun _ => ⟨hm, hc, d, c, b, rfl, ht⟩, fun _ => by simp⟩, fun _ h' => ?_, fun h' => by rw [hc] at h'; cases h'⟩
      rw [e1] at h'
      subst h'
      exact ⟨d, b, rfl, by simp, by rw [e2]; rfl⟩
    · refine ⟨⟨fun ha => absurd ha (noatt _), ?_⟩, fun a b => ?_, fun a b => ?_⟩
      · rintro ⟨hm, hc, d', c', b', he, ht⟩
        injection he with he; subst he
        exact absurd ⟨hm, ht, hc⟩ hn
      · rw [e1, a] at b; cases b
      · rw [e1, a] at b; cases b

/-- The server accepts every connection and subscription in this history. -/
def Accepting (h : List (Tel K S × Event K)) : Prop := ∀ x ∈ h, match x.2 with | .device _ c b => c = true ∧ b = true | _ => True

/-- **C68.** The connection comes back: if the server accepts and the connection is not lost again, the first 2 s task connects the device and
subscribes the control topic. -/
theorem C68_comes_back (cfg : Config) (hm : cfg.mqtt = true) (core : S) (h : List (Tel K S × Event K)) (l : Dev K S) (seen : List Seen)
    (hr : run cfg h (boot cfg core) = .ok (l, seen)) (hc : l.connected = false)
    (g : List (Tel K S × Event K)) (hu : Unbroken g) (ha : Accepting g) (l' : Dev K S) (seen' : List Seen) (hr' : run cfg g l = .ok (l', seen'))
    (ht : ∃ g1 T e c b g2 l1 s1, g = g1 ++ (T, .device e c b) :: g2 ∧ run cfg g1 l = .ok (l1, s1) ∧ runs l1.sys e = some .t2s) :
    l'.connected = true ∧ l'.subscribed = true := by
  have hi := (run_linv (linv_boot cfg core) hr).1
  clear hr
  obtain ⟨g1, T, e, c, b, g2, l1, s1, rfl, h1, ht⟩ := ht
  induction g1 generalizing l seen' s1 with
  | nil =>
    obtain ⟨rfl, rfl⟩ := Prod.mk.inj (Except.ok.inj h1)
    simp only [List.nil_append, run] at hr'
    obtain ⟨⟨l2, o2⟩, h2, hr'⟩ := bind_eq_ok.1 hr'
    obtain ⟨⟨l3, o3⟩, h3, hr'⟩ := bind_eq_ok.1 hr'
    obtain ⟨rfl, rfl⟩ : l3 = l' ∧ o2 ++ o3 = seen' := Prod.mk.inj (Except.ok.inj hr')
    obtain ⟨rfl, rfl⟩ : c = true ∧ b = true := ha (T, .device e c b) (List.mem_cons_self ..)
    obtain ⟨sys, o, -, -, -, hl⟩ := step_device h2
    rcases hl with ⟨-, -, -, -, e1, e2⟩ | ⟨hn, -⟩
    · obtain ⟨k1, k2, -⟩ := (run_linv (step_account hi h2).1 h3).2.2 (fun y hy => hu y (List.mem_cons_of_mem _ hy)) e1 (by rw [e2]; rfl)
      exact ⟨k1, k2⟩
    · exact absurd ⟨hm, ht, hc⟩ hn
  | cons x g1 ih =>
    obtain ⟨T', e'⟩ := x
    simp only [List.cons_append, run] at hr'
    obtain ⟨⟨l2, o2⟩, h2, hr'⟩ := bind_eq_ok.1 hr'
    obtain ⟨⟨l3, o3⟩, h3, hr'⟩ := bind_eq_ok.1 hr'
    obtain ⟨rfl, rfl⟩ : l3 = l' ∧ o2 ++ o3 = seen' := Prod.mk.inj (Except.ok.inj hr')
    simp only [run, h2, bind_ok] at h1
    obtain ⟨⟨l4, o4⟩, h4, h1⟩ := bind_eq_ok.1 h1
    obtain ⟨rfl, rfl⟩ : l4 = l1 ∧ o2 ++ o4 = s1 := Prod.mk.inj (Except.ok.inj h1)
    have hi2 := (step_account hi h2).1
    have hu2 : Unbroken (g1 ++ (T, .device e c b) :: g2) := fun y hy => hu y (List.mem_cons_of_mem _ hy)
    have ha2 : Accepting (g1 ++ (T, .device e c b) :: g2) := fun y hy => ha y (List.mem_cons_of_mem _ hy)
    cases hc2 : l2.connected with
    | false => exact ih l2 hc2 _ hi2 _ hu2 ha2 h3 h4
    | true =>
      -- connected by an earlier 2 s task
      have hsub : l2.subscribed = true := by
        cases e' with
        | lost => exact absurd (hu (T', .lost) (List.mem_cons_self ..)) (by simp)
        | published t p =>
          simp only [step] at h2
          split at h2 <;> (obtain ⟨rfl, rfl⟩ := Prod.mk.inj (Except.ok.inj h2); exact absurd (hc.symm.trans hc2) (by simp))
        | device d c' b' =>
          obtain ⟨rfl, rfl⟩ : c' = true ∧ b' = true := ha (T', .device d c' b') (List.mem_cons_self ..)
          obtain ⟨sys, o, -, -, -, hl⟩ := step_device h2
          rcases hl with ⟨-, -, -, -, e1, e2⟩ | ⟨hn, -, e1, -⟩
          · rw [e2]; rfl
          · rw [e1, hc] at hc2; cases hc2
      obtain ⟨k1, k2, -⟩ := (run_linv hi2 h3).2.2 hu2 hc2 hsub
      exact ⟨k1, k2⟩

/-- **C68.** Nothing asks again for a failed subscription: a device that is connected without being subscribed stays so, and no reset reaches
it, until the connection is lost. -/
theorem C68_deaf (cfg : Config) (core : S) (h : List (Tel K S × Event K)) (l : Dev K S) (seen : List Seen)
    (hr : run cfg h (boot cfg core) = .ok (l, seen)) (hc : l.connected = true) (hs : l.subscribed = false)
    (g : List (Tel K S × Event K)) (hu : Unbroken g) (l' : Dev K S) (seen' : List Seen) (hr' : run cfg g l = .ok (l', seen')) :
    l'.connected = true ∧ l'.subscribed = false ∧ reply ∉ seen' ∧ Seen.attempt ∉ seen' := by
  have hi := (run_linv (linv_boot cfg core) hr).1
  have hq : Quiet l := run_quiet (linv_boot cfg core) (fun _ => rfl) hr
  clear hr
  induction g generalizing l seen' with
  | nil => obtain ⟨rfl, rfl⟩ := Prod.mk.inj (Except.ok.inj hr'); exact ⟨hc, hs, by simp, by simp⟩
  | cons x g ih =>
    obtain ⟨T, e⟩ := x
    simp only [run] at hr'
    obtain ⟨⟨l1, o1⟩, h1, hr'⟩ := bind_eq_ok.1 hr'
    obtain ⟨⟨l2, o2⟩, h2, hr'⟩ := bind_eq_ok.1 hr'
    obtain ⟨rfl, rfl⟩ : l2 = l' ∧ o1 ++ o2 = seen' := Prod.mk.inj (Except.ok.inj hr')
    have key : l1.connected = true ∧ l1.subscribed = false ∧ reply ∉ o1 ∧ Seen.attempt ∉ o1 := by
      cases e with
      | lost => exact absurd (hu (T, .lost) (List.mem_cons_self ..)) (by simp)
      | published t p =>
        simp only [step, hs, Bool.and_false, Bool.false_and, Bool.false_eq_true, if_false] at h1
        obtain ⟨rfl, rfl⟩ := Prod.mk.inj (Except.ok.inj h1)
        exact ⟨hc, hs, by simp, by simp⟩
      | device d c b =>
        obtain ⟨-, d2, -⟩ := device_account hi h1
        obtain ⟨sys, o, -, -, -, hl⟩ := step_device h1
        have hz : resets l.queue = 0 := by rw [hq hs]; rfl
        have hn : reply ∉ o1 := by
          rw [← List.count_eq_zero]; omega
        rcases hl with ⟨-, -, hc', -⟩ | ⟨-, rfl, e1, e2⟩
        · rw [hc] at hc'; cases hc'
        · exact ⟨e1.trans hc, e2.trans hs, hn, by simp⟩
    obtain ⟨k1, k2, k3, k4⟩ := key
    obtain ⟨j1, j2, j3, j4⟩ := ih l1 k1 k2 (fun y hy => hu y (List.mem_cons_of_mem _ hy)) _ h2 (step_account hi h1).1 (step_quiet hi hq h1)
    exact ⟨j1, j2, by simp [k3, j3], by simp [k4, j4]⟩

/-- An event without its messages. -/
def strip (x : Tel K S × Main.Event K) : Tel K S × Main.Event K := (x.1, withMessages x.2 [])

/-- **C68.** The connection changes nothing else: every history with it is a history of the firmware (`Model/Main.lean`) with the same device
events, up to the messages they receive, and shows no other outputs. -/
theorem C68_refines (cfg : Config) (h : List (Tel K S × Event K)) (l l' : Dev K S) (seen : List Seen)
    (hr : run cfg h l = .ok (l', seen)) :
    ∃ g o, Main.run cfg g l.sys = .ok (l'.sys, o) ∧ g.map strip = (deviceEvents h).map strip ∧ (outputs seen).Sublist o := by
  have out_map : ∀ o : List Out, outputs (o.map .out) = o := by
    intro o; induction o with
    | nil => rfl
    | cons x o ih => simp [outputs, ih]
  have out_app : ∀ a b : List Seen, outputs (a ++ b) = outputs a ++ outputs b := by
    intro a b; induction a with
    | nil => rfl
    | cons x a ih => cases x <;> simp [outputs, ih]
  induction h generalizing l seen with
  | nil => obtain ⟨rfl, rfl⟩ := Prod.mk.inj (Except.ok.inj hr); exact ⟨[], [], rfl, rfl, List.Sublist.refl _⟩
  | cons x h ih =>
    obtain ⟨T, e⟩ := x
    simp only [run] at hr
    obtain ⟨⟨l1, o1⟩, h1, hr⟩ := bind_eq_ok.1 hr
    obtain ⟨⟨l2, o2⟩, h2, hr⟩ := bind_eq_ok.1 hr
    obtain ⟨rfl, rfl⟩ : l2 = l' ∧ o1 ++ o2 = seen := Prod.mk.inj (Except.ok.inj hr)
    obtain ⟨g, o, k1, k2, k3⟩ := ih l1 _ h2
    cases e with
    | lost => obtain ⟨rfl, rfl⟩ := Prod.mk.inj (Except.ok.inj h1); exact ⟨g, o, k1, k2, k3⟩
    | published t p =>
      have : l1.sys = l.sys ∧ o1 = [] := by
        simp only [step] at h1
        split at h1 <;> (obtain ⟨rfl, rfl⟩ := Prod.mk.inj (Except.ok.inj h1); exact ⟨rfl, rfl⟩)
      obtain ⟨e1, rfl⟩ := this
      exact ⟨g, o, e1 ▸ k1, k2, k3⟩
    | device e c b =>
      obtain ⟨sys, o', d1, rfl, -, hl⟩ := step_device h1
      refine ⟨(T, withMessages e (received l)) :: g, o' ++ o, ?_, ?_, ?_⟩
      · simp only [Main.run, d1, bind_ok, k1, pure_ok]
      · simp only [List.map_cons, deviceEvents, k2]
        congr 1
        unfold strip
        cases e <;> rfl
      · rw [out_app]
        refine List.Sublist.append ?_ k3
        have : outputs o1 = deliver l.connected o' := by
          rcases hl with ⟨-, -, -, rfl, -⟩ | ⟨-, rfl, -⟩
          · rw [out_app, out_map]; simp [outputs]
          · exact out_map _
        rw [this]
        exact List.filter_sublist

/-! ### Examples -/

/-- A call of `loop()` (server accepting). -/
def Demo.call (now : UInt32) : Tel ℚ (List (Equatorial ℚ)) × Event ℚ := (Main.Demo.tel, .device (Main.Demo.at' now).2 true true)

/-- No sensor; MQTT. -/
def Demo.cfg : Config := ⟨.esp32, false, true, false, true⟩

/-- Power-up, the tasks run one after the other, the sixth is the 2 s task. -/
def Demo.up : List (Tel ℚ (List (Equatorial ℚ)) × Event ℚ) := List.replicate 6 (Demo.call 3000000)

/-- Someone asks for a reset; three tasks later the 100 ms task has carried it out. -/
def Demo.reset : List (Tel ℚ (List (Equatorial ℚ)) × Event ℚ) :=
  (Main.Demo.tel, .published CONTROL_TOPIC [49]) :: List.replicate 3 (Demo.call 3110000)

example : (run Demo.cfg Demo.up (boot Demo.cfg [])).map (fun r => (r.1.connected, r.1.subscribed, r.2)) =
    .ok (true, true, [.attempt]) := by decide +kernel

/-- The reply comes back and is ignored by the next 100 ms task. -/
example : (run Demo.cfg (Demo.up ++ Demo.reset ++ List.replicate 3 (Demo.call 3220000)) (boot Demo.cfg [])).map
    (fun r => (r.1.queue, r.2)) =
    .ok ([], [.attempt, .out (.pin true), reply, .out (.pin true)]) := by decide +kernel

example : IsReset CONTROL_TOPIC [49] := ⟨⟨[], rfl⟩, List.infix_refl _⟩

example : ticks Demo.cfg (Demo.reset ++ List.replicate 3 (Demo.call 3220000))
    ⟨{ Main.boot Demo.cfg [] with timers := fun _ => 3000000 }, true, true, []⟩ = 2 := by decide +kernel

/-- Lost and connected again. -/
example : (run Demo.cfg (Demo.up ++ [(Main.Demo.tel, .lost)] ++ List.replicate 6 (Demo.call 6000000)) (boot Demo.cfg [])).map
    (fun r => (r.1.connected, r.1.subscribed)) = .ok (true, true) := by decide +kernel

end Verif.Link
