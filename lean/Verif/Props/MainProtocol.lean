import Verif.Props.Main

/-!
# C50, C52: what the firmware does with TCP data and MQTT messages
-/

set_option linter.unusedSectionVars false

namespace Verif.Main
open Printf Net Imu Spec Spec.NexStar NexStar

variable {K : Type} [Field K] [LinearOrder K] [IsStrictOrderedRing K] [FloorRing K] {S : Type}

/-! ### C52 -/

theorem findSub_none (pat : List UInt8) : ∀ s : List UInt8, (findSub pat s).isNone = true ↔ ¬ pat <:+: s
  | [] => by
    unfold findSub
    cases pat <;> simp
  | b :: t => by
    unfold findSub
    have ih := findSub_none pat t
    rw [List.infix_cons_iff, not_or, ← ih]
    split
    · rename_i h
      rw [List.isPrefixOf_iff_prefix] at h
      simp [h]
    · rename_i h
      rw [List.isPrefixOf_iff_prefix] at h
      simp [h]

/-- The message asks for a reset: a non-empty payload starting with `1`, the topic contains the control topic. -/
def IsReset (topic payload : List UInt8) : Prop :=
  (∃ rest, payload = 49 :: rest) ∧ ascii "home/appliance/telescope/control" <:+: topic

/-- **C52** A message that asks for a reset clears the alignment, changes nothing else of the telescope, and is acknowledged by `0` on
the control topic; only the transmit buffer is used. -/
theorem C52_reset (T : Tel K S) (s : Sys K S) (htx : s.tx ≠ []) (topic payload : List UInt8) (h : IsReset topic payload) :
    ∃ tx, mqttCallback T s topic payload =
      .ok ({ s with tx, scope := ⟨T.clear s.scope.core, s.scope.isCalibrated⟩ }, [.mqtt "home/appliance/telescope/control" [48]]) := by
  obtain ⟨⟨rest, rfl⟩, ht⟩ := h
  unfold mqttCallback
  rw [if_neg (by simp), if_neg (by rw [findSub_none]; exact not_not_intro ht)]
  cases htx' : s.tx with
  | nil => exact absurd htx' htx
  | cons a t =>
    have e1 : readByte (49 :: rest) 0 = .ok 49 := rfl
    rw [e1, bind_ok, if_pos rfl]
    refine ⟨48 :: t, ?_⟩
    have e2 : storeByte (a :: t) 0 48 = .ok (48 :: t) := by unfold storeByte; simp
    have e3 : readBytes (48 :: t) 1 = .ok [48] := by unfold readBytes; simp
    simp only [e2, bind_ok, e3, pure_ok]

/-- **C52** Every other message changes nothing and sends nothing. -/
theorem C52_ignored (T : Tel K S) (s : Sys K S) (topic payload : List UInt8) (h : ¬ IsReset topic payload) :
    mqttCallback T s topic payload = .ok (s, []) := by
  unfold mqttCallback
  cases payload with
  | nil => simp
  | cons p rest =>
    rw [if_neg (by simp)]
    split
    · rfl
    · rename_i ht
      rw [findSub_none, not_not] at ht
      have e1 : readByte (p :: rest) 0 = .ok p := rfl
      rw [e1, bind_ok]
      have : p ≠ 49 := by rintro rfl; exact h ⟨⟨rest, rfl⟩, ht⟩
      rw [if_neg this]; rfl

/-- **C52** The acknowledgement, which the broker delivers back (the firmware is subscribed to the topic it publishes to), is ignored. -/
theorem C52_no_feedback (T : Tel K S) (s : Sys K S) : mqttCallback T s CONTROL_TOPIC [48] = .ok (s, []) := by
  apply C52_ignored
  rintro ⟨⟨rest, h⟩, -⟩
  injection h with h; exact absurd h (by decide)

open Classical in
theorem mqttLoop_core {T : Tel K S} {ms : List (List UInt8 × List UInt8)} {s s' : Sys K S} {o : List Out} (htx : s.tx ≠ [])
    (h : mqttLoop T ms s = .ok (s', o)) :
    s'.scope = ⟨(T.clear)^[ms.countP fun m => IsReset m.1 m.2] s.scope.core, s.scope.isCalibrated⟩ ∧
      o = List.replicate (ms.countP fun m => IsReset m.1 m.2) (.mqtt "home/appliance/telescope/control" [48]) := by
  induction ms generalizing s s' o with
  | nil => injection h with h; injection h with h h'; subst h h'; exact ⟨rfl, rfl⟩
  | cons m ms ih =>
    obtain ⟨topic, payload⟩ := m
    unfold mqttLoop at h
    by_cases hm : IsReset topic payload
    · obtain ⟨tx, e⟩ := C52_reset T s htx topic payload hm
      have hl : tx ≠ [] := by
        intro hc
        unfold mqttCallback at e
        obtain ⟨⟨rest, rfl⟩, ht⟩ := hm
        rw [if_neg (by simp), if_neg (by rw [findSub_none]; exact not_not_intro ht)] at e
        obtain ⟨p, hp, e⟩ := bind_eq_ok.1 e
        injection hp with hp; subst hp
        rw [if_pos rfl] at e
        obtain ⟨tx', ht', e⟩ := bind_eq_ok.1 e
        obtain ⟨b, hb, e⟩ := bind_eq_ok.1 e
        injection e with e; injection e with e _
        have : tx' = tx := congrArg Sys.tx e
        rw [this] at ht'
        have := storeByte_length ht'
        rw [hc] at this
        exact htx (List.length_eq_zero_iff.1 this.symm)
      rw [e, bind_ok] at h
      obtain ⟨⟨s2, o2⟩, h2, h⟩ := bind_eq_ok.1 h
      injection h with h; injection h with h h'; subst h h'
      obtain ⟨a, b⟩ := ih (s := { s with tx, scope := ⟨T.clear s.scope.core, s.scope.isCalibrated⟩ }) hl h2
      rw [List.countP_cons_of_pos (by simpa using hm)]
      refine ⟨?_, ?_⟩
      · rw [a, Function.iterate_succ_apply]
      · rw [b, List.replicate_succ]; rfl
    · rw [C52_ignored T s topic payload hm, bind_ok] at h
      obtain ⟨⟨s2, o2⟩, h2, h⟩ := bind_eq_ok.1 h
      injection h with h; injection h with h h'; subst h h'
      obtain ⟨a, b⟩ := ih htx h2
      rw [List.countP_cons_of_neg (by simpa using hm)]
      exact ⟨a, b⟩

open Classical in
/-- **C52** In the running firmware: a run of the 100 ms task (without TCP data) resets the alignment exactly once for every message that
asks for it if MQTT is available, and never otherwise. -/
theorem C52_step (cfg : Config) (core : S) (h : List (Tel K S × Event K)) (s : Sys K S) (o : List Out)
    (hr : run cfg h (boot cfg core) = .ok (s, o)) (T : Tel K S) (i : In K) (s' : Sys K S) (o' : List Out)
    (hs : step cfg T s (.loop i) = .ok (s', o')) (ht : taskOf s (.loop i) = some .t100ms) (hd : i.tcp = .data []) :
    let n := if cfg.mqtt then i.messages.countP fun m => IsReset m.1 m.2 else 0
    ∃ heading pitch, s'.scope.core = (T.clear)^[n] (T.setOrientation s.scope.core heading pitch) ∧
      o' = List.replicate n (.mqtt "home/appliance/telescope/control" [48]) := by
  obtain ⟨hi, -, -⟩ := run_facts h (inv_boot cfg core) hr
  simp only [taskOf] at ht
  simp only [step, loop, ht] at hs
  set s0 : Sys K S := { s with timers := (schedule s.timers i.now).2 } with hs0
  unfold task100 at hs
  obtain ⟨s1, h1, hs⟩ := bind_eq_ok.1 hs
  obtain ⟨⟨s2, o1⟩, h2, hs⟩ := bind_eq_ok.1 hs
  obtain ⟨⟨s3, o2⟩, h3, hs⟩ := bind_eq_ok.1 hs
  simp only [pure_ok] at hs
  injection hs with hs; injection hs with hs ho
  have hsc : s'.scope = s3.scope := by subst hs; split <;> rfl
  obtain ⟨a1, a2, a3, a4, a5, a6⟩ := readSensors_same h1
  have i1 : Inv s1 := a1.2.2 hi
  have hsens : ∃ heading pitch, s1.scope.core = T.setOrientation s.scope.core heading pitch := by
    unfold readSensors at h1
    obtain ⟨m, _, h1⟩ := bind_eq_ok.1 h1
    obtain ⟨hd, _, h1⟩ := bind_eq_ok.1 h1
    injection h1 with h1; subst h1; exact ⟨_, _, rfl⟩
  have h12 : s2.scope = s1.scope ∧ s2.tx.length = 256 ∧ o1 = [] := by
    unfold tcpTask at h2
    split at h2
    · rename_i c hc
      unfold tcpInput at h2
      rw [hd] at h2
      obtain ⟨⟨n, rx⟩, hn, h2⟩ := bind_eq_ok.1 h2
      have : n = 0 := by
        unfold tcpReceive at hn
        obtain ⟨rx', _, hn⟩ := bind_eq_ok.1 hn
        injection hn with hn; injection hn with hn _; exact hn.symm
      subst this
      simp only [gt_iff_lt] at h2
      injection h2 with h2; injection h2 with h2 h2'; subst h2 h2'
      exact ⟨rfl, i1.1, rfl⟩
    · injection h2 with h2; injection h2 with h2 h2'; subst h2 h2'; exact ⟨rfl, i1.1, rfl⟩
  obtain ⟨e1, e2, e3⟩ := h12
  obtain ⟨heading, pitch, e4⟩ := hsens
  refine ⟨heading, pitch, ?_⟩
  unfold mqttTask at h3
  split at h3
  · rename_i hm
    obtain ⟨b1, b2⟩ := mqttLoop_core (by intro hc; rw [hc] at e2; simp at e2) h3
    simp only [hm, if_true]
    refine ⟨?_, ?_⟩
    · rw [hsc, b1, e1, e4]
    · rw [← ho, e3, b2]; rfl
  · rename_i hm
    injection h3 with h3; injection h3 with h3 h3'; subst h3 h3'
    simp only [hm, Bool.false_eq_true, if_false]
    refine ⟨?_, ?_⟩
    · rw [hsc, e1, e4]; rfl
    · rw [← ho, e3]; rfl

/-- One reset among other messages: the point added by the sync before is gone. -/
example : (run { Demo.cfg with mqtt := true }
      [Demo.ev (.bluetooth (ascii "s12345678,12345678")), Demo.at' 600000, Demo.at' 600000,
       Demo.at' 600000 (messages := [(ascii "x/home/appliance/telescope/control/y", ascii "1abc"), (CONTROL_TOPIC, []), (CONTROL_TOPIC, ascii "0"),
          (ascii "home/appliance/telescope", ascii "1")])] (boot Demo.cfg [])).map (fun r => (r.1.scope.core, r.2)) =
    .ok ([], [.bluetooth [35], .mqtt "home/appliance/telescope/control" [48]]) := by decide +kernel

/-! ### C50 -/

/-- Requests start with one of eleven letters. -/
theorem first_byte {req : List UInt8} {c : Command} (h : Parses req c) :
    ∃ b rest, req = b :: rest ∧ b ∈ [(75 : UInt8), 86, 80, 109, 119, 101, 104, 76, 74, 116, 115] := by
  cases h <;> exact ⟨_, _, rfl, by simp⟩

/-- What the 100 ms task does with a TCP message that is no NexStar command, no MQTT messages arriving at the same time. -/
theorem step_goto {cfg : Config} {T : Tel K S} {s s' : Sys K S} {i : In K} {o' : List Out} {c : Conn} {msg : List UInt8} (hi : Inv s)
    (hs : step cfg T s (.loop i) = .ok (s', o')) (ht : taskOf s (.loop i) = some .t100ms)
    (hc : s.net.remote = some c ∧ c ∈ s.net.open') (hd : i.tcp = .data msg) (hm : i.messages = [])
    (hmsg : msg ≠ []) (hl : msg.length ≤ 256) (hno : ∀ c, ¬ Parses (afterRead s.rx i.tcp) c) :
    o' = [] ∧ s'.nexStarMode = s.nexStarMode ∧ s'.scope.isCalibrated = s.scope.isCalibrated ∧ ∃ heading pitch,
      if Codec.Accepts (afterRead s.rx i.tcp) msg.length then
        ∃ lst, Helper.localSiderealTime s.gnss.utc (s.gnss.longitude : K) = .ok lst ∧
          T.addReferencePoint (T.setOrientation s.scope.core heading pitch)
            ⟨(leVal (slice (afterRead s.rx i.tcp) 12 4) : K) * 360 / 2 ^ 32, (leVal (slice (afterRead s.rx i.tcp) 16 4) : K) * 360 / 2 ^ 32⟩
            (s.gnss.latitude : K) lst = .ok s'.scope.core
      else s'.scope.core = T.setOrientation s.scope.core heading pitch := by
  simp only [taskOf] at ht
  simp only [step, loop, ht] at hs
  set s0 : Sys K S := { s with timers := (schedule s.timers i.now).2 } with hs0
  have hcl0 : client s0 = some c := client_eq.2 hc
  unfold task100 at hs
  obtain ⟨s1, h1, hs⟩ := bind_eq_ok.1 hs
  obtain ⟨⟨s2, o1⟩, h2, hs⟩ := bind_eq_ok.1 hs
  obtain ⟨⟨s3, o2⟩, h3, hs⟩ := bind_eq_ok.1 hs
  simp only [pure_ok] at hs
  injection hs with hs; injection hs with hs ho
  have hsc : s'.scope = s3.scope ∧ s'.nexStarMode = s3.nexStarMode := by subst hs; split <;> exact ⟨rfl, rfl⟩
  have h32 : s3 = s2 ∧ o2 = [] := by
    unfold mqttTask at h3
    rw [hm] at h3
    split at h3 <;> (injection h3 with h3; injection h3 with h3 h3'; exact ⟨h3.symm, h3'.symm⟩)
  obtain ⟨e32, e2⟩ := h32
  subst e32
  obtain ⟨a1, a2, a3, a4, a5, a6⟩ := readSensors_same h1
  have i1 : Inv s1 := a1.2.2 hi
  have hsens : ∃ heading pitch, s1.scope = ⟨T.setOrientation s.scope.core heading pitch, s.scope.isCalibrated⟩ := by
    unfold readSensors at h1
    obtain ⟨m, _, h1⟩ := bind_eq_ok.1 h1
    obtain ⟨hd, _, h1⟩ := bind_eq_ok.1 h1
    injection h1 with h1; subst h1; exact ⟨_, _, rfl⟩
  obtain ⟨heading, pitch, e4⟩ := hsens
  have hcl1 : client s1 = some c := by unfold client at hcl0 ⊢; rw [a2]; exact hcl0
  unfold tcpTask at h2
  rw [hcl1] at h2
  simp only at h2
  obtain ⟨n, hrx, hn, hlen⟩ := tcpReceive_eq i1.2 i.tcp
  have hrxe : s1.rx = s.rx := a3
  unfold tcpInput at h2
  rw [hrx, bind_ok] at h2
  simp only at h2
  rw [if_pos (hn.2 (by rw [hd]; simp [hmsg]))] at h2
  rw [hrxe] at h2
  have hrl := afterRead_length hi.2 i.tcp
  obtain ⟨⟨k, tx, scope⟩, hh, h2⟩ := bind_eq_ok.1 h2
  obtain ⟨-, -, -, hkpos, hkeep⟩ := handle_facts (by rw [hrl]) i1.1 hh
  rw [List.take_of_length_le (by rw [hrl])] at hkpos hkeep
  have hk : ¬ k > 0 := fun hk => by obtain ⟨c, hc⟩ := hkpos.1 hk; exact hno c hc
  have hscope : scope = s1.scope := hkeep fun a d hp => hno _ hp
  simp only [if_neg hk] at h2
  obtain ⟨s4, hg, h2⟩ := bind_eq_ok.1 h2
  injection h2 with h2; injection h2 with h2 h2'; subst h2 h2'
  have hnlen : n.toNat = msg.length := by rw [hlen msg hd, List.take_of_length_le hl]
  refine ⟨by rw [← ho, e2]; rfl, ?_⟩
  unfold tcpGoto at hg
  simp only at hg
  rw [Codec.C04_unpack _ _ _ (by rw [hrl]; norm_num) (by rw [hrl, hnlen]; exact hl)] at hg
  rw [hnlen] at hg
  have hgn : s1.gnss = s.gnss := a5
  have hnm : s1.nexStarMode = s.nexStarMode := a1.2.1
  by_cases hacc : Codec.Accepts (afterRead s.rx i.tcp) msg.length
  · rw [if_pos hacc, bind_ok] at hg
    simp only [if_true] at hg
    obtain ⟨lst, hlst, hg⟩ := bind_eq_ok.1 hg
    obtain ⟨core2, hcore, hg⟩ := bind_eq_ok.1 hg
    injection hg with hg
    rw [hgn] at hlst hcore
    rw [hscope, e4] at hcore
    have hs3 : s4.scope = ⟨core2, s.scope.isCalibrated⟩ ∧ s4.nexStarMode = s.nexStarMode := by
      rw [← hg, hscope, e4]; exact ⟨rfl, hnm⟩
    refine ⟨by rw [hsc.2, hs3.2], by rw [hsc.1, hs3.1], heading, pitch, ?_⟩
    rw [if_pos hacc]
    refine ⟨lst, hlst, ?_⟩
    rw [hsc.1, hs3.1]
    exact hcore
  · rw [if_neg hacc, bind_ok] at hg
    simp only [Bool.false_eq_true, if_false] at hg
    injection hg with hg
    have hs3 : s4.scope = ⟨T.setOrientation s.scope.core heading pitch, s.scope.isCalibrated⟩ ∧ s4.nexStarMode = s.nexStarMode := by
      rw [← hg]; exact ⟨hscope.trans e4, hnm⟩
    refine ⟨by rw [hsc.2, hs3.2], by rw [hsc.1, hs3.1], heading, pitch, ?_⟩
    rw [if_neg hacc, hsc.1, hs3.1]

theorem slice_afterRead {rx msg : List UInt8} (hl : msg.length ≤ 256) {i k : Nat} (h : i + k ≤ msg.length) :
    slice (afterRead rx (.data msg)) i k = slice msg i k := by
  unfold slice
  simp only [afterRead]
  rw [List.take_of_length_le hl, List.drop_append_of_le_length (by omega), List.take_append_of_le_length (by simp; omega)]

/-- **C50** A received Stellarium goto message (LENGTH 20, TYPE 0) is never taken for a NexStar command, whatever is left in the buffer
from earlier: it adds its position as reference point, using the observer's position and the sidereal time, sends nothing, and changes
neither the protocol mode nor the alignment flag. -/
theorem C50_goto (cfg : Config) (core : S) (h : List (Tel K S × Event K)) (s : Sys K S) (o : List Out)
    (hr : run cfg h (boot cfg core) = .ok (s, o)) (T : Tel K S) (i : In K) (s' : Sys K S) (o' : List Out)
    (hs : step cfg T s (.loop i) = .ok (s', o')) (ht : taskOf s (.loop i) = some .t100ms) (c : Conn)
    (hc : s.net.remote = some c ∧ c ∈ s.net.open') (hm : i.messages = []) (msg : List UInt8) (hd : i.tcp = .data msg)
    (h20 : 20 ≤ msg.length) (hl : msg.length ≤ 256) (hlen : leVal (slice msg 0 2) = 20) (htype : leVal (slice msg 2 2) = 0) :
    o' = [] ∧ s'.nexStarMode = s.nexStarMode ∧ s'.scope.isCalibrated = s.scope.isCalibrated ∧ ∃ heading pitch lst,
      Helper.localSiderealTime s.gnss.utc (s.gnss.longitude : K) = .ok lst ∧
      T.addReferencePoint (T.setOrientation s.scope.core heading pitch)
        ⟨(leVal (slice msg 12 4) : K) * 360 / 2 ^ 32, (leVal (slice msg 16 4) : K) * 360 / 2 ^ 32⟩
        (s.gnss.latitude : K) lst = .ok s'.scope.core := by
  obtain ⟨hi, -, -⟩ := run_facts h (inv_boot cfg core) hr
  have hfirst : ∃ t, msg = 20 :: t := by
    cases msg with
    | nil => simp at h20
    | cons a t =>
      cases t with
      | nil => simp at h20
      | cons b t =>
        simp only [slice, List.drop_zero, List.take_succ_cons, List.take_zero, leVal] at hlen
        have h1 : a.toNat = 20 := by have := a.toNat_lt; have := b.toNat_lt; omega
        exact ⟨b :: t, by rw [show a = 20 from UInt8.toNat_inj.1 h1]⟩
  obtain ⟨t, rfl⟩ := hfirst
  have hno : ∀ c, ¬ Parses (afterRead s.rx i.tcp) c := by
    intro c hp
    obtain ⟨b, rest, e, hb⟩ := first_byte hp
    rw [hd] at e
    simp only [afterRead] at e
    rw [List.take_of_length_le hl] at e
    injection e with e _
    subst e
    revert hb; decide
  obtain ⟨a1, a2, a3, heading, pitch, a4⟩ := step_goto hi hs ht hc hd hm (by simp) hl hno
  refine ⟨a1, a2, a3, heading, pitch, ?_⟩
  rw [hd, slice_afterRead hl (by omega), slice_afterRead hl (by omega)] at a4
  have hacc : Codec.Accepts (afterRead s.rx (.data (20 :: t))) (20 :: t).length := by
    unfold Codec.Accepts
    rw [slice_afterRead hl (by omega), slice_afterRead hl (by omega), hlen, htype]
    exact ⟨le_rfl, h20, rfl⟩
  rw [if_pos hacc] at a4
  exact a4

/-- A goto message for 90 degrees, 45 degrees, received by a connected client. -/
example : (run Demo.cfg [Demo.ev (.arrive 7), Demo.at' 600000, Demo.at' 600000, Demo.at' 600000, Demo.at' 720000, Demo.at' 720000,
      Demo.at' 720000 (tcp := .data [20, 0, 0, 0, 0, 0, 0, 0, 0, 0, 0, 0, 0, 0, 0, 64, 0, 0, 0, 32])] (boot Demo.cfg [])).map
    (fun r => (r.1.scope.core, r.2)) = .ok ([⟨90, 45⟩], [.pin false]) := by decide +kernel

/-- **C50** (finding: stale bytes). The one-byte message `K` is answered over TCP by an echo of the second byte of the buffer, which is
left from an earlier message. -/
theorem C50_stale_echo (cfg : Config) (core : S) (h : List (Tel K S × Event K)) (s : Sys K S) (o : List Out)
    (hr : run cfg h (boot cfg core) = .ok (s, o)) (T : Tel K S) (c : Conn) (x : UInt8) (hx : s.rx[1]? = some x) :
    ∃ s', tcpInput cfg T s c (.data [75]) = .ok (s', [.tcp c [x, 35]]) := by
  obtain ⟨hi, -, -⟩ := run_facts h (inv_boot cfg core) hr
  obtain ⟨n, hrx, hn, -⟩ := tcpReceive_eq hi.2 (.data [75])
  unfold tcpInput
  rw [hrx, bind_ok]
  simp only
  rw [if_pos (hn.2 (by simp))]
  have hrl := afterRead_length hi.2 (.data [75])
  have hp : Parses ((afterRead s.rx (.data [75])).take 256) (.echo x) := by
    rw [List.take_of_length_le (by rw [hrl])]
    unfold afterRead
    simp only [List.take_succ_cons, List.take_nil, List.length_singleton]
    have : s.rx.drop 1 = x :: s.rx.drop 2 := by
      obtain ⟨hl, e⟩ := List.getElem?_eq_some_iff.1 hx
      rw [← e]; exact List.drop_eq_getElem_cons hl
    rw [this]; exact .echo x _
  rw [C06_fixed_reply cfg.platform T.ops s.gnss s.scope (afterRead s.rx (.data [75])) s.tx 256 256 (by rw [hrl]) (.echo x) hp [x, 35] rfl
    (by simp) (by rw [hi.1]), bind_ok]
  have hk : UInt32.ofNat ([x, 35] : List UInt8).length > 0 := by show (0 : UInt32) < UInt32.ofNat 2; decide
  rw [if_pos hk]
  unfold readBytes
  rw [if_pos (by show (UInt32.ofNat 2).toNat ≤ _; simp [written])]
  exact ⟨_, rfl⟩

/-- **C50** Over Bluetooth neither the reply nor the effect depends on anything received earlier over TCP. -/
theorem C50_bluetooth_independent (cfg : Config) (T : Tel K S) (s : Sys K S) (rx : List UInt8) (b : List UInt8) :
    step cfg T { s with rx } (.bluetooth b) = (step cfg T s (.bluetooth b)).map fun r => ({ r.1 with rx }, r.2) := by
  simp only [step, onBluetoothData]
  cases NexStar.handleRequest cfg.platform T.ops s.gnss s.scope b b.length s.tx 256 with
  | error e => rfl
  | ok r =>
    obtain ⟨n, tx, scope⟩ := r
    simp only [bind_ok]
    split
    · cases readBytes tx n.toNat <;> rfl
    · rfl

/-- **C50** (finding: failed read). A read that fails with -1 is taken for received data: the last message is processed again.  Here a
goto message is received once, and two failed reads add its position twice more. -/
theorem C50_failed_read_repeats : (run Demo.cfg
      [Demo.ev (.arrive 7), Demo.at' 600000, Demo.at' 600000, Demo.at' 600000, Demo.at' 720000, Demo.at' 720000,
       Demo.at' 720000 (tcp := .data [20, 0, 0, 0, 0, 0, 0, 0, 0, 0, 0, 0, 0, 0, 0, 64, 0, 0, 0, 32]), Demo.at' 840000, Demo.at' 840000,
       Demo.at' 840000 (tcp := .failed), Demo.at' 960000, Demo.at' 960000, Demo.at' 960000 (tcp := .failed)] (boot Demo.cfg [])).map
    (fun r => r.1.scope.core) = .ok [⟨90, 45⟩, ⟨90, 45⟩, ⟨90, 45⟩] := by decide +kernel

/-- **C50** (finding) Other LENGTH values can be mistaken: a message with LENGTH 74 is taken for the command `J`. -/
theorem C50_length_74 : (run Demo.cfg
      [Demo.ev (.arrive 7), Demo.at' 600000, Demo.at' 600000, Demo.at' 600000, Demo.at' 720000, Demo.at' 720000,
       Demo.at' 720000 (tcp := .data ([74, 0, 0, 0] ++ List.replicate 70 0))] (boot Demo.cfg [])).map
    (fun r => (r.1.scope.core, r.2)) = .ok ([], [.pin false, .tcp 7 [0, 35]]) := by decide +kernel

end Verif.Main
