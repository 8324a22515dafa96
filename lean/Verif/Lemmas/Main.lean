import Verif.Spec.Main
import Verif.Props.NexStar
import Verif.Props.Codec

/-!
# Lemmas about the firmware
-/

set_option linter.unusedSectionVars false

namespace Verif.Main
open Printf Net Imu Spec.NexStar NexStar

variable {K : Type} [Field K] [LinearOrder K] [IsStrictOrderedRing K] [FloorRing K] {S : Type}

theorem storeByte_length {mem mem' : List UInt8} {i : Nat} {b : UInt8} (h : storeByte mem i b = .ok mem') :
    mem'.length = mem.length := by
  unfold storeByte at h
  split at h
  · injection h with h; subst h; simp
  · cases h

theorem storeSeq_length {bs mem mem' : List UInt8} {i : Nat} (h : storeSeq mem i bs = .ok mem') : mem'.length = mem.length := by
  induction bs generalizing mem i with
  | nil => injection h with h; subst h; rfl
  | cons b bs ih =>
    unfold storeSeq at h
    obtain ⟨m, h1, h2⟩ := bind_eq_ok.1 h
    rw [ih h2, storeByte_length h1]

theorem snprintfAt_length {mem mem' out : List UInt8} {off size n : Nat} (h : snprintfAt mem off size out = .ok (n, mem')) :
    mem'.length = mem.length ∧ n = out.length := by
  unfold snprintfAt at h
  split at h
  · injection h with h; injection h with h1 h2; subst h1 h2; exact ⟨rfl, rfl⟩
  · obtain ⟨m, h1, h2⟩ := bind_eq_ok.1 h
    injection h2 with h2; injection h2 with h2 h3; subst h2 h3
    exact ⟨storeSeq_length h1, rfl⟩

/-- What the protocol handler does to the flags, for a truthful request length. -/
theorem handle_facts {P : Platform} {ops : TelOps K S} {g : Nmea.Gnss} {sc sc' : Scope S} {request resp resp' : List UInt8} {n : Nat}
    {k : UInt32} (hn : n ≤ request.length) (hr : resp.length = 256)
    (h : handleRequest P ops g sc request n resp 256 = .ok (k, resp', sc')) :
    resp'.length = 256 ∧ k ≤ 18 ∧ (sc'.isCalibrated = true ↔ sc.isCalibrated = true ∨ ∃ a d, Parses (request.take n) (.sync a d)) ∧
      (0 < k ↔ ∃ c, Parses (request.take n) c) ∧ ((∀ a d, ¬ Parses (request.take n) (.sync a d)) → sc' = sc) := by
  obtain ⟨h18, hl, -, h0, -⟩ := C07_response P ops g sc request resp n 256 (by omega) k resp' sc' h
  refine ⟨by omega, h18, ?_, ?_, fun hns => C06_state_unchanged P ops g sc request resp n 256 hn hns k resp' sc' h⟩
  · by_cases hs : ∃ a d, Parses (request.take n) (.sync a d)
    · obtain ⟨a, d, hs⟩ := hs
      have hb := branch_parses hn hs
      unfold handleRequest at h
      rw [hb, bind_ok] at h
      obtain ⟨⟨out, sc1⟩, hbody, h⟩ := bind_eq_ok.1 h
      have h1 : sc1.isCalibrated = true := by
        simp only [body, cmdBranch] at hbody
        cases hd : doSync P ops g sc request with
        | error e => rw [hd] at hbody; cases hbody
        | ok sc2 =>
          rw [hd] at hbody
          simp only [Except.map] at hbody
          injection hbody with hbody; injection hbody with _ e; subst e
          unfold doSync at hd
          obtain ⟨_, _, hd⟩ := bind_eq_ok.1 hd
          obtain ⟨_, _, hd⟩ := bind_eq_ok.1 hd
          obtain ⟨_, _, hd⟩ := bind_eq_ok.1 hd
          obtain ⟨_, _, hd⟩ := bind_eq_ok.1 hd
          injection hd with hd; subst hd; rfl
      have h2 : sc' = sc1 := by
        cases out with
        | none => injection h with h; injection h with _ h; injection h with _ h; exact h.symm
        | some o =>
          obtain ⟨⟨x, y⟩, _, h⟩ := bind_eq_ok.1 h
          injection h with h; injection h with _ h; injection h with _ h; exact h.symm
      rw [h2, h1]
      simp only [true_iff]; exact Or.inr ⟨a, d, hs⟩
    · have := C06_state_unchanged P ops g sc request resp n 256 hn (fun a d hp => hs ⟨a, d, hp⟩) k resp' sc' h
      rw [this]
      exact ⟨Or.inl, fun h => h.elim id fun h => absurd h hs⟩
  · constructor
    · intro hk
      by_contra hc
      push Not at hc
      unfold handleRequest at h
      rw [branch_unparsed hn hc, bind_ok] at h
      obtain ⟨⟨out, sc1⟩, hbody, h⟩ := bind_eq_ok.1 h
      simp only [body] at hbody
      cases hu : unknownLog P request with
      | error e => rw [hu] at hbody; cases hbody
      | ok u =>
        rw [hu] at hbody
        simp only [Except.map] at hbody
        injection hbody with hbody; injection hbody with e _; subst e
        injection h with h; injection h with h _; subst h
        exact absurd hk (by decide)
    · rintro ⟨c, hc⟩
      have := C07_reply_length P ops g sc request resp n 256 hn c hc k resp' sc' h
      rw [UInt32.lt_iff_toNat_lt, this]
      cases c <;> simp [replyLength]

/-- The lengths of the two buffers. -/
def Inv (s : Sys K S) : Prop := s.tx.length = 256 ∧ s.rx.length = 256

/-- Nothing but other parts of the state changed. -/
def Same (s s' : Sys K S) : Prop :=
  s'.scope.isCalibrated = s.scope.isCalibrated ∧ s'.nexStarMode = s.nexStarMode ∧ (Inv s → Inv s')

theorem Same.refl (s : Sys K S) : Same s s := ⟨rfl, rfl, id⟩
theorem Same.trans {a b c : Sys K S} (h : Same a b) (h' : Same b c) : Same a c :=
  ⟨h'.1.trans h.1, h'.2.1.trans h.2.1, fun i => h'.2.2 (h.2.2 i)⟩

theorem mqttCallback_same {T : Tel K S} {s s' : Sys K S} {topic payload : List UInt8} {o : List Out}
    (h : mqttCallback T s topic payload = .ok (s', o)) : Same s s' ∧ s'.net = s.net ∧ s'.gnss = s.gnss := by
  unfold mqttCallback at h
  split at h
  · injection h with h; injection h with h _; subst h; exact ⟨Same.refl _, rfl, rfl⟩
  · split at h
    · injection h with h; injection h with h _; subst h; exact ⟨Same.refl _, rfl, rfl⟩
    · obtain ⟨p0, _, h⟩ := bind_eq_ok.1 h
      split at h
      · obtain ⟨tx, htx, h⟩ := bind_eq_ok.1 h
        obtain ⟨b, _, h⟩ := bind_eq_ok.1 h
        injection h with h; injection h with h _; subst h
        exact ⟨⟨rfl, rfl, fun i => ⟨(storeByte_length htx).trans i.1, i.2⟩⟩, rfl, rfl⟩
      · injection h with h; injection h with h _; subst h; exact ⟨Same.refl _, rfl, rfl⟩

theorem mqttLoop_same {T : Tel K S} {ms : List (List UInt8 × List UInt8)} {s s' : Sys K S} {o : List Out}
    (h : mqttLoop T ms s = .ok (s', o)) : Same s s' ∧ s'.net = s.net ∧ s'.gnss = s.gnss := by
  induction ms generalizing s o with
  | nil => injection h with h; injection h with h _; subst h; exact ⟨Same.refl _, rfl, rfl⟩
  | cons m ms ih =>
    obtain ⟨topic, payload⟩ := m
    unfold mqttLoop at h
    obtain ⟨⟨s1, o1⟩, h1, h⟩ := bind_eq_ok.1 h
    obtain ⟨⟨s2, o2⟩, h2, h⟩ := bind_eq_ok.1 h
    injection h with h; injection h with h _; subst h
    obtain ⟨a1, a2, a3⟩ := mqttCallback_same h1
    obtain ⟨b1, b2, b3⟩ := ih h2
    exact ⟨a1.trans b1, b2.trans a2, b3.trans a3⟩

theorem readSensors_same {T : Tel K S} {s s' : Sys K S} {i : In K} (h : readSensors T s i = .ok s') :
    Same s s' ∧ s'.net = s.net ∧ s'.rx = s.rx ∧ s'.tx = s.tx ∧ s'.gnss = s.gnss ∧ s'.gnssAvailable = s.gnssAvailable := by
  unfold readSensors at h
  obtain ⟨m, _, h⟩ := bind_eq_ok.1 h
  obtain ⟨hd, _, h⟩ := bind_eq_ok.1 h
  injection h with h; subst h
  exact ⟨⟨rfl, rfl, id⟩, rfl, rfl, rfl, rfl, rfl⟩

theorem afterRead_length {rx : List UInt8} (h : rx.length = 256) (r : TcpRead) : (afterRead rx r).length = 256 := by
  cases r with
  | failed => exact h
  | data b => simp only [afterRead, List.length_append, List.length_drop, List.length_take]; omega

theorem tcpReceive_eq {rx : List UInt8} (h : rx.length = 256) (r : TcpRead) :
    ∃ n, tcpReceive rx r = .ok (n, afterRead rx r) ∧ (0 < n ↔ r ≠ .data []) ∧
      (∀ b, r = .data b → n.toNat = (b.take 256).length) := by
  cases r with
  | failed => exact ⟨_, rfl, by simp, by simp⟩
  | data b =>
    refine ⟨UInt32.ofNat (b.take 256).length, ?_, ?_, ?_⟩
    · unfold tcpReceive
      simp only
      rw [Codec.storeSeq_ok _ _ _ (by simp; omega), bind_ok]
      simp [afterRead, pure_ok]
    · rw [UInt32.lt_iff_toNat_lt, UInt32.toNat_ofNat']
      have : (b.take 256).length ≤ 256 := by simp
      rw [Nat.mod_eq_of_lt (by omega)]
      cases b <;> simp
    · rintro b' h'
      injection h' with h'; subst h'
      rw [UInt32.toNat_ofNat', Nat.mod_eq_of_lt]
      have : (b.take 256).length ≤ 256 := by simp
      omega

theorem tcpGoto_same {T : Tel K S} {s s' : Sys K S} {n : UInt32} (h : tcpGoto T s n = .ok s') :
    Same s s' ∧ s'.net = s.net ∧ s'.gnss = s.gnss := by
  unfold tcpGoto at h
  obtain ⟨⟨ok, ref⟩, _, h⟩ := bind_eq_ok.1 h
  simp only at h
  split at h
  · obtain ⟨_, _, h⟩ := bind_eq_ok.1 h
    obtain ⟨_, _, h⟩ := bind_eq_ok.1 h
    injection h with h; subst h; exact ⟨⟨rfl, rfl, id⟩, rfl, rfl⟩
  · injection h with h; subst h; exact ⟨Same.refl _, rfl, rfl⟩

/-- What handling a request does to flags and buffers. -/
def Handled (s s' : Sys K S) (r : List UInt8) : Prop :=
  Inv s' ∧ (s'.scope.isCalibrated = true ↔ s.scope.isCalibrated = true ∨ ∃ a d, Parses r (.sync a d)) ∧
    (s'.nexStarMode = true ↔ s.nexStarMode = true ∨ ∃ c, Parses r c)

theorem bluetooth_facts {cfg : Config} {T : Tel K S} {s s' : Sys K S} {b : List UInt8} {o : List Out} (hi : Inv s)
    (h : onBluetoothData cfg T s b = .ok (s', o)) :
    Handled s s' b ∧ s'.net = s.net ∧ s'.gnss = s.gnss ∧ (∀ x ∈ o, ∃ y, x = .bluetooth y) := by
  unfold onBluetoothData at h
  obtain ⟨⟨n, tx, scope⟩, hh, h⟩ := bind_eq_ok.1 h
  obtain ⟨hl, _, hcal, hpos, _⟩ := handle_facts le_rfl hi.1 hh
  rw [List.take_length] at hcal hpos
  simp only at h
  split at h
  · rename_i hn
    obtain ⟨bytes, _, h⟩ := bind_eq_ok.1 h
    injection h with h; injection h with h ho; subst h ho
    exact ⟨⟨⟨hl, hi.2⟩, hcal, by simp only [true_iff]; exact Or.inr (hpos.1 hn)⟩, rfl, rfl, by simp⟩
  · rename_i hn
    injection h with h; injection h with h ho; subst h ho
    refine ⟨⟨⟨hl, hi.2⟩, hcal, ?_⟩, rfl, rfl, by simp⟩
    exact ⟨Or.inl, fun h => h.elim id fun h => absurd (hpos.2 h) hn⟩

theorem tcpInput_facts {cfg : Config} {T : Tel K S} {s s' : Sys K S} {c : Conn} {r : TcpRead} {o : List Out} (hi : Inv s)
    (h : tcpInput cfg T s c r = .ok (s', o)) :
    ((r = .data [] → Same s s') ∧ (r ≠ .data [] → Handled s s' (afterRead s.rx r))) ∧ s'.net = s.net ∧ s'.gnss = s.gnss ∧
      (∀ x ∈ o, ∃ y, x = .tcp c y ∧ y.length ≤ 18) := by
  obtain ⟨n, hrx, hn, hlen⟩ := tcpReceive_eq hi.2 r
  unfold tcpInput at h
  rw [hrx, bind_ok] at h
  simp only at h
  have hrl := afterRead_length hi.2 r
  split at h
  · rename_i hpos
    have hr := hn.1 hpos
    obtain ⟨⟨k, tx, scope⟩, hh, h⟩ := bind_eq_ok.1 h
    obtain ⟨hl, h18, hcal, hkpos, _⟩ := handle_facts (by simp [hrl]) hi.1 hh
    rw [List.take_of_length_le (by rw [hrl])] at hcal hkpos
    simp only at h
    split at h
    · rename_i hk
      obtain ⟨bytes, hb, h⟩ := bind_eq_ok.1 h
      injection h with h; injection h with h ho; subst h ho
      refine ⟨⟨fun e => absurd e hr, fun _ => ⟨⟨hl, hrl⟩, hcal, by simp only [true_iff]; exact Or.inr (hkpos.1 hk)⟩⟩, rfl, rfl, ?_⟩
      simp only [List.mem_singleton, forall_eq]
      refine ⟨_, rfl, ?_⟩
      unfold readBytes at hb
      split at hb
      · injection hb with hb; subst hb
        rw [List.length_take]
        have := UInt32.le_iff_toNat_le.1 h18
        have : (18 : UInt32).toNat = 18 := rfl
        omega
      · cases hb
    · rename_i hk
      obtain ⟨s1, hg, h⟩ := bind_eq_ok.1 h
      injection h with h; injection h with h ho; subst h ho
      obtain ⟨g1, g2, g3⟩ := tcpGoto_same hg
      refine ⟨⟨fun e => absurd e hr, fun _ => ⟨g1.2.2 ⟨hl, hrl⟩, ?_, ?_⟩⟩, g2, g3, by simp⟩
      · rw [g1.1]; exact hcal
      · rw [g1.2.1]
        exact ⟨Or.inl, fun h => h.elim id fun h => absurd (hkpos.2 h) hk⟩
  · rename_i hpos
    injection h with h; injection h with h ho; subst h ho
    exact ⟨⟨fun _ => ⟨rfl, rfl, fun _ => ⟨hi.1, hrl⟩⟩, fun hr => absurd (hn.2 hr) hpos⟩, rfl, rfl, by simp⟩

theorem client_eq {s : Sys K S} {c : Conn} : client s = some c ↔ s.net.remote = some c ∧ c ∈ s.net.open' := by
  unfold client Net.connected
  cases hr : s.net.remote with
  | none => simp
  | some d =>
    simp only [List.contains_iff_mem, Option.some.injEq]
    constructor
    · intro h
      split at h
      · rename_i hd; injection h with h; subst h; exact ⟨rfl, by simpa using hd⟩
      · cases h
    · rintro ⟨rfl, h⟩; rw [if_pos (by simpa using h)]

/-- No output is a TCP message. -/
def NoTcp (o : List Out) : Prop := ∀ x ∈ o, ∀ c b, x ≠ .tcp c b

theorem NoTcp.nil : NoTcp [] := by intro x hx; simp at hx
theorem NoTcp.append {a b : List Out} (ha : NoTcp a) (hb : NoTcp b) : NoTcp (a ++ b) := by
  intro x hx
  rcases List.mem_append.1 hx with h | h
  · exact ha x h
  · exact hb x h

theorem mqttCallback_noTcp {T : Tel K S} {s s' : Sys K S} {topic payload : List UInt8} {o : List Out}
    (h : mqttCallback T s topic payload = .ok (s', o)) : NoTcp o := by
  unfold mqttCallback at h
  split at h
  · injection h with h; injection h with _ h; subst h; exact NoTcp.nil
  · split at h
    · injection h with h; injection h with _ h; subst h; exact NoTcp.nil
    · obtain ⟨p0, _, h⟩ := bind_eq_ok.1 h
      split at h
      · obtain ⟨tx, htx, h⟩ := bind_eq_ok.1 h
        obtain ⟨b, _, h⟩ := bind_eq_ok.1 h
        injection h with h; injection h with _ h; subst h
        intro x hx; simp only [List.mem_singleton] at hx; subst hx; simp
      · injection h with h; injection h with _ h; subst h; exact NoTcp.nil

theorem mqttLoop_noTcp {T : Tel K S} {ms : List (List UInt8 × List UInt8)} {s s' : Sys K S} {o : List Out}
    (h : mqttLoop T ms s = .ok (s', o)) : NoTcp o := by
  induction ms generalizing s s' o with
  | nil => injection h with h; injection h with _ h; subst h; exact NoTcp.nil
  | cons m ms ih =>
    obtain ⟨topic, payload⟩ := m
    unfold mqttLoop at h
    obtain ⟨⟨s1, o1⟩, h1, h⟩ := bind_eq_ok.1 h
    obtain ⟨⟨s2, o2⟩, h2, h⟩ := bind_eq_ok.1 h
    injection h with h; injection h with _ h; subst h
    exact (mqttCallback_noTcp h1).append (ih h2)

/-- The 100 ms task. -/
theorem task100_facts {cfg : Config} {T : Tel K S} {s s' : Sys K S} {i : In K} {o : List Out} (hi : Inv s)
    (h : task100 cfg T s i = .ok (s', o)) :
    Inv s' ∧
    ((∃ c, client s = some c ∧ i.tcp ≠ .data [] ∧
        (s'.scope.isCalibrated = true ↔ s.scope.isCalibrated = true ∨ ∃ a d, Parses (afterRead s.rx i.tcp) (.sync a d)) ∧
        (s'.nexStarMode = true ↔ s.nexStarMode = true ∨ ∃ c, Parses (afterRead s.rx i.tcp) c)) ∨
      ((client s = none ∨ i.tcp = .data []) ∧ s'.scope.isCalibrated = s.scope.isCalibrated ∧ s'.nexStarMode = s.nexStarMode)) ∧
    (∀ c b, Out.tcp c b ∈ o → b.length ≤ 18) ∧
    s'.gnss = s.gnss ∧ s'.ledMode = chooseLed s ∧
      s'.net = if cfg.wifi then checkForConnections s.net else s.net := by
  unfold task100 at h
  obtain ⟨s1, h1, h⟩ := bind_eq_ok.1 h
  obtain ⟨⟨s2, o1⟩, h2, h⟩ := bind_eq_ok.1 h
  obtain ⟨⟨s3, o2⟩, h3, h⟩ := bind_eq_ok.1 h
  simp only [pure_ok] at h
  injection h with h; injection h with hs ho
  obtain ⟨a1, a2, a3, a4, a5, a6⟩ := readSensors_same h1
  have i1 : Inv s1 := a1.2.2 hi
  have b : Same s2 s3 ∧ s3.net = s2.net ∧ s3.gnss = s2.gnss ∧ NoTcp o2 := by
    unfold mqttTask at h3
    split at h3
    · obtain ⟨b1, b2, b3⟩ := mqttLoop_same h3
      exact ⟨b1, b2, b3, mqttLoop_noTcp h3⟩
    · injection h3 with h3; injection h3 with h3 h4; subst h3 h4; exact ⟨Same.refl _, rfl, rfl, NoTcp.nil⟩
  obtain ⟨b1, b2, b3, b4⟩ := b
  have fin : s'.scope = s3.scope ∧ s'.nexStarMode = s3.nexStarMode ∧ (Inv s3 → Inv s') ∧ s'.gnss = s3.gnss ∧
      s'.ledMode = chooseLed s3 ∧ s'.net = if cfg.wifi then checkForConnections s3.net else s3.net := by
    subst hs
    split <;> exact ⟨rfl, rfl, id, rfl, rfl, rfl⟩
  obtain ⟨f1, f2, f3, f4, f5, f6⟩ := fin
  have hcl : client s1 = client s := by unfold client; rw [a2]
  have key : Inv s2 ∧ s2.net = s.net ∧ s2.gnss = s.gnss ∧ (∀ c b, Out.tcp c b ∈ o1 → b.length ≤ 18) ∧
      ((∃ c, client s = some c ∧ i.tcp ≠ .data [] ∧
        (s2.scope.isCalibrated = true ↔ s.scope.isCalibrated = true ∨ ∃ a d, Parses (afterRead s.rx i.tcp) (.sync a d)) ∧
        (s2.nexStarMode = true ↔ s.nexStarMode = true ∨ ∃ c, Parses (afterRead s.rx i.tcp) c)) ∨
      ((client s = none ∨ i.tcp = .data []) ∧ s2.scope.isCalibrated = s.scope.isCalibrated ∧ s2.nexStarMode = s.nexStarMode)) := by
    unfold tcpTask at h2
    rw [hcl] at h2
    cases hc : client s with
    | none =>
      rw [hc] at h2
      injection h2 with h2; injection h2 with h2 h4; subst h2 h4
      exact ⟨i1, a2, a5, by simp, Or.inr ⟨Or.inl rfl, a1.1, a1.2.1⟩⟩
    | some c =>
      rw [hc] at h2
      obtain ⟨⟨g1, g2⟩, g3, g4, g5⟩ := tcpInput_facts i1 h2
      have g5' : ∀ c b, Out.tcp c b ∈ o1 → b.length ≤ 18 := by
        intro c' b' hm
        obtain ⟨y, e, hy⟩ := g5 _ hm
        injection e with _ e; subst e; exact hy
      by_cases hd : i.tcp = .data []
      · have := g1 hd
        exact ⟨this.2.2 i1, g3.trans a2, g4.trans a5, g5', Or.inr ⟨Or.inr hd, this.1.trans a1.1, this.2.1.trans a1.2.1⟩⟩
      · obtain ⟨k1, k2, k3⟩ := g2 hd
        rw [a1.1, a3] at k2; rw [a1.2.1, a3] at k3
        exact ⟨k1, g3.trans a2, g4.trans a5, g5', Or.inl ⟨c, rfl, hd, k2, k3⟩⟩
  obtain ⟨k1, k2, k3, k4, k5⟩ := key
  refine ⟨f3 (b1.2.2 k1), ?_, ?_, f4.trans (b3.trans k3), ?_, ?_⟩
  · rw [f1, f2, b1.1, b1.2.1]; exact k5
  · intro c b hm
    rw [← ho] at hm
    rcases List.mem_append.1 hm with hm | hm
    · exact k4 c b hm
    · exact absurd rfl (b4 _ hm c b)
  · rw [f5]; unfold chooseLed; rw [b3, k3, b2, k2]
  · rw [f6, b2, k2]

theorem pollGnss_facts {cfg : Config} {s s' : Sys K S} {serial : List UInt8} (h : pollGnss cfg s serial = .ok s') :
    Same s s' ∧ s'.net = s.net ∧ s'.scope = s.scope ∧ s'.ledMode = s.ledMode ∧ s'.tx = s.tx := by
  unfold pollGnss at h
  simp only at h
  split at h
  · obtain ⟨rx1, hr1, h⟩ := bind_eq_ok.1 h
    obtain ⟨rx2, hr2, h⟩ := bind_eq_ok.1 h
    obtain ⟨r, _, h⟩ := bind_eq_ok.1 h
    have hl : rx2.length = s.rx.length := (storeByte_length hr2).trans (storeSeq_length hr1)
    cases r with
    | none => cases h
    | some r =>
      obtain ⟨n, g⟩ := r
      simp only at h
      split at h <;> (injection h with h; subst h; exact ⟨⟨rfl, rfl, fun i => ⟨i.1, hl.trans i.2⟩⟩, rfl, rfl, rfl, rfl⟩)
  · injection h with h; subst h; exact ⟨⟨rfl, rfl, id⟩, rfl, rfl, rfl, rfl⟩

theorem sendMqtt_noTcp {cfg : Config} {topic : String} {tx : List UInt8} {len : Nat} {o : List Out}
    (h : sendMqtt cfg topic tx len = .ok o) : NoTcp o := by
  unfold sendMqtt at h
  split at h
  · cases hb : readBytes tx len with
    | error e => rw [hb] at h; cases h
    | ok b =>
      rw [hb] at h; injection h with h; subst h
      intro x hx; simp only [List.mem_singleton] at hx; subst hx; simp
  · injection h with h; subst h; exact NoTcp.nil

theorem sendBroker_noTcp {cfg : Config} {topic : String} {tx : List UInt8} {o : List Out}
    (h : sendBroker cfg topic tx = .ok o) : NoTcp o := by
  unfold sendBroker at h
  split at h
  · cases hb : readCString tx with
    | error e => rw [hb] at h; cases h
    | ok b =>
      rw [hb] at h; injection h with h; subst h
      intro x hx; simp only [List.mem_singleton] at hx; subst hx; simp
  · injection h with h; subst h; exact NoTcp.nil

theorem send_noTcp {cfg : Config} {topic : String} {tx : List UInt8} {len : Nat} {o : List Out} (h : send cfg topic tx len = .ok o) :
    NoTcp o := by
  unfold send at h
  obtain ⟨o1, h1, h⟩ := bind_eq_ok.1 h
  obtain ⟨o2, h2, h⟩ := bind_eq_ok.1 h
  injection h with h; subst h
  exact (sendMqtt_noTcp h1).append (sendBroker_noTcp h2)

theorem publish_facts {cfg : Config} {topic : String} {out tx tx' : List UInt8} {o : List Out}
    (h : publish cfg topic out tx = .ok (tx', o)) : tx'.length = tx.length ∧ NoTcp o := by
  unfold publish at h
  obtain ⟨⟨n, tx1⟩, h1, h⟩ := bind_eq_ok.1 h
  obtain ⟨o1, h2, h⟩ := bind_eq_ok.1 h
  injection h with h; injection h with h h'; subst h h'
  exact ⟨(snprintfAt_length h1).1, send_noTcp h2⟩

theorem publishAll_facts {cfg : Config} {l : List (String × List UInt8)} {tx tx' : List UInt8} {o : List Out}
    (h : publishAll cfg l tx = .ok (tx', o)) : tx'.length = tx.length ∧ NoTcp o := by
  induction l generalizing tx o with
  | nil => injection h with h; injection h with h h'; subst h h'; exact ⟨rfl, NoTcp.nil⟩
  | cons p l ih =>
    obtain ⟨topic, out⟩ := p
    unfold publishAll at h
    obtain ⟨⟨tx1, o1⟩, h1, h⟩ := bind_eq_ok.1 h
    obtain ⟨⟨tx2, o2⟩, h2, h⟩ := bind_eq_ok.1 h
    injection h with h; injection h with h h'; subst h h'
    obtain ⟨a1, a2⟩ := publish_facts h1
    obtain ⟨b1, b2⟩ := ih h2
    exact ⟨b1.trans a1, a2.append b2⟩

theorem vertexLoop_length {ps : List (K × K)} {len len' : Nat} {tx tx' : List UInt8} (h : vertexLoop ps len tx = .ok (len', tx')) :
    tx'.length = tx.length ∧ len' = len + (ps.map fun p => (vertexText p).length).sum := by
  induction ps generalizing len tx with
  | nil => injection h with h; injection h with h h'; subst h h'; exact ⟨rfl, by simp⟩
  | cons p ps ih =>
    unfold vertexLoop at h
    obtain ⟨⟨n, tx1⟩, h1, h⟩ := bind_eq_ok.1 h
    obtain ⟨a1, a2⟩ := snprintfAt_length h1
    obtain ⟨b1, b2⟩ := ih h
    refine ⟨b1.trans a1, ?_⟩
    rw [b2, a2]; simp; omega

theorem publishVertices_facts {cfg : Config} {topic : String} {ps : List (K × K)} {tx tx' : List UInt8} {o : List Out}
    (h : publishVertices cfg topic ps tx = .ok (tx', o)) : tx'.length = tx.length ∧ NoTcp o := by
  unfold publishVertices at h
  obtain ⟨tx1, h1, h⟩ := bind_eq_ok.1 h
  obtain ⟨⟨len, tx2⟩, h2, h⟩ := bind_eq_ok.1 h
  obtain ⟨tx3, h3, h⟩ := bind_eq_ok.1 h
  obtain ⟨o1, h4, h⟩ := bind_eq_ok.1 h
  injection h with h; injection h with h h'; subst h h'
  exact ⟨(storeByte_length h3).trans ((vertexLoop_length h2).1.trans (storeByte_length h1)), send_noTcp h4⟩

theorem readBytes_ok {mem b : List UInt8} {n : Nat} (h : readBytes mem n = .ok b) : b = mem.take n ∧ n ≤ mem.length := by
  unfold readBytes at h
  split at h
  · rename_i hn; injection h with h; exact ⟨h.symm, hn⟩
  · cases h

theorem pack_length {P : Platform} {ra dec : K} {ts : UInt64} {b b' : List UInt8} {n : UInt32} (hb : b.length = 256)
    (h : Codec.packPosition P ra dec ts b 256 = .ok (n, b')) : b'.length = 256 := by
  obtain ⟨-, -, h3⟩ := Codec.C01_pack_contract P ra dec ts b 256 (by omega)
  have := h3 n b' h
  obtain ⟨_, h⟩ := this
  omega

/-- The position packet. -/
theorem sendPosition_facts {cfg : Config} {s s' : Sys K S} {p : Equatorial K} {o : List Out} (hi : Inv s)
    (h : sendPosition cfg s p = .ok (s', o)) :
    (∃ tx, s' = { s with tx } ∧ tx.length = 256) ∧
    (o = [] ∨ ∃ c tx, client s = some c ∧ s.gnssAvailable = true ∧ s.nexStarMode = false ∧
      Codec.packPosition cfg.platform p.ra p.dec 0 s.tx 256 = .ok (24, tx) ∧ o = [.tcp c (tx.take 24)]) := by
  unfold sendPosition at h
  cases hc : client s with
  | none =>
    rw [hc] at h
    injection h with h; injection h with h ho; subst h ho
    exact ⟨⟨_, rfl, hi.1⟩, Or.inl rfl⟩
  | some c =>
    rw [hc] at h
    simp only at h
    split at h
    · rename_i hg
      simp only [Bool.and_eq_true, Bool.not_eq_true'] at hg
      obtain ⟨⟨n, tx⟩, hp, h⟩ := bind_eq_ok.1 h
      simp only at h
      split at h
      · rename_i hn
        obtain ⟨b, hb, h⟩ := bind_eq_ok.1 h
        injection h with h; injection h with h ho; subst h ho hn
        obtain ⟨rfl, _⟩ := readBytes_ok hb
        exact ⟨⟨_, rfl, pack_length hi.1 hp⟩, Or.inr ⟨c, tx, rfl, hg.1, hg.2, hp, rfl⟩⟩
      · injection h with h; injection h with h ho; subst h ho
        exact ⟨⟨_, rfl, pack_length hi.1 hp⟩, Or.inl rfl⟩
    · injection h with h; injection h with h ho; subst h ho
      exact ⟨⟨_, rfl, hi.1⟩, Or.inl rfl⟩

/-- The 500 ms task. -/
theorem task500_facts {cfg : Config} {T : Tel K S} {s s' : Sys K S} {i : In K} {o : List Out} (hi : Inv s)
    (h : task500 cfg T s i = .ok (s', o)) :
    Inv s' ∧ s'.scope = s.scope ∧ s'.nexStarMode = s.nexStarMode ∧ s'.ledMode = s.ledMode ∧ s'.net = s.net ∧
    (∃ s1, pollGnss cfg s i.serial = .ok s1 ∧ s'.gnss = s1.gnss ∧ s'.gnssAvailable = s1.gnssAvailable ∧
      s'.gnssTimeout = s1.gnssTimeout) ∧
    (∀ c b, Out.tcp c b ∈ o → client s = some c ∧ s'.gnssAvailable = true ∧ s.nexStarMode = false ∧
      ∃ lst ty position tx, Helper.localSiderealTime s'.gnss.utc (s'.gnss.longitude : K) = .ok lst ∧
        T.calibrated s.scope.core (s'.gnss.latitude : K) lst = .ok (ty, position) ∧
        Codec.packPosition cfg.platform position.ra position.dec 0 s.tx 256 = .ok (24, tx) ∧ b = tx.take 24) := by
  unfold task500 at h
  obtain ⟨s1, h1, h⟩ := bind_eq_ok.1 h
  obtain ⟨a1, a2, a3, a4, a5⟩ := pollGnss_facts h1
  have i1 := a1.2.2 hi
  split at h
  · unfold reportAll at h
    obtain ⟨lst, hl, h⟩ := bind_eq_ok.1 h
    obtain ⟨⟨ty, position⟩, hpos, h⟩ := bind_eq_ok.1 h
    obtain ⟨⟨s2, o1⟩, h2, h⟩ := bind_eq_ok.1 h
    obtain ⟨⟨tx1, o2⟩, h3, h⟩ := bind_eq_ok.1 h
    obtain ⟨⟨tx2, o3⟩, h4, h⟩ := bind_eq_ok.1 h
    obtain ⟨⟨tx3, o4⟩, h5, h⟩ := bind_eq_ok.1 h
    obtain ⟨m, hm, h⟩ := bind_eq_ok.1 h
    obtain ⟨⟨tx4, o5⟩, h6, h⟩ := bind_eq_ok.1 h
    injection h with h; injection h with h ho; subst h ho
    obtain ⟨⟨txs, rfl, htx⟩, hout⟩ := sendPosition_facts i1 h2
    obtain ⟨l3, n3⟩ := publishAll_facts h3
    obtain ⟨l4, n4⟩ := publishVertices_facts h4
    obtain ⟨l5, n5⟩ := publishVertices_facts h5
    obtain ⟨l6, n6⟩ := publish_facts h6
    simp only at l3 l4 l5 l6
    refine ⟨⟨by simp only; omega, i1.2⟩, a3, a1.2.1, a4, a2, ⟨s1, h1, rfl, rfl, rfl⟩, ?_⟩
    intro c b hcb
    rcases hout with rfl | ⟨c', tx, hc', hga, hnx, hpk, rfl⟩
    · exact absurd rfl ((((NoTcp.nil.append n3).append n4).append n5).append n6 _ hcb c b)
    · have : Out.tcp c b ∈ [Out.tcp c' (tx.take 24)] := by
        simp only [List.mem_append] at hcb
        rcases hcb with (((hcb | hcb) | hcb) | hcb) | hcb
        · exact hcb
        · exact absurd rfl (n3 _ hcb c b)
        · exact absurd rfl (n4 _ hcb c b)
        · exact absurd rfl (n5 _ hcb c b)
        · exact absurd rfl (n6 _ hcb c b)
      simp only [List.mem_singleton] at this
      injection this with e1 e2
      subst e1 e2
      refine ⟨?_, hga, a1.2.1 ▸ hnx, lst, ty, position, tx, hl, ?_, ?_, rfl⟩
      · unfold client at hc' ⊢; rw [← a2]; exact hc'
      · rw [← a3]; exact hpos
      · rw [← a5]; exact hpk
  · injection h with h; injection h with h ho; subst h ho
    exact ⟨i1, a3, a1.2.1, a4, a2, ⟨s1, h1, rfl, rfl, rfl⟩, by simp⟩

/-- The 2 s task. -/
theorem task2s_facts {cfg : Config} {s s' : Sys K S} {i : In K} {o : List Out} (hi : Inv s)
    (h : task2s cfg s i = .ok (s', o)) :
    Inv s' ∧ s'.scope = s.scope ∧ s'.nexStarMode = s.nexStarMode ∧ s'.ledMode = s.ledMode ∧ s'.net = s.net ∧ s'.gnss = s.gnss ∧
      s'.gnssAvailable = s.gnssAvailable ∧ s'.gnssTimeout = s.gnssTimeout ∧ NoTcp o := by
  unfold task2s at h
  obtain ⟨tx1, h1, h⟩ := bind_eq_ok.1 h
  obtain ⟨tx2, h2, h⟩ := bind_eq_ok.1 h
  obtain ⟨rx1, h3, h⟩ := bind_eq_ok.1 h
  obtain ⟨rx2, h4, h⟩ := bind_eq_ok.1 h
  obtain ⟨⟨s1, o1⟩, h5, h⟩ := bind_eq_ok.1 h
  injection h with h; injection h with h ho; subst h ho
  have l1 := storeByte_length h1
  have l2 := storeByte_length h2
  have l3 := storeByte_length h3
  have l4 := storeByte_length h4
  have hi1 := hi.1
  have hi2 := hi.2
  unfold reportGnss at h5
  simp only at h5
  split at h5
  · obtain ⟨⟨n, tx3⟩, h6, h5⟩ := bind_eq_ok.1 h5
    obtain ⟨o2, h7, h5⟩ := bind_eq_ok.1 h5
    obtain ⟨o3, h8, h5⟩ := bind_eq_ok.1 h5
    injection h5 with h5; injection h5 with h5 ho; subst h5 ho
    have l6 := (snprintfAt_length h6).1
    exact ⟨⟨by simp only; omega, by simp only; omega⟩, rfl, rfl, rfl, rfl, rfl, rfl, rfl, (sendBroker_noTcp h7).append (sendMqtt_noTcp h8)⟩
  · injection h5 with h5; injection h5 with h5 ho; subst h5 ho
    exact ⟨⟨by simp only; omega, by simp only; omega⟩, rfl, rfl, rfl, rfl, rfl, rfl, rfl, NoTcp.nil⟩

theorem taskFilter_facts {cfg : Config} {s s' : Sys K S} {i : In K} {o : List Out} (h : taskFilter cfg s i = .ok (s', o)) :
    o = [] ∧ ∃ imu, s' = { s with imu } := by
  unfold taskFilter at h
  split at h
  · obtain ⟨m, _, h⟩ := bind_eq_ok.1 h
    injection h with h; injection h with h ho; exact ⟨ho.symm, m, h.symm⟩
  · injection h with h; injection h with h ho; exact ⟨ho.symm, s.imu, by rw [← h]⟩

theorem task25_facts (s : Sys K S) (i : In K) : (task25 s i).1 = s ∧ NoTcp (task25 s i).2 := by
  unfold task25
  split
  · exact ⟨rfl, by intro x hx; simp only [List.mem_singleton] at hx; subst hx; simp⟩
  · exact ⟨rfl, NoTcp.nil⟩

end Verif.Main
