import Verif.Lemmas.MainStep
import Verif.Spec.Led
import Verif.Spec.MainDemo
import Verif.Props.Led

/-!
# C11, C47, C48 (main loop), C51: properties of the firmware over all histories

Every theorem holds for every configuration, every behaviour of the telescope functions (they may even change from event to event) and every
history of calls of `loop()`, Bluetooth data and network events since power-up.
-/

set_option linter.unusedSectionVars false

namespace Verif.Main
open Printf Net Imu Spec.NexStar NexStar

variable {K : Type} [Field K] [LinearOrder K] [IsStrictOrderedRing K] [FloorRing K] {S : Type}

/-! ### C11 -/

/-- **C11** After any history since power-up, `J` over Bluetooth is answered by 1 if a sync request was handled, else by 0. -/
theorem C11_J_bluetooth (cfg : Config) (core : S) (h : List (Tel K S × Event K)) (s : Sys K S) (o : List Out)
    (hr : run cfg h (boot cfg core) = .ok (s, o)) (T : Tel K S) (rest : List UInt8) :
    (Happened cfg (boot cfg core) h IsSync → ∃ s', step cfg T s (.bluetooth (74 :: rest)) = .ok (s', [.bluetooth [1, 35]])) ∧
    (¬ Happened cfg (boot cfg core) h IsSync → ∃ s', step cfg T s (.bluetooth (74 :: rest)) = .ok (s', [.bluetooth [0, 35]])) := by
  obtain ⟨hi, hcal, -⟩ := run_facts h (inv_boot cfg core) hr
  have hb : (boot cfg core : Sys K S).scope.isCalibrated = false := rfl
  rw [hb] at hcal
  simp only [Bool.false_eq_true, false_or] at hcal
  have key : ∃ s', step cfg T s (.bluetooth (74 :: rest)) =
      .ok (s', [.bluetooth [if s.scope.isCalibrated then 1 else 0, 35]]) := by
    simp only [step, onBluetoothData]
    rw [C06_fixed_reply cfg.platform T.ops s.gnss s.scope (74 :: rest) s.tx (74 :: rest).length 256 le_rfl .aligned
      (by rw [List.take_length]; exact .aligned rest) [if s.scope.isCalibrated then 1 else 0, 35] rfl (by simp) (by rw [hi.1]), bind_ok]
    simp only
    have hk : (0 : UInt32) < UInt32.ofNat [if s.scope.isCalibrated = true then (1 : UInt8) else 0, 35].length := by
      show (0 : UInt32) < UInt32.ofNat 2
      decide
    rw [if_pos hk]
    unfold readBytes
    rw [if_pos (by
      show (UInt32.ofNat 2).toNat ≤ _
      simp [written])]
    refine ⟨_, rfl⟩
  constructor
  · intro hs
    rw [hcal.2 hs] at key
    exact key
  · intro hs
    have : s.scope.isCalibrated = false := by
      cases hc : s.scope.isCalibrated with
      | false => rfl
      | true => exact absurd (hcal.1 hc) hs
    rw [this] at key
    exact key

/-- **C11** The same over TCP: the flag the reply is made from is the one the history determines, whatever the transport. -/
theorem C11_flag (cfg : Config) (core : S) (h : List (Tel K S × Event K)) (s : Sys K S) (o : List Out)
    (hr : run cfg h (boot cfg core) = .ok (s, o)) :
    s.scope.isCalibrated = true ↔ Happened cfg (boot cfg core) h IsSync := by
  obtain ⟨-, hcal, -⟩ := run_facts h (inv_boot cfg core) hr
  rw [hcal]
  simp [show (boot cfg core : Sys K S).scope.isCalibrated = false from rfl]

/-- Sync over Bluetooth, an MQTT reset, then `J`: 1.  Without the sync: 0. -/
example : (run { Demo.cfg with mqtt := true }
      [Demo.ev (.bluetooth (ascii "s12345678,12345678")), Demo.at' 600000, Demo.at' 600000,
       Demo.at' 600000 (messages := [(CONTROL_TOPIC, [49])]), Demo.ev (.bluetooth (ascii "J"))] (boot Demo.cfg [])).map (·.2) =
    .ok [.bluetooth [35], .mqtt "home/appliance/telescope/control" [48], .bluetooth [1, 35]] ∧
  (run Demo.cfg [Demo.ev (.bluetooth (ascii "s1234567,12345678")), Demo.at' 600000, Demo.ev (.bluetooth (ascii "J"))]
    (boot Demo.cfg [])).map (·.2) = .ok [.bluetooth [0, 35]] := by decide +kernel

/-- **C11** (finding) Over TCP the complete 256-byte buffer is the request, so that the single byte `s` already is a sync with whatever
is left in the buffer, and marks the telescope as aligned. -/
theorem C11_one_byte_sync : (run Demo.cfg
      [Demo.ev (.arrive 7), Demo.at' 600000, Demo.at' 600000, Demo.at' 600000, Demo.ev (.bluetooth [74]), Demo.at' 720000, Demo.at' 720000,
       Demo.at' 720000 (tcp := .data [115]), Demo.ev (.bluetooth [74])] (boot Demo.cfg [])).map (·.2) =
    .ok [.bluetooth [0, 35], .pin false, .tcp 7 [35], .bluetooth [1, 35]] := by decide +kernel

/-! ### C47 -/

/-- Remaining empty polls, as a function of the polls. -/
def remaining : List Poll → Nat := List.foldl (fun n p => match p with | .valid => 20 | .garbage => n | .empty => n - 1) 0

theorem remaining_snoc (ps : List Poll) (p : Poll) :
    remaining (ps ++ [p]) = match p with | .valid => 20 | .garbage => remaining ps | .empty => remaining ps - 1 := by
  unfold remaining; rw [List.foldl_append]; rfl

theorem live_snoc (ps : List Poll) (p : Poll) :
    Live (ps ++ [p]) ↔ p = .valid ∨ ∃ a b, ps = a ++ .valid :: b ∧ b.count .empty + (if p = .empty then 1 else 0) ≤ 19 := by
  constructor
  · rintro ⟨a, b, h, hc⟩
    rcases List.eq_nil_or_concat b with rfl | ⟨b', x, rfl⟩
    · obtain ⟨-, e⟩ := List.append_inj' h rfl
      injection e with e _; exact Or.inl e
    · rw [List.concat_eq_append, ← List.cons_append, ← List.append_assoc] at h
      obtain ⟨e1, e2⟩ := List.append_inj' h rfl
      injection e2 with e2 _; subst e2
      right
      refine ⟨a, b', e1, ?_⟩
      rw [List.concat_eq_append, List.count_append] at hc
      cases p <;> simp_all
  · rintro (rfl | ⟨a, b, rfl, hc⟩)
    · exact ⟨ps, [], rfl, by simp⟩
    · refine ⟨a, b ++ [p], by simp, ?_⟩
      rw [List.count_append]
      cases p <;> simp_all

theorem remaining_lt (ps : List Poll) (k : Nat) (hk : k ≤ 19) :
    k < remaining ps ↔ ∃ a b, ps = a ++ .valid :: b ∧ b.count .empty + k ≤ 19 := by
  induction ps using List.reverseRecOn generalizing k with
  | nil => simp [remaining]
  | append_singleton ps p ih =>
    have hsn : (∃ a b, ps ++ [p] = a ++ .valid :: b ∧ b.count .empty + k ≤ 19) ↔
        p = .valid ∨ ∃ a b, ps = a ++ .valid :: b ∧ b.count .empty + (if p = .empty then 1 else 0) + k ≤ 19 := by
      constructor
      · rintro ⟨a, b, h, hc⟩
        rcases List.eq_nil_or_concat b with rfl | ⟨b', x, rfl⟩
        · obtain ⟨-, e⟩ := List.append_inj' h rfl
          injection e with e _; exact Or.inl e
        · rw [List.concat_eq_append, ← List.cons_append, ← List.append_assoc] at h
          obtain ⟨e1, e2⟩ := List.append_inj' h rfl
          injection e2 with e2 _; subst e2
          right
          refine ⟨a, b', e1, ?_⟩
          rw [List.concat_eq_append, List.count_append] at hc
          cases p <;> simp_all
      · rintro (rfl | ⟨a, b, rfl, hc⟩)
        · exact ⟨ps, [], rfl, by simpa using hk⟩
        · refine ⟨a, b ++ [p], by simp, ?_⟩
          rw [List.count_append]
          cases p <;> simp_all
    rw [hsn, remaining_snoc]
    cases p with
    | valid => simp; omega
    | garbage =>
      simp only [reduceCtorEq, if_false, false_or, add_zero]
      exact ih k hk
    | empty =>
      simp only [reduceCtorEq, if_true, false_or]
      by_cases h19 : k = 19
      · subst h19
        have : remaining ps ≤ 20 := by
          clear ih hsn
          induction ps using List.reverseRecOn with
          | nil => simp [remaining]
          | append_singleton ps p ih => rw [remaining_snoc]; cases p <;> simp <;> omega
        constructor
        · intro h; omega
        · rintro ⟨a, b, -, h⟩; omega
      · have := ih (k + 1) (by omega)
        constructor
        · intro h
          obtain ⟨a, b, e, hc⟩ := this.1 (by omega)
          exact ⟨a, b, e, by omega⟩
        · rintro ⟨a, b, e, hc⟩
          have := this.2 ⟨a, b, e, by omega⟩
          omega

theorem live_iff (ps : List Poll) : Live ps ↔ 0 < remaining ps := by
  rw [remaining_lt ps 0 (by omega)]; rfl

theorem remaining_le (ps : List Poll) : remaining ps ≤ 20 := by
  induction ps using List.reverseRecOn with
  | nil => simp [remaining]
  | append_singleton ps p ih => rw [remaining_snoc]; cases p <;> simp <;> omega

theorem polls_snoc {cfg : Config} (h : List (Tel K S × Event K)) (T : Tel K S) (e : Event K) {s s1 : Sys K S} {o : List Out}
    (hr : run cfg h s = .ok (s1, o)) : polls cfg (h ++ [(T, e)]) s = polls cfg h s ++ (pollOf cfg s1 e).toList := by
  induction h generalizing s o with
  | nil =>
    injection hr with hr; injection hr with hr _; subst hr
    simp only [List.nil_append, polls]
    cases step cfg T s e with
    | error e => simp
    | ok r => obtain ⟨a, b⟩ := r; simp
  | cons x h ih =>
    obtain ⟨T', e'⟩ := x
    simp only [run] at hr
    obtain ⟨⟨s2, o2⟩, h2, hr⟩ := bind_eq_ok.1 hr
    obtain ⟨⟨s3, o3⟩, h3, hr⟩ := bind_eq_ok.1 hr
    injection hr with hr; injection hr with hr _; subst hr
    simp only [List.cons_append, polls, h2]
    rw [ih h3, List.append_assoc]

/-- The watchdog in the state. -/
def Dog (s : Sys K S) (n : Nat) : Prop := s.gnssTimeout.toNat = n ∧ s.gnssAvailable = decide (0 < n)

theorem pollGnss_dog {cfg : Config} {s s' : Sys K S} {serial : List UInt8} {n : Nat} (hrx : s.rx.length = 256) (hd : Dog s n)
    (h : pollGnss cfg s serial = .ok s') :
    Dog s' (if serial = [] then n - 1 else
      if classify (Nmea.fromBuffer cfg.platform s.gnss (serial.take 255)) = .valid then 20 else n) := by
  unfold pollGnss at h
  simp only at h
  by_cases hs : serial = []
  · rw [if_pos hs]
    subst hs
    rw [if_neg (by simp)] at h
    injection h with h; subst h
    obtain ⟨h1, h2⟩ := hd
    have key : (s.gnssTimeout - (if s.gnssTimeout > 0 then 1 else 0)).toNat = n - 1 := by
      split
      · rename_i hp
        rw [UInt32.toNat_sub_of_le _ _ (by
          rw [UInt32.le_iff_toNat_le]
          have := UInt32.lt_iff_toNat_lt.1 hp
          exact this), h1]; rfl
      · rename_i hp
        have : s.gnssTimeout.toNat = 0 := by
          by_contra hne
          exact hp (UInt32.lt_iff_toNat_lt.2 (by simpa using Nat.pos_of_ne_zero hne))
        rw [UInt32.sub_zero, this]; omega
    refine ⟨key, ?_⟩
    show decide (_ > (0 : UInt32)) = _
    congr 1
    rw [gt_iff_lt, UInt32.lt_iff_toNat_lt, key]
    simp
  · rw [if_neg hs]
    have hl : 0 < (serial.take 255).length := by
      cases serial with
      | nil => exact absurd rfl hs
      | cons a t => simp
    rw [if_pos hl] at h
    obtain ⟨rx1, hr1, h⟩ := bind_eq_ok.1 h
    obtain ⟨rx2, hr2, h⟩ := bind_eq_ok.1 h
    have hlen : (serial.take 255).length ≤ 255 := by simp
    have hrx2 : rx2.take (serial.take 255).length = serial.take 255 := by
      rw [Codec.storeSeq_ok _ _ _ (by omega)] at hr1
      injection hr1 with hr1
      unfold storeByte at hr2
      split at hr2
      · injection hr2 with hr2
        rw [← hr2, List.take_set_of_le (le_refl _), ← hr1]
        simp
      · cases hr2
    rw [hrx2] at h
    obtain ⟨r, hf, h⟩ := bind_eq_ok.1 h
    rw [hf]
    cases r with
    | none => cases h
    | some r =>
      obtain ⟨k, g⟩ := r
      simp only at h
      split at h
      · rename_i hk
        rw [if_pos (by simp [classify, hk])]; injection h with h; subst h; exact ⟨rfl, rfl⟩
      · rename_i hk
        rw [if_neg (by simp [classify, hk])]; injection h with h; subst h; exact hd

theorem tcpGoto_dog {T : Tel K S} {s s' : Sys K S} {n : UInt32} (h : tcpGoto T s n = .ok s') :
    s'.gnssTimeout = s.gnssTimeout ∧ s'.gnssAvailable = s.gnssAvailable := by
  unfold tcpGoto at h
  obtain ⟨⟨ok, ref⟩, _, h⟩ := bind_eq_ok.1 h
  simp only at h
  split at h
  · obtain ⟨_, _, h⟩ := bind_eq_ok.1 h
    obtain ⟨_, _, h⟩ := bind_eq_ok.1 h
    injection h with h; subst h; exact ⟨rfl, rfl⟩
  · injection h with h; subst h; exact ⟨rfl, rfl⟩

theorem tcpInput_dog {cfg : Config} {T : Tel K S} {s s' : Sys K S} {c : Conn} {r : TcpRead} {o : List Out}
    (h : tcpInput cfg T s c r = .ok (s', o)) : s'.gnssTimeout = s.gnssTimeout ∧ s'.gnssAvailable = s.gnssAvailable := by
  unfold tcpInput at h
  obtain ⟨⟨n, rx⟩, _, h⟩ := bind_eq_ok.1 h
  simp only at h
  split at h
  · obtain ⟨⟨k, tx, scope⟩, hh, h⟩ := bind_eq_ok.1 h
    simp only at h
    split at h
    · obtain ⟨bytes, hb, h⟩ := bind_eq_ok.1 h
      injection h with h; injection h with h ho; subst h; exact ⟨rfl, rfl⟩
    · obtain ⟨s1, hg, h⟩ := bind_eq_ok.1 h
      injection h with h; injection h with h ho; subst h
      have := tcpGoto_dog hg
      exact this
  · injection h with h; injection h with h ho; subst h; exact ⟨rfl, rfl⟩

theorem mqttCallback_dog {T : Tel K S} {s s' : Sys K S} {topic payload : List UInt8} {o : List Out}
    (h : mqttCallback T s topic payload = .ok (s', o)) : s'.gnssTimeout = s.gnssTimeout ∧ s'.gnssAvailable = s.gnssAvailable := by
  unfold mqttCallback at h
  split at h
  · injection h with h; injection h with h _; subst h; exact ⟨rfl, rfl⟩
  · split at h
    · injection h with h; injection h with h _; subst h; exact ⟨rfl, rfl⟩
    · obtain ⟨p0, _, h⟩ := bind_eq_ok.1 h
      split at h
      · obtain ⟨tx, htx, h⟩ := bind_eq_ok.1 h
        obtain ⟨b, _, h⟩ := bind_eq_ok.1 h
        injection h with h; injection h with h _; subst h; exact ⟨rfl, rfl⟩
      · injection h with h; injection h with h _; subst h; exact ⟨rfl, rfl⟩

theorem mqttLoop_dog {T : Tel K S} {ms : List (List UInt8 × List UInt8)} {s s' : Sys K S} {o : List Out}
    (h : mqttLoop T ms s = .ok (s', o)) : s'.gnssTimeout = s.gnssTimeout ∧ s'.gnssAvailable = s.gnssAvailable := by
  induction ms generalizing s s' o with
  | nil => injection h with h; injection h with h _; subst h; exact ⟨rfl, rfl⟩
  | cons m ms ih =>
    obtain ⟨topic, payload⟩ := m
    unfold mqttLoop at h
    obtain ⟨⟨s1, o1⟩, h1, h⟩ := bind_eq_ok.1 h
    obtain ⟨⟨s2, o2⟩, h2, h⟩ := bind_eq_ok.1 h
    injection h with h; injection h with h _; subst h
    have a := mqttCallback_dog h1
    have b := ih h2
    exact ⟨b.1.trans a.1, b.2.trans a.2⟩

theorem task100_dog {cfg : Config} {T : Tel K S} {s s' : Sys K S} {i : In K} {o : List Out}
    (h : task100 cfg T s i = .ok (s', o)) : s'.gnssTimeout = s.gnssTimeout ∧ s'.gnssAvailable = s.gnssAvailable := by
  unfold task100 at h
  obtain ⟨s1, h1, h⟩ := bind_eq_ok.1 h
  obtain ⟨⟨s2, o1⟩, h2, h⟩ := bind_eq_ok.1 h
  obtain ⟨⟨s3, o2⟩, h3, h⟩ := bind_eq_ok.1 h
  simp only [pure_ok] at h
  injection h with h; injection h with hs ho
  have a : s1.gnssTimeout = s.gnssTimeout ∧ s1.gnssAvailable = s.gnssAvailable := by
    unfold readSensors at h1
    obtain ⟨m, _, h1⟩ := bind_eq_ok.1 h1
    obtain ⟨hd, _, h1⟩ := bind_eq_ok.1 h1
    injection h1 with h1; subst h1; exact ⟨rfl, rfl⟩
  have b : s2.gnssTimeout = s1.gnssTimeout ∧ s2.gnssAvailable = s1.gnssAvailable := by
    unfold tcpTask at h2
    split at h2
    · exact tcpInput_dog h2
    · injection h2 with h2; injection h2 with h2 _; subst h2; exact ⟨rfl, rfl⟩
  have c : s3.gnssTimeout = s2.gnssTimeout ∧ s3.gnssAvailable = s2.gnssAvailable := by
    unfold mqttTask at h3
    split at h3
    · exact mqttLoop_dog h3
    · injection h3 with h3; injection h3 with h3 _; subst h3; exact ⟨rfl, rfl⟩
  have d : s'.gnssTimeout = s3.gnssTimeout ∧ s'.gnssAvailable = s3.gnssAvailable := by
    subst hs; split <;> exact ⟨rfl, rfl⟩
  exact ⟨d.1.trans (c.1.trans (b.1.trans a.1)), d.2.trans (c.2.trans (b.2.trans a.2))⟩

theorem bluetooth_dog {cfg : Config} {T : Tel K S} {s s' : Sys K S} {b : List UInt8} {o : List Out}
    (h : onBluetoothData cfg T s b = .ok (s', o)) : s'.gnssTimeout = s.gnssTimeout ∧ s'.gnssAvailable = s.gnssAvailable := by
  unfold onBluetoothData at h
  obtain ⟨⟨n, tx, scope⟩, hh, h⟩ := bind_eq_ok.1 h
  simp only at h
  split at h
  · obtain ⟨bytes, _, h⟩ := bind_eq_ok.1 h
    injection h with h; injection h with h ho; subst h; exact ⟨rfl, rfl⟩
  · injection h with h; injection h with h ho; subst h; exact ⟨rfl, rfl⟩

theorem step_dog {cfg : Config} {T : Tel K S} {s s' : Sys K S} {e : Event K} {o : List Out} {ps : List Poll} (hi : Inv s)
    (hd : Dog s (remaining ps)) (h : step cfg T s e = .ok (s', o)) : Dog s' (remaining (ps ++ (pollOf cfg s e).toList)) := by
  have keep : ∀ {a b : Sys K S}, Dog a (remaining ps) → b.gnssTimeout = a.gnssTimeout ∧ b.gnssAvailable = a.gnssAvailable →
      Dog b (remaining (ps ++ [])) := by
    rintro a b ⟨h1, h2⟩ ⟨h3, h4⟩
    rw [List.append_nil]
    exact ⟨by rw [h3, h1], by rw [h4, h2]⟩
  cases e with
  | bluetooth b => exact keep hd (bluetooth_dog h)
  | arrive c => injection h with h; injection h with h _; subst h; exact keep hd ⟨rfl, rfl⟩
  | gone c => injection h with h; injection h with h _; subst h; exact keep hd ⟨rfl, rfl⟩
  | loop i =>
    simp only [step, loop] at h
    simp only [pollOf]
    set s0 : Sys K S := { s with timers := (schedule s.timers i.now).2 } with hs0
    cases ht : (schedule s.timers i.now).1 with
    | none =>
      rw [ht] at h
      injection h with h; injection h with h _; subst h
      exact keep hd ⟨rfl, rfl⟩
    | some k =>
      rw [ht] at h
      cases k with
      | filter =>
        obtain ⟨-, imu, rfl⟩ := taskFilter_facts h
        exact keep hd ⟨rfl, rfl⟩
      | t25ms =>
        simp only at h
        injection h with h
        have := (task25_facts s0 i).1
        rw [h] at this
        simp only at this
        subst this
        exact keep hd ⟨rfl, rfl⟩
      | t1s => injection h with h; injection h with h _; subst h; exact keep hd ⟨rfl, rfl⟩
      | t30s => injection h with h; injection h with h _; subst h; exact keep hd ⟨rfl, rfl⟩
      | t2s =>
        obtain ⟨-, -, -, -, -, -, a, b, -⟩ := task2s_facts (s := s0) hi h
        exact keep hd ⟨b, a⟩
      | t100ms => exact keep hd (task100_dog (s := s0) h)
      | t500ms =>
        obtain ⟨-, -, -, -, -, ⟨s1, hp, -, ha, hto⟩, -⟩ := task500_facts (s := s0) hi h
        have hd1 := pollGnss_dog (s := s0) hi.2 hd hp
        have hg : s0.gnss = s.gnss := rfl
        rw [hg] at hd1
        have fin : ∀ n, Dog s1 n → Dog s' n := fun n ⟨x, y⟩ => ⟨by rw [hto, x], by rw [ha, y]⟩
        apply fin
        rw [if_pos rfl]
        by_cases hs : i.serial = []
        · rw [if_pos hs] at hd1 ⊢
          simp only [Option.toList_some]
          rw [remaining_snoc]
          exact hd1
        · rw [if_neg hs] at hd1 ⊢
          simp only [Option.toList_some]
          rw [remaining_snoc]
          cases hcl : classify (Nmea.fromBuffer cfg.platform s.gnss (i.serial.take 255)) with
          | valid => rw [if_pos hcl] at hd1; exact hd1
          | garbage => rw [if_neg (by simp [hcl])] at hd1; exact hd1
          | empty =>
            unfold classify at hcl
            split at hcl
            · split at hcl <;> cases hcl
            · cases hcl

theorem run_dog {cfg : Config} (core : S) (h : List (Tel K S × Event K)) {s' : Sys K S} {o : List Out}
    (hr : run cfg h (boot cfg core) = .ok (s', o)) : Dog s' (remaining (polls cfg h (boot cfg core))) := by
  induction h using List.reverseRecOn generalizing s' o with
  | nil => injection hr with hr; injection hr with hr _; subst hr; exact ⟨rfl, rfl⟩
  | append_singleton h x ih =>
    obtain ⟨T, e⟩ := x
    obtain ⟨s1, o1, o2, h1, h2, rfl⟩ := run_snoc.1 hr
    rw [polls_snoc h T e h1]
    exact step_dog (run_facts h (inv_boot cfg core) h1).1 (ih h1) h2

/-- **C47** After any history, GNSS counts as available exactly if there was a poll with a valid sentence and at most 19 polls that
delivered nothing since the last such poll; polls that deliver only garbage do not matter. -/
theorem C47_watchdog (cfg : Config) (core : S) (h : List (Tel K S × Event K)) (s : Sys K S) (o : List Out)
    (hr : run cfg h (boot cfg core) = .ok (s, o)) : s.gnssAvailable = true ↔ Live (polls cfg h (boot cfg core)) := by
  rw [(run_dog core h hr).2, live_iff, decide_eq_true_eq]

example : Live [.empty, .valid, .garbage, .empty, .garbage] := ⟨[.empty], [.garbage, .empty, .garbage], rfl, by decide⟩
example : Live (.valid :: List.replicate 19 .empty) ∧ ¬ Live (.valid :: List.replicate 20 .empty) ∧
    ¬ Live (.valid :: (List.replicate 20 .empty ++ List.replicate 7 .garbage)) := by
  simp only [live_iff]; decide

/-! ### C48: the main loop -/

/-- The mode the 100 ms task chooses has the pattern that should be shown. -/
theorem chooseLed_shown (s : Sys K S) : pattern (chooseLed s) = some (shown s) := by
  unfold chooseLed shown Net.connected
  cases hv : s.gnss.valid with
  | false => rfl
  | true =>
    cases hr : s.net.remote with
    | none => rfl
    | some c =>
      simp only [Bool.not_true, Bool.false_eq_true, if_false, List.contains_iff_mem, Bool.true_eq_false]
      by_cases hc : c ∈ s.net.open' <;> simp [hc, pattern]

/-- Events other than the 100 ms task leave the mode alone. -/
theorem step_led {cfg : Config} {T : Tel K S} {s s' : Sys K S} {e : Event K} {o : List Out} (hi : Inv s)
    (h : step cfg T s e = .ok (s', o)) :
    (taskOf s e ≠ some .t100ms → s'.ledMode = s.ledMode) ∧ (taskOf s e = some .t100ms → s'.ledMode = chooseLed s) := by
  cases e with
  | bluetooth b =>
    refine ⟨fun _ => ?_, by simp [taskOf]⟩
    simp only [step, onBluetoothData] at h
    obtain ⟨⟨n, tx, scope⟩, hh, h⟩ := bind_eq_ok.1 h
    simp only at h
    split at h
    · obtain ⟨bytes, _, h⟩ := bind_eq_ok.1 h
      injection h with h; injection h with h ho; subst h; rfl
    · injection h with h; injection h with h ho; subst h; rfl
  | arrive c => injection h with h; injection h with h _; subst h; simp [taskOf]
  | gone c => injection h with h; injection h with h _; subst h; simp [taskOf]
  | loop i =>
    simp only [step, loop] at h
    simp only [taskOf]
    set s0 : Sys K S := { s with timers := (schedule s.timers i.now).2 } with hs0
    cases ht : (schedule s.timers i.now).1 with
    | none =>
      rw [ht] at h
      injection h with h; injection h with h _; subst h
      exact ⟨fun _ => rfl, by simp⟩
    | some k =>
      rw [ht] at h
      cases k with
      | filter =>
        obtain ⟨-, imu, rfl⟩ := taskFilter_facts h
        exact ⟨fun _ => rfl, by simp⟩
      | t25ms =>
        simp only at h
        injection h with h
        have := (task25_facts s0 i).1
        rw [h] at this
        simp only at this
        subst this
        exact ⟨fun _ => rfl, by simp⟩
      | t1s => injection h with h; injection h with h _; subst h; exact ⟨fun _ => rfl, by simp⟩
      | t30s => injection h with h; injection h with h _; subst h; exact ⟨fun _ => rfl, by simp⟩
      | t2s =>
        obtain ⟨-, -, -, a, -⟩ := task2s_facts (s := s0) hi h
        exact ⟨fun _ => a, by simp⟩
      | t100ms =>
        obtain ⟨-, -, -, -, a, -⟩ := task100_facts (s := s0) hi h
        exact ⟨fun hn => absurd rfl hn, fun _ => a⟩
      | t500ms =>
        obtain ⟨-, -, -, a, -⟩ := task500_facts (s := s0) hi h
        exact ⟨fun _ => a, by simp⟩

theorem run_led {cfg : Config} {s0 s : Sys K S} (h : List (Tel K S × Event K)) {o : List Out} (hi : Inv s0)
    (hr : run cfg h s0 = .ok (s, o)) (hno : ¬ Happened cfg s0 h fun s e => taskOf s e = some .t100ms) : s.ledMode = s0.ledMode := by
  induction h using List.reverseRecOn generalizing s o with
  | nil => injection hr with hr; injection hr with hr _; subst hr; rfl
  | append_singleton h x ih =>
    obtain ⟨T, e⟩ := x
    obtain ⟨s1, o1, o2, h1, h2, rfl⟩ := run_snoc.1 hr
    rw [happened_snoc h1, not_or] at hno
    rw [(step_led (run_facts h hi h1).1 h2).1 hno.2]
    exact ih h1 hno.1

/-- **C48** (main loop). Whenever the 25 ms task runs, it writes to the LED the level of the pattern that was to be shown when the
100 ms task ran last: 1 Hz blinking exactly if there was no fix then.  `h1` is any history, `e` a run of the 100 ms task, `h2` any
history without a run of it. -/
theorem C48_led_shows_state (cfg : Config) (core : S) (h1 h2 : List (Tel K S × Event K)) (T1 T2 : Tel K S) (e : Event K) (i : In K)
    (s1 s2 s3 s4 : Sys K S) (o1 o2 o3 o4 : List Out) (hr1 : run cfg h1 (boot cfg core) = .ok (s1, o1))
    (he : taskOf s1 e = some .t100ms) (hs2 : step cfg T1 s1 e = .ok (s2, o2)) (hr3 : run cfg h2 s2 = .ok (s3, o3))
    (hno : ¬ Happened cfg s2 h2 fun s e => taskOf s e = some .t100ms)
    (hi : taskOf s3 (.loop i) = some .t25ms) (hs4 : step cfg T2 s3 (.loop i) = .ok (s4, o4)) :
    ∃ b, o4 = [.pin b] ∧ (b = true ↔ Lit (shown s1).1 (shown s1).2 i.now.toNat) := by
  have i1 := (run_facts h1 (inv_boot cfg core) hr1).1
  have i2 := (step_facts i1 hs2).1
  have m2 := (step_led i1 hs2).2 he
  have m3 := run_led h2 i2 hr3 hno
  have hp := C48_pattern s3.ledMode i.now
  rw [m3, m2, chooseLed_shown] at hp
  simp only at hp
  obtain ⟨b, hb, hl⟩ := hp
  refine ⟨b, ?_, hl⟩
  have hi' : (schedule s3.timers i.now).1 = some .t25ms := hi
  simp only [step, loop] at hs4
  rw [hi'] at hs4
  simp only [task25, m3, m2, hb] at hs4
  injection hs4 with hs4; injection hs4 with _ hs4; exact hs4.symm

/-- No fix: blinking; the 25 ms task at 720 ms finds the LED off (the second half of the second), at 1.02 s on. -/
example : (run Demo.cfg [Demo.at' 600000, Demo.at' 600000, Demo.at' 600000, Demo.at' 720000, Demo.at' 720000, Demo.at' 1020000,
      Demo.at' 1020000] (boot Demo.cfg [])).map (·.2) = .ok [.pin false, .pin true] := by decide +kernel

/-! ### C51 -/

/-- Every TCP message of more than 18 bytes comes from the position report. -/
theorem step_packet {cfg : Config} {T : Tel K S} {s s' : Sys K S} {e : Event K} {o : List Out} (hi : Inv s)
    (h : step cfg T s e = .ok (s', o)) {c : Conn} {b : List UInt8} (hb : Out.tcp c b ∈ o) (hl : 18 < b.length) :
    taskOf s e = some .t500ms ∧ client s = some c ∧ s'.gnssAvailable = true ∧ s.nexStarMode = false ∧
      ∃ lst ty position tx, Helper.localSiderealTime s'.gnss.utc (s'.gnss.longitude : K) = .ok lst ∧
        T.calibrated s.scope.core (s'.gnss.latitude : K) lst = .ok (ty, position) ∧
        Codec.packPosition cfg.platform position.ra position.dec 0 s.tx 256 = .ok (24, tx) ∧ b = tx.take 24 := by
  cases e with
  | bluetooth b' =>
    obtain ⟨-, -, -, h4⟩ := bluetooth_facts hi h
    obtain ⟨y, hy⟩ := h4 _ hb
    cases hy
  | arrive c => injection h with h; injection h with _ h; subst h; simp at hb
  | gone c => injection h with h; injection h with _ h; subst h; simp at hb
  | loop i =>
    simp only [step, loop] at h
    simp only [taskOf]
    set s0 : Sys K S := { s with timers := (schedule s.timers i.now).2 } with hs0
    cases ht : (schedule s.timers i.now).1 with
    | none =>
      rw [ht] at h
      injection h with h; injection h with _ h; subst h; simp at hb
    | some k =>
      rw [ht] at h
      cases k with
      | filter => rw [(taskFilter_facts h).1] at hb; simp at hb
      | t25ms =>
        simp only at h
        injection h with h
        have := (task25_facts s0 i).2
        rw [h] at this
        exact absurd rfl (this _ hb c b)
      | t1s => injection h with h; injection h with _ h; subst h; simp at hb
      | t30s => injection h with h; injection h with _ h; subst h; simp at hb
      | t2s =>
        obtain ⟨-, -, -, -, -, -, -, -, a⟩ := task2s_facts (s := s0) hi h
        exact absurd rfl (a _ hb c b)
      | t100ms =>
        obtain ⟨-, -, a, -⟩ := task100_facts (s := s0) hi h
        have := a c b hb
        omega
      | t500ms =>
        obtain ⟨-, -, -, -, -, -, a⟩ := task500_facts (s := s0) hi h
        exact ⟨rfl, a c b hb⟩

/-- **C51** A binary position packet (the only TCP message of more than 18 bytes) is sent only by the 500 ms task, only to the connected
client, only while GNSS data is available, and only if no NexStar command was ever received; it is the Stellarium packet of the
calibrated position. -/
theorem C51_only_then (cfg : Config) (core : S) (h : List (Tel K S × Event K)) (s : Sys K S) (o : List Out)
    (hr : run cfg h (boot cfg core) = .ok (s, o)) (T : Tel K S) (e : Event K) (s' : Sys K S) (o' : List Out)
    (hs : step cfg T s e = .ok (s', o')) (c : Conn) (b : List UInt8) (hb : Out.tcp c b ∈ o') (hl : 18 < b.length) :
    taskOf s e = some .t500ms ∧ (s.net.remote = some c ∧ c ∈ s.net.open') ∧
      Live (polls cfg (h ++ [(T, e)]) (boot cfg core)) ∧ ¬ Happened cfg (boot cfg core) h IsCommand ∧
      ∃ lst ty position tx, Helper.localSiderealTime s'.gnss.utc (s'.gnss.longitude : K) = .ok lst ∧
        T.calibrated s.scope.core (s'.gnss.latitude : K) lst = .ok (ty, position) ∧
        Codec.packPosition cfg.platform position.ra position.dec 0 s.tx 256 = .ok (24, tx) ∧ b = tx.take 24 := by
  obtain ⟨hi, -, hnx⟩ := run_facts h (inv_boot cfg core) hr
  obtain ⟨a1, a2, a3, a4, a5⟩ := step_packet hi hs hb hl
  refine ⟨a1, client_eq.1 a2, ?_, ?_, a5⟩
  · exact (C47_watchdog cfg core _ s' (o ++ o') (run_snoc.2 ⟨s, o, o', hr, hs, rfl⟩)).1 a3
  · intro hc
    rw [hnx.2 (Or.inr hc)] at a4; cases a4

/-- **C51** After a NexStar command no position packet is ever sent again, whatever happens afterwards. -/
theorem C51_never_again (cfg : Config) (core : S) (h h' : List (Tel K S × Event K)) (s s' : Sys K S) (o o' : List Out)
    (hr : run cfg h (boot cfg core) = .ok (s, o)) (hc : Happened cfg (boot cfg core) h IsCommand)
    (hr' : run cfg h' s = .ok (s', o')) (c : Conn) (b : List UInt8) (hb : Out.tcp c b ∈ o') : b.length ≤ 18 := by
  induction h' using List.reverseRecOn generalizing s' o' with
  | nil => injection hr' with hr'; injection hr' with _ hr'; subst hr'; simp at hb
  | append_singleton h' x ih =>
    obtain ⟨T, e⟩ := x
    obtain ⟨s1, o1, o2, h1, h2, rfl⟩ := run_snoc.1 hr'
    rcases List.mem_append.1 hb with hb | hb
    · exact ih _ _ h1 hb
    · by_contra hl
      obtain ⟨hi, -, hnx⟩ := run_facts h (inv_boot cfg core) hr
      obtain ⟨hi1, -, hnx1⟩ := run_facts h' hi h1
      have := (step_packet hi1 h2 hb (by omega)).2.2.2.1
      rw [hnx1.2 (Or.inl (hnx.2 (Or.inr hc)))] at this
      cases this

/-- **C51** Conversely, under these conditions (and with the orientation sensor present) every completed run of the 500 ms task sends
the packet. -/
theorem C51_sent (cfg : Config) (hcfg : cfg.sensor = true) (core : S) (h : List (Tel K S × Event K)) (s : Sys K S) (o : List Out)
    (hr : run cfg h (boot cfg core) = .ok (s, o)) (T : Tel K S) (e : Event K) (s' : Sys K S) (o' : List Out)
    (hs : step cfg T s e = .ok (s', o')) (ht : taskOf s e = some .t500ms) (c : Conn) (hc : s.net.remote = some c ∧ c ∈ s.net.open')
    (hl : Live (polls cfg (h ++ [(T, e)]) (boot cfg core))) (hn : ¬ Happened cfg (boot cfg core) h IsCommand) :
    ∃ b, b.length = 24 ∧ Out.tcp c b ∈ o' := by
  obtain ⟨hi, -, hnx⟩ := run_facts h (inv_boot cfg core) hr
  have hav := (C47_watchdog cfg core _ s' (o ++ o') (run_snoc.2 ⟨s, o, o', hr, hs, rfl⟩)).2 hl
  have hnx' : s.nexStarMode = false := by
    cases hx : s.nexStarMode with
    | false => rfl
    | true =>
      rcases hnx.1 hx with hb | hb
      · cases hb
      · exact absurd hb hn
  cases e with
  | bluetooth b => cases ht
  | arrive c => cases ht
  | gone c => cases ht
  | loop i =>
    simp only [taskOf] at ht
    simp only [step, loop, ht] at hs
    set s0 : Sys K S := { s with timers := (schedule s.timers i.now).2 } with hs0
    unfold task500 at hs
    obtain ⟨s1, h1, hs⟩ := bind_eq_ok.1 hs
    obtain ⟨a1, a2, a3, a4, a5⟩ := pollGnss_facts h1
    have i1 : Inv s1 := a1.2.2 hi
    rw [if_pos hcfg] at hs
    unfold reportAll at hs
    obtain ⟨lst, hlst, hs⟩ := bind_eq_ok.1 hs
    obtain ⟨⟨ty, position⟩, hpos, hs⟩ := bind_eq_ok.1 hs
    obtain ⟨⟨s2, p1⟩, h2, hs⟩ := bind_eq_ok.1 hs
    obtain ⟨⟨tx1, p2⟩, h3, hs⟩ := bind_eq_ok.1 hs
    obtain ⟨⟨tx2, p3⟩, h4, hs⟩ := bind_eq_ok.1 hs
    obtain ⟨⟨tx3, p4⟩, h5, hs⟩ := bind_eq_ok.1 hs
    obtain ⟨m, hm, hs⟩ := bind_eq_ok.1 hs
    obtain ⟨⟨tx4, p5⟩, h6, hs⟩ := bind_eq_ok.1 hs
    injection hs with hs; injection hs with hs ho; subst hs ho
    obtain ⟨⟨txs, rfl, htx⟩, -⟩ := sendPosition_facts i1 h2
    have hcl : client s1 = some c := client_eq.2 (by rw [a2]; exact hc)
    have hcond : (s1.gnssAvailable && !s1.nexStarMode) = true := by
      have e1 : s1.gnssAvailable = true := hav
      have e2 : s1.nexStarMode = false := a1.2.1.trans hnx'
      rw [e1, e2]; rfl
    unfold sendPosition at h2
    rw [hcl] at h2
    simp only [hcond, if_true] at h2
    obtain ⟨⟨n, tx⟩, hp, h2⟩ := bind_eq_ok.1 h2
    obtain ⟨hlen, -, -, h24⟩ := (Codec.C01_pack_contract cfg.platform position.ra position.dec 0 s1.tx 256 (by rw [i1.1])).2.2 n tx hp
    have hn24 : n = 24 := h24 (by norm_num)
    simp only [hn24, if_true] at h2
    obtain ⟨bytes, hb, h2⟩ := bind_eq_ok.1 h2
    injection h2 with h2; injection h2 with _ ho; subst ho
    obtain ⟨rfl, hle⟩ := readBytes_ok hb
    exact ⟨tx.take 24, by rw [List.length_take]; omega, by simp⟩

/-- A client, a valid sentence: a packet; then an empty command byte over Bluetooth, and no packet any more. -/
example : (run Demo.cfg [Demo.ev (.arrive 7), Demo.at' 600000, Demo.at' 600000, Demo.at' 600000, Demo.at' 600000 (serial := Demo.rmc),
      Demo.ev (.bluetooth [86]), Demo.at' 1200000, Demo.at' 1200000, Demo.at' 1200000, Demo.at' 1200000] (boot Demo.cfg [])).map (·.2) =
    .ok [.tcp 7 [24, 0, 0, 0, 0, 0, 0, 0, 0, 0, 0, 0, 199, 113, 28, 7, 142, 227, 56, 14, 0, 0, 0, 0], .bluetooth [4, 10, 35], .pin true] := by
  decide +kernel

end Verif.Main
