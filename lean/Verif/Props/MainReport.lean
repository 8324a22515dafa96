import Verif.Props.MainPublish
import Verif.Spec.MainDemo

/-!
# C57: the numbers published every 500 ms and the GNSS report
-/

set_option linter.unusedSectionVars false

namespace Verif.Main
open Printf Net Imu Spec Spec.Decimal

variable {K : Type} [Field K] [LinearOrder K] [IsStrictOrderedRing K] [FloorRing K] {S : Type}

/-! ### Specification -/

/-- The numbers a subscriber gets, with topic and decimals. -/
def quantities (T : Tel K S) (s : Sys K S) (position : Equatorial K) (lst : K) : List (String × Nat × K) :=
  [("home/appliance/telescope/alt", 3, (T.toHorizontal position s.gnss.latitude lst).2),
   ("home/appliance/telescope/az", 3, (T.toHorizontal position s.gnss.latitude lst).1),
   ("home/appliance/telescope/ra", 3, position.ra),
   ("home/appliance/telescope/dec", 3, position.dec),
   ("home/appliance/telescope/lst", 3, lst / 15),
   ("home/appliance/telescope/pitch", 3, s.pitch),
   ("home/appliance/telescope/heading", 3, s.heading),
   ("home/appliance/telescope/temp", 1, s.temperature)]

/-- The message goes to the topic. -/
def On (topic : String) (payload : List UInt8) (o : Out) : Prop := o = .mqtt topic payload ∨ o = .broker topic payload

/-- What is sent to a topic: one message by each available way. -/
def messages (cfg : Config) (topic : String) (payload : List UInt8) : List Out :=
  (if cfg.mqtt then [.mqtt topic payload] else []) ++ (if cfg.broker then [.broker topic payload] else [])

/-- `text` is the number `n` with exactly `w` digits. -/
def ShowsNat (w : Nat) (n : ℤ) (text : List UInt8) : Prop := text.length = w ∧ (∀ c ∈ text, IsDigit c) ∧ (natValue text : ℤ) = n

/-- The GNSS report a subscriber expects. -/
def ShowsGnss (g : Nmea.Gnss) (text : List UInt8) : Prop :=
  ∃ lat lon alt y mo d h mi se su sv, Shows 3 g.latitude lat ∧ Shows 3 g.longitude lon ∧ Shows 0 g.altitude alt ∧
    ShowsNat 4 g.utc.year y ∧ ShowsNat 2 g.utc.mon mo ∧ ShowsNat 2 g.utc.mday d ∧ ShowsNat 2 g.utc.hour h ∧ ShowsNat 2 g.utc.min mi ∧
    ShowsNat 2 g.utc.sec se ∧ Denotes su 0 g.satUsed.toNat ∧ Denotes sv 0 g.satView.toNat ∧
    text = ascii (if g.valid then "{\"valid\":true" else "{\"valid\":false") ++ ascii ",\"lat\":" ++ lat ++ ascii ",\"lng\":" ++ lon ++
      ascii ",\"alt\":" ++ alt ++ ascii ",\"date\":\"" ++ y ++ ascii "-" ++ mo ++ ascii "-" ++ d ++
      ascii "\",\"time\":\"" ++ h ++ ascii ":" ++ mi ++ ascii ":" ++ se ++
      ascii "\",\"satUse\":" ++ su ++ ascii ",\"satView\":" ++ sv ++ ascii "}"

/-! ### Publication -/

theorem send_text {cfg : Config} {topic : String} {out rest : List UInt8} (h0 : (0 : UInt8) ∉ out) :
    send cfg topic (out ++ 0 :: rest) out.length = .ok (messages cfg topic out) := by
  unfold send sendMqtt sendBroker messages
  rw [readBytes_eq (by simp), readCString_eq h0, List.take_left]
  cases cfg.mqtt <;> cases cfg.broker <;> rfl

theorem publish_text {cfg : Config} {topic : String} {out tx : List UInt8} (ht : tx.length = 256) (hl : out.length ≤ 255)
    (h0 : (0 : UInt8) ∉ out) :
    publish cfg topic out tx = .ok (out ++ 0 :: tx.drop (out.length + 1), messages cfg topic out) := by
  unfold publish
  rw [snprintf_fits (by omega) (by omega), bind_ok]
  simp only [List.take_zero, List.nil_append, Nat.zero_add]
  rw [send_text h0]; rfl

theorem publishAll_text {cfg : Config} {l : List (String × List UInt8)} {tx : List UInt8} (ht : tx.length = 256)
    (hl : ∀ x ∈ l, x.2.length ≤ 255 ∧ (0 : UInt8) ∉ x.2) :
    ∃ tx', publishAll cfg l tx = .ok (tx', l.flatMap fun x => messages cfg x.1 x.2) := by
  induction l generalizing tx with
  | nil => exact ⟨tx, rfl⟩
  | cons x l ih =>
    obtain ⟨topic, out⟩ := x
    obtain ⟨h1, h2⟩ := hl (topic, out) (by simp)
    simp only at h1 h2
    obtain ⟨tx', h⟩ := ih (tx := out ++ 0 :: tx.drop (out.length + 1)) (by simp; omega) (fun x hx => hl x (by simp [hx]))
    refine ⟨tx', ?_⟩
    unfold publishAll
    rw [publish_text ht h1 h2, bind_ok]
    simp only
    rw [h]; rfl

theorem dec_ne_zero (n : Nat) : (0 : UInt8) ∉ dec n := by
  intro h; exact absurd (dec_digit h).1 (by decide)

theorem fmtI_ne_zero (z : ℤ) : (0 : UInt8) ∉ fmtI z := by
  unfold fmtI
  have := dec_ne_zero z.natAbs
  split <;> simp [this]

theorem fmtU_ne_zero (w : Nat) (z : ℤ) : (0 : UInt8) ∉ fmtU w z := by
  intro h
  exact absurd (padded_digit (fun b hb => dec_digit hb) h).1 (by decide)

theorem fmtF_no_zero (p : Nat) (x : K) : (0 : UInt8) ∉ fmtF p x := fun h => fmtF_ne_zero p x h rfl

theorem roundEvenK_cast (x : ℚ) : roundEvenK (x : K) = roundEvenK x := by
  unfold roundEvenK
  have h1 : (((x - (⌊x⌋ : ℤ) : ℚ)) : K) = (x : K) - ((⌊x⌋ : ℤ) : K) := by push_cast; rfl
  have h2 : (((1 / 2 : ℚ)) : K) = 1 / 2 := by push_cast; rfl
  simp only [Rat.floor_cast]
  rw [← h1, ← h2]
  simp only [Rat.cast_lt]

theorem fmtF_cast (p : Nat) (x : ℚ) : fmtF p (x : K) = fmtF p x := by
  unfold fmtF
  have h : |(x : K)| * 10 ^ p = ((|x| * 10 ^ p : ℚ) : K) := by push_cast; rfl
  rw [h, roundEvenK_cast]
  simp only [Rat.cast_lt_zero]

/-- The nine texts of the report, when the numbers are of reasonable size. -/
theorem report_ok (T : Tel K S) (s : Sys K S) (ty : Nat) (position : Equatorial K) (lst : K)
    (hq : ∀ q ∈ quantities T s position lst, |q.2.2| < 10 ^ 200)
    (hv : (T.vertices s.scope.core).length < 10 ^ 50) (ht : T.triangles s.scope.core < 10 ^ 50) (hty : ty < 10 ^ 50) :
    ∀ x ∈ report T s ty position (T.toHorizontal position s.gnss.latitude lst) lst, x.2.length ≤ 255 ∧ (0 : UInt8) ∉ x.2 := by
  have hnum : ∀ q ∈ quantities T s position lst, ∀ p ≤ 3, (fmtF p q.2.2).length ≤ 255 := by
    intro q hqm p hp
    have := fmtF_length_le (p := p) (by norm_num) (hq q hqm)
    omega
  have hI : ∀ n : Nat, n < 10 ^ 50 → (fmtI n).length ≤ 50 := by
    intro n hn
    unfold fmtI
    rw [if_neg (by omega), List.nil_append, Int.natAbs_natCast]
    exact dec_length_le hn (by norm_num)
  unfold quantities at hnum
  simp only [List.forall_mem_cons] at hnum
  obtain ⟨h1, h2, h3, h4, h5, h6, h7, h8, -⟩ := hnum
  unfold report
  simp only [List.forall_mem_cons]
  refine ⟨⟨h1 3 le_rfl, fmtF_no_zero _ _⟩, ⟨h2 3 le_rfl, fmtF_no_zero _ _⟩, ⟨h3 3 le_rfl, fmtF_no_zero _ _⟩, ⟨h4 3 le_rfl, fmtF_no_zero _ _⟩,
    ⟨h5 3 le_rfl, fmtF_no_zero _ _⟩, ⟨h6 3 le_rfl, fmtF_no_zero _ _⟩, ⟨fmtF_cast (K := K) 3 s.heading ▸ h7 3 le_rfl, fmtF_no_zero _ _⟩, ⟨h8 1 (by norm_num), fmtF_no_zero _ _⟩,
    ⟨?_, ?_⟩, by simp⟩
  · have e1 : (ascii "{\"vertices\":").length = 12 := by decide
    have e2 : (ascii ",\"triangles\":").length = 13 := by decide
    have e3 : (ascii ", \"type\": ").length = 10 := by decide
    have e4 : (ascii "}").length = 1 := by decide
    have := hI _ hv
    have := hI _ ht
    have := hI _ hty
    simp only [List.length_append, e1, e2, e3, e4]
    omega
  · have e1 : (0 : UInt8) ∉ ascii "{\"vertices\":" := by decide
    have e2 : (0 : UInt8) ∉ ascii ",\"triangles\":" := by decide
    have e3 : (0 : UInt8) ∉ ascii ", \"type\": " := by decide
    have e4 : (0 : UInt8) ∉ ascii "}" := by decide
    simp only [List.mem_append, not_or]
    exact ⟨⟨⟨⟨⟨⟨e1, fmtI_ne_zero _⟩, e2⟩, fmtI_ne_zero _⟩, e3⟩, fmtI_ne_zero _⟩, e4⟩

theorem messages_on {cfg : Config} {t topic : String} {p payload : List UInt8} {o : Out} (h : o ∈ messages cfg t p) (ho : On topic payload o) :
    t = topic ∧ p = payload := by
  unfold messages at h
  rw [List.mem_append] at h
  rcases h with h | h
  · split at h
    · rw [List.mem_singleton] at h
      subst h
      rcases ho with ho | ho
      · injection ho with a b; exact ⟨a, b⟩
      · cases ho
    · simp at h
  · split at h
    · rw [List.mem_singleton] at h
      subst h
      rcases ho with ho | ho
      · cases ho
      · injection ho with a b; exact ⟨a, b⟩
    · simp at h

theorem send_on {cfg : Config} {t topic : String} {tx payload : List UInt8} {n : Nat} {os : List Out} (h : send cfg t tx n = .ok os) {o : Out}
    (hm : o ∈ os) (ho : On topic payload o) : t = topic := by
  unfold send at h
  obtain ⟨o1, h1, h⟩ := bind_eq_ok.1 h
  obtain ⟨o2, h2, h⟩ := bind_eq_ok.1 h
  injection h with h; subst h
  rcases List.mem_append.1 hm with hm | hm
  · unfold sendMqtt at h1
    split at h1
    · cases hr : readBytes tx n with
      | error e => rw [hr] at h1; cases h1
      | ok b =>
        rw [hr] at h1; injection h1 with h1; subst h1
        rw [List.mem_singleton] at hm; subst hm
        rcases ho with ho | ho
        · injection ho
        · cases ho
    · injection h1 with h1; subst h1; simp at hm
  · unfold sendBroker at h2
    split at h2
    · cases hr : readCString tx with
      | error e => rw [hr] at h2; cases h2
      | ok b =>
        rw [hr] at h2; injection h2 with h2; subst h2
        rw [List.mem_singleton] at hm; subst hm
        rcases ho with ho | ho
        · cases ho
        · injection ho
    · injection h2 with h2; subst h2; simp at hm

theorem publish_on {cfg : Config} {t topic : String} {out tx tx' payload : List UInt8} {os : List Out}
    (h : publish cfg t out tx = .ok (tx', os)) {o : Out} (hm : o ∈ os) (ho : On topic payload o) : t = topic := by
  unfold publish at h
  obtain ⟨⟨n, tx1⟩, h1, h⟩ := bind_eq_ok.1 h
  obtain ⟨o1, h2, h⟩ := bind_eq_ok.1 h
  injection h with h; injection h with _ h; subst h
  exact send_on h2 hm ho

theorem publishVertices_on {cfg : Config} {t topic : String} {ps : List (K × K)} {tx tx' payload : List UInt8} {os : List Out}
    (h : publishVertices cfg t ps tx = .ok (tx', os)) {o : Out} (hm : o ∈ os) (ho : On topic payload o) : t = topic := by
  unfold publishVertices at h
  obtain ⟨tx1, h1, h⟩ := bind_eq_ok.1 h
  obtain ⟨⟨len, tx2⟩, h2, h⟩ := bind_eq_ok.1 h
  obtain ⟨tx3, h3, h⟩ := bind_eq_ok.1 h
  obtain ⟨o1, h4, h⟩ := bind_eq_ok.1 h
  injection h with h; injection h with _ h; subst h
  exact send_on h4 hm ho


/-! ### C57 -/

/-- **C57** In every history, whenever the 500 ms task with the orientation sensor completes: every message sent to one of the topics
shows the corresponding number with its number of decimals, correctly rounded, and there is such a message by each available way
(MQTT server, local broker). -/
theorem C57_report (cfg : Config) (hs : cfg.sensor = true) (core : S) (h : List (Tel K S × Event K)) (s : Sys K S) (o : List Out)
    (hr : run cfg h (boot cfg core) = .ok (s, o)) (T : Tel K S) (i : In K) (ht : taskOf s (.loop i) = some .t500ms)
    (s' : Sys K S) (o' : List Out) (hstep : step cfg T s (.loop i) = .ok (s', o')) :
    ∃ lst ty position, Helper.localSiderealTime s'.gnss.utc (s'.gnss.longitude : K) = .ok lst ∧
      T.calibrated s'.scope.core (s'.gnss.latitude : K) lst = .ok (ty, position) ∧
      ((∀ q ∈ quantities T s' position lst, |q.2.2| < 10 ^ 200) → (T.vertices s'.scope.core).length < 10 ^ 50 →
        T.triangles s'.scope.core < 10 ^ 50 → ty < 10 ^ 50 →
        ∀ q ∈ quantities T s' position lst,
          (∀ x ∈ o', ∀ payload, On q.1 payload x → Shows q.2.1 q.2.2 payload) ∧
          (cfg.mqtt = true → ∃ payload, Out.mqtt q.1 payload ∈ o') ∧
          (cfg.broker = true → ∃ payload, Out.broker q.1 payload ∈ o')) := by
  obtain ⟨hi, -⟩ := run_facts h (inv_boot cfg core) hr
  obtain ⟨htask, hi'⟩ := step_500 ht hi hstep
  set s0 : Sys K S := { s with timers := (schedule s.timers i.now).2 } with hs0
  unfold task500 at htask
  obtain ⟨s1, h1, hh⟩ := bind_eq_ok.1 htask
  obtain ⟨a1, a2, a3, a4, a5⟩ := pollGnss_facts h1
  rw [if_pos hs] at hh
  unfold reportAll at hh
  obtain ⟨lst, hl, hh⟩ := bind_eq_ok.1 hh
  obtain ⟨⟨ty, position⟩, hpos, hh⟩ := bind_eq_ok.1 hh
  obtain ⟨⟨s2, o1⟩, h2, hh⟩ := bind_eq_ok.1 hh
  obtain ⟨⟨tx1, o2⟩, h3, hh⟩ := bind_eq_ok.1 hh
  obtain ⟨⟨tx2, o3⟩, h4, hh⟩ := bind_eq_ok.1 hh
  obtain ⟨⟨tx3, o4⟩, h5, hh⟩ := bind_eq_ok.1 hh
  obtain ⟨m, hm, hh⟩ := bind_eq_ok.1 hh
  obtain ⟨⟨tx4, o5⟩, h6, hh⟩ := bind_eq_ok.1 hh
  injection hh with hh; injection hh with hh ho; subst hh ho
  obtain ⟨⟨txs, rfl, htx⟩, hout⟩ := sendPosition_facts (a1.2.2 hi') h2
  refine ⟨lst, ty, position, hl, hpos, ?_⟩
  intro hq hv htr hty q hqm
  have hrep := report_ok T { s1 with tx := txs } ty position lst hq hv htr hty
  obtain ⟨tx', e⟩ := publishAll_text (cfg := cfg) (tx := txs) htx hrep
  simp only at h3 e
  rw [e] at h3
  injection h3 with h3; injection h3 with h3 ho2
  -- the text published for `q`
  have htext : ∃ text, (q.1, text) ∈ report T { s1 with tx := txs } ty position (T.toHorizontal position s1.gnss.latitude lst) lst ∧
      Shows q.2.1 q.2.2 text ∧
      ∀ x ∈ report T { s1 with tx := txs } ty position (T.toHorizontal position s1.gnss.latitude lst) lst, x.1 = q.1 → x.2 = text := by
    have hsh : ∀ (p : Nat) (x : K), Shows p x (fmtF p x) := fmtF_denotes
    unfold quantities at hqm
    simp only [List.mem_cons, List.not_mem_nil, or_false] at hqm
    unfold report
    rcases hqm with rfl | rfl | rfl | rfl | rfl | rfl | rfl | rfl
    · exact ⟨fmtF 3 (T.toHorizontal position s1.gnss.latitude lst).2, by simp, hsh _ _, by simp⟩
    · exact ⟨fmtF 3 (T.toHorizontal position s1.gnss.latitude lst).1, by simp, hsh _ _, by simp⟩
    · exact ⟨fmtF 3 position.ra, by simp, hsh _ _, by simp⟩
    · exact ⟨fmtF 3 position.dec, by simp, hsh _ _, by simp⟩
    · exact ⟨fmtF 3 (lst / 15), by simp, hsh _ _, by simp⟩
    · exact ⟨fmtF 3 s1.pitch, by simp, hsh _ _, by simp⟩
    · exact ⟨fmtF 3 s1.heading, by simp, fmtF_cast (K := K) 3 s1.heading ▸ hsh 3 (s1.heading : K), by simp⟩
    · exact ⟨fmtF 1 s1.temperature, by simp, hsh _ _, by simp⟩
  obtain ⟨text, ht1, ht2, ht3⟩ := htext
  have hne : q.1 ≠ "home/appliance/telescope/actual" ∧ q.1 ≠ "home/appliance/telescope/reference" ∧ q.1 ≠ "home/appliance/telescope/matrix" := by
    unfold quantities at hqm
    simp only [List.mem_cons, List.not_mem_nil, or_false] at hqm
    rcases hqm with rfl | rfl | rfl | rfl | rfl | rfl | rfl | rfl <;> simp
  refine ⟨?_, ?_, ?_⟩
  · intro x hx payload hon
    simp only [List.mem_append] at hx
    rcases hx with (((hx | hx) | hx) | hx) | hx
    · exfalso
      rcases hout with rfl | ⟨c', tx, hc', hga, hnx, hpk, rfl⟩
      · simp at hx
      · rw [List.mem_singleton] at hx; subst hx
        rcases hon with hon | hon <;> cases hon
    · rw [← ho2] at hx
      obtain ⟨y, hy, hx⟩ := List.mem_flatMap.1 hx
      obtain ⟨e1, e2⟩ := messages_on hx hon
      rw [← e2, ht3 y hy e1]; exact ht2
    · exact absurd (publishVertices_on h4 hx hon).symm hne.1
    · exact absurd (publishVertices_on h5 hx hon).symm hne.2.1
    · exact absurd (publish_on h6 hx hon).symm hne.2.2
  · intro hm'
    refine ⟨text, ?_⟩
    simp only [List.mem_append]
    refine Or.inl (Or.inl (Or.inl (Or.inr ?_)))
    rw [← ho2]
    exact List.mem_flatMap.2 ⟨_, ht1, by simp [messages, hm']⟩
  · intro hm'
    refine ⟨text, ?_⟩
    simp only [List.mem_append]
    refine Or.inl (Or.inl (Or.inl (Or.inr ?_)))
    rw [← ho2]
    exact List.mem_flatMap.2 ⟨_, ht1, by simp [messages, hm']⟩

/-- **C57** The GNSS report always fits, for every position the receiver module can store as `float` and every date with the usual
number of digits: it is sent whole to both listeners. -/
theorem C57_gnss (cfg : Config) (s : Sys K S) (hi : Inv s) (hav : s.gnssAvailable = true)
    (hlat : |s.gnss.latitude| < 10 ^ 37) (hlon : |s.gnss.longitude| < 10 ^ 37) (halt : |s.gnss.altitude| < 10 ^ 39)
    (hy : 0 ≤ s.gnss.utc.year ∧ s.gnss.utc.year < 10000) (hmo : 0 ≤ s.gnss.utc.mon ∧ s.gnss.utc.mon < 100)
    (hd : 0 ≤ s.gnss.utc.mday ∧ s.gnss.utc.mday < 100) (hh : 0 ≤ s.gnss.utc.hour ∧ s.gnss.utc.hour < 100)
    (hmi : 0 ≤ s.gnss.utc.min ∧ s.gnss.utc.min < 100) (hse : 0 ≤ s.gnss.utc.sec ∧ s.gnss.utc.sec < 100) :
    ∃ tx text, reportGnss cfg s = .ok ({ s with tx }, (if cfg.broker then [.broker "home/appliance/telescope/gnss" text] else []) ++
        (if cfg.mqtt then [.mqtt "home/appliance/telescope/gnss" text] else [])) ∧ ShowsGnss s.gnss text := by
  have hU : ∀ (w k : Nat) (z : ℤ), 0 ≤ z → z < 10 ^ k → 1 ≤ k → k ≤ 10 → w ≤ k → (fmtU w z).length ≤ k := by
    intro w k z h0 h1 h2 h3 h4
    unfold fmtU
    rw [padded_length]
    have hz : (z % 2 ^ 32).toNat < 10 ^ k := by
      have : (z % 2 ^ 32).toNat ≤ z.toNat := by omega
      have h5 : z.toNat < 10 ^ k := by
        have : ((z.toNat : ℕ) : ℤ) < ((10 ^ k : ℕ) : ℤ) := by
          rw [Int.toNat_of_nonneg h0]; push_cast; exact h1
        exact_mod_cast this
      omega
    have := dec_length_le hz h2
    omega
  have hS : ∀ u : UInt32, (fmtU 0 u.toNat).length ≤ 10 := by
    intro u
    refine hU 0 10 u.toNat (by omega) ?_ (by norm_num) le_rfl (by norm_num)
    have := u.toNat_lt
    omega
  have b1 := fmtF_length_le (p := 3) (by norm_num) hlat
  have b2 := fmtF_length_le (p := 3) (by norm_num) hlon
  have b3 := fmtF_length_le (p := 0) (by norm_num) halt
  have c1 := hU 4 4 _ hy.1 (by simpa using hy.2) (by norm_num) (by norm_num) le_rfl
  have c2 := hU 2 2 _ hmo.1 (by simpa using hmo.2) (by norm_num) (by norm_num) le_rfl
  have c3 := hU 2 2 _ hd.1 (by simpa using hd.2) (by norm_num) (by norm_num) le_rfl
  have c4 := hU 2 2 _ hh.1 (by simpa using hh.2) (by norm_num) (by norm_num) le_rfl
  have c5 := hU 2 2 _ hmi.1 (by simpa using hmi.2) (by norm_num) (by norm_num) le_rfl
  have c6 := hU 2 2 _ hse.1 (by simpa using hse.2) (by norm_num) (by norm_num) le_rfl
  have d1 := hS s.gnss.satUsed
  have d2 := hS s.gnss.satView
  have hlen : (gnssText s.gnss).length ≤ 255 := by
    have e1 : (ascii "{\"valid\":").length = 9 := by decide
    have e2 : (ascii (if s.gnss.valid then "true" else "false")).length ≤ 5 := by split <;> decide
    have e3 : (ascii ",\"lat\":").length = 7 := by decide
    have e4 : (ascii ",\"lng\":").length = 7 := by decide
    have e5 : (ascii ",\"alt\":").length = 7 := by decide
    have e6 : (ascii ",\"date\":\"").length = 9 := by decide
    have e7 : (ascii "\",\"time\":\"").length = 10 := by decide
    have e8 : (ascii "\",\"satUse\":").length = 11 := by decide
    have e9 : (ascii ",\"satView\":").length = 11 := by decide
    have e10 : (ascii "}").length = 1 := by decide
    unfold gnssText
    simp only [List.length_append, List.length_cons, List.length_nil, e1, e3, e4, e5, e6, e7, e8, e9, e10]
    omega
  have hz : (0 : UInt8) ∉ gnssText s.gnss := by
    have e1 : (0 : UInt8) ∉ ascii "{\"valid\":" := by decide
    have e2 : (0 : UInt8) ∉ ascii (if s.gnss.valid then "true" else "false") := by split <;> decide
    have e3 : (0 : UInt8) ∉ ascii ",\"lat\":" := by decide
    have e4 : (0 : UInt8) ∉ ascii ",\"lng\":" := by decide
    have e5 : (0 : UInt8) ∉ ascii ",\"alt\":" := by decide
    have e6 : (0 : UInt8) ∉ ascii ",\"date\":\"" := by decide
    have e7 : (0 : UInt8) ∉ ascii "\",\"time\":\"" := by decide
    have e8 : (0 : UInt8) ∉ ascii "\",\"satUse\":" := by decide
    have e9 : (0 : UInt8) ∉ ascii ",\"satView\":" := by decide
    have e10 : (0 : UInt8) ∉ ascii "}" := by decide
    unfold gnssText
    simp [e1, e2, e3, e4, e5, e6, e7, e8, e9, e10, fmtF_no_zero, fmtU_ne_zero]
  refine ⟨gnssText s.gnss ++ 0 :: s.tx.drop ((gnssText s.gnss).length + 1), gnssText s.gnss, ?_, ?_⟩
  · unfold reportGnss sendBroker sendMqtt
    rw [if_pos hav, snprintf_fits (by omega) (by rw [hi.1]; omega), bind_ok]
    simp only [List.take_zero, List.nil_append, Nat.zero_add]
    rw [readCString_eq hz, readBytes_eq (by simp), List.take_left]
    cases cfg.mqtt <;> cases cfg.broker <;> rfl
  · have hD : ∀ (w : Nat) (z : ℤ), 0 ≤ z → z < 2 ^ 32 → (fmtU w z).length ≤ w → ShowsNat w z (fmtU w z) := by
      intro w z h0 h1 h2
      refine ⟨?_, fun c hc => padded_digit (fun b hb => dec_digit hb) hc, ?_⟩
      · unfold fmtU at h2 ⊢; rw [padded_length] at h2 ⊢; omega
      · unfold fmtU
        rw [natValue_padded, natValue_dec, Int.emod_eq_of_lt h0 h1, Int.toNat_of_nonneg h0]
    have hN : ∀ u : UInt32, Denotes (fmtU 0 u.toNat) 0 u.toNat := by
      intro u
      have hu : ((u.toNat : ℤ) % 2 ^ 32).toNat = u.toNat := by
        have := u.toNat_lt
        omega
      refine ⟨false, fmtU 0 u.toNat, [], ?_, fun c hc => padded_digit (fun b hb => dec_digit hb) hc, rfl, by simp, by simp, ?_⟩
      · unfold fmtU padded
        simpa using dec_ne_nil _
      · unfold fmtU
        rw [natValue_padded, natValue_dec, hu]
        simp [natValue]
    refine ⟨_, _, _, _, _, _, _, _, _, _, _, fmtF_denotes 3 s.gnss.latitude, fmtF_denotes 3 s.gnss.longitude, fmtF_denotes 0 s.gnss.altitude,
      hD 4 _ hy.1 (by omega) c1, hD 2 _ hmo.1 (by omega) c2, hD 2 _ hd.1 (by omega) c3, hD 2 _ hh.1 (by omega) c4,
      hD 2 _ hmi.1 (by omega) c5, hD 2 _ hse.1 (by omega) c6, hN _, hN _, ?_⟩
    unfold gnssText
    have ev : ascii (if s.gnss.valid then "{\"valid\":true" else "{\"valid\":false") =
        ascii "{\"valid\":" ++ ascii (if s.gnss.valid then "true" else "false") := by split <;> decide
    rw [ev]
    rfl

/-! ### Examples and findings -/

/-- An MQTT server is available, no broker. -/
def Demo.cfgM : Config := ⟨.esp32, true, true, false, true⟩

/-- The demo telescope with one star: everything a subscriber gets from one 500 ms task. -/
example : ((run Demo.cfgM [Demo.ev (.bluetooth (ascii "s12AB0500,20000500")), Demo.at' 600000, Demo.at' 600000, Demo.at' 600000,
      Demo.at' 600000 (serial := Demo.rmc)] (boot Demo.cfgM [])).map fun r => r.2.filter fun o => match o with
        | .mqtt t _ => t ∈ ["home/appliance/telescope/ra", "home/appliance/telescope/heading", "home/appliance/telescope/actual",
            "home/appliance/telescope/alignment", "home/appliance/telescope/matrix"]
        | _ => false) =
    .ok [.mqtt "home/appliance/telescope/ra" (ascii "10.000"), .mqtt "home/appliance/telescope/heading" (ascii "180.000"),
      .mqtt "home/appliance/telescope/alignment" (ascii "{\"vertices\":1,\"triangles\":0, \"type\": 0}"),
      .mqtt "home/appliance/telescope/actual" (ascii "[[26.25,45.00],]"),
      .mqtt "home/appliance/telescope/matrix" (ascii "[1.00, 0.00, 0.00, 0.00, 1.00, 0.00, 0.00, 0.00, 1.00]")] := by
  decide +kernel

/-- (finding) The matrix text does not fit if its elements are large: the publication reads past the end of the buffer. -/
example : publish Demo.cfgM "home/appliance/telescope/matrix" ([91] ++ commaList ((List.replicate 9 (10 ^ 30 : ℚ)).map (fmtF 2)) ++ [93])
    (List.replicate 256 0) = .error (.ub .oobRead) := by
  decide +kernel

/-- (finding) With the local broker, the list of points is followed by the rest of an earlier, longer message. -/
example : publishVertices ⟨.esp32, true, false, true, true⟩ "home/appliance/telescope/actual" [((1 : ℚ), (2 : ℚ))]
    (ascii "{\"vertices\":1,\"triangles\":0, \"type\": 1}" ++ List.replicate 217 0) =
    .ok (ascii "[[1.00,2.00],]\"triangles\":0, \"type\": 1}" ++ List.replicate 217 0,
      [.broker "home/appliance/telescope/actual" (ascii "[[1.00,2.00],]\"triangles\":0, \"type\": 1}")]) := by
  decide +kernel

end Verif.Main
