import Verif.Lemmas.Node
import Verif.Props.NexStar

/-!
# C59, C60: the TypeScript server answers every chunk as specified
-/

namespace Verif.Node
open Verif Verif.Spec Verif.Spec.Node

/-- The clock of the specification as read by the server. -/
def clockOf (t : LocalTime) : Clock := ⟨t.hours, t.minutes, t.seconds, t.month + 1, t.date, t.fullYear.toNat⟩

/-- A telescope position: two JavaScript numbers, right ascension in `[0, 24]` hours, declination in `[-90, 90]` degrees. -/
structure GoodPosition (p : Equatorial) : Prop where
  ra : Representable b64 p.ra
  dec : Representable b64 p.dec
  ra0 : 0 ≤ p.ra
  ra1 : p.ra ≤ 24
  dec1 : |p.dec| ≤ 90

/-- Clock readings of the years 2000 to 2127 (`Date.now()` below `9·10^12` ms is before 2255). -/
structure GoodClock (e : Event) : Prop where
  now : e.now ≤ 9000000000000
  valid : (clockOf e.today).Valid
  year : 0 ≤ e.today.fullYear

theorem alnum_iff (x : UInt8) : isAlnum x = true ↔ Alnum x := by
  unfold isAlnum Alnum
  simp only [Bool.or_eq_true, Bool.and_eq_true, decide_eq_true_eq, UInt8.le_iff_toNat_le]
  simp [or_assoc]

theorem handleRequest_nil_of {today : LocalTime} {data : List UInt8} (h1 : data.head? ≠ some 115) (h2 : ∀ c, ¬ Exact data c) :
    handleRequest today data = [] := by
  unfold handleRequest
  split
  · rename_i x
    split
    · rename_i h
      exfalso
      refine h2 _ (.echo x ?_)
      exact (alnum_iff x).1 h
    · rfl
  · exact absurd .version (h2 _)
  · rename_i d
    split
    · rename_i h
      exact absurd (.deviceVersion d (by simpa using h)) (h2 _)
    · rfl
  · exact absurd .model (h2 _)
  · exact absurd .location (h2 _)
  · exact absurd .position (h2 _)
  · exact absurd .time (h2 _)
  · exact absurd .gotoInProgress (h2 _)
  · exact absurd .aligned (h2 _)
  · exact absurd .trackingMode (h2 _)
  · exact absurd rfl h1
  · rfl

theorem handleRequest_sync {today : LocalTime} {data : List UInt8} (h : data.head? = some 115) :
    handleRequest today data = [35] := by
  obtain ⟨tl, rfl⟩ : ∃ tl, data = 115 :: tl := by
    cases data with
    | nil => simp at h
    | cons a tl => simp at h; exact ⟨tl, by rw [h]⟩
  unfold handleRequest
  rfl

theorem utf8_byte {n : Nat} (h : n < 128) : utf8 n = [UInt8.ofNat n] := by
  unfold utf8; rw [if_pos h]

theorem fromCharCode_nat {n : Nat} (h : n < 128) : fromCharCode (n : ℤ) = n := by
  unfold fromCharCode; omega

theorem handleRequest_echo {today : LocalTime} {x : UInt8} (hx : Alnum x) : handleRequest today [75, x] = [x.toNat, 35] := by
  show (if isAlnum x then [x.toNat, 35] else []) = _
  rw [(alnum_iff x).2 hx, if_pos rfl]

theorem echo_utf8 {x : UInt8} (hx : Alnum x) : [x.toNat, 35].flatMap utf8 = [x, 35] := by
  have h2 : x.toNat < 128 := by unfold Alnum at hx; omega
  rw [List.flatMap_cons, List.flatMap_cons, utf8_byte h2, List.flatMap_nil, utf8_byte (by norm_num)]
  simp

theorem handleRequest_exact {today : LocalTime} (hc : (clockOf today).Valid) (hy : 0 ≤ today.fullYear) {data : List UInt8}
    {c : NexStar.Command} (h : Exact data c) :
    (handleRequest today data).length > 0 ∧ (handleRequest today data).flatMap utf8 = reply (clockOf today) c := by
  cases h with
  | echo x hx =>
    rw [handleRequest_echo hx]
    exact ⟨Nat.zero_lt_succ _, echo_utf8 hx⟩
  | deviceVersion d hd =>
    have : d = 0x10 ∨ d = 0x11 ∨ d = 0xb0 ∨ d = 0xb2 := by simpa using hd
    have e : handleRequest today [80, 1, d, 254, 0, 0, 0, 2] = [1, 0, 35] := by
      show (if d = 0x10 ∨ d = 0x11 ∨ d = 0xb0 ∨ d = 0xb2 then [1, 0, 35] else []) = _
      rw [if_pos this]
    rw [e]
    exact ⟨by decide, rfl⟩
  | time =>
    obtain ⟨h1, h2, h3, h4, h5, h6, h7⟩ := hc
    simp only [clockOf] at h1 h2 h3 h4 h5 h6 h7
    have e1 : fromCharCode (today.month + 1) = today.month + 1 := by
      have := fromCharCode_nat (n := today.month + 1) (by omega); push_cast at this; exact this
    have e2 : fromCharCode (today.fullYear - 2000) = today.fullYear.toNat - 2000 := by
      unfold fromCharCode; omega
    simp only [handleRequest, e1, e2, fromCharCode_nat (show today.hours < 128 by omega),
      fromCharCode_nat (show today.minutes < 128 by omega), fromCharCode_nat (show today.seconds < 128 by omega),
      fromCharCode_nat (show today.date < 128 by omega)]
    refine ⟨by simp, ?_⟩
    simp only [List.flatMap_cons, List.flatMap_nil, utf8_byte (show today.hours < 128 by omega),
      utf8_byte (show today.minutes < 128 by omega), utf8_byte (show today.seconds < 128 by omega),
      utf8_byte (show today.date < 128 by omega), utf8_byte (show today.month + 1 < 128 by omega),
      utf8_byte (show today.fullYear.toNat - 2000 < 128 by omega), utf8_byte (show 1 < 128 by omega),
      utf8_byte (show 0 < 128 by omega), utf8_byte (show 35 < 128 by omega)]
    rfl
  | _ => exact ⟨by simp [handleRequest], rfl⟩

theorem good_lt {p : Equatorial} (h : GoodPosition p) : p.ra < 32 := by have := h.ra1; linarith

theorem write_time {ms : Nat} (h : ms ≤ 9000000000000) :
    writeBigInt64LE ((1000 * ms : ℕ) : ℤ) = .ok (le 8 (1000 * ms)) := by
  unfold writeBigInt64LE
  rw [if_neg (by omega), bytesLE_eq]

theorem write_ra {n : Nat} (h : n < 2 ^ 32) : writeUInt32LE (((n : ℤ)) : ℚ) = .ok (le 4 n) := by
  unfold writeUInt32LE
  rw [if_neg, Codec.truncZ_intCast, bytesLE_eq]
  push Not
  have : (n : ℚ) ≤ 4294967295 := by exact_mod_cast (show n ≤ 4294967295 by omega)
  refine ⟨by push_cast; exact this, by push_cast; positivity⟩

theorem write_dec {v : ℚ} {m : ℤ} (h0 : -2147483647 ≤ m) (h1 : m ≤ 2147483646) (h : |v - m| ≤ 1 / 1000) :
    writeInt32LE v = .ok (le 4 (truncZ v % 2 ^ 32).toNat) := by
  unfold writeInt32LE
  rw [if_neg, bytesLE_mod4]
  push Not
  have hml : (m : ℚ) ≤ 2147483646 := by exact_mod_cast h1
  have hmu : (-2147483647 : ℚ) ≤ m := by exact_mod_cast h0
  have := abs_le.1 h
  constructor <;> linarith

theorem trunc_range {v : ℚ} {m : ℤ} (hlo : -2 ^ 31 ≤ m) (hhi : m < 2 ^ 31) (hT : TowardZero m (truncZ v)) :
    -2 ^ 31 ≤ truncZ v ∧ truncZ v < 2 ^ 31 := by
  generalize truncZ v = w at hT
  rcases hT with h | h
  · omega
  · rcases lt_trichotomy m 0 with h0 | h0 | h0
    · rw [Int.sign_eq_neg_one_of_neg h0] at h; omega
    · rw [h0] at h; simp at h; omega
    · rw [Int.sign_eq_one_of_pos h0] at h; omega

theorem signed32_range {n : Nat} (h : n < 2 ^ 32) : -2 ^ 31 ≤ signed32 n ∧ signed32 n < 2 ^ 31 := by
  unfold signed32; split <;> omega

theorem num_time {ms : Nat} (h : ms ≤ 9000000000000) : num ((ms : ℚ) * 1000) = ((1000 * ms : ℕ) : ℤ) := by
  have e : (ms : ℚ) * 1000 = (((1000 * ms : ℕ) : ℤ) : ℚ) := by push_cast; ring
  rw [e]
  refine rnd_of_representable (representable_int ?_ (by norm_num [b64]) (by norm_num [b64]))
  rw [abs_of_nonneg (by omega)]
  simp only [b64]; omega

theorem echo_ra {p : Equatorial} (ht : GoodPosition p) {n : Nat} (hn : n < 2 ^ 32) :
    num (num (p.ra + num (num (((n : ℤ) : ℚ) / raScale) - p.ra)) * raScale) = (n : ℤ) := by
  have hn' : (n : ℤ) < 2 ^ 32 := by exact_mod_cast hn
  rw [decode_ra (by omega) hn']
  rw [offset_exact (by omega) ?_ ht.ra0 (good_lt ht) ht.ra]
  · exact encode_ra (by omega) hn'
  · rw [div_lt_iff₀ (by norm_num)]
    have : (n : ℚ) < 4294967296 := by exact_mod_cast hn
    push_cast; norm_num; linarith

theorem onData_goto_eq {now : Nat} {today : LocalTime} {t : Telescope} {data : List UInt8} (h : handleRequest today data = [])
    (h1 : 20 ≤ data.length) :
    onData now today t data = (do
      let message ← unpackGoto data
      let t := calibrate t message
      let out ← packCurrentPosition now (getCorrected t)
      return (t, out)) := by
  unfold onData
  rw [h]
  exact if_pos h1

theorem unpackGoto_ok {data : List UInt8} (h1 : 20 ≤ data.length) :
    unpackGoto data = .ok ⟨num (((leVal (slice data 12 4) : ℤ) : ℚ) / raScale),
      num ((signed32 (leVal (slice data 16 4)) : ℚ) / decScale)⟩ := by
  have a2 : readUInt32LE data 12 = .ok (leVal (slice data 12 4) : ℤ) := readUInt32LE_ok (by omega)
  have a3 : readInt32LE data 16 = .ok (signed32 (leVal (slice data 16 4)) : ℤ) := readInt32LE_ok (by omega)
  unfold unpackGoto
  rw [a2, a3]
  simp only [bind, Except.bind, pure, Except.pure]

theorem calibrate_position (t : Telescope) (r : Equatorial) : (calibrate t r).position = t.position := rfl

theorem corrected_ra (t : Telescope) (r : Equatorial) :
    (getCorrected (calibrate t r)).ra = num (t.position.ra + num (r.ra - t.position.ra)) := by
  unfold getCorrected calibrate
  rfl

theorem corrected_dec (t : Telescope) (r : Equatorial) :
    (getCorrected (calibrate t r)).dec = num (t.position.dec + num (r.dec - t.position.dec)) := by
  unfold getCorrected calibrate
  rfl

theorem onData_goto_bytes {e : Event} {t : Telescope} (ht : GoodPosition t.position) (hc : GoodClock e)
    (h1 : 20 ≤ e.data.length) (hr : handleRequest e.today e.data = []) {n : Nat} {m : ℤ} {v : ℚ}
    (hn : n = leVal (slice e.data 12 4)) (hm : m = signed32 (leVal (slice e.data 16 4))) (hnlt : n < 2 ^ 32)
    (hm0 : -2147483647 ≤ m) (hm1 : m ≤ 2147483646)
    (hv : v = num (num (t.position.dec + num (num ((m : ℚ) / decScale) - t.position.dec)) * decScale)) (hnear : |v - m| ≤ 1 / 1000) :
    ∃ t', onData e.now e.today t e.data = .ok (t', positionMessage (1000 * e.now) n (truncZ v % 2 ^ 32).toNat) ∧
      t'.position = t.position := by
  obtain ⟨r, hr'⟩ : ∃ r : Equatorial, r = ⟨num (((n : ℤ) : ℚ) / raScale), num ((m : ℚ) / decScale)⟩ := ⟨_, rfl⟩
  refine ⟨calibrate t r, ?_, calibrate_position _ _⟩
  rw [onData_goto_eq hr h1, unpackGoto_ok h1, ← hn, ← hm, ← hr']
  have hra : num ((getCorrected (calibrate t r)).ra * raScale) = (n : ℤ) := by
    rw [corrected_ra, hr']
    exact echo_ra ht hnlt
  have hdec : num ((getCorrected (calibrate t r)).dec * decScale) = v := by
    rw [corrected_dec, hv, hr']
  have htime := num_time (ms := e.now) hc.now
  have hp : packCurrentPosition e.now (getCorrected (calibrate t r)) =
      .ok (positionMessage (1000 * e.now) n (truncZ v % 2 ^ 32).toNat) := by
    unfold packCurrentPosition
    rw [hra, hdec, htime, Codec.truncZ_intCast, write_time (ms := e.now) hc.now, write_ra hnlt, write_dec hm0 hm1 hnear]
    have b1 : bytesLE 2 24 = le 2 24 := bytesLE_eq 2 24
    have b2 : bytesLE 2 0 = le 2 0 := bytesLE_eq 2 0
    have b3 : bytesLE 4 0 = le 4 0 := bytesLE_eq 4 0
    simp only [bind, Except.bind, pure, Except.pure, b1, b2, b3]
    rfl
  simp only [bind, Except.bind, pure, Except.pure, hp]

theorem onData_goto {e : Event} {t : Telescope} (ht : GoodPosition t.position) (hc : GoodClock e) (h1 : 20 ≤ e.data.length)
    (h2 : e.data.head? ≠ some 115) (hx : ¬ Extreme e.data) :
    ∃ dec < 2 ^ 32, TowardZero (signed32 (leVal (slice e.data 16 4))) (signed32 dec) ∧
      ∃ t', onData e.now e.today t e.data = .ok (t', positionMessage (1000 * e.now) (leVal (slice e.data 12 4)) dec) ∧
        t'.position = t.position := by
  have hE : ∀ c, ¬ Exact e.data c := by
    intro c h
    generalize e.data = l at h h1
    have : l.length ≤ 8 := by cases h <;> simp
    omega
  have hlv : ∀ i, leVal (slice e.data i 4) < 2 ^ 32 := by
    intro i
    have h := Codec.leVal_lt (slice e.data i 4)
    have hl : (slice e.data i 4).length ≤ 4 := by simp [slice]
    calc leVal (slice e.data i 4) < 256 ^ (slice e.data i 4).length := h
      _ ≤ 256 ^ 4 := Nat.pow_le_pow_right (by norm_num) hl
      _ = 2 ^ 32 := by norm_num
  obtain ⟨n, hn⟩ : ∃ n, n = leVal (slice e.data 12 4) := ⟨_, rfl⟩
  obtain ⟨m, hm⟩ : ∃ m, m = signed32 (leVal (slice e.data 16 4)) := ⟨_, rfl⟩
  have hnlt : n < 2 ^ 32 := hn ▸ hlv 12
  have hmlo : -2 ^ 31 ≤ m ∧ m < 2 ^ 31 := hm ▸ signed32_range (hlv 16)
  have hmx : m ≠ -2 ^ 31 ∧ m ≠ 2 ^ 31 - 1 := by
    constructor <;> (intro h; exact hx ⟨h1, h2, by rw [← hm]; omega⟩)
  obtain ⟨v, hv⟩ : ∃ v, v = num (num (t.position.dec + num (num ((m : ℚ) / decScale) - t.position.dec)) * decScale) := ⟨_, rfl⟩
  have hnear := dec_near hmlo.1 hmlo.2 ht.dec1
  rw [← hv] at hnear
  have hz : m = 0 → v = 0 := by
    intro h; rw [hv, h]; exact dec_zero ht.dec
  have hT := truncZ_near hz (lt_of_le_of_lt hnear (by norm_num))
  have hTb := trunc_range hmlo.1 hmlo.2 hT
  have hfin := onData_goto_bytes ht hc h1 (handleRequest_nil_of h2 hE) hn hm hnlt (by omega) (by omega) hv hnear
  rw [← hn, ← hm]
  have hs := signed32_mod hTb.1 hTb.2
  rw [← hs] at hT
  have hlt : (truncZ v % 2 ^ 32).toNat < 2 ^ 32 := by omega
  exact ⟨_, hlt, hT, hfin⟩

theorem onData_answers {e : Event} {t : Telescope} (ht : GoodPosition t.position) (hc : GoodClock e) (hx : ¬ Extreme e.data) :
    ∃ t' out, onData e.now e.today t e.data = .ok (t', out) ∧ t'.position = t.position ∧
      Answers e.now (clockOf e.today) e.data out := by
  by_cases h2 : e.data.head? = some 115
  · refine ⟨t, [35], ?_, rfl, .sync h2⟩
    unfold onData; rw [handleRequest_sync h2]; rfl
  by_cases hE : ∃ c, Exact e.data c
  · obtain ⟨c, hE⟩ := hE
    obtain ⟨a, b⟩ := handleRequest_exact hc.valid hc.year hE
    refine ⟨t, reply (clockOf e.today) c, ?_, rfl, .request c hE⟩
    unfold onData
    simp only [a, if_true, b]
  push Not at hE
  by_cases h1 : 20 ≤ e.data.length
  · obtain ⟨dec, hd, hT, t', ho, hp⟩ := onData_goto ht hc h1 h2 hx
    exact ⟨t', _, ho, hp, .goto h1 h2 dec hd hT⟩
  · refine ⟨t, [], ?_, rfl, .ignored (by omega) h2 hE⟩
    unfold onData
    rw [handleRequest_nil_of h2 hE]
    simp [h1]

/-- **C59**. Whatever a client sends in whatever chunks, the server answers every chunk as specified - in particular it
reports back every goto, whatever was received before - unless a goto carries one of the two extreme declinations ±180°. -/
theorem C59_node_connection (t : Telescope) (ht : GoodPosition t.position) (es : List Event) (hc : ∀ e ∈ es, GoodClock e)
    (hx : ∀ e ∈ es, ¬ Extreme e.data) :
    ∃ t' outs, connection t es = .ok (t', outs) ∧ t'.position = t.position ∧
      List.Forall₂ (fun e out => Answers e.now (clockOf e.today) e.data out) es outs := by
  induction es generalizing t with
  | nil => exact ⟨t, [], rfl, rfl, .nil⟩
  | cons e es ih =>
    obtain ⟨t1, out, h1, hp1, ha⟩ := onData_answers ht (hc e (by simp)) (hx e (by simp))
    obtain ⟨t2, outs, h2, hp2, hf⟩ := ih t1 (by rw [hp1]; exact ht) (fun e he => hc e (by simp [he])) (fun e he => hx e (by simp [he]))
    refine ⟨t2, out :: outs, ?_, by rw [hp2, hp1], .cons ha hf⟩
    unfold connection
    rw [h1]
    simp only [bind, Except.bind]
    rw [h2]
    rfl

/-- The position `fromHorizontalPosition(135.54, 52.71, 48, 32.166)` gives (3.9064287453163313 h, 17.570911322011202°). -/
def demoPosition : Equatorial := ⟨2199123880219503 / 562949953421312, 4945771855148105 / 281474976710656⟩

/-- It meets the hypothesis of the claim. -/
theorem demoPosition_good : GoodPosition demoPosition where
  ra := ⟨2199123880219503, -49, by norm_num [b64], by norm_num [b64], by norm_num [demoPosition]⟩
  dec := ⟨4945771855148105, -48, by norm_num [b64], by norm_num [b64], by norm_num [demoPosition]⟩
  ra0 := by norm_num [demoPosition]
  ra1 := by norm_num [demoPosition]
  dec1 := by norm_num [demoPosition, abs_le]

/-- 2022-01-13 16:13:16. -/
def demoTime : LocalTime := ⟨16, 13, 16, 0, 13, 2022⟩

/-- A goto: right ascension `0x28F864FB`, declination `0x00D98E50`. -/
def demoGoto : List UInt8 :=
  [0x14, 0, 0, 0, 0xc5, 0xe3, 0x52, 0x5a, 0x49, 0xd3, 5, 0, 0xfb, 0x64, 0xf8, 0x28, 0x50, 0x8e, 0xd9, 0]

/-- The hypotheses of `C59_node_connection` hold for a connection with an echo, a goto, a time request, a fragment and a
southern goto (declination -259917427 units), and these are the answers; the last one is one unit nearer to zero. -/
example : (∀ e ∈ [Event.mk 1642086796000 demoTime [75, 65], ⟨1642086796000, demoTime, demoGoto⟩,
      ⟨1642086797000, demoTime, demoGoto.take 16 ++ [0x8d, 0xf9, 0x81, 0xf0]⟩], GoodClock e ∧ ¬ Extreme e.data) := by
  intro e he
  simp only [List.mem_cons, List.not_mem_nil, or_false] at he
  rcases he with rfl | rfl | rfl <;>
    refine ⟨⟨by norm_num, by simp [Clock.Valid, clockOf, demoTime], by simp [demoTime]⟩, ?_⟩ <;>
    (unfold Extreme; decide +kernel)

example : (connection ⟨demoPosition, initialOffset⟩ [⟨1642086796000, demoTime, [75, 65]⟩, ⟨1642086796000, demoTime, demoGoto⟩,
      ⟨1642086796000, demoTime, [104]⟩, ⟨1642086796000, demoTime, [20, 0, 0]⟩,
      ⟨1642086797000, demoTime, demoGoto.take 16 ++ [0x8d, 0xf9, 0x81, 0xf0]⟩]).map Prod.snd =
    .ok [[65, 35],
      [24, 0, 0, 0, 0, 123, 42, 32, 120, 213, 5, 0, 0xfb, 0x64, 0xf8, 0x28, 0x50, 0x8e, 0xd9, 0, 0, 0, 0, 0],
      [16, 13, 16, 1, 13, 22, 1, 0, 35], [],
      [24, 0, 0, 0, 64, 189, 57, 32, 120, 213, 5, 0, 0xfb, 0x64, 0xf8, 0x28, 0x8e, 0xf9, 0x81, 0xf0, 0, 0, 0, 0]] := by
  decide +kernel

/-- **C59** (the excluded case is real). For some telescope position a goto with the extreme declination ends the server
process. -/
theorem C59_node_extreme_crash : ∃ t : Telescope, GoodPosition t.position ∧ ∃ e : Event, GoodClock e ∧ Extreme e.data ∧
    connection t [e] = .error .rangeError := by
  refine ⟨⟨⟨0, -3107828413967947 / 35184372088832⟩, ⟨0, 0⟩⟩, ?_, ⟨1642086796000, demoTime, demoGoto.take 16 ++ [255, 255, 255, 127]⟩,
    ?_, ?_, ?_⟩
  · refine ⟨⟨0, 0, by norm_num [b64], by norm_num [b64], by norm_num⟩,
      ⟨-3107828413967947, -45, by norm_num [b64], by norm_num [b64], by norm_num⟩, by norm_num, by norm_num, by norm_num [abs_le]⟩
  · exact ⟨by norm_num, by simp [Clock.Valid, clockOf, demoTime], by simp [demoTime]⟩
  · unfold Extreme; decide +kernel
  · decide +kernel

/-- **C59** (units of the decoder). A goto of 20 or more bytes is decoded to hours exactly and to degrees up to `2^-45`. -/
theorem C59_node_decode (data : List UInt8) (h : 20 ≤ data.length) :
    ∃ r, unpackGoto data = .ok r ∧ r.ra = (leVal (slice data 12 4) : ℚ) * 24 / 2 ^ 32 ∧
      |r.dec - (signed32 (leVal (slice data 16 4)) : ℚ) * 360 / 2 ^ 32| ≤ 1 / 2 ^ 45 := by
  have hlv : ∀ i, leVal (slice data i 4) < 2 ^ 32 := by
    intro i
    have h := Codec.leVal_lt (slice data i 4)
    have hl : (slice data i 4).length ≤ 4 := by simp [slice]
    calc leVal (slice data i 4) < 256 ^ (slice data i 4).length := h
      _ ≤ 256 ^ 4 := Nat.pow_le_pow_right (by norm_num) hl
      _ = 2 ^ 32 := by norm_num
  refine ⟨_, unpackGoto_ok h, ?_, ?_⟩
  · simp only
    rw [decode_ra (by omega) (by exact_mod_cast hlv 12)]
    push_cast; ring
  · simp only
    have hr := signed32_range (hlv 16)
    generalize signed32 (leVal (slice data 16 4)) = z at hr
    have hz0 : (-2147483648 : ℚ) ≤ z := by exact_mod_cast hr.1
    have hz1 : (z : ℚ) ≤ 2147483648 := by exact_mod_cast hr.2.le
    rw [decScale_eq]
    have e := num_error (q := (z : ℚ) / (6405119470038039 / 536870912)) (k := 8)
      (by rw [abs_lt]; constructor <;> (norm_num; linarith)) (by norm_num)
    have e2 : |(z : ℚ) / (6405119470038039 / 536870912) - z * 360 / 2 ^ 32| ≤ 1 / 2 ^ 46 := by
      rw [abs_le]; constructor <;> (norm_num; linarith)
    have := abs_sub_le (num ((z : ℚ) / (6405119470038039 / 536870912))) ((z : ℚ) / (6405119470038039 / 536870912)) (z * 360 / 2 ^ 32)
    norm_num at e e2 this ⊢
    linarith

theorem truncZ_bounds (v : ℚ) : |(truncZ v : ℚ) - v| < 1 := by
  unfold truncZ
  split
  · have h1 := Int.floor_le v
    have h2 := Int.lt_floor_add_one v
    rw [abs_lt]; constructor <;> linarith
  · have h1 := Int.le_ceil v
    have h2 := Int.ceil_lt_add_one v
    rw [abs_lt]; constructor <;> linarith

/-- **C59** (units of the encoder). Every position with right ascension in `[0, 24)` hours (up to one part in `10^9`) and
declination in `[-90, 90]` degrees is packed without exception into a position message whose coordinates differ from the
position by at most one unit and a millionth. -/
theorem C59_node_encode (now : Nat) (hnow : now ≤ 9000000000000) (p : Equatorial) (h0 : 0 ≤ p.ra) (h1 : p.ra ≤ 24 - 24 / 10 ^ 9)
    (hd : |p.dec| ≤ 90) :
    ∃ u d, u < 2 ^ 32 ∧ d < 2 ^ 32 ∧ packCurrentPosition now p = .ok (positionMessage (1000 * now) u d) ∧
      |(u : ℚ) - p.ra * 2 ^ 32 / 24| ≤ 1 + 1 / 10 ^ 6 ∧ |(signed32 d : ℚ) - p.dec * 2 ^ 32 / 360| ≤ 1 + 1 / 10 ^ 6 := by
  have hd' := abs_le.1 hd
  norm_num at h1
  obtain ⟨a, ha⟩ : ∃ a, a = num (p.ra * raScale) := ⟨_, rfl⟩
  obtain ⟨b, hb⟩ : ∃ b, b = num (p.dec * decScale) := ⟨_, rfl⟩
  have ea : |a - p.ra * 2 ^ 32 / 24| ≤ 1 / 10 ^ 6 := by
    rw [ha, raScale_eq]
    have e := num_error (q := p.ra * (6004799503160661 / 33554432)) (k := 32)
      (by rw [abs_lt]; constructor <;> (norm_num; linarith)) (by norm_num)
    norm_num at e ⊢
    have e' := abs_le.1 e
    rw [abs_le]; constructor <;> linarith
  have eb : |b - p.dec * 2 ^ 32 / 360| ≤ 1 / 10 ^ 6 := by
    rw [hb, decScale_eq]
    have e := num_error (q := p.dec * (6405119470038039 / 536870912)) (k := 31)
      (by rw [abs_lt]; constructor <;> (norm_num; linarith)) (by norm_num)
    norm_num at e ⊢
    have e' := abs_le.1 e
    rw [abs_le]; constructor <;> linarith
  have ea' := abs_le.1 ea
  have eb' := abs_le.1 eb
  norm_num at ea' eb'
  have ha0 : 0 ≤ a := by
    rw [ha]; exact rnd_nonneg (mul_nonneg h0 (by rw [raScale_eq]; norm_num))
  have ha1 : a ≤ 4294967295 := by linarith
  have ta := abs_lt.1 (truncZ_bounds a)
  have tb := abs_lt.1 (truncZ_bounds b)
  have ta0 : 0 ≤ truncZ a := by unfold truncZ; rw [if_pos ha0]; exact Int.floor_nonneg.2 ha0
  have ta1 : truncZ a < 2 ^ 32 := by
    have : (truncZ a : ℚ) < 4294967296 := by linarith
    exact_mod_cast this
  have tb0 : -2 ^ 31 ≤ truncZ b := by
    have : (-2147483648 : ℚ) ≤ truncZ b := by linarith
    exact_mod_cast this
  have tb1 : truncZ b < 2 ^ 31 := by
    have : (truncZ b : ℚ) < 2147483648 := by linarith
    exact_mod_cast this
  have hu : ((truncZ a).toNat : ℤ) = truncZ a := Int.toNat_of_nonneg ta0
  have huq : ((truncZ a).toNat : ℚ) = truncZ a := by exact_mod_cast congrArg (Int.cast (R := ℚ)) hu
  have w2 : writeUInt32LE a = .ok (le 4 (truncZ a).toNat) := by
    unfold writeUInt32LE
    rw [if_neg (by push Not; exact ⟨ha1, ha0⟩), ← bytesLE_eq, hu]
  have w3 : writeInt32LE b = .ok (le 4 (truncZ b % 2 ^ 32).toNat) := by
    unfold writeInt32LE
    rw [if_neg (by push Not; constructor <;> linarith), bytesLE_mod4]
  refine ⟨(truncZ a).toNat, (truncZ b % 2 ^ 32).toNat, by omega, by omega, ?_, ?_, ?_⟩
  · unfold packCurrentPosition
    rw [← ha, ← hb, num_time hnow, Codec.truncZ_intCast, write_time hnow, w2, w3]
    have b1 : bytesLE 2 24 = le 2 24 := bytesLE_eq 2 24
    have b2 : bytesLE 2 0 = le 2 0 := bytesLE_eq 2 0
    have b3 : bytesLE 4 0 = le 4 0 := bytesLE_eq 4 0
    simp only [bind, Except.bind, pure, Except.pure, b1, b2, b3]
    rfl
  · rw [huq, abs_le]; norm_num; constructor <;> linarith
  · rw [signed32_mod tb0 tb1, abs_le]; norm_num; constructor <;> linarith

/-- The position a new connection starts with meets the hypotheses. -/
example : 0 ≤ demoPosition.ra ∧ demoPosition.ra ≤ 24 - 24 / 10 ^ 9 ∧ |demoPosition.dec| ≤ 90 := by
  refine ⟨by norm_num [demoPosition], by norm_num [demoPosition], by norm_num [demoPosition, abs_le]⟩

/-- **C60**. To every request that is one exactly and has a fixed reply, the TypeScript server writes what the firmware puts
into its reply buffer, as long as the firmware is not aligned. -/
theorem C60_node_agrees_with_firmware {K S : Type} [Field K] [LinearOrder K] [IsStrictOrderedRing K] [FloorRing K] (P : Platform)
    (ops : Verif.NexStar.TelOps K S) (g : Nmea.Gnss) (sc : Verif.NexStar.Scope S) (hcal : sc.isCalibrated = false)
    (resp : List UInt8) (max : Nat) (hmax : 9 < max) (hr : max ≤ resp.length)
    (t : Telescope) (e : Event) (hc : GoodClock e) (c : NexStar.Command) (hE : Exact e.data c)
    (hfix : c ≠ .location ∧ c ≠ .position ∧ c ≠ .time) :
    ∃ out, onData e.now e.today t e.data = .ok (t, out) ∧ 0 < out.length ∧
      Verif.NexStar.handleRequest P ops g sc e.data e.data.length resp max =
        .ok (UInt32.ofNat out.length, NexStar.written resp out, sc) := by
  obtain ⟨a, b⟩ := handleRequest_exact hc.valid hc.year hE
  have hp : NexStar.Parses e.data c := by
    generalize e.data = l at hE
    cases hE with
    | echo x h => exact .echo x []
    | version => exact .version []
    | deviceVersion d h => exact .deviceVersion d h []
    | model => exact .model []
    | gotoInProgress => exact .gotoInProgress []
    | aligned => exact .aligned []
    | trackingMode => exact .trackingMode []
    | location => exact absurd rfl hfix.1
    | position => exact absurd rfl hfix.2.1
    | time => exact absurd rfl hfix.2.2
  obtain ⟨out, ho, hl, h0⟩ : ∃ out, NexStar.fixedReply false c = some out ∧ out.length ≤ 9 ∧ 0 < out.length := by
    cases c with
    | location => exact absurd rfl hfix.1
    | position => exact absurd rfl hfix.2.1
    | time => exact absurd rfl hfix.2.2
    | sync a b => generalize e.data = l at hE; cases hE
    | _ => exact ⟨_, rfl, by simp, by simp⟩
  have hrep : reply (clockOf e.today) c = out := by
    cases c with
    | location => exact absurd rfl hfix.1
    | position => exact absurd rfl hfix.2.1
    | time => exact absurd rfl hfix.2.2
    | sync a b => cases ho
    | _ => exact Option.some.inj ho
  refine ⟨out, ?_, h0, ?_⟩
  · unfold onData
    simp only [a, if_true, b, hrep]
  · exact Verif.NexStar.C06_fixed_reply P ops g sc e.data resp e.data.length max le_rfl c (by simpa using hp) out
      (by rw [hcal]; exact ho) (by omega) hr

/-- The hypotheses are met by a version request. -/
example : GoodClock ⟨1642086796000, demoTime, [86]⟩ ∧ Exact [86] .version :=
  ⟨⟨by norm_num, by simp [Clock.Valid, clockOf, demoTime], by simp [demoTime]⟩, .version⟩

/-- **C60** (one answer). What must be answered is determined by what was received, except for the last unit of a goto's
declination: two answers to the same non-goto chunk are equal. -/
theorem C60_answers_unique (ms : Nat) (clock : Clock) (data out out' : List UInt8) (h : Answers ms clock data out)
    (h' : Answers ms clock data out') (hg : data.length < 20 ∨ data.head? = some 115) : out = out' := by
  have inj : ∀ {l : List UInt8} {c c' : NexStar.Command}, Exact l c → Exact l c' → c = c' := by
    intro l c c' h h'
    cases h <;> cases h' <;> rfl
  have nosync : ∀ {l : List UInt8} {c : NexStar.Command}, Exact l c → l.head? ≠ some 115 := by
    intro l c h
    cases h <;> simp
  cases h with
  | request c hE =>
    cases h' with
    | request c' hE' => rw [inj hE hE']
    | sync hs => exact absurd hs (nosync hE)
    | goto h1 h2 => exact absurd hg (by push Not; exact ⟨h1, h2⟩)
    | ignored h1 h2 h3 => exact absurd hE (h3 c)
  | sync hs =>
    cases h' with
    | request c' hE' => exact absurd hs (nosync hE')
    | sync hs => rfl
    | goto h1 h2 => exact absurd hs h2
    | ignored h1 h2 h3 => exact absurd hs h2
  | goto h1 h2 => exact absurd hg (by push Not; exact ⟨h1, h2⟩)
  | ignored h1 h2 h3 =>
    cases h' with
    | request c' hE' => exact absurd hE' (h3 c')
    | sync hs => exact absurd hs h2
    | goto h1' h2' => omega
    | ignored => rfl

end Verif.Node
