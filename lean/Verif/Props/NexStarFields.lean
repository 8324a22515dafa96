import Verif.Props.NexStar
import Verif.Props.GnssFields
import Mathlib.Tactic.LinearCombination

/-!
# Properties C09, C10, C12, C13: contents of the NexStar `e`, `s`, `w` and `h` messages
-/

set_option linter.unusedSectionVars false

namespace Verif.NexStar
open Verif Verif.Nmea Verif.Spec Verif.Spec.NexStar Verif.Codec

variable {K : Type} [Field K] [LinearOrder K] [IsStrictOrderedRing K] [FloorRing K] {S : Type}

/-- `u` is the 32-bit wire value of the angle `x` (degrees): `x` in units of `360°/2^32`, fraction dropped. -/
def Wire (x : K) (u : Nat) : Prop :=
  u < 2 ^ 32 ∧ ((u : K) ≤ x / 360 * 2 ^ 32 ∧ x / 360 * 2 ^ 32 < u + 1 ∨ -1 < x / 360 * 2 ^ 32 ∧ x < 0 ∧ u = 0)

/-! ### plumbing -/

theorem fmt08X_hex8 (v : UInt32) : fmt08X v = hex8 v.toNat := by
  have h (n : Nat) : hexDigitU n = hexDigit n := rfl
  simp [fmt08X, hex8, h]

theorem trunc_wire {x : K} {u : Nat} (h : Wire x u) : truncZ (x / 360 * 4294967296) = u := by
  have e : (2 : K) ^ 32 = 4294967296 := by norm_num
  unfold Wire at h
  rw [e] at h
  obtain ⟨_, ⟨h1, h2⟩ | ⟨h1, h2, h3⟩⟩ := h
  · have : (0 : K) ≤ x / 360 * 4294967296 := le_trans (Nat.cast_nonneg u) h1
    unfold truncZ
    rw [if_pos this, Int.floor_eq_iff]
    exact ⟨by simpa using h1, by simpa using h2⟩
  · unfold truncZ
    have : ¬ (0 : K) ≤ x / 360 * 4294967296 := by
      intro hc; have : 0 ≤ x := by linarith
      linarith
    rw [if_neg this, h3, Int.ceil_eq_iff]
    constructor
    · simpa using h1
    · simp at this ⊢; linarith

theorem castU32_wire {P : Platform} {x : K} {u : Nat} (h : Wire x u) : castU32 P (x / 360 * 4294967296) = .ok (UInt32.ofNat u) := by
  unfold castU32 castUnsigned
  rw [trunc_wire h, if_pos ⟨by omega, by have := h.1; omega⟩]
  rfl

theorem position_handle {P : Platform} {ops : TelOps K S} {g : Gnss} {sc : Scope S} {request : List UInt8} (t : K) (ht : lst g = .ok t) (p : Equatorial K)
    (hp : ops.position sc.core (g.latitude : K) t = .ok p) :
    body P ops g sc request .position = (positionBytes P p).map fun o => (some o, sc) := by
  simp only [body]
  rw [ht, bind_ok, hp, bind_ok]
  cases positionBytes P p <;> rfl

/-! ### C09 -/

/-- **C09**. The reply to `e` is right ascension and declination of the calibrated position (computed from the GNSS
latitude and the local sidereal time), each truncated to `360°/2^32` and written as eight upper-case hexadecimal digits. -/
theorem C09_position_reply (P : Platform) (ops : TelOps K S) (g : Gnss) (sc : Scope S) (request resp : List UInt8) (n max : Nat)
    (hn : n ≤ request.length) (hc : Parses (request.take n) .position) (t : K)
    (ht : Helper.localSiderealTime g.utc (g.longitude : K) = .ok t) (p : Equatorial K)
    (hp : ops.position sc.core (g.latitude : K) t = .ok p) (u v : Nat) (hu : Wire p.ra u) (hv : Wire p.dec v)
    (hmax : 19 ≤ max) (hr : max ≤ resp.length) :
    handleRequest P ops g sc request n resp max =
      .ok (18, written resp (hex8 u ++ [44] ++ hex8 v ++ [35]), sc) := by
  have hb := branch_parses hn hc
  have hbody : body P ops g sc request .position = .ok (some (hex8 u ++ [44] ++ hex8 v ++ [35]), sc) := by
    rw [position_handle t ht p hp]
    unfold positionBytes
    rw [castU32_wire hu, bind_ok, castU32_wire hv, bind_ok, fmt08X_hex8, fmt08X_hex8]
    simp only [UInt32.toNat_ofNat', Nat.mod_eq_of_lt hu.1, Nat.mod_eq_of_lt hv.1]
    rfl
  exact handle_of_branch hb hbody (by simp [hex8]; omega) hr

/-- **C09** (exact domain). `e` has a wire value for both angles exactly when both are in `(-360/2^32, 360)` degrees. -/
theorem C09_domain (x : K) : (∃ u, Wire x u) ↔ -(360 / 2 ^ 32) < x ∧ x < 360 := by
  have e : (2 : K) ^ 32 = 4294967296 := by norm_num
  unfold Wire
  rw [e]
  constructor
  · rintro ⟨u, h0, ⟨h1, h2⟩ | ⟨h1, h2, _⟩⟩
    · have hu : (u : K) + 1 ≤ 4294967296 := by
        have : u + 1 ≤ 4294967296 := by omega
        exact_mod_cast this
      have : (0 : K) ≤ u := Nat.cast_nonneg u
      constructor
      · have : 0 ≤ x := by linarith
        linarith
      · linarith
    · constructor <;> linarith
  · rintro ⟨h1, h2⟩
    rcases lt_or_ge x 0 with hx | hx
    · exact ⟨0, by norm_num, Or.inr ⟨by linarith, hx, rfl⟩⟩
    · have h0 : 0 ≤ ⌊x / 360 * 4294967296⌋ := Int.floor_nonneg.2 (by positivity)
      have hz : ((⌊x / 360 * 4294967296⌋.toNat : ℕ) : K) = (⌊x / 360 * 4294967296⌋ : ℤ) := by
        rw [← Int.cast_natCast, Int.toNat_of_nonneg h0]
      refine ⟨⌊x / 360 * 4294967296⌋.toNat, ?_, Or.inl ⟨?_, ?_⟩⟩
      · have : ⌊x / 360 * 4294967296⌋ < 4294967296 := by
          rw [Int.floor_lt]; push_cast; linarith
        omega
      · rw [hz]; exact Int.floor_le _
      · rw [hz]; exact Int.lt_floor_add_one _

/-- **C09** (defect). On a target whose float-to-unsigned conversion is not defined out of range (the ESP32), `e` is undefined
behaviour whenever the declination is `-360/2^32` degrees or less, that is for every object south of the celestial equator. -/
theorem C09_negative_dec_ub (P : Platform) (hP : P.fcast = .strict) (ops : TelOps K S) (g : Gnss) (sc : Scope S)
    (request resp : List UInt8) (n max : Nat)
    (hn : n ≤ request.length) (hc : Parses (request.take n) .position) (t : K)
    (ht : Helper.localSiderealTime g.utc (g.longitude : K) = .ok t) (p : Equatorial K)
    (hp : ops.position sc.core (g.latitude : K) t = .ok p) (hra : 0 ≤ p.ra ∧ p.ra < 360) (hdec : p.dec ≤ -(360 / 2 ^ 32)) :
    handleRequest P ops g sc request n resp max = .error (.ub .floatToInt) := by
  have hb := branch_parses hn hc
  unfold handleRequest
  rw [hb, bind_ok]
  show body P ops g sc request .position >>= _ = _
  rw [position_handle t ht p hp]
  obtain ⟨u, hu⟩ := (C09_domain p.ra).2 ⟨by have : (0 : K) < 360 / 2 ^ 32 := by positivity
                                            linarith, hra.2⟩
  have : castU32 P (p.dec / 360 * 4294967296) = .error (.ub .floatToInt) := by
    unfold castU32 castUnsigned
    have e : (2 : K) ^ 32 = 4294967296 := by norm_num
    rw [e] at hdec
    have hneg : p.dec / 360 * 4294967296 ≤ -1 := by linarith
    have : truncZ (p.dec / 360 * 4294967296) ≤ -1 := by
      unfold truncZ
      rw [if_neg (by linarith)]
      apply Int.ceil_le.2; push_cast; linarith
    rw [if_neg (by omega), hP]; rfl
  unfold positionBytes
  rw [castU32_wire hu, bind_ok, this, bind_error]; rfl

/-- The hypotheses for the position (10°, 20°), and the reply the model computes. -/
example : Wire (10 : ℚ) 119304647 ∧ Wire (20 : ℚ) 238609294 ∧ hex8 119304647 = ascii "071C71C7" ∧
    (∃ t : ℚ, Helper.localSiderealTime ⟨25, 27, 9, 7, 8, 2019⟩ (8 : ℚ) = .ok t) ∧
    (handleRequest .esp32 demoOps (.init 47 8) ⟨0, false⟩ (ascii "e.......") 1 (List.replicate 19 7) 19).map (fun r => (r.1, r.2.1)) =
      .ok (18, ascii "071C71C7,0E38E38E#" ++ [0]) := by
  refine ⟨?_, ?_, by decide +kernel, ?_, by decide +kernel⟩
  · unfold Wire; norm_num
  · unfold Wire; norm_num
  · have : ((Helper.localSiderealTime ⟨25, 27, 9, 7, 8, 2019⟩ (8 : ℚ) : C ℚ).toOption).isSome = true := by decide +kernel
    cases h : (Helper.localSiderealTime ⟨25, 27, 9, 7, 8, 2019⟩ (8 : ℚ) : C ℚ) with
    | ok t => exact ⟨t, rfl⟩
    | error e => rw [h] at this; cases this

/-! ### C10 -/

/-- `x` and `y` are the same direction up to less than one encoding step (`360°/2^32`). -/
def SameDirection (x y : K) : Prop := ∃ k : ℤ, |x - y - 360 * k| < 360 / 2 ^ 32

theorem hexChar_ne_zero (l : Bool) (d : Fin 16) : hexChar l d ≠ 0 := by revert l d; decide

theorem strncpy_word (request w tl : List UInt8) (i : Nat) (h : request.drop i = w ++ tl) (hw : (0 : UInt8) ∉ w) :
    strncpyFrom request i w.length = .ok w := by
  induction w generalizing i with
  | nil => rfl
  | cons b w ih =>
    have hb : readByte request i = .ok b := by
      have : request[i]? = some b := by
        have := congrArg List.head? h
        rw [List.head?_drop] at this; simpa using this
      unfold readByte; rw [this]
    simp only [List.mem_cons, not_or] at hw
    show strncpyFrom request i (w.length + 1) = _
    unfold strncpyFrom
    rw [hb, bind_ok, if_neg (fun e => hw.1 e.symm)]
    rw [ih (i + 1) ?_ hw.2]; rfl
    rw [← List.tail_drop, h]; rfl

theorem hexVal_lt (ds : List (Fin 16)) : hexVal ds < 16 ^ ds.length := by
  induction ds with
  | nil => simp [hexVal]
  | cons d ds ih =>
    have := d.isLt
    simp only [hexVal, List.length_cons, pow_succ]
    nlinarith [Nat.one_le_pow ds.length 16 (by omega)]

theorem hexText_nonzero (a : List (Bool × Fin 16)) : (0 : UInt8) ∉ hexText a := by
  unfold hexText
  intro h
  obtain ⟨x, _, hx⟩ := List.mem_map.1 h
  exact hexChar_ne_zero _ _ hx

theorem syncAngle_hex (P : Platform) (request tl : List UInt8) (i : Nat) (a : List (Bool × Fin 16)) (ha : a.length = 8)
    (h : request.drop i = hexText a ++ tl) :
    (syncAngle P request i : C K) = .ok ((hexVal (a.map (·.2)) : K) * 360 / 4294967296) := by
  unfold syncAngle
  have hl : (hexText a).length = 8 := by simp [hexText, ha]
  have := strncpy_word request (hexText a) tl i h (hexText_nonzero a)
  rw [hl] at this
  rw [this, bind_ok]
  have hlt : hexVal (a.map (·.2)) < 2 ^ 32 := by
    have := hexVal_lt (a.map (·.2))
    rw [List.length_map, ha] at this; norm_num at this ⊢; exact this
  have := strtoul_hex P a (by rintro rfl; simp at ha) 0 [] (by decide) hlt
  unfold hexText
  rw [this, bind_ok]; rfl

theorem drop_of_take {request q : List UInt8} {n : Nat} (h : request.take n = q) : request = q ++ request.drop n := by
  rw [← h, List.take_append_drop]

/-- **C10**. A sync request `s`, eight hexadecimal digits (either case), any separator, eight hexadecimal digits,
hands the telescope exactly one reference point, taken at the GNSS latitude and local sidereal time: right ascension
`360° · value / 2^32` in `[0, 360)` and the declination congruent to `360° · value / 2^32` modulo 360 in `(-90, 270]`;
the reply is `#` and the telescope is marked aligned. -/
theorem C10_sync_decodes (P : Platform) (ops : TelOps K S) (g : Gnss) (sc : Scope S) (request resp : List UInt8) (n max : Nat)
    (a d : List (Bool × Fin 16)) (ha : a.length = 8) (hd : d.length = 8) (sep : UInt8) (rest : List UInt8)
    (hn : n ≤ request.length) (hreq : request.take n = 115 :: (hexText a ++ sep :: (hexText d ++ rest)))
    (t : K) (ht : Helper.localSiderealTime g.utc (g.longitude : K) = .ok t) (hmax : 2 ≤ max) (hr : max ≤ resp.length) :
    ∃ ref : Equatorial K, ref.ra = 360 * hexVal (a.map (·.2)) / 2 ^ 32 ∧ 0 ≤ ref.ra ∧ ref.ra < 360 ∧
      (∃ k : ℤ, ref.dec = 360 * hexVal (d.map (·.2)) / 2 ^ 32 + 360 * k) ∧ -90 < ref.dec ∧ ref.dec ≤ 270 ∧
      handleRequest P ops g sc request n resp max =
        (ops.addReferencePoint sc.core ref (g.latitude : K) t).map fun core => (1, written resp [35], ⟨core, true⟩) := by
  have e : (2 : K) ^ 32 = 4294967296 := by norm_num
  have hc : Parses (request.take n) (.sync (hexText a) (hexText d)) := by
    rw [hreq]; exact .sync _ _ (by simp [hexText, ha]) (by simp [hexText, hd]) _ _
  have hb := branch_parses hn hc
  have hla : (hexText a).length = 8 := by simp [hexText, ha]
  have e0 := drop_of_take hreq
  have s1 : (syncAngle P request 1 : C K) = .ok ((hexVal (a.map (·.2)) : K) * 360 / 4294967296) := by
    refine syncAngle_hex P request (sep :: (hexText d ++ rest) ++ request.drop n) 1 a ha ?_
    conv_lhs => rw [e0]
    simp
  have s2 : (syncAngle P request 10 : C K) = .ok ((hexVal (d.map (·.2)) : K) * 360 / 4294967296) := by
    refine syncAngle_hex P request (rest ++ request.drop n) 10 d hd ?_
    conv_lhs => rw [e0]
    rw [show 115 :: (hexText a ++ sep :: (hexText d ++ rest)) ++ request.drop n =
      (115 :: (hexText a ++ [sep])) ++ (hexText d ++ (rest ++ request.drop n)) by simp]
    rw [List.drop_left' (by simp [hla])]
  have bound : ∀ l : List (Bool × Fin 16), l.length = 8 → (hexVal (l.map (·.2)) : K) + 1 ≤ 4294967296 := by
    intro l hl
    have h := hexVal_lt (l.map (·.2))
    rw [List.length_map, hl] at h
    have : hexVal (l.map (·.2)) + 1 ≤ 4294967296 := by norm_num at h; omega
    exact_mod_cast this
  have pos : ∀ m : Nat, (0 : K) ≤ m := fun m => Nat.cast_nonneg m
  refine ⟨⟨(hexVal (a.map (·.2)) : K) * 360 / 4294967296, wrapDec ((hexVal (d.map (·.2)) : K) * 360 / 4294967296)⟩, ?_, ?_, ?_, ?_, ?_, ?_, ?_⟩
  · rw [e]; ring
  · have := pos (hexVal (a.map (·.2)))
    positivity
  · have := bound a ha
    simp only; rw [div_lt_iff₀ (by norm_num)]; linarith
  · unfold wrapDec
    simp only
    split
    · exact ⟨-1, by rw [e]; push_cast; ring⟩
    · exact ⟨0, by rw [e]; push_cast; ring⟩
  · have := pos (hexVal (d.map (·.2)))
    unfold wrapDec
    simp only
    split
    · linarith
    · have : (0 : K) ≤ (hexVal (d.map (·.2)) : K) * 360 / 4294967296 := by positivity
      linarith
  · have := bound d hd
    have h2 : (hexVal (d.map (·.2)) : K) * 360 / 4294967296 < 360 := by rw [div_lt_iff₀ (by norm_num)]; linarith
    unfold wrapDec
    simp only
    split <;> linarith
  · cases hadd : ops.addReferencePoint sc.core ⟨(hexVal (a.map (·.2)) : K) * 360 / 4294967296,
        wrapDec ((hexVal (d.map (·.2)) : K) * 360 / 4294967296)⟩ (g.latitude : K) t with
    | error err =>
      unfold handleRequest
      rw [hb, bind_ok]
      simp only [cmdBranch, body, doSync]
      rw [s1, bind_ok, s2, bind_ok, show lst g = .ok t from ht, bind_ok, hadd]
      rfl
    | ok core =>
      refine handle_of_branch hb (out := [35]) ?_ (by simp; omega) hr
      simp only [cmdBranch, body, doSync]
      rw [s1, bind_ok, s2, bind_ok, show lst g = .ok t from ht, bind_ok, hadd]
      rfl

theorem hexDigit_char (m : Nat) (h : m < 16) : hexDigit m = hexChar false ⟨m, h⟩ := by
  unfold hexDigit hexChar; simp

/-- The eight digits of `hex8 u` denote `u`. -/
theorem hex8_text (u : Nat) (hu : u < 2 ^ 32) :
    ∃ ds : List (Bool × Fin 16), ds.length = 8 ∧ hex8 u = hexText ds ∧ hexVal (ds.map (·.2)) = u := by
  have hm (k : Nat) : k % 16 < 16 := Nat.mod_lt _ (by omega)
  refine ⟨[(false, ⟨u / 16 ^ 7 % 16, hm _⟩), (false, ⟨u / 16 ^ 6 % 16, hm _⟩), (false, ⟨u / 16 ^ 5 % 16, hm _⟩),
    (false, ⟨u / 16 ^ 4 % 16, hm _⟩), (false, ⟨u / 16 ^ 3 % 16, hm _⟩), (false, ⟨u / 16 ^ 2 % 16, hm _⟩),
    (false, ⟨u / 16 % 16, hm _⟩), (false, ⟨u % 16, hm _⟩)], rfl, ?_, ?_⟩
  · simp only [hex8, hexText, List.map_cons, List.map_nil, hexDigit_char _ (hm _)]
  · simp only [List.map_cons, List.map_nil, hexVal, List.length_cons, List.length_nil]
    norm_num
    omega

theorem abs_truncZ (x : K) : |((truncZ x : ℤ) : K) - x| < 1 := by
  unfold truncZ
  split
  · have h1 := Int.floor_le x
    have h2 := Int.lt_floor_add_one x
    rw [abs_lt]; constructor <;> linarith
  · have h1 := Int.le_ceil x
    have h2 := Int.ceil_lt_add_one x
    rw [abs_lt]; constructor <;> linarith

theorem castU32_mod {P : Platform} {x : K} {w : UInt32} (h : castU32 P x = .ok w) : ∃ k : ℤ, (w.toNat : ℤ) = truncZ x + 2 ^ 32 * k := by
  unfold castU32 at h
  obtain ⟨m, hm, h⟩ := bind_eq_ok.1 h
  injection h with h
  subst h
  unfold castUnsigned at hm
  rw [UInt32.toNat_ofNat']
  split at hm
  · rename_i hz
    injection hm with hm; subst hm
    exact ⟨0, by omega⟩
  · split at hm
    · cases hm
    · injection hm with hm; subst hm
      refine ⟨-(truncZ x / 2 ^ 32), ?_⟩
      have := Int.emod_add_mul_ediv (truncZ x) (2 ^ 32)
      have h0 := Int.emod_nonneg (truncZ x) (show (2 : ℤ) ^ 32 ≠ 0 by norm_num)
      have h1 := Int.emod_lt_of_pos (truncZ x) (show (0 : ℤ) < 2 ^ 32 by norm_num)
      rw [Nat.mod_eq_of_lt (by omega)]
      omega

theorem same_of_cast {P : Platform} {x : K} {w : UInt32} (h : castU32 P (x / 360 * 4294967296) = .ok w) {y : K} {k' : ℤ}
    (hy : y = 360 * (w.toNat : K) / 2 ^ 32 + 360 * k') : SameDirection y x := by
  obtain ⟨k, hk⟩ := castU32_mod h
  have e : (2 : K) ^ 32 = 4294967296 := by norm_num
  refine ⟨k + k', ?_⟩
  have h1 := abs_truncZ (x / 360 * 4294967296)
  have hk' : (w.toNat : K) = (truncZ (x / 360 * 4294967296) : ℤ) + 4294967296 * k := by
    have : ((w.toNat : ℤ) : K) = ((truncZ (x / 360 * 4294967296) + 2 ^ 32 * k : ℤ) : K) := by rw [hk]
    push_cast at this
    rw [this]
  rw [hy, hk', e]
  rw [abs_lt] at h1 ⊢
  push_cast
  constructor <;> linarith

/-- **C10** (round trip). Sending the 17 characters of a successful `e` reply back with `s` gives the telescope a reference
point that differs from the reported position by less than one encoding step (modulo 360°). -/
theorem C10_round_trip (P : Platform) (ops : TelOps K S) (g : Gnss) (sc sc1 : Scope S) (request resp resp1 resp2 : List UInt8)
    (n max max2 : Nat) (hn : n ≤ request.length) (hc : Parses (request.take n) .position) (t : K)
    (ht : Helper.localSiderealTime g.utc (g.longitude : K) = .ok t) (p : Equatorial K)
    (hp : ops.position sc.core (g.latitude : K) t = .ok p) (hmax : 19 ≤ max) (hr : max ≤ resp.length)
    (k : UInt32) (hok : handleRequest P ops g sc request n resp max = .ok (k, resp1, sc1))
    (hmax2 : 2 ≤ max2) (hr2 : max2 ≤ resp2.length) :
    ∃ ref : Equatorial K, SameDirection ref.ra p.ra ∧ SameDirection ref.dec p.dec ∧
      handleRequest P ops g sc (115 :: resp1.take 17) 18 resp2 max2 =
        (ops.addReferencePoint sc.core ref (g.latitude : K) t).map fun core => (1, written resp2 [35], ⟨core, true⟩) := by
  have hb := branch_parses hn hc
  obtain ⟨out, hout⟩ : ∃ out, positionBytes P p = .ok out := by
    unfold handleRequest at hok
    rw [hb, bind_ok] at hok
    obtain ⟨_, hbody, _⟩ := bind_eq_ok.1 hok
    replace hbody : body P ops g sc request .position = _ := hbody
    rw [position_handle t ht p hp] at hbody
    cases ho : positionBytes P p with
    | error e => rw [ho] at hbody; cases hbody
    | ok out => exact ⟨out, rfl⟩
  have hbody : body P ops g sc request (cmdBranch .position) = .ok (some out, sc) := by
    show body P ops g sc request .position = _
    rw [position_handle t ht p hp, hout]; rfl
  rw [handle_of_branch hb hbody (by rw [(positionBytes_len hout).1]; omega) hr] at hok
  injection hok with hok; injection hok with _ hok; injection hok with hresp _
  unfold positionBytes at hout
  obtain ⟨u, hu, hout⟩ := bind_eq_ok.1 hout
  obtain ⟨v, hv, hout⟩ := bind_eq_ok.1 hout
  injection hout with hout
  obtain ⟨da, la, ta, va⟩ := hex8_text u.toNat u.toNat_lt
  obtain ⟨db, lb, tb, vb⟩ := hex8_text v.toNat v.toNat_lt
  have htake : resp1.take 17 = hexText da ++ 44 :: (hexText db ++ []) := by
    rw [← hresp, ← hout, fmt08X_hex8, fmt08X_hex8, ta, tb]
    unfold written
    generalize 0 :: resp.drop ((hexText da ++ [44] ++ hexText db ++ [35]).length + 1) = tl
    rw [show hexText da ++ [44] ++ hexText db ++ [35] ++ tl = (hexText da ++ 44 :: (hexText db ++ [])) ++ (35 :: tl) by simp]
    rw [List.take_left' (by simp [hexText, la, lb])]
  obtain ⟨ref, h1, _, _, ⟨k', h4⟩, _, _, h7⟩ := C10_sync_decodes P ops g sc (115 :: resp1.take 17) resp2 18 max2 da db la lb 44 []
    (by rw [htake]; simp [hexText, la, lb]) (by rw [htake, List.take_of_length_le (by simp [hexText, la, lb])]) t ht hmax2 hr2
  refine ⟨ref, ?_, ?_, h7⟩
  · exact same_of_cast hu (k' := 0) (by rw [h1, va]; push_cast; ring)
  · exact same_of_cast hv (k' := k') (by rw [h4, vb])

/-- A hexadecimal example: `s34AB0500,12CE0500` is 34AB0500₁₆ and 12CE0500₁₆. -/
example : hexText [(false, 3), (false, 4), (true, 10), (false, 11), (false, 0), (false, 5), (false, 0), (false, 0)] = ascii "34aB0500" ∧
    (handleRequest (K := ℚ) (S := List (Equatorial ℚ)) .esp32 ⟨fun _ _ _ => .error .nonfinite, fun s r _ _ => .ok (r :: s)⟩ (.init 47 8) ⟨[], false⟩
      (ascii "s40000000,F0000000") 18 [7, 7, 7] 3) = .ok (1, [35, 0, 7], ⟨[⟨90, -22.5⟩], true⟩) := by
  constructor <;> decide +kernel

/-- **C10** (edge). The declination -90° reported by a wrapping target comes back as +270°: the code wraps only values above 270. -/
theorem C10_south_pole :
    (positionBytes .nativeWrap (⟨0, -90⟩ : Equatorial ℚ)) = .ok (ascii "00000000,C0000000#") ∧
    (handleRequest (K := ℚ) (S := List (Equatorial ℚ)) .nativeWrap ⟨fun _ _ _ => .error .nonfinite, fun s r _ _ => .ok (r :: s)⟩ (.init 47 8) ⟨[], false⟩
      (ascii "s00000000,C0000000") 18 [7, 7] 2) = .ok (1, [35, 0], ⟨[⟨0, 270⟩], true⟩) := by
  constructor <;> decide +kernel

/-- **C10** (finding). The numbers are not validated: an 18-byte request that contains no hexadecimal digit at all is accepted
as right ascension 0, declination 0 and marks the telescope aligned. -/
theorem C10_garbage_accepted :
    (handleRequest (K := ℚ) (S := List (Equatorial ℚ)) .esp32 ⟨fun _ _ _ => .error .nonfinite, fun s r _ _ => .ok (r :: s)⟩ (.init 47 8) ⟨[], false⟩
      (ascii "sync to Polaris!!!") 18 [7, 7] 2) = .ok (1, [35, 0], ⟨[⟨0, 0⟩], true⟩) := by
  decide +kernel

/-! ### C12 -/

/-- `d` whole degrees and `m` whole minutes of the coordinate `v`; the code's float product may round a
value up to `2^-19` minutes short of `m` to `m`. -/
def WholeDegMin (v : ℚ) (d m : UInt8) : Prop :=
  (d.toNat : ℚ) ≤ v ∧ v < d.toNat + 1 ∧ m.toNat < 60 ∧
    (m.toNat : ℚ) ≤ 60 * (v - d.toNat) + 1 / 2 ^ 19 ∧ 60 * (v - d.toNat) < m.toNat + 1

theorem rep_frac {v : ℚ} (h : Representable b32 v) (h0 : 0 ≤ v) : Representable b32 (v - ⌊v⌋) := by
  obtain ⟨m, e, he, hm, rfl⟩ := h
  have hm0 : 0 ≤ m := by
    by_contra hc
    have : (m : ℚ) < 0 := by exact_mod_cast not_le.1 hc
    have := mul_neg_of_neg_of_pos this (two_zpow_pos e)
    linarith
  rcases le_or_gt 0 e with h1 | h1
  · obtain ⟨k, rfl⟩ := Int.eq_ofNat_of_zero_le h1
    have : (m : ℚ) * (2 : ℚ) ^ ((k : ℕ) : ℤ) = ((m * 2 ^ k : ℤ) : ℚ) := by push_cast; rw [zpow_natCast]
    rw [this, Int.floor_intCast, sub_self]
    exact ⟨0, 0, by decide, by decide, by simp⟩
  · obtain ⟨k, hk⟩ := Int.eq_ofNat_of_zero_le (show 0 ≤ -e by omega)
    have hv : (m : ℚ) * (2 : ℚ) ^ e = (m : ℚ) / ((2 ^ k : ℕ) : ℚ) := by
      rw [show e = -(k : ℤ) by omega, zpow_neg, zpow_natCast]; push_cast; rfl
    rw [hv, Rat.floor_intCast_div_natCast]
    refine ⟨m % (2 ^ k : ℕ), e, he, ?_, ?_⟩
    · have a1 := Int.emod_nonneg m (show ((2 ^ k : ℕ) : ℤ) ≠ 0 by positivity)
      have a2 : m % ((2 ^ k : ℕ) : ℤ) ≤ m := by
        rw [Int.emod_def]
        have := Int.ediv_nonneg hm0 (show (0 : ℤ) ≤ ((2 ^ k : ℕ) : ℤ) by positivity)
        have := mul_nonneg (show (0 : ℤ) ≤ ((2 ^ k : ℕ) : ℤ) by positivity) this
        omega
      rw [abs_of_nonneg a1]; rw [abs_of_nonneg hm0] at hm; omega
    · rw [show e = -(k : ℤ) by omega, zpow_neg, zpow_natCast]
      have h2 : ((2 ^ k : ℕ) : ℚ) ≠ 0 := by positivity
      have h3 : (m : ℚ) = ((m % ((2 ^ k : ℕ) : ℤ) : ℤ) : ℚ) + ((2 ^ k : ℕ) : ℚ) * ((m / ((2 ^ k : ℕ) : ℤ) : ℤ) : ℚ) := by
        have := Int.emod_add_mul_ediv m ((2 ^ k : ℕ) : ℤ)
        exact_mod_cast this.symm
      conv_lhs => rw [h3]
      push_cast at h2 ⊢
      field_simp
      ring

theorem rep_lt_one {v : ℚ} (h : Representable b32 v) (h1 : v < 1) : v ≤ 1 - 1 / 2 ^ 24 := by
  obtain ⟨m, e, he, hm, rfl⟩ := h
  have hp : (b32.prec : ℕ) = 24 := rfl
  rw [hp] at hm
  rcases le_or_gt e (-24) with h2 | h2
  · have a1 : (m : ℚ) ≤ 2 ^ 24 - 1 := by
      have : m ≤ 2 ^ 24 - 1 := by have := le_abs_self m; omega
      exact_mod_cast this
    have a2 : (2 : ℚ) ^ e ≤ (2 : ℚ) ^ (-24 : ℤ) := zpow_le_zpow_right₀ (by norm_num) h2
    have a3 := two_zpow_pos e
    rcases le_or_gt (m : ℚ) 0 with hm0 | hm0
    · have : (m : ℚ) * (2 : ℚ) ^ e ≤ 0 := mul_nonpos_of_nonpos_of_nonneg hm0 a3.le
      norm_num; linarith
    · have : (m : ℚ) * (2 : ℚ) ^ e ≤ (2 ^ 24 - 1) * (2 : ℚ) ^ (-24 : ℤ) := mul_le_mul a1 a2 a3.le (by norm_num)
      refine this.trans ?_
      norm_num
  · obtain ⟨k, hk⟩ := Int.eq_ofNat_of_zero_le (show 0 ≤ e + 24 by omega)
    have hv : (m : ℚ) * (2 : ℚ) ^ e = ((m * 2 ^ k : ℤ) : ℚ) / 2 ^ 24 := by
      rw [show e = (k : ℤ) - 24 by omega, zpow_sub₀ (by norm_num)]; push_cast; rw [zpow_natCast]
      norm_num; ring
    rw [hv] at h1 ⊢
    rw [div_lt_one (by norm_num)] at h1
    have : m * 2 ^ k < 2 ^ 24 := by exact_mod_cast h1
    have : m * 2 ^ k ≤ 2 ^ 24 - 1 := by omega
    have : ((m * 2 ^ k : ℤ) : ℚ) ≤ 2 ^ 24 - 1 := by exact_mod_cast this
    rw [div_le_iff₀ (by norm_num)]; norm_num at this ⊢; linarith

theorem castU8_ok {P : Platform} {x : ℚ} (h0 : 0 ≤ x) (h1 : x < 256) : castU8 P x = .ok (UInt8.ofNat ⌊x⌋.toNat) := by
  have a0 : 0 ≤ ⌊x⌋ := Int.floor_nonneg.2 h0
  have a1 : ⌊x⌋ < 256 := Int.floor_lt.2 (by exact_mod_cast h1)
  unfold castU8 castUnsigned truncZ
  rw [if_pos h0, if_pos ⟨a0, by omega⟩]; rfl

theorem toNat_ofNat8 {z : ℤ} (h0 : 0 ≤ z) (h1 : z < 256) : ((UInt8.ofNat z.toNat).toNat : ℚ) = (z : ℚ) := by
  rw [UInt8.toNat_ofNat', Nat.mod_eq_of_lt (by omega), ← Int.cast_natCast, Int.toNat_of_nonneg h0]

theorem degMin_pos (P : Platform) {v : ℚ} (hrep : Representable b32 v) (h0 : 0 ≤ v) (h1 : v < 256) :
    ∃ d m, degMin P v = .ok (d, m) ∧ WholeDegMin v d m := by
  have f0 : 0 ≤ ⌊v⌋ := Int.floor_nonneg.2 h0
  have f1 : ⌊v⌋ < 256 := Int.floor_lt.2 (by exact_mod_cast h1)
  have f0' : (0 : ℚ) ≤ ⌊v⌋ := by exact_mod_cast f0
  have f1' : (⌊v⌋ : ℚ) < 256 := by exact_mod_cast f1
  have g0 : 0 ≤ v - ⌊v⌋ := by have := Int.floor_le v; linarith
  have g1 : v - ⌊v⌋ < 1 := by have := Int.lt_floor_add_one v; linarith
  have hfr := rep_frac hrep h0
  have g2 := rep_lt_one hfr g1
  have e1 : fl b32 (|v| - |(⌊v⌋ : ℚ)|) = .ok (v - ⌊v⌋) := by
    rw [abs_of_nonneg h0, abs_of_nonneg f0', fl32_small (le_pow100 (B := 1) (by rw [abs_of_nonneg g0]; linarith) (by norm_num)),
      rnd_of_representable hfr]
  have e2 : fl b32 ((v - ⌊v⌋) * 60) = .ok (rnd b32 ((v - ⌊v⌋) * 60)) :=
    fl32_small (le_pow100 (B := 60) (by rw [abs_of_nonneg (by linarith)]; linarith) (by norm_num))
  have r0 : 0 ≤ rnd b32 ((v - ⌊v⌋) * 60) := rnd_nonneg (by linarith)
  have r1 : rnd b32 ((v - ⌊v⌋) * 60) < 60 := by
    refine lt_of_le_of_lt (rnd_mono (by decide) (b := (1 - 1 / 2 ^ 24) * 60) (by linarith)) ?_
    decide +kernel
  have m0 : 0 ≤ ⌊rnd b32 ((v - ⌊v⌋) * 60)⌋ := Int.floor_nonneg.2 r0
  have m1 : ⌊rnd b32 ((v - ⌊v⌋) * 60)⌋ < 60 := Int.floor_lt.2 (by exact_mod_cast r1)
  refine ⟨UInt8.ofNat ⌊v⌋.toNat, UInt8.ofNat ⌊rnd b32 ((v - ⌊v⌋) * 60)⌋.toNat, ?_, ?_⟩
  · unfold degMin
    rw [abs_of_nonneg f0', castU8_ok f0' f1', Int.floor_intCast, bind_ok]
    rw [abs_of_nonneg f0'] at e1
    rw [e1, bind_ok, e2, bind_ok, castU8_ok r0 (by linarith), bind_ok]; rfl
  · unfold WholeDegMin
    rw [toNat_ofNat8 f0 f1, toNat_ofNat8 m0 (by omega)]
    refine ⟨Int.floor_le v, Int.lt_floor_add_one v, ?_, ?_, ?_⟩
    · rw [UInt8.toNat_ofNat', Nat.mod_eq_of_lt (by omega)]; omega
    · have a1 := Int.floor_le (rnd b32 ((v - ⌊v⌋) * 60))
      have a2 := rnd_error_le (F := b32) (q := (v - ⌊v⌋) * 60) (k := 6)
        (by rw [abs_of_nonneg (by linarith), show (2 : ℚ) ^ (6 : ℤ) = 64 by norm_num]; linarith) (by decide) (by decide)
      have hp : (b32.prec : ℤ) = 24 := rfl
      rw [hp, abs_le, show (2 : ℚ) ^ ((6 : ℤ) - 24 - 1) = 1 / 2 ^ 19 by norm_num] at a2
      linarith [a2.2]
    · by_contra hc
      have hc : ((⌊rnd b32 ((v - ⌊v⌋) * 60)⌋ + 1 : ℤ) : ℚ) ≤ (v - ⌊v⌋) * 60 := by push_cast; linarith
      have := rnd_mono (F := b32) (by decide) hc
      rw [rnd_of_representable (rep_int (by rw [abs_of_nonneg (by omega)]; omega))] at this
      have h2 := Int.lt_floor_add_one (rnd b32 ((v - ⌊v⌋) * 60))
      push_cast at this
      linarith

/-- **C12**. For a position in the northern and eastern hemisphere (stored as floats), `w` reports whole degrees and whole minutes of
latitude and longitude, zero seconds, and the hemisphere flags (0 = north/east, 1 = south/west as stored). -/
theorem C12_location (P : Platform) (ops : TelOps K S) (g : Gnss) (sc : Scope S) (request resp : List UInt8) (n max : Nat)
    (hn : n ≤ request.length) (hc : Parses (request.take n) .location)
    (hlat : Representable b32 g.latitude) (hlon : Representable b32 g.longitude)
    (hlat0 : 0 ≤ g.latitude) (hlat1 : g.latitude ≤ 90) (hlon0 : 0 ≤ g.longitude) (hlon1 : g.longitude ≤ 180)
    (hmax : 10 ≤ max) (hr : max ≤ resp.length) :
    ∃ d m d' m' : UInt8, WholeDegMin g.latitude d m ∧ WholeDegMin g.longitude d' m' ∧
      handleRequest P ops g sc request n resp max =
        .ok (9, written resp [d, m, 0, if g.north then 0 else 1, d', m', 0, if g.east then 0 else 1, 35], sc) := by
  obtain ⟨d, m, h1, h2⟩ := degMin_pos P hlat hlat0 (by linarith)
  obtain ⟨d', m', h3, h4⟩ := degMin_pos P hlon hlon0 (by linarith)
  refine ⟨d, m, d', m', h2, h4, ?_⟩
  have hbody : body P ops g sc request (cmdBranch .location) =
      .ok (some [d, m, 0, if g.north then 0 else 1, d', m', 0, if g.east then 0 else 1, 35], sc) := by
    show (locationBytes P g).map _ = _
    unfold locationBytes
    rw [h1, bind_ok]; simp only; rw [h3, bind_ok]; rfl
  exact handle_of_branch (branch_parses hn hc) hbody (by simp; omega) hr

theorem degMin_neg {P : Platform} (hP : P.fcast = .strict) {v : ℚ} (h0 : -256 < v) (h1 : v < 0) (hx : 1 / 60 ≤ v - ⌊v⌋) :
    degMin P v = .error (.ub .floatToInt) := by
  have f0 : ⌊v⌋ < 0 := Int.floor_lt.2 (by exact_mod_cast h1)
  have f1 : -256 ≤ ⌊v⌋ := Int.le_floor.2 (by push_cast; exact h0.le)
  have f0' : (⌊v⌋ : ℚ) < 0 := by exact_mod_cast f0
  have f1' : (-256 : ℚ) ≤ ⌊v⌋ := by exact_mod_cast f1
  have g1 : v - ⌊v⌋ < 1 := by have := Int.lt_floor_add_one v; linarith
  unfold degMin
  rw [abs_of_neg f0', abs_of_neg h1]
  have hd : castU8 P (-(⌊v⌋ : ℚ)) = .error (.ub .floatToInt) ∨ ∃ d, castU8 P (-(⌊v⌋ : ℚ)) = .ok d := by
    cases hh : castU8 P (-(⌊v⌋ : ℚ)) with
    | ok d => exact Or.inr ⟨d, rfl⟩
    | error e =>
      left
      unfold castU8 castUnsigned at hh
      split at hh
      · cases hh
      · rw [hP] at hh; exact hh.symm ▸ rfl
  rcases hd with hd | ⟨d, hd⟩
  · rw [hd, bind_error]
  · rw [hd, bind_ok]
    set q := -v - -(⌊v⌋ : ℚ) with hq
    have q0 : q ≤ -(1 / 60) := by rw [hq]; linarith
    have q1 : -1 ≤ q := by rw [hq]; linarith
    rw [fl32_small (le_pow100 (B := 1) (by rw [abs_le]; constructor <;> linarith) (by norm_num)), bind_ok]
    have r0 : rnd b32 q ≤ rnd b32 (-(1 / 60)) := rnd_mono (by decide) q0
    have r1 : -1 ≤ rnd b32 q := by
      have := rnd_mono (F := b32) (by decide) q1
      rw [show rnd b32 (-1) = -1 by decide +kernel] at this; exact this
    have rb : rnd b32 (-(1 / 60)) ≤ 0 := by decide +kernel
    rw [fl32_small (le_pow100 (B := 60) (by rw [abs_le]; constructor <;> linarith) (by norm_num)), bind_ok]
    have s0 : rnd b32 (rnd b32 q * 60) ≤ -1 := by
      refine (rnd_mono (by decide) (b := rnd b32 (-(1 / 60)) * 60) (by linarith)).trans ?_
      decide +kernel
    have : castU8 P (rnd b32 (rnd b32 q * 60)) = .error (.ub .floatToInt) := by
      have hneg : ¬ 0 ≤ rnd b32 (rnd b32 q * 60) := by linarith
      have hz : truncZ (rnd b32 (rnd b32 q * 60)) ≤ -1 := by
        unfold truncZ
        rw [if_neg hneg]
        exact Int.ceil_le.2 (by push_cast; exact s0)
      unfold castU8 castUnsigned
      rw [if_neg (by omega), hP]; rfl
    rw [this, bind_error]

/-- A conversion of one coordinate is completed or undefined. -/
theorem degMin_cases {P : Platform} {v : ℚ} : (∃ r, degMin P v = .ok r) ∨ degMin P v = .error (.ub .floatToInt) := by
  have hc : ∀ x : ℚ, (∃ d, castU8 P x = .ok d) ∨ castU8 P x = .error (.ub .floatToInt) := by
    intro x
    unfold castU8 castUnsigned
    split
    · exact .inl ⟨_, rfl⟩
    · cases P.fcast with
      | strict => exact .inr rfl
      | wrap => exact .inl ⟨_, rfl⟩
  have g0 : 0 ≤ v - ⌊v⌋ := by have := Int.floor_le v; linarith
  have g1 : v - ⌊v⌋ < 1 := by have := Int.lt_floor_add_one v; linarith
  have hb : |(|v| - |(⌊v⌋ : ℚ)|)| ≤ 1 := by
    refine (abs_abs_sub_abs_le_abs_sub v ⌊v⌋).trans ?_
    rw [abs_of_nonneg g0]; linarith
  unfold degMin
  rcases hc (|(⌊v⌋ : ℚ)|) with ⟨d, hd⟩ | hd
  · rw [hd, bind_ok, fl32_small (le_pow100 (B := 1) hb (by norm_num)), bind_ok]
    have h1 : |rnd b32 (|v| - |(⌊v⌋ : ℚ)|)| ≤ 1 := by
      rw [abs_le] at hb ⊢
      have u := rnd_mono (F := b32) (by decide) hb.1
      have w := rnd_mono (F := b32) (by decide) hb.2
      rw [show rnd b32 (-1) = -1 by decide +kernel] at u
      rw [show rnd b32 1 = 1 by decide +kernel] at w
      exact ⟨u, w⟩
    rw [fl32_small (le_pow100 (B := 60) (by rw [abs_mul]; norm_num; linarith) (by norm_num)), bind_ok]
    rcases hc (rnd b32 (rnd b32 (|v| - |(⌊v⌋ : ℚ)|) * 60)) with ⟨m, hm⟩ | hm
    · rw [hm]; exact .inl ⟨_, rfl⟩
    · rw [hm]; exact .inr rfl
  · rw [hd]; exact .inr rfl

/-- **C12** (defect). For a southern latitude or a western longitude whose distance to the next smaller whole degree is at least one minute, `w` is undefined behaviour: the minutes computed are negative. -/
theorem C12_south_west_ub (P : Platform) (hP : P.fcast = .strict) (ops : TelOps K S) (g : Gnss) (sc : Scope S)
    (request resp : List UInt8) (n max : Nat) (hn : n ≤ request.length) (hc : Parses (request.take n) .location)
    (hlat : -90 ≤ g.latitude) (hlon : -180 ≤ g.longitude)
    (h : g.latitude < 0 ∧ 1 / 60 ≤ g.latitude - ⌊g.latitude⌋ ∨ g.longitude < 0 ∧ 1 / 60 ≤ g.longitude - ⌊g.longitude⌋) :
    handleRequest P ops g sc request n resp max = .error (.ub .floatToInt) := by
  unfold handleRequest
  rw [branch_parses hn hc, bind_ok]
  show (locationBytes P g).map _ >>= _ = _
  have : locationBytes P g = .error (.ub .floatToInt) := by
    unfold locationBytes
    rcases h with ⟨h1, h2⟩ | ⟨h1, h2⟩
    · rw [degMin_neg hP (by linarith) h1 h2, bind_error]
    · rcases degMin_cases (P := P) (v := g.latitude) with ⟨d, hd⟩ | hd
      · rw [hd, bind_ok]
        simp only
        rw [degMin_neg hP (by linarith) h1 h2, bind_error]
      · rw [hd, bind_error]
  rw [this]; rfl

theorem degMin_neg_wrong {P : Platform} {v : ℚ} (h0 : -255 ≤ v) (h1 : v < 0) (hx : (⌊v⌋ : ℚ) ≠ v) {d m : UInt8}
    (h : degMin P v = .ok (d, m)) : ¬ WholeDegMin |v| d m := by
  have f0 : ⌊v⌋ < 0 := Int.floor_lt.2 (by exact_mod_cast h1)
  have f1 : -255 ≤ ⌊v⌋ := Int.le_floor.2 (by push_cast; exact h0)
  have f0' : (⌊v⌋ : ℚ) < 0 := by exact_mod_cast f0
  have f1' : (-255 : ℚ) ≤ ⌊v⌋ := by exact_mod_cast f1
  unfold degMin at h
  rw [abs_of_neg f0', castU8_ok (by linarith) (by linarith), bind_ok] at h
  obtain ⟨x, -, h⟩ := bind_eq_ok.1 h
  obtain ⟨y, -, h⟩ := bind_eq_ok.1 h
  obtain ⟨z, -, h⟩ := bind_eq_ok.1 h
  rw [pure_ok] at h
  injection h with h
  have hd := (Prod.mk.inj h).1
  rintro ⟨w1, -⟩
  have e : ((-⌊v⌋ : ℤ) : ℚ) = -(⌊v⌋ : ℚ) := by push_cast; rfl
  rw [← hd, ← e, Int.floor_intCast, toNat_ofNat8 (by omega) (by omega), abs_of_neg h1] at w1
  push_cast at w1
  exact hx (le_antisymm (Int.floor_le v) (by linarith))

/-- **C12** (defect). On every platform: if `w` is answered at all, the degrees and minutes of a southern latitude or a western longitude
that is not a whole number of degrees are not those of the location. -/
theorem C12_south_west_wrong (P : Platform) (ops : TelOps K S) (g : Gnss) (sc : Scope S) (request resp : List UInt8) (n max : Nat)
    (hn : n ≤ request.length) (hc : Parses (request.take n) .location) (hlat : -90 ≤ g.latitude) (hlon : -180 ≤ g.longitude)
    (hmax : 10 ≤ max) (hr : max ≤ resp.length) :
    handleRequest P ops g sc request n resp max = .error (.ub .floatToInt) ∨
    ∃ d m d' m' : UInt8, handleRequest P ops g sc request n resp max =
        .ok (9, written resp [d, m, 0, if g.north then 0 else 1, d', m', 0, if g.east then 0 else 1, 35], sc) ∧
      (g.latitude < 0 → (⌊g.latitude⌋ : ℚ) ≠ g.latitude → ¬ WholeDegMin |g.latitude| d m) ∧
      (g.longitude < 0 → (⌊g.longitude⌋ : ℚ) ≠ g.longitude → ¬ WholeDegMin |g.longitude| d' m') := by
  have err : locationBytes P g = .error (.ub .floatToInt) → handleRequest P ops g sc request n resp max = .error (.ub .floatToInt) := by
    intro he
    unfold handleRequest
    rw [branch_parses hn hc, bind_ok]
    show (locationBytes P g).map _ >>= _ = _
    rw [he]; rfl
  rcases degMin_cases (P := P) (v := g.latitude) with ⟨⟨d, m⟩, h1⟩ | h1
  · rcases degMin_cases (P := P) (v := g.longitude) with ⟨⟨d', m'⟩, h3⟩ | h3
    · right
      refine ⟨d, m, d', m', ?_, fun a b => degMin_neg_wrong (by linarith) a b h1, fun a b => degMin_neg_wrong (by linarith) a b h3⟩
      have hbody : body P ops g sc request (cmdBranch .location) =
          .ok (some [d, m, 0, if g.north then 0 else 1, d', m', 0, if g.east then 0 else 1, 35], sc) := by
        show (locationBytes P g).map _ = _
        unfold locationBytes
        rw [h1, bind_ok]; simp only; rw [h3, bind_ok]; rfl
      exact handle_of_branch (branch_parses hn hc) hbody (by simp; omega) hr
    · left
      apply err
      unfold locationBytes
      rw [h1, bind_ok]; simp only; rw [h3, bind_error]
  · left
    apply err
    unfold locationBytes
    rw [h1, bind_error]

/-- The same for the unit-test host, whose conversion wraps: 33°30' south is reported as 34 degrees 226 minutes. -/
theorem C12_south_wrong : degMin .nativeWrap (-33.5) = .ok (34, 226) ∧ degMin .esp32 (-33.5) = .error (.ub .floatToInt) ∧
    degMin .esp32 48.125 = .ok (48, 7) := by
  refine ⟨by decide +kernel, by decide +kernel, by decide +kernel⟩

/-- Hypotheses of the C12 theorems: 48.125° N 11.5° E, and 33.5° S. -/
example : Representable b32 48.125 ∧ Representable b32 11.5 ∧ WholeDegMin 48.125 48 7 ∧ ((-33.5 : ℚ) < 0 ∧ 1 / 60 ≤ (-33.5 : ℚ) - ⌊(-33.5 : ℚ)⌋) := by
  refine ⟨⟨385, -3, by decide, by decide, by norm_num⟩, ⟨23, -1, by decide, by decide, by norm_num⟩, ?_, by norm_num, by decide +kernel⟩
  unfold WholeDegMin; decide +kernel

/-! ### C13 -/

/-- **C13**. `h` reports hour, minute, second, month, day and year (minus 2000) of the stored GNSS time, followed by two zero bytes. -/
theorem C13_time (P : Platform) (ops : TelOps K S) (g : Gnss) (sc : Scope S) (request resp : List UInt8) (n max : Nat)
    (hn : n ≤ request.length) (hc : Parses (request.take n) .time)
    (hh : 0 ≤ g.utc.hour ∧ g.utc.hour < 256) (hm : 0 ≤ g.utc.min ∧ g.utc.min < 256) (hs : 0 ≤ g.utc.sec ∧ g.utc.sec < 256)
    (hmo : 0 ≤ g.utc.mon ∧ g.utc.mon < 256) (hd : 0 ≤ g.utc.mday ∧ g.utc.mday < 256) (hy : 2000 ≤ g.utc.year ∧ g.utc.year < 2256)
    (hmax : 10 ≤ max) (hr : max ≤ resp.length) :
    ∃ h m s mo d y : UInt8, (h.toNat : ℤ) = g.utc.hour ∧ (m.toNat : ℤ) = g.utc.min ∧ (s.toNat : ℤ) = g.utc.sec ∧
      (mo.toNat : ℤ) = g.utc.mon ∧ (d.toNat : ℤ) = g.utc.mday ∧ (y.toNat : ℤ) + 2000 = g.utc.year ∧
      handleRequest P ops g sc request n resp max = .ok (9, written resp [h, m, s, mo, d, y, 0, 0, 35], sc) := by
  have key : ∀ z : ℤ, 0 ≤ z ∧ z < 256 → ((fmtC z).toNat : ℤ) = z := by
    intro z hz
    unfold fmtC
    rw [Int.emod_eq_of_lt hz.1 hz.2, UInt8.toNat_ofNat', Nat.mod_eq_of_lt (by omega)]; omega
  refine ⟨_, _, _, _, _, fmtC (g.utc.year - 2000), key _ hh, key _ hm, key _ hs, key _ hmo, key _ hd, ?_, ?_⟩
  · rw [key _ (by omega)]; omega
  · have hbody : body P ops g sc request (cmdBranch .time) =
        .ok (some [fmtC g.utc.hour, fmtC g.utc.min, fmtC g.utc.sec, fmtC g.utc.mon, fmtC g.utc.mday, fmtC (g.utc.year - 2000), 0, 0, 35], sc) := rfl
    exact handle_of_branch (branch_parses hn hc) hbody (by simp; omega) hr

/-- **C13** (end to end). After a well-formed RMC sentence with a fix was parsed, `h` reports its date and time (the second may be one more
when its fraction exceeds 0.99, see `C16_rmc`). -/
theorem C13_after_rmc (P : Platform) (ops : TelOps K S) (g : Gnss) (sc : Scope S) (r : Rmc) (hr : r.WellFormed) (lat lon : Angle)
    (hpos : r.pos = some (lat, lon)) (hfix : r.status = 65) (ending : List UInt8) (he : LineEnd ending)
    (resp : List UInt8) (h10 : 10 ≤ resp.length) :
    ∃ g' ss, fromNMEA P g (frame r.payload ending) = .ok (true, g') ∧
      (ss = r.utc.sec ∨ ss = r.utc.sec + 1 ∧ 0.99 < fracVal r.utc.frac) ∧
      handleRequest P ops g' sc [104] 1 resp resp.length =
        .ok (9, written resp ([r.utc.hour, r.utc.min, ss, r.month, r.day, r.year, 0, 0, 35].map UInt8.ofNat), sc) := by
  obtain ⟨g', h1, h2, h3, h4, h5, h6, h7, _⟩ := C16_rmc P g r hr lat lon hpos hfix ending he
  refine ⟨g', g'.utc.sec.toNat, h1, ?_, ?_⟩
  · rcases h4 with h4 | ⟨h4, h4'⟩
    · left; rw [h4]; simp
    · right; refine ⟨?_, h4'⟩; rw [h4]; omega
  · obtain ⟨v1, v2, v3⟩ := hr.utc
    have vd := hr.day
    have vm := hr.month
    have vy := hr.year
    obtain ⟨h, m, s, mo, d, y, e1, e2, e3, e4, e5, e6, e7⟩ := C13_time P ops g' sc [104] resp 1 resp.length (by simp) (.time [])
      (by omega) (by omega) (by omega) (by omega) (by omega) (by omega) h10 le_rfl
    rw [e7]
    have key : ∀ (b : UInt8) (k : Nat), b.toNat = k → UInt8.ofNat k = b := by rintro b k rfl; simp
    simp only [List.map_cons, List.map_nil]
    rw [key h _ (by omega), key m _ (by omega), key s _ (by omega), key mo _ (by omega), key d _ (by omega), key y _ (by omega)]
    rfl

/-- The hypotheses of `C13_after_rmc` hold for `exampleRmc` (see the example beside `C16_rmc`); its reply starts 9, 27, 25. -/
example : exampleRmc.status = 65 ∧ (exampleRmc.pos).isSome = true ∧
    handleRequest .esp32 demoOps ((.init 47 8 : Gnss)) ⟨0, false⟩ [104, 0, 0, 0, 0, 0, 0, 0] 1 (List.replicate 10 7) 10 =
      .ok (9, [0, 0, 0, 0, 0, 48, 0, 0, 35, 0], ⟨0, false⟩) := by
  refine ⟨rfl, rfl, by decide +kernel⟩

end Verif.NexStar
