import Verif.Model.Codec64
import Verif.Lemmas.Helper
import Verif.Props.Codec
import Verif.Props.NexStarFields
import Verif.Lemmas.FloatRep

/-!
# Property C66: the protocol numbers in IEEE arithmetic

Every theorem about the codecs so far treats `double` as an exact field.  Here the conversions round after each operation.
Decoding turns out to be exact; encoding is within `2^-20` of a wire unit of the exact result, and whatever was decoded is
encoded back to the same bits.
-/

set_option linter.unusedSectionVars false

namespace Verif.Codec
open Verif Verif.Spec

/-! ### plumbing -/

theorem pack_bytes64 (P : Platform) (ra dec : ℚ) (ts : UInt64) (buffer : List UInt8) (n : Nat)
    (h24 : 24 ≤ n) (hn : n ≤ buffer.length) :
    packPosition64 P ra dec ts buffer n =
      (do let a ← encodeAngle64 P ra
          let d ← encodeAngle64 P dec
          return (24, positionMessage ts.toNat a.toNat d.toNat ++ buffer.drop 24)) := by
  unfold packPosition64
  rw [if_neg (by omega)]
  simp only [bytes16_le, bytes32_le, bytes64_le]
  have s0 := storeSeq_append (A := []) (buffer := buffer) (i := 0) (bs := le 2 24) rfl
    (by rw [le_length]; omega)
  have s1 := storeSeq_append (A := le 2 24) (buffer := buffer) (i := 2) (bs := le 2 0) (by rw [le_length])
    (by rw [le_length]; omega)
  have s2 := storeSeq_append (A := le 2 24 ++ le 2 0) (buffer := buffer) (i := 4) (bs := le 8 ts.toNat)
    (by simp [le_length]) (by rw [le_length]; omega)
  have s3 := fun a : UInt32 => storeSeq_append (A := le 2 24 ++ le 2 0 ++ le 8 ts.toNat) (buffer := buffer)
    (i := 12) (bs := le 4 a.toNat) (by simp [le_length]) (by rw [le_length]; omega)
  have s4 := fun a d : UInt32 => storeSeq_append (A := le 2 24 ++ le 2 0 ++ le 8 ts.toNat ++ le 4 a.toNat)
    (buffer := buffer) (i := 16) (bs := le 4 d.toNat) (by simp [le_length]) (by rw [le_length]; omega)
  have s5 := fun a d : UInt32 => storeSeq_append
    (A := le 2 24 ++ le 2 0 ++ le 8 ts.toNat ++ le 4 a.toNat ++ le 4 d.toNat)
    (buffer := buffer) (i := 20) (bs := [0, 0, 0, 0]) (by simp [le_length]) (by simp; omega)
  simp only [le_length, List.nil_append, List.drop_zero, Nat.zero_add, Nat.reduceAdd, List.length_cons,
    List.length_nil] at s0 s1 s2 s3 s4 s5
  have e1 : MESSAGE_CURRENT_POSITION_LENGTH.toNat = 24 := rfl
  have e2 : MESSAGE_CURRENT_POSITION_TYPE.toNat = 0 := rfl
  rw [e1, e2, s0]
  simp only [bind, Except.bind]
  rw [s1]
  simp only
  rw [s2]
  simp only
  cases h1 : encodeAngle64 P ra with
  | error e => rfl
  | ok a =>
    simp only
    rw [s3]
    simp only
    cases h2 : encodeAngle64 P dec with
    | error e => rfl
    | ok d =>
      simp only
      rw [s4]
      simp only
      rw [s5]
      rfl


theorem decodeAngle64_eq (v : UInt32) : decodeAngle64 v = .ok (decodeAngle v : ℚ) := by
  have hv := v.toNat_lt
  have hz : |(v.toNat : ℤ)| < 2 ^ 53 := by rw [abs_of_nonneg (by omega)]; omega
  unfold decodeAngle64 decodeAngle
  have h1 : fl b64 (v.toNat : ℚ) = .ok (v.toNat : ℚ) := by
    have := fl64_int hz; simpa using this
  have h2 : fl b64 ((v.toNat : ℚ) / 2147483648) = .ok ((v.toNat : ℚ) / 2147483648) :=
    fl_dyadic (v.toNat : ℤ) (-31) (by norm_num [zpow_neg]; ring) (by decide) hz (by decide)
  have h3 : fl b64 ((v.toNat : ℚ) / 2147483648 * 180) = .ok ((v.toNat : ℚ) / 2147483648 * 180) :=
    fl_dyadic ((v.toNat : ℤ) * 180) (-31) (by push_cast; norm_num [zpow_neg]; ring) (by decide)
      (by rw [abs_of_nonneg (by omega)]; simp only [b64]; omega) (by decide)
  rw [h1, bind_ok, h2, bind_ok, h3]

/-- Scaling a `double` by a power of two `2^k` with `k ≥ 0` is exact. -/
theorem fl_scale {F : Fmt} {x : ℚ} (hx : Representable F x) (k : ℕ) (hb : |x * 2 ^ k| < (2 : ℚ) ^ F.emax) :
    fl F (x * 2 ^ k) = .ok (x * 2 ^ k) := by
  obtain ⟨m, e, he, hm, rfl⟩ := hx
  apply fl_ok _ hb
  refine ⟨m, e + k, by omega, hm, ?_⟩
  rw [zpow_add₀ (by norm_num), zpow_natCast]; ring

theorem encodeAngle64_near {P : Platform} {x : ℚ} (hx : Representable b64 x) (h0 : 0 ≤ x) (h1 : x ≤ 360 - 181 / 2 ^ 32) :
    ∃ u : Nat, u < 2 ^ 32 ∧ encodeAngle64 P x = .ok (UInt32.ofNat u) ∧ |(u : ℚ) - x / 360 * 2 ^ 32| ≤ 1 / 2 + 1 / 2 ^ 20 := by
  have e1 : x * 2147483648 = x * 2 ^ 31 := by norm_num
  have ha : fl b64 (x * 2147483648) = .ok (x * 2147483648) := by
    rw [e1]
    apply fl_scale hx
    rw [abs_of_nonneg (by positivity)]
    have : ((2 : ℚ) ^ (50 : ℤ)) ≤ (2 : ℚ) ^ b64.emax := zpow_le_zpow_right₀ (by norm_num) (by decide)
    norm_num at this ⊢; linarith
  set X : ℚ := x * 2147483648 / 180 with hX
  have hX0 : 0 ≤ X := by positivity
  have hX1 : X < 2 ^ 32 - 1 / 2 - 1 / 2 ^ 20 := by
    rw [hX, div_lt_iff₀ (by norm_num)]; norm_num at h1 ⊢; linarith
  have herr1 := rnd_error_lt (F := b64) (q := X) (k := 32) (by rw [abs_of_nonneg hX0]; norm_num at hX1 ⊢; linarith) (by decide)
  have hr0 : 0 ≤ rnd b64 X := rnd_nonneg hX0
  have k1 : (2 : ℚ) ^ ((32 : ℤ) - (b64.prec : ℤ) - 1) = 1 / 2 ^ 22 := by norm_num [b64]
  rw [k1, abs_le] at herr1
  have hb : fl b64 X = .ok (rnd b64 X) := by
    apply fl_ok'
    rw [abs_of_nonneg hr0]
    have : ((2 : ℚ) ^ (50 : ℤ)) ≤ (2 : ℚ) ^ b64.emax := zpow_le_zpow_right₀ (by norm_num) (by decide)
    norm_num at this hX1 herr1 ⊢; linarith [herr1.2]
  set Y : ℚ := 1 / 2 + rnd b64 X with hY
  have hY0 : 0 ≤ Y := by linarith
  have hY1 : Y < 2 ^ 32 - 1 / 2 ^ 20 + 1 / 2 ^ 22 := by linarith [herr1.2]
  have herr2 := rnd_error_lt (F := b64) (q := Y) (k := 32) (by rw [abs_of_nonneg hY0]; norm_num at hY1 ⊢; linarith) (by decide)
  rw [k1, abs_le] at herr2
  have hc0 : 0 ≤ rnd b64 Y := rnd_nonneg hY0
  have hc1 : rnd b64 Y < 2 ^ 32 := by norm_num at hY1 herr2 ⊢; linarith [herr2.2]
  have hc : fl b64 Y = .ok (rnd b64 Y) := by
    apply fl_ok'
    rw [abs_of_nonneg hc0]
    have : ((2 : ℚ) ^ (50 : ℤ)) ≤ (2 : ℚ) ^ b64.emax := zpow_le_zpow_right₀ (by norm_num) (by decide)
    norm_num at this hc1 ⊢; linarith
  have hf0 : 0 ≤ ⌊rnd b64 Y⌋ := Int.floor_nonneg.2 hc0
  have hf1 : ⌊rnd b64 Y⌋ < 2 ^ 32 := by rw [Int.floor_lt]; exact_mod_cast hc1
  have hcast : ((⌊rnd b64 Y⌋.toNat : ℕ) : ℚ) = (⌊rnd b64 Y⌋ : ℚ) := by
    exact_mod_cast Int.toNat_of_nonneg hf0
  refine ⟨⌊rnd b64 Y⌋.toNat, by omega, ?_, ?_⟩
  · unfold encodeAngle64
    rw [ha, bind_ok, hb, bind_ok, hc, bind_ok]
    unfold castU32 castUnsigned
    rw [truncZ_intCast, if_pos ⟨hf0, hf1⟩]; rfl
  · rw [hcast]
    have hl := Int.floor_le (rnd b64 Y)
    have hu := Int.lt_floor_add_one (rnd b64 Y)
    have hXX : x / 360 * 2 ^ 32 = X := by rw [hX]; norm_num; ring
    rw [hXX, abs_le]
    norm_num at herr1 herr2 ⊢
    constructor <;> linarith [herr1.1, herr1.2, herr2.1, herr2.2]

theorem encodeAngle64_decoded (P : Platform) (u : Nat) (hu : u < 2 ^ 32) :
    encodeAngle64 P ((u : ℚ) * 360 / 2 ^ 32) = .ok (UInt32.ofNat u) := by
  have h1 : fl b64 ((u : ℚ) * 360 / 2 ^ 32 * 2147483648) = .ok ((((u : ℤ) * 180 : ℤ)) : ℚ) := by
    have e : (u : ℚ) * 360 / 2 ^ 32 * 2147483648 = (((u : ℤ) * 180 : ℤ) : ℚ) := by push_cast; ring
    rw [e]; exact fl64_int (by rw [abs_of_nonneg (by omega)]; omega)
  have h2 : fl b64 ((((u : ℤ) * 180 : ℤ) : ℚ) / 180) = .ok (((u : ℤ)) : ℚ) := by
    have e : ((((u : ℤ) * 180 : ℤ) : ℚ) / 180) = ((u : ℤ) : ℚ) := by push_cast; ring
    rw [e]; exact fl64_int (by rw [abs_of_nonneg (by omega)]; omega)
  have h3 : fl b64 (1 / 2 + (((u : ℤ)) : ℚ)) = .ok (1 / 2 + (((u : ℤ)) : ℚ)) :=
    fl_dyadic (2 * (u : ℤ) + 1) (-1) (by push_cast; norm_num; ring) (by decide)
      (by rw [abs_of_nonneg (by omega)]; simp only [b64]; omega) (by decide)
  unfold encodeAngle64
  rw [h1, bind_ok, h2, bind_ok, h3, bind_ok]
  have hf : ⌊(1 / 2 : ℚ) + (((u : ℤ)) : ℚ)⌋ = (u : ℤ) := by rw [Int.floor_eq_iff]; constructor <;> linarith
  unfold castU32 castUnsigned
  rw [truncZ_intCast, hf, if_pos ⟨by omega, by omega⟩]; rfl

/-! ### C66 -/

/-- **C66** Receiving is exact: for every received byte string the decoder's `double` arithmetic never rounds, so it returns
precisely the angles of the exact decoder (whose meaning is C04). -/
theorem C66_unpack_exact (out : UnpackOut ℚ) (data : List UInt8) (dataLength : Nat) :
    unpackPosition64 out data dataLength = unpackPosition out data dataLength := by
  unfold unpackPosition64 unpackPosition
  obtain ⟨ra, dec, ts⟩ := out
  cases ts <;> simp only [decodeAngle64_eq, bind_ok]

/-- **C66** Sending: for all `double` angles from 0° up to half a wire unit (plus rounding) below the full turn the message is
written, and each number in it is within `1/2 + 2^-20` wire units of the angle. -/
theorem C66_pack_near (P : Platform) (ra dec : ℚ) (ts : UInt64) (buffer : List UInt8) (bufferSize : Nat)
    (h24 : 24 ≤ bufferSize) (hn : bufferSize ≤ buffer.length)
    (hra : Representable b64 ra) (hdec : Representable b64 dec) (hra0 : 0 ≤ ra) (hra1 : ra ≤ 360 - 181 / 2 ^ 32)
    (hdec0 : 0 ≤ dec) (hdec1 : dec ≤ 360 - 181 / 2 ^ 32) :
    ∃ a d : Nat, a < 2 ^ 32 ∧ d < 2 ^ 32 ∧
      packPosition64 P ra dec ts buffer bufferSize = .ok (24, positionMessage ts.toNat a d ++ buffer.drop 24) ∧
      |(a : ℚ) - ra / 360 * 2 ^ 32| ≤ 1 / 2 + 1 / 2 ^ 20 ∧ |(d : ℚ) - dec / 360 * 2 ^ 32| ≤ 1 / 2 + 1 / 2 ^ 20 := by
  obtain ⟨a, ha, ha', ea⟩ := encodeAngle64_near (P := P) hra hra0 hra1
  obtain ⟨d, hd, hd', ed⟩ := encodeAngle64_near (P := P) hdec hdec0 hdec1
  refine ⟨a, d, ha, hd, ?_, ea, ed⟩
  rw [pack_bytes64 _ _ _ _ _ _ h24 hn, ha', hd', bind_ok, bind_ok]
  simp only [pure, Except.pure, UInt32.toNat_ofNat', Nat.mod_eq_of_lt ha, Nat.mod_eq_of_lt hd]

/-- **C66** Away from rounding ties the message is bit for bit the one of exact arithmetic: if the angles are closer than
`1/2 - 2^-20` wire units to `a` and `d`, these are the numbers sent. -/
theorem C66_pack_exact (P : Platform) (ra dec : ℚ) (ts : UInt64) (buffer : List UInt8) (bufferSize : Nat)
    (h24 : 24 ≤ bufferSize) (hn : bufferSize ≤ buffer.length)
    (hra : Representable b64 ra) (hdec : Representable b64 dec) (hra0 : 0 ≤ ra) (hra1 : ra ≤ 360 - 181 / 2 ^ 32)
    (hdec0 : 0 ≤ dec) (hdec1 : dec ≤ 360 - 181 / 2 ^ 32) (a d : Nat)
    (ha : |(a : ℚ) - ra / 360 * 2 ^ 32| < 1 / 2 - 1 / 2 ^ 20) (hd : |(d : ℚ) - dec / 360 * 2 ^ 32| < 1 / 2 - 1 / 2 ^ 20) :
    packPosition64 P ra dec ts buffer bufferSize = .ok (24, positionMessage ts.toNat a d ++ buffer.drop 24) ∧
    packPosition64 P ra dec ts buffer bufferSize = packPosition P ra dec ts buffer bufferSize := by
  obtain ⟨a', d', la, ld, hp, ea, ed⟩ := C66_pack_near P ra dec ts buffer bufferSize h24 hn hra hdec hra0 hra1 hdec0 hdec1
  have key : ∀ (n m : Nat) (x : ℚ), |(n : ℚ) - x| < 1 / 2 - 1 / 2 ^ 20 → |(m : ℚ) - x| ≤ 1 / 2 + 1 / 2 ^ 20 → n = m := by
    intro n m x h1 h2
    rw [abs_lt] at h1; rw [abs_le] at h2
    have l1 : (n : ℚ) < m + 1 := by linarith [h1.2, h2.1]
    have l2 : (m : ℚ) < n + 1 := by linarith [h1.1, h2.2]
    have l1' : n < m + 1 := by exact_mod_cast l1
    have l2' : m < n + 1 := by exact_mod_cast l2
    omega
  obtain rfl := key _ _ _ ha ea
  obtain rfl := key _ _ _ hd ed
  have enc : ∀ (n : Nat) (x : ℚ), |(n : ℚ) - x / 360 * 2 ^ 32| < 1 / 2 - 1 / 2 ^ 20 → Encodes x n := by
    intro n x h
    rw [abs_lt] at h
    unfold Encodes IsNearest
    norm_num at h ⊢
    constructor <;> linarith [h.1, h.2]
  exact ⟨hp, by rw [hp, C02_pack_layout P ra dec ts buffer bufferSize h24 hn a d (enc _ _ ha) (enc _ _ hd) la ld]⟩

/-- **C66** Nothing is lost on the way back: for every accepted message, packing the unpacked `double` angles reproduces the
right-ascension and declination bytes exactly. -/
theorem C66_repack (P : Platform) (out : UnpackOut ℚ) (data : List UInt8) (n : Nat) (hn : n ≤ data.length)
    (hA : Accepts data n) (ts : UInt64) (buffer : List UInt8) (hb : 24 ≤ buffer.length) :
    ∃ out' b, unpackPosition64 out data n = .ok (true, out') ∧
      packPosition64 P out'.ra out'.dec ts buffer 24 = .ok (24, b) ∧
      slice b 12 4 = slice data 12 4 ∧ slice b 16 4 = slice data 16 4 := by
  have h20 : 20 ≤ n := le_trans hA.1 hA.2.1
  have hl : ∀ i, i + 4 ≤ 20 → (slice data i 4).length = 4 := by
    intro i hi; simp [slice]; omega
  have lt : ∀ i, i + 4 ≤ 20 → leVal (slice data i 4) < 2 ^ 32 := by
    intro i hi
    have := leVal_lt (slice data i 4)
    rw [hl i hi] at this; simpa using this
  refine ⟨decoded out data, positionMessage ts.toNat (leVal (slice data 12 4)) (leVal (slice data 16 4)) ++ buffer.drop 24,
    by rw [C66_unpack_exact, C04_unpack _ _ _ (by omega) hn, if_pos hA], ?_, ?_, ?_⟩
  · rw [pack_bytes64 _ _ _ _ _ _ le_rfl hb]
    simp only [decoded]
    rw [encodeAngle64_decoded P _ (lt 12 (by omega)), encodeAngle64_decoded P _ (lt 16 (by omega)), bind_ok, bind_ok]
    simp only [pure, Except.pure, UInt32.toNat_ofNat', Nat.mod_eq_of_lt (lt 12 (by omega)), Nat.mod_eq_of_lt (lt 16 (by omega))]
  · rw [(slices_positionMessage _ _ _ _).2.2.2.1]
    exact le_leVal _ (hl 12 (by omega))
  · rw [(slices_positionMessage _ _ _ _).2.2.2.2]
    exact le_leVal _ (hl 16 (by omega))

/-- Hypotheses of the C66 theorems on a concrete message: 83.633° as the nearest `double`, packed, unpacked, packed again. -/
example : rnd b64 (83633 / 1000) ≠ 83633 / 1000 ∧
    packPosition64 .esp32 (rnd b64 (83633 / 1000)) (rnd b64 (22014 / 1000)) 5 (List.replicate 24 0) 24 =
      .ok (24, positionMessage 5 997780555 262637250) ∧
    unpackPosition64 ⟨0, 0, some 1⟩ (positionMessage 5000 997780555 262637250) 24 =
      .ok (true, ⟨997780555 * 360 / 2 ^ 32, 262637250 * 360 / 2 ^ 32, some 5⟩) := by
  decide +kernel

end Verif.Codec

namespace Verif.NexStar
open Verif Verif.Nmea Verif.Spec Verif.Spec.NexStar Verif.Codec

variable {S : Type}

/-- A `long double` format that contains all `double` values. -/
def Wide (L : Fmt) : Prop := 53 ≤ L.prec ∧ L.emin ≤ -1074 ∧ 1024 ≤ L.emax ∧ (L.prec : ℤ) ≤ L.emax - 64 ∧ L.emin ≤ -(L.prec : ℤ)

theorem wide_b64 : Wide b64 := by unfold Wide; decide
theorem wide_x87 : Wide x87 := by unfold Wide; decide

theorem Wide.int_lt {L : Fmt} (h : Wide L) {z : ℤ} (hz : |z| < 2 ^ 53) : |z| < 2 ^ L.prec :=
  lt_of_lt_of_le hz (pow_le_pow_right₀ (by norm_num) h.1)

/-- A dyadic with a 53-bit numerator and a moderate exponent is a value of a wide format. -/
theorem Wide.fl_ok {L : Fmt} (h : Wide L) {q : ℚ} (m e : ℤ) (hq : q = m * (2 : ℚ) ^ e) (he : -1074 ≤ e) (hm : |m| < 2 ^ 53)
    (hx : e ≤ 0) : fl L q = .ok q :=
  fl_dyadic m e hq (le_trans h.2.1 he) (h.int_lt hm) (by have := h.2.2.2.1; omega)

/-! ### C66: sync numbers -/

theorem sync_number {L : Fmt} (hL : Wide L) (v : Nat) (hv : v < 2 ^ 32) :
    (do let a ← fl b64 (v : ℚ)
        let b ← fl b64 (a * 360)
        let c ← fl L (b / 4294967296)
        fl b64 c) = .ok ((v : ℚ) * 360 / 4294967296) := by
  have h1 : fl b64 (v : ℚ) = .ok (v : ℚ) := by
    have := fl64_int (z := (v : ℤ)) (by rw [abs_of_nonneg (by omega)]; omega); simpa using this
  have h2 : fl b64 ((v : ℚ) * 360) = .ok ((v : ℚ) * 360) := by
    have := fl64_int (z := (v : ℤ) * 360) (by rw [abs_of_nonneg (by omega)]; omega); simpa using this
  have hq : (v : ℚ) * 360 / 4294967296 = (((v : ℤ) * 360 : ℤ) : ℚ) * (2 : ℚ) ^ (-32 : ℤ) := by
    push_cast; norm_num [zpow_neg]; ring
  have hm : |(v : ℤ) * 360| < 2 ^ 53 := by rw [abs_of_nonneg (by omega)]; omega
  rw [h1, bind_ok, h2, bind_ok, hL.fl_ok _ _ hq (by norm_num) hm (by norm_num), bind_ok,
    wide_b64.fl_ok _ _ hq (by norm_num) hm (by norm_num)]

theorem syncAngle64_eq {L : Fmt} (hL : Wide L) {P : Platform} (request : List UInt8) (i : Nat)
    (h : ∀ s v e, strncpyFrom request i 8 = .ok s → strtoul P true (s ++ [0]) = .ok (v, e) → v < 2 ^ 32) :
    syncAngle64 L P request i = syncAngle P request i := by
  unfold syncAngle64 syncAngle
  cases hs : strncpyFrom request i 8 with
  | error e => rfl
  | ok s =>
    rw [bind_ok, bind_ok]
    cases hv : strtoul P true (s ++ [0]) with
    | error e => rfl
    | ok v =>
      obtain ⟨v, e⟩ := v
      rw [bind_ok, bind_ok]
      exact sync_number hL v (h s v e hs hv)

theorem wrapDec64_eq (v : Nat) (hv : v < 2 ^ 32) :
    wrapDec64 ((v : ℚ) * 360 / 4294967296) = .ok (wrapDec ((v : ℚ) * 360 / 4294967296)) := by
  unfold wrapDec64 wrapDec
  split
  · exact fl_dyadic ((v : ℤ) * 360 - 360 * 4294967296) (-32) (by push_cast; norm_num [zpow_neg]; ring) (by decide)
      (by rw [abs_lt]; simp only [b64]; omega) (by decide)
  · rfl

theorem strtoul_lt {P : Platform} (hP : P.word = .w32) {p e : Ptr} {v : Nat} (h : strtoul P true p = .ok (v, e)) : v < 2 ^ 32 := by
  have hm : 2 ^ P.word.bits = 2 ^ 32 := by rw [hP]; rfl
  unfold strtoul at h
  split at h
  · cases h
  · simp only [hm] at h
    injection h with h; injection h with h _
    rw [← h]
    split
    · norm_num
    · split
      · exact Nat.mod_lt _ (by norm_num)
      · omega

theorem syncAngle_val {P : Platform} {request : List UInt8} {i : Nat} {x : ℚ} (hP : P.word = .w32)
    (h : syncAngle P request i = .ok x) : ∃ v : Nat, v < 2 ^ 32 ∧ x = (v : ℚ) * 360 / 4294967296 := by
  unfold syncAngle at h
  obtain ⟨s, _, h⟩ := bind_eq_ok.1 h
  obtain ⟨⟨v, e⟩, hv, h⟩ := bind_eq_ok.1 h
  injection h with h
  exact ⟨v, strtoul_lt hP hv, h.symm⟩

theorem doSync64_eq {L : Fmt} (hL : Wide L) {P : Platform} (hP : P.word = .w32) (ops : TelOps ℚ S) (g : Gnss) (sc : Scope S)
    (request : List UInt8) : doSync64 L P ops g sc request = doSync P ops g sc request := by
  have hs : ∀ i, syncAngle64 L P request i = syncAngle P request i := fun i =>
    syncAngle64_eq hL request i fun s v e _ hv => strtoul_lt hP hv
  unfold doSync64 doSync
  rw [hs 1, hs 10]
  cases h1 : (syncAngle P request 1 : C ℚ) with
  | error e => rfl
  | ok ra =>
    rw [bind_ok, bind_ok]
    cases h2 : (syncAngle P request 10 : C ℚ) with
    | error e => rfl
    | ok dec =>
      rw [bind_ok, bind_ok]
      obtain ⟨v, hv, rfl⟩ := syncAngle_val hP h2
      rw [wrapDec64_eq v hv, bind_ok]
      rfl

/-- **C66** NexStar sync is exact on the target (32-bit `long`): for every request that is not a position query - well-formed or
not - the code with rounded arithmetic does precisely what the exact model does; in particular the reference angles of a sync
request are free of rounding error (C10 says which angles these are). -/
theorem C66_nexstar_sync_exact (L : Fmt) (hL : Wide L) (P : Platform) (hP : P.word = .w32) (ops : TelOps ℚ S) (g : Gnss) (sc : Scope S)
    (request : List UInt8) (n : Nat) (hn : n ≤ request.length) (hc : ¬ Parses (request.take n) .position)
    (response : List UInt8) (max : Nat) :
    handleRequest64 L P ops g sc request n response max = handleRequest P ops g sc request n response max := by
  have hb : ∀ b, branch request n = .ok b → body64 L P ops g sc request b = body P ops g sc request b := by
    intro b hb
    cases b with
    | position =>
      exfalso
      by_cases hex : ∃ c, Parses (request.take n) c
      · obtain ⟨c, hc'⟩ := hex
        have := branch_parses hn hc'
        rw [hb] at this
        injection this with this
        cases c <;> simp [cmdBranch] at this
        exact hc hc'
      · have := branch_unparsed hn (fun c h => hex ⟨c, h⟩)
        rw [hb] at this; cases this
    | sync => simp only [body64, body]; rw [doSync64_eq hL hP]
    | _ => rfl
  unfold handleRequest64 handleRequest
  cases h : branch request n with
  | error e => rfl
  | ok b => rw [bind_ok, bind_ok, hb b h]; rfl

/-! ### C66: position numbers -/

theorem rep_wide {L : Fmt} (hL : Wide L) {x : ℚ} (hx : Representable b64 x) : Representable L x := by
  obtain ⟨m, e, he, hm, rfl⟩ := hx
  exact ⟨m, e, le_trans hL.2.1 he, hL.int_lt hm, rfl⟩

/-- A `double` below 360 is at least `2^-44` below. -/
theorem rep_lt_360 {x : ℚ} (hx : Representable b64 x) (h : x < 360) : x ≤ 360 - 1 / 2 ^ 44 := by
  by_cases h256 : x ≤ 256
  · norm_num; linarith
  obtain ⟨m, e, he, hm, rfl⟩ := hx
  have hp := two_zpow_pos e
  have he' : -44 ≤ e := by
    by_contra hlt
    have h2 : (2 : ℚ) ^ e ≤ (2 : ℚ) ^ (-45 : ℤ) := zpow_le_zpow_right₀ (by norm_num) (by omega)
    have h3 : (m : ℚ) < 2 ^ 53 := by
      have := (abs_lt.1 hm).2; simp only [b64] at this; exact_mod_cast this
    have h4 : (m : ℚ) * (2 : ℚ) ^ e ≤ 2 ^ 53 * (2 : ℚ) ^ e := by nlinarith
    norm_num [zpow_neg] at h2 h4
    push Not at h256
    linarith
  obtain ⟨k, hk⟩ := Int.eq_ofNat_of_zero_le (show 0 ≤ e + 44 by omega)
  have e2 : (2 : ℚ) ^ e = 2 ^ k * (2 : ℚ) ^ (-44 : ℤ) := by
    rw [← zpow_natCast, ← zpow_add₀ (by norm_num)]; congr 1; omega
  have h44 : (2 : ℚ) ^ (-44 : ℤ) = 1 / 2 ^ 44 := by norm_num [zpow_neg]
  have e3 : (m : ℚ) * (2 : ℚ) ^ e = ((m * 2 ^ k : ℤ) : ℚ) * (1 / 2 ^ 44) := by rw [e2, h44]; push_cast; ring
  rw [e3] at h ⊢
  have hlt : ((m * 2 ^ k : ℤ) : ℚ) < ((360 * 2 ^ 44 : ℤ) : ℚ) := by push_cast at h ⊢; norm_num at h ⊢; linarith
  have hlt' : m * 2 ^ k ≤ 360 * 2 ^ 44 - 1 := by have := Int.cast_lt.1 hlt; omega
  have : ((m * 2 ^ k : ℤ) : ℚ) ≤ ((360 * 2 ^ 44 - 1 : ℤ) : ℚ) := Int.cast_le.2 hlt'
  push_cast at this ⊢; norm_num at this ⊢; linarith

theorem positionNumber64_near {L : Fmt} (hL : Wide L) (P : Platform) {x : ℚ} (hx : Representable b64 x) (h0 : 0 ≤ x) (h1 : x < 360) :
    ∃ u : Nat, u < 2 ^ 32 ∧ positionNumber64 L P x = .ok (UInt32.ofNat u) ∧
      (u : ℚ) - 1 / 2 ^ 22 ≤ x / 360 * 2 ^ 32 ∧ x / 360 * 2 ^ 32 < u + 1 + 1 / 2 ^ 22 := by
  have hx1 := rep_lt_360 hx h1
  have hprec : 0 < L.prec := by have := hL.1; omega
  have hle : x / 360 ≤ 1 - 1 / 2 ^ 53 := by
    rw [div_le_iff₀ (by norm_num)]; norm_num at hx1 ⊢; linarith
  have hrep1 : Representable L (1 - 1 / 2 ^ 53) :=
    ⟨2 ^ 53 - 1, -53, le_trans hL.2.1 (by norm_num), hL.int_lt (by norm_num), by norm_num [zpow_neg]⟩
  have hr1 : rnd L (x / 360) ≤ 1 - 1 / 2 ^ 53 := by
    have := rnd_mono hprec hle
    rwa [rnd_of_representable hrep1] at this
  have hr0 : 0 ≤ rnd L (x / 360) := rnd_nonneg (by positivity)
  have hbig : (2 : ℚ) ^ (64 : ℤ) ≤ (2 : ℚ) ^ L.emax := zpow_le_zpow_right₀ (by norm_num) (by have := hL.2.2.1; omega)
  have herr := rnd_error_lt (F := L) (q := x / 360) (k := 0) (by rw [abs_of_nonneg (by positivity)]; norm_num at hle ⊢; linarith)
    (by have := hL.2.2.2.2; omega)
  have hk : (2 : ℚ) ^ ((0 : ℤ) - (L.prec : ℤ) - 1) ≤ 1 / 2 ^ 54 := by
    have : (2 : ℚ) ^ ((0 : ℤ) - (L.prec : ℤ) - 1) ≤ (2 : ℚ) ^ (-54 : ℤ) := zpow_le_zpow_right₀ (by norm_num) (by have := hL.1; omega)
    refine le_trans this (le_of_eq ?_); norm_num [zpow_neg]
  have hA : fl L (x / 360) = .ok (rnd L (x / 360)) := by
    apply fl_ok'
    rw [abs_of_nonneg hr0]; norm_num at hbig hr1 ⊢; linarith
  have e32 : rnd L (x / 360) * 4294967296 = rnd L (x / 360) * 2 ^ 32 := by norm_num
  have hB : fl L (rnd L (x / 360) * 4294967296) = .ok (rnd L (x / 360) * 4294967296) := by
    rw [e32]
    apply fl_scale (representable_rnd hprec _)
    rw [abs_of_nonneg (by positivity)]; norm_num at hbig hr1 ⊢; linarith
  set B : ℚ := rnd L (x / 360) * 4294967296 with hBdef
  have hB0 : 0 ≤ B := by positivity
  have hB1 : B < 2 ^ 32 := by rw [hBdef]; norm_num at hr1 ⊢; linarith
  have hf0 : 0 ≤ ⌊B⌋ := Int.floor_nonneg.2 hB0
  have hf1 : ⌊B⌋ < 2 ^ 32 := by rw [Int.floor_lt]; exact_mod_cast hB1
  have hcast : ((⌊B⌋.toNat : ℕ) : ℚ) = (⌊B⌋ : ℚ) := by exact_mod_cast Int.toNat_of_nonneg hf0
  have herr' : |rnd L (x / 360) - x / 360| ≤ 1 / 2 ^ 54 := le_trans herr hk
  rw [abs_le] at herr'
  refine ⟨⌊B⌋.toNat, by omega, ?_, ?_, ?_⟩
  · unfold positionNumber64
    rw [hA, bind_ok, hB, bind_ok]
    unfold castU32 castUnsigned truncZ
    rw [if_pos hB0, if_pos ⟨hf0, hf1⟩]; rfl
  · rw [hcast]
    have := Int.floor_le B
    norm_num [hBdef] at this herr' ⊢; linarith [herr'.1, herr'.2]
  · rw [hcast]
    have := Int.lt_floor_add_one B
    generalize (⌊B⌋ : ℚ) = w at this ⊢
    rw [hBdef] at this
    norm_num at this herr' ⊢; linarith [herr'.1, herr'.2]

theorem position_handle64 {L : Fmt} {P : Platform} {ops : TelOps ℚ S} {g : Gnss} {sc : Scope S} {request resp : List UInt8} {n max : Nat}
    (hn : n ≤ request.length) (hc : Parses (request.take n) .position) (t : ℚ) (ht : lst g = .ok t) (p : Equatorial ℚ)
    (hp : ops.position sc.core (g.latitude : ℚ) t = .ok p) (u v : Nat) (hu : u < 2 ^ 32) (hv : v < 2 ^ 32)
    (hnu : positionNumber64 L P p.ra = .ok (UInt32.ofNat u)) (hnv : positionNumber64 L P p.dec = .ok (UInt32.ofNat v))
    (hmax : 19 ≤ max) (hr : max ≤ resp.length) :
    handleRequest64 L P ops g sc request n resp max = .ok (18, written resp (hex8 u ++ [44] ++ hex8 v ++ [35]), sc) := by
  have hb : branch request n = .ok .position := branch_parses hn hc
  have hbody : body64 L P ops g sc request .position = .ok (some (hex8 u ++ [44] ++ hex8 v ++ [35]), sc) := by
    simp only [body64, positionBytes64]
    rw [ht, bind_ok, hp, bind_ok, hnu, bind_ok, hnv, bind_ok, fmt08X_hex8, fmt08X_hex8]
    simp only [UInt32.toNat_ofNat', Nat.mod_eq_of_lt hu, Nat.mod_eq_of_lt hv]
    rfl
  unfold handleRequest64
  rw [hb, bind_ok, hbody, bind_ok]
  simp only
  rw [snprintf_fit (by simp [hex8]; omega) hr, bind_ok]
  rfl

/-- **C66** NexStar position reply in IEEE arithmetic: for all `double` angles in `[0°, 360°)` the reply is defined - it never
overflows to `100000000` - and each number is the angle in wire units, truncated, up to `2^-22` units. -/
theorem C66_nexstar_position (L : Fmt) (hL : Wide L) (P : Platform) (ops : TelOps ℚ S) (g : Gnss) (sc : Scope S)
    (request resp : List UInt8) (n max : Nat) (hn : n ≤ request.length) (hc : Parses (request.take n) .position) (t : ℚ)
    (ht : Helper.localSiderealTime g.utc (g.longitude : ℚ) = .ok t) (p : Equatorial ℚ)
    (hp : ops.position sc.core (g.latitude : ℚ) t = .ok p) (hra : Representable b64 p.ra) (hdec : Representable b64 p.dec)
    (hra0 : 0 ≤ p.ra) (hra1 : p.ra < 360) (hdec0 : 0 ≤ p.dec) (hdec1 : p.dec < 360) (hmax : 19 ≤ max) (hr : max ≤ resp.length) :
    ∃ u v : Nat, u < 2 ^ 32 ∧ v < 2 ^ 32 ∧
      handleRequest64 L P ops g sc request n resp max = .ok (18, written resp (hex8 u ++ [44] ++ hex8 v ++ [35]), sc) ∧
      (u : ℚ) - 1 / 2 ^ 22 ≤ p.ra / 360 * 2 ^ 32 ∧ p.ra / 360 * 2 ^ 32 < u + 1 + 1 / 2 ^ 22 ∧
      (v : ℚ) - 1 / 2 ^ 22 ≤ p.dec / 360 * 2 ^ 32 ∧ p.dec / 360 * 2 ^ 32 < v + 1 + 1 / 2 ^ 22 := by
  obtain ⟨u, hu, hnu, u1, u2⟩ := positionNumber64_near hL P hra hra0 hra1
  obtain ⟨v, hv, hnv, v1, v2⟩ := positionNumber64_near hL P hdec hdec0 hdec1
  exact ⟨u, v, hu, hv, position_handle64 hn hc t ht p hp u v hu hv hnu hnv hmax hr, u1, u2, v1, v2⟩

theorem positionNumber64_turn {L : Fmt} (hL : Wide L) (P : Platform) (z : ℤ) (hz : |z| < 2 ^ 53) :
    positionNumber64 L P ((z : ℚ) * 360 / 2 ^ 32) = castU32 P (z : ℚ) := by
  have h1 : fl L ((z : ℚ) * 360 / 2 ^ 32 / 360) = .ok ((z : ℚ) / 2 ^ 32) := by
    have e : (z : ℚ) * 360 / 2 ^ 32 / 360 = (z : ℚ) / 2 ^ 32 := by field_simp
    rw [e]
    exact hL.fl_ok z (-32) (by norm_num [zpow_neg]; ring) (by norm_num) hz (by norm_num)
  have h2 : fl L ((z : ℚ) / 2 ^ 32 * 4294967296) = .ok (z : ℚ) := by
    have e : (z : ℚ) / 2 ^ 32 * 4294967296 = z := by norm_num
    rw [e]
    exact hL.fl_ok z 0 (by simp) (by norm_num) hz (by norm_num)
  unfold positionNumber64
  rw [h1, bind_ok, h2, bind_ok]

/-- **C66** A telescope that points exactly where it was told to answers with the digits it was sent: if the position is the
direction of a sync request with the numbers `u`, `v` (its declination wrapped below zero as the code does), the reply to `e` is
`u`, `v` again - on every target for declinations up to 270°, and for all of them where conversions wrap. -/
theorem C66_nexstar_echo (L : Fmt) (hL : Wide L) (P : Platform) (ops : TelOps ℚ S) (g : Gnss) (sc : Scope S)
    (request resp : List UInt8) (n max : Nat) (hn : n ≤ request.length) (hc : Parses (request.take n) .position) (t : ℚ)
    (ht : Helper.localSiderealTime g.utc (g.longitude : ℚ) = .ok t) (u v : Nat) (hu : u < 2 ^ 32) (hv : v < 2 ^ 32)
    (hd : P.fcast = .wrap ∨ (v : ℚ) * 360 / 2 ^ 32 ≤ 270)
    (hp : ops.position sc.core (g.latitude : ℚ) t =
      .ok ⟨(u : ℚ) * 360 / 2 ^ 32, if 270 < (v : ℚ) * 360 / 2 ^ 32 then (v : ℚ) * 360 / 2 ^ 32 - 360 else (v : ℚ) * 360 / 2 ^ 32⟩)
    (hmax : 19 ≤ max) (hr : max ≤ resp.length) :
    handleRequest64 L P ops g sc request n resp max = .ok (18, written resp (hex8 u ++ [44] ++ hex8 v ++ [35]), sc) := by
  have key : ∀ w : Nat, w < 2 ^ 32 → positionNumber64 L P ((w : ℚ) * 360 / 2 ^ 32) = .ok (UInt32.ofNat w) := by
    intro w hw
    have h := positionNumber64_turn hL P (w : ℤ) (by rw [abs_of_nonneg (by omega)]; omega)
    rw [Int.cast_natCast] at h
    rw [h]
    have hz : truncZ (w : ℚ) = (w : ℤ) := by
      have := truncZ_intCast (K := ℚ) (w : ℤ); simpa using this
    unfold castU32 castUnsigned
    rw [hz, if_pos ⟨by omega, by omega⟩]; rfl
  refine position_handle64 hn hc t ht _ hp u v hu hv (key u hu) ?_ hmax hr
  simp only
  split
  · rename_i hlt
    have hP : P.fcast = .wrap := by
      rcases hd with h | h
      · exact h
      · exact absurd hlt (not_lt.2 h)
    have e : (v : ℚ) * 360 / 2 ^ 32 - 360 = (((v : ℤ) - 2 ^ 32 : ℤ) : ℚ) * 360 / 2 ^ 32 := by push_cast; norm_num; ring
    rw [e, positionNumber64_turn hL P _ (by rw [abs_lt]; omega)]
    unfold castU32 castUnsigned
    rw [truncZ_intCast, if_neg (by omega), hP]
    simp only
    have : (((v : ℤ) - 2 ^ 32) % 2 ^ 32).toNat = v := by omega
    rw [this]; rfl
  · exact key v hv

/-- Hypotheses of the NexStar C66 theorems on concrete requests: `e` for the `double` nearest to 83.633°, and a sync with the
numbers `40000000`, `F0000000`; `long double` as on the ESP32 and as on x86. -/
example : Wide b64 ∧ Wide x87 ∧
    positionBytes64 b64 .esp32 ⟨rnd b64 (83633 / 1000), rnd b64 (22014 / 1000)⟩ = .ok (hex8 997780555 ++ [44] ++ hex8 262637250 ++ [35]) ∧
    positionBytes64 x87 .esp32 ⟨rnd b64 (83633 / 1000), rnd b64 (22014 / 1000)⟩ = .ok (hex8 997780555 ++ [44] ++ hex8 262637250 ++ [35]) ∧
    (handleRequest64 b64 (S := List (Equatorial ℚ)) .esp32 ⟨fun _ _ _ => .error .nonfinite, fun s r _ _ => .ok (r :: s)⟩ (.init 47 8) ⟨[], false⟩
      (ascii "s40000000,F0000000") 18 [7, 7, 7] 3) = .ok (1, [35, 0, 7], ⟨[⟨90, -45 / 2⟩], true⟩) := by
  refine ⟨wide_b64, wide_x87, ?_, ?_, ?_⟩ <;> decide +kernel

end Verif.NexStar
