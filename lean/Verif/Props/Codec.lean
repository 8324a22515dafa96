import Verif.Lemmas.Codec

/-!
# Properties C01-C05: the Stellarium telescope protocol codec

`packPosition` / `unpackPosition` of `lib/telescope/src/telescope.cpp`.
-/

set_option linter.unusedSectionVars false

namespace Verif.Codec
open Verif Verif.Spec

variable {K : Type} [Field K] [LinearOrder K] [IsStrictOrderedRing K] [FloorRing K]

/-- `z` is the wire value of the angle `x` (degrees): the integer nearest to `x` in units of `360°/2^32`. -/
def Encodes (x : K) (z : ℤ) : Prop := IsNearest (x / 360 * 2 ^ 32) z

/-- Angles whose wire value fits 32 bits. -/
def InDomain (x : K) : Prop := -(180 / 2 ^ 32) ≤ x ∧ x < 360 - 180 / 2 ^ 32

/-! ### plumbing -/

theorem floor_encodes (x : K) (z : ℤ) :
    Encodes x z ↔ ⌊(1 / 2 : K) + x * 2147483648 / 180⌋ = z := by
  unfold Encodes
  rw [isNearest_iff]
  have : x / 360 * 2 ^ 32 = x * 2147483648 / 180 := by ring
  rw [this]

theorem inDomain_floor (x : K) :
    InDomain x ↔ 0 ≤ ⌊(1 / 2 : K) + x * 2147483648 / 180⌋ ∧ ⌊(1 / 2 : K) + x * 2147483648 / 180⌋ < 2 ^ 32 := by
  unfold InDomain
  rw [Int.le_floor, Int.floor_lt]
  push_cast
  constructor
  · rintro ⟨h1, h2⟩; constructor <;> linarith
  · rintro ⟨h1, h2⟩; constructor <;> linarith

theorem encodeAngle_ok {P : Platform} {x : K} {u : Nat} (h : Encodes x u) (hu : u < 2 ^ 32) :
    encodeAngle P x = .ok (UInt32.ofNat u) := by
  rw [encodeAngle_eq, (floor_encodes x u).1 h]
  have : (0 : ℤ) ≤ u ∧ (u : ℤ) < 2 ^ 32 := by constructor <;> omega
  unfold castUnsigned
  rw [if_pos this]; rfl

theorem encodeAngle_wrap {P : Platform} (hP : P.fcast = .wrap) {x : K} {z : ℤ} (h : Encodes x z) :
    encodeAngle P x = .ok (UInt32.ofNat (z % 2 ^ 32).toNat) := by
  rw [encodeAngle_eq, (floor_encodes x z).1 h]
  unfold castUnsigned
  split
  · rename_i hz
    rw [Int.emod_eq_of_lt hz.1 hz.2]; rfl
  · simp [hP, Except.map]

theorem encodeAngle_strict {P : Platform} (hP : P.fcast = .strict) {x : K} (h : ¬ InDomain x) :
    encodeAngle P x = .error (.ub .floatToInt) := by
  rw [inDomain_floor] at h
  rw [encodeAngle_eq]
  unfold castUnsigned
  rw [if_neg h, hP]; rfl

theorem exists_encodes (x : K) : ∃ z : ℤ, Encodes x z := ⟨_, (floor_encodes x _).2 rfl⟩

theorem inDomain_iff (x : K) : InDomain x ↔ ∃ u : Nat, u < 2 ^ 32 ∧ Encodes x u := by
  rw [inDomain_floor]
  constructor
  · rintro ⟨h1, h2⟩
    refine ⟨⌊(1 / 2 : K) + x * 2147483648 / 180⌋.toNat, by omega, ?_⟩
    rw [floor_encodes]; omega
  · rintro ⟨u, hu, h⟩
    rw [floor_encodes] at h
    rw [h]; constructor <;> omega

theorem pack_bytes (P : Platform) (ra dec : K) (ts : UInt64) (buffer : List UInt8) (n : Nat)
    (h24 : 24 ≤ n) (hn : n ≤ buffer.length) :
    packPosition P ra dec ts buffer n =
      (do let a ← encodeAngle P ra
          let d ← encodeAngle P dec
          return (24, positionMessage ts.toNat a.toNat d.toNat ++ buffer.drop 24)) := by
  unfold packPosition
  rw [if_neg (by omega)]
  simp only [bytes16_le, bytes32_le, bytes64_le]
  have s0 := storeSeq_append (A := []) (buffer := buffer) (i := 0) (bs := le 2 24) rfl
    (by rw [le_length]; omega)
  have s1 := storeSeq_append (A := le 2 24) (buffer := buffer) (i := 2) (bs := le 2 0) (by rw [le_length])
    (by rw [le_length]; omega)
  have s2 := storeSeq_append (A := le 2 24 ++ le 2 0) (buffer := buffer) (i := 4) (bs := le 8 ts.toNat)
    (by simp [le_length]) (by rw [le_length]; omega)
  have s3 := fun a : UInt32 => storeSeq_append (A := le 2 24 ++ le 2 0 ++ le 8 ts.toNat) (buffer := buffer)
    (i := 12) (bs := le 4 a.toNat) (by simp [le_length]) (by rw [le_length]; omega)
  have s4 := fun a d : UInt32 => storeSeq_append (A := le 2 24 ++ le 2 0 ++ le 8 ts.toNat ++ le 4 a.toNat)
    (buffer := buffer) (i := 16) (bs := le 4 d.toNat) (by simp [le_length]) (by rw [le_length]; omega)
  have s5 := fun a d : UInt32 => storeSeq_append
    (A := le 2 24 ++ le 2 0 ++ le 8 ts.toNat ++ le 4 a.toNat ++ le 4 d.toNat)
    (buffer := buffer) (i := 20) (bs := [0, 0, 0, 0]) (by simp [le_length]) (by simp; omega)
  simp only [le_length, List.nil_append, List.drop_zero, Nat.zero_add, Nat.reduceAdd, List.length_cons,
    List.length_nil] at s0 s1 s2 s3 s4 s5
  have e1 : MESSAGE_CURRENT_POSITION_LENGTH.toNat = 24 := rfl
  have e2 : MESSAGE_CURRENT_POSITION_TYPE.toNat = 0 := rfl
  rw [e1, e2, s0]
  simp only [bind, Except.bind]
  rw [s1]
  simp only
  rw [s2]
  simp only
  cases h1 : encodeAngle P ra with
  | error e => rfl
  | ok a =>
    simp only
    rw [s3]
    simp only
    cases h2 : encodeAngle P dec with
    | error e => rfl
    | ok d =>
      simp only
      rw [s4]
      simp only
      rw [s5]
      rfl

/-! ### C01 buffer contract -/

/-- **C01** A buffer claimed smaller than 24 bytes is refused: result 0, nothing written, whatever the other
arguments are (no hypothesis relates the claimed size to the real one). -/
theorem C01_pack_short (P : Platform) (ra dec : K) (ts : UInt64) (buffer : List UInt8) (bufferSize : Nat)
    (h : bufferSize < 24) : packPosition P ra dec ts buffer bufferSize = .ok (0, buffer) := by
  simp [packPosition, h]

/-- **C01** If the claimed size is truthful the call never writes outside the buffer; when it returns, it returned
0 and changed nothing (size < 24) or returned 24 and changed nothing behind the first 24 bytes. -/
theorem C01_pack_contract (P : Platform) (ra dec : K) (ts : UInt64) (buffer : List UInt8) (bufferSize : Nat)
    (hn : bufferSize ≤ buffer.length) :
    packPosition P ra dec ts buffer bufferSize ≠ .error (.ub .oobWrite) ∧
    packPosition P ra dec ts buffer bufferSize ≠ .error (.ub .oobRead) ∧
    ∀ r b, packPosition P ra dec ts buffer bufferSize = .ok (r, b) →
      b.length = buffer.length ∧ b.drop 24 = buffer.drop 24 ∧
      (bufferSize < 24 → r = 0 ∧ b = buffer) ∧ (24 ≤ bufferSize → r = 24) := by
  by_cases h : bufferSize < 24
  · rw [C01_pack_short _ _ _ _ _ _ h]
    refine ⟨by simp, by simp, ?_⟩
    intro r b hrb
    cases hrb
    refine ⟨rfl, rfl, fun _ => ⟨rfl, rfl⟩, fun h' => by omega⟩
  · have hc : ∀ x : K, (∃ v, encodeAngle P x = .ok v) ∨ encodeAngle P x = .error (.ub .floatToInt) := by
      intro x
      rw [encodeAngle_eq]; unfold castUnsigned
      split
      · exact Or.inl ⟨_, rfl⟩
      · cases P.fcast
        · exact Or.inr rfl
        · exact Or.inl ⟨_, rfl⟩
    rw [pack_bytes _ _ _ _ _ _ (by omega) hn]
    rcases hc ra with ⟨a, ha⟩ | ha
    · rcases hc dec with ⟨d, hd⟩ | hd
      · rw [ha, hd]
        refine ⟨(by intro h; cases h), (by intro h; cases h), ?_⟩
        intro r b hrb
        cases hrb
        refine ⟨?_, ?_, fun h' => by omega, fun _ => rfl⟩
        · simp [positionMessage, le_length]; omega
        · rw [List.drop_append_of_le_length (by simp [positionMessage, le_length]),
            List.drop_of_length_le (by simp [positionMessage, le_length]), List.nil_append]
      · rw [ha, hd]
        exact ⟨(by intro h; cases h), (by intro h; cases h), (by intro r b h; cases h)⟩
    · rw [ha]
      exact ⟨(by intro h; cases h), (by intro h; cases h), (by intro r b h; cases h)⟩

/-- Non-vacuity: a 30-byte buffer with the first quadrant position; bytes 24..29 keep their content. -/
example : ∃ b, packPosition (K := ℚ) .esp32 90 45 0 (List.replicate 30 7) 30 = .ok (24, b) ∧
    b.drop 24 = List.replicate 6 7 := by
  refine ⟨positionMessage 0 (2 ^ 30) (2 ^ 29) ++ List.replicate 6 7, by decide +kernel, by decide +kernel⟩

/-! ### C02 wire layout -/

/-- **C02** Byte-exact layout: for angles with wire values `a`, `d` that fit 32 bits the buffer starts with the
Stellarium message for exactly these values and the caller's timestamp, and keeps its tail. -/
theorem C02_pack_layout (P : Platform) (ra dec : K) (ts : UInt64) (buffer : List UInt8) (bufferSize : Nat)
    (h24 : 24 ≤ bufferSize) (hn : bufferSize ≤ buffer.length) (a d : Nat) (ha : Encodes ra a) (hd : Encodes dec d)
    (ha' : a < 2 ^ 32) (hd' : d < 2 ^ 32) :
    packPosition P ra dec ts buffer bufferSize =
      .ok (24, positionMessage ts.toNat a d ++ buffer.drop 24) := by
  rw [pack_bytes _ _ _ _ _ _ h24 hn, encodeAngle_ok ha ha', encodeAngle_ok hd hd']
  simp only [bind, Except.bind, pure, Except.pure, UInt32.toNat_ofNat', Nat.mod_eq_of_lt ha', Nat.mod_eq_of_lt hd']

/-- **C02**, wrapping conversion (what the native unit tests see, e.g. for negative declinations): the layout is
the same with the wire values reduced modulo `2^32`. -/
theorem C02_pack_layout_wrap (P : Platform) (hP : P.fcast = .wrap) (ra dec : K) (ts : UInt64) (buffer : List UInt8)
    (bufferSize : Nat) (h24 : 24 ≤ bufferSize) (hn : bufferSize ≤ buffer.length) (a d : ℤ) (ha : Encodes ra a)
    (hd : Encodes dec d) :
    packPosition P ra dec ts buffer bufferSize =
      .ok (24, positionMessage ts.toNat (a % 2 ^ 32).toNat (d % 2 ^ 32).toNat ++ buffer.drop 24) := by
  have hlt : ∀ z : ℤ, (z % 2 ^ 32).toNat < 2 ^ 32 := by intro z; omega
  rw [pack_bytes _ _ _ _ _ _ h24 hn, encodeAngle_wrap hP ha, encodeAngle_wrap hP hd]
  simp only [bind, Except.bind, pure, Except.pure, UInt32.toNat_ofNat', Nat.mod_eq_of_lt (hlt _)]

/-- The message of the repository's unit test `test_function_packPosition` (declination −45°), byte for byte. -/
example : packPosition (K := ℚ) .nativeWrap 90 (-45) 0x0102030405060708 (List.replicate 24 0) 24 =
    .ok (24, [24, 0, 0, 0, 8, 7, 6, 5, 4, 3, 2, 1, 0, 0, 0, 0x40, 0, 0, 0, 0xE0, 0, 0, 0, 0]) := by
  decide +kernel

/-! ### C05 domain of definedness -/

/-- **C05** On a platform with the standard's conversion rule, packing into a sufficient buffer is undefined
behaviour exactly when right ascension or declination lies outside `[-180/2^32, 360 - 180/2^32)`. -/
theorem C05_pack_ub_iff (P : Platform) (hP : P.fcast = .strict) (ra dec : K) (ts : UInt64) (buffer : List UInt8)
    (bufferSize : Nat) (h24 : 24 ≤ bufferSize) (hn : bufferSize ≤ buffer.length) :
    packPosition P ra dec ts buffer bufferSize = .error (.ub .floatToInt) ↔ ¬ (InDomain ra ∧ InDomain dec) := by
  rw [pack_bytes _ _ _ _ _ _ h24 hn]
  by_cases h1 : InDomain ra
  · obtain ⟨a, ha, ha'⟩ := (inDomain_iff ra).1 h1
    rw [encodeAngle_ok ha' ha]
    by_cases h2 : InDomain dec
    · obtain ⟨d, hd, hd'⟩ := (inDomain_iff dec).1 h2
      rw [encodeAngle_ok hd' hd]
      simp [h1, h2, bind, Except.bind, pure, Except.pure]
    · rw [encodeAngle_strict hP h2]
      simp [h2, bind, Except.bind]
  · rw [encodeAngle_strict hP h1]
    simp [h1, bind, Except.bind]

/-- **C05** (defect) Every noticeably southern declination — `dec ≤ -1e-7`° — makes `packPosition` undefined on
the ESP32, for every right ascension, timestamp and sufficient buffer. -/
theorem C05_pack_negative_dec_ub (ra dec : K) (ts : UInt64) (buffer : List UInt8)
    (bufferSize : Nat) (h24 : 24 ≤ bufferSize) (hn : bufferSize ≤ buffer.length) (hdec : dec ≤ -(1 / 10 ^ 7)) :
    packPosition .esp32 ra dec ts buffer bufferSize = .error (.ub .floatToInt) := by
  rw [C05_pack_ub_iff .esp32 rfl ra dec ts buffer bufferSize h24 hn]
  rintro ⟨-, h, -⟩
  have : (180 / 2 ^ 32 : K) < 1 / 10 ^ 7 := by norm_num
  linarith

example : InDomain (45 : ℚ) ∧ ¬ InDomain (-45 : ℚ) ∧ ¬ InDomain (360 : ℚ) := by
  unfold InDomain; norm_num

/-! ### C04 acceptance and bounds of `unpackPosition` -/

/-- What the Stellarium protocol says about a received byte string: length field at 0, type field at 2. -/
def Accepts (data : List UInt8) (dataLength : Nat) : Prop :=
  20 ≤ leVal (slice data 0 2) ∧ leVal (slice data 0 2) ≤ dataLength ∧ leVal (slice data 2 2) = 0

instance (data : List UInt8) (n : Nat) : Decidable (Accepts data n) := by unfold Accepts; infer_instance

/-- The decoded content: little-endian fields at fixed offsets, angle unit `360°/2^32`, time unit 1/1000. -/
def decoded (out : UnpackOut K) (data : List UInt8) : UnpackOut K where
  ra := (leVal (slice data 12 4) : K) * 360 / 2 ^ 32
  dec := (leVal (slice data 16 4) : K) * 360 / 2 ^ 32
  timestamp := out.timestamp.map fun _ => UInt64.ofNat (leVal (slice data 4 8) / 1000)

theorem decodeAngle_eq (a b c d : UInt8) :
    (decodeAngle (assemble32 a b c d) : K) = (leVal [a, b, c, d] : K) * 360 / 2 ^ 32 := by
  unfold decodeAngle
  rw [assemble32_toNat]
  ring

/-- C04 also holds when more bytes are claimed than exist, as long as 20 exist. -/
theorem unpack_accepts (out : UnpackOut K) (data : List UInt8) (dataLength : Nat) (h2 : 2 ≤ data.length)
    (hn : dataLength ≤ data.length ∨ 20 ≤ data.length) :
    unpackPosition out data dataLength =
      if Accepts data dataLength then .ok (true, decoded out data) else .ok (false, out) := by
  unfold unpackPosition
  rw [readByte_ok (by omega : 0 < data.length), readByte_ok (by omega : 1 < data.length)]
  simp only [bind, Except.bind, pure, Except.pure, header_toNat]
  have s0 : slice data 0 2 = [data[0], data[1]] := by
    rw [slice_cons (by omega), slice_cons (by omega), slice_zero]
  have hA : Accepts data dataLength ↔
      ¬ (leVal [data[0], data[1]] < 20 ∨ dataLength < leVal [data[0], data[1]]) ∧ leVal (slice data 2 2) = 0 := by
    unfold Accepts; rw [s0]; omega
  split
  · rename_i hl
    rw [if_neg (by rw [hA]; tauto)]
  · rename_i hl
    have hlen : 20 ≤ data.length := by omega
    have s2 : slice data 2 2 = [data[2], data[3]] := by
      rw [slice_cons (by omega), slice_cons (by omega), slice_zero]
    rw [readByte_ok (by omega : 2 < data.length), readByte_ok (by omega : 3 < data.length)]
    simp only
    have ht : (data[2].toUInt32 + (data[3].toUInt32 <<< 8)) ≠ 0 ↔ leVal (slice data 2 2) ≠ 0 := by
      rw [s2, ← header_toNat, not_iff_not, ← UInt32.toNat_inj]; rfl
    split
    · rename_i h
      rw [if_neg (by rw [hA]; tauto)]
    · rename_i h
      have : leVal (slice data 2 2) = 0 := by tauto
      rw [if_pos (by rw [hA]; exact ⟨hl, this⟩)]
      have s12 : slice data 12 4 = [data[12], data[13], data[14], data[15]] := by
        rw [slice_cons (by omega), slice_cons (by omega), slice_cons (by omega), slice_cons (by omega), slice_zero]
      have s16 : slice data 16 4 = [data[16], data[17], data[18], data[19]] := by
        rw [slice_cons (by omega), slice_cons (by omega), slice_cons (by omega), slice_cons (by omega), slice_zero]
      have s4 : slice data 4 8 = [data[4], data[5], data[6], data[7], data[8], data[9], data[10], data[11]] := by
        rw [slice_cons (by omega), slice_cons (by omega), slice_cons (by omega), slice_cons (by omega),
          slice_cons (by omega), slice_cons (by omega), slice_cons (by omega), slice_cons (by omega), slice_zero]
      rw [readByte_ok (by omega : 12 < data.length), readByte_ok (by omega : 13 < data.length),
        readByte_ok (by omega : 14 < data.length), readByte_ok (by omega : 15 < data.length),
        readByte_ok (by omega : 16 < data.length), readByte_ok (by omega : 17 < data.length),
        readByte_ok (by omega : 18 < data.length), readByte_ok (by omega : 19 < data.length)]
      simp only [decodeAngle_eq, decoded, s12, s16, s4]
      cases out.timestamp with
      | none => rfl
      | some t =>
        rw [readByte_ok (by omega : 4 < data.length), readByte_ok (by omega : 5 < data.length),
          readByte_ok (by omega : 6 < data.length), readByte_ok (by omega : 7 < data.length),
          readByte_ok (by omega : 8 < data.length), readByte_ok (by omega : 9 < data.length),
          readByte_ok (by omega : 10 < data.length), readByte_ok (by omega : 11 < data.length)]
        simp only [Option.map_some]
        congr 4
        rw [← UInt64.toNat_inj, UInt64.toNat_div, assemble64_toNat]
        have := leVal_lt [data[4], data[5], data[6], data[7], data[8], data[9], data[10], data[11]]
        simp only [List.length_cons, List.length_nil] at this
        rw [UInt64.toNat_ofNat_of_lt' (by unfold UInt64.size; omega)]
        rfl

/-- **C04** Complete behaviour of `unpackPosition` for every byte string of at least two bytes and every truthful
length: defined, no access outside the data, accepted iff the header says so, outputs untouched on rejection. -/
theorem C04_unpack (out : UnpackOut K) (data : List UInt8) (dataLength : Nat) (h2 : 2 ≤ data.length)
    (hn : dataLength ≤ data.length) :
    unpackPosition out data dataLength =
      if Accepts data dataLength then .ok (true, decoded out data) else .ok (false, out) :=
  unpack_accepts out data dataLength h2 (Or.inl hn)

/-- **C04** The result of an accepted message depends only on its first 20 bytes: longer claimed lengths and
trailing bytes are ignored. -/
theorem C04_unpack_prefix (out : UnpackOut K) (data data' : List UInt8) (n n' : Nat)
    (hn : n ≤ data.length) (hn' : n' ≤ data'.length) (hp : data.take 20 = data'.take 20)
    (h : Accepts data n) (h' : leVal (slice data 0 2) ≤ n') :
    unpackPosition out data' n' = unpackPosition out data n := by
  have hs : ∀ i k, i + k ≤ 20 → slice data i k = slice data' i k := by
    intro i k hik
    have : ∀ l : List UInt8, slice l i k = slice (l.take 20) i k := by
      intro l; simp [slice, List.drop_take, List.take_take]; omega
    rw [this data, this data', hp]
  have h20 : 20 ≤ n := le_trans h.1 h.2.1
  have h20' : 20 ≤ n' := le_trans h.1 h'
  have hA' : Accepts data' n' := by
    refine ⟨?_, ?_, ?_⟩
    · rw [← hs 0 2 (by omega)]; exact h.1
    · rw [← hs 0 2 (by omega)]; exact h'
    · rw [← hs 2 2 (by omega)]; exact h.2.2
  rw [C04_unpack _ _ _ (by omega) hn, C04_unpack _ _ _ (by omega) hn', if_pos h, if_pos hA']
  simp only [decoded, hs 12 4 (by omega), hs 16 4 (by omega), hs 4 8 (by omega)]

/-- **C04** (precondition) With fewer than two readable bytes the header read itself is out of bounds, whatever
length the caller claims: the code checks the claimed length only after reading the length field. -/
theorem C04_unpack_needs_two_bytes (out : UnpackOut K) (data : List UInt8) (dataLength : Nat)
    (h : data.length < 2) : unpackPosition out data dataLength = .error (.ub .oobRead) := by
  match data, h with
  | [], _ => rfl
  | [_], _ => rfl

example : Accepts (positionMessage 0 1 2) 24 ∧ ¬ Accepts (positionMessage 0 1 2) 23 := by decide +kernel

/-! ### C03 round trip -/

theorem decode_near {x : K} {z : ℤ} (h : Encodes x z) : |(z : K) * 360 / 2 ^ 32 - x| ≤ 180 / 2 ^ 32 := by
  obtain ⟨h1, h2⟩ := h
  rw [abs_le]
  constructor
  · linarith
  · linarith

theorem slices_positionMessage (t a d : Nat) (tl : List UInt8) :
    let m := positionMessage t a d ++ tl
    slice m 0 2 = le 2 24 ∧ slice m 2 2 = le 2 0 ∧ slice m 4 8 = le 8 t ∧ slice m 12 4 = le 4 a ∧
    slice m 16 4 = le 4 d := by
  simp [positionMessage, slice, le]

theorem unpack_positionMessage (out : UnpackOut K) (t a d : Nat) (ht : t < 2 ^ 64) (ha : a < 2 ^ 32)
    (hd : d < 2 ^ 32) (tl : List UInt8) (n : Nat) (hn : n ≤ 24 + tl.length) (h24 : 24 ≤ n) :
    unpackPosition out (positionMessage t a d ++ tl) n =
      .ok (true, { ra := (a : K) * 360 / 2 ^ 32
                   dec := (d : K) * 360 / 2 ^ 32
                   timestamp := out.timestamp.map fun _ => UInt64.ofNat (t / 1000) }) := by
  have hlen : (positionMessage t a d ++ tl).length = 24 + tl.length := by simp [positionMessage, le_length]; omega
  obtain ⟨s0, s2, s4, s12, s16⟩ := slices_positionMessage t a d tl
  rw [C04_unpack _ _ _ (by omega) (by omega)]
  have hA : Accepts (positionMessage t a d ++ tl) n := by
    unfold Accepts
    rw [s0, s2, leVal_le, leVal_le]; simpa using h24
  rw [if_pos hA]
  simp only [decoded, s4, s12, s16, leVal_le]
  rw [Nat.mod_eq_of_lt (by omega), Nat.mod_eq_of_lt (by omega), Nat.mod_eq_of_lt (by omega)]

/-- **C03** Round trip: whatever `packPosition` wrote for angles in the domain, `unpackPosition` accepts, and gives
back each angle within half a wire unit (`180/2^32`°, about 0.00015 arc seconds) and the timestamp divided by 1000. -/
theorem C03_roundtrip (P : Platform) (ra dec : K) (ts : UInt64) (buffer : List UInt8) (bufferSize : Nat)
    (h24 : 24 ≤ bufferSize) (hn : bufferSize ≤ buffer.length) (hra : InDomain ra) (hdec : InDomain dec)
    (out : UnpackOut K) :
    ∃ b out', packPosition P ra dec ts buffer bufferSize = .ok (24, b) ∧
      unpackPosition out b 24 = .ok (true, out') ∧
      |out'.ra - ra| ≤ 180 / 2 ^ 32 ∧ |out'.dec - dec| ≤ 180 / 2 ^ 32 ∧
      out'.timestamp = out.timestamp.map fun _ => UInt64.ofNat (ts.toNat / 1000) := by
  obtain ⟨a, ha, ha'⟩ := (inDomain_iff ra).1 hra
  obtain ⟨d, hd, hd'⟩ := (inDomain_iff dec).1 hdec
  have hts := ts.toNat_lt
  refine ⟨_, _, C02_pack_layout P ra dec ts buffer bufferSize h24 hn a d ha' hd' ha hd,
    unpack_positionMessage out _ _ _ hts ha hd _ 24 (by omega) le_rfl, ?_, ?_, rfl⟩
  · simpa using decode_near ha'
  · simpa using decode_near hd'

/-- **C03**, wrapping conversion: every angle comes back within half a wire unit modulo full turns. -/
theorem C03_roundtrip_wrap (P : Platform) (hP : P.fcast = .wrap) (ra dec : K) (ts : UInt64) (buffer : List UInt8)
    (bufferSize : Nat) (h24 : 24 ≤ bufferSize) (hn : bufferSize ≤ buffer.length) (out : UnpackOut K) :
    ∃ b out', packPosition P ra dec ts buffer bufferSize = .ok (24, b) ∧
      unpackPosition out b 24 = .ok (true, out') ∧
      (∃ k : ℤ, |out'.ra - (ra + 360 * k)| ≤ 180 / 2 ^ 32) ∧
      (∃ k : ℤ, |out'.dec - (dec + 360 * k)| ≤ 180 / 2 ^ 32) ∧
      0 ≤ out'.ra ∧ out'.ra < 360 ∧ 0 ≤ out'.dec ∧ out'.dec < 360 := by
  obtain ⟨a, ha⟩ := exists_encodes ra
  obtain ⟨d, hd⟩ := exists_encodes dec
  have hlt : ∀ z : ℤ, (z % 2 ^ 32).toNat < 2 ^ 32 := by intro z; omega
  have hts := ts.toNat_lt
  have key : ∀ (x : K) (z : ℤ), Encodes x z →
      (∃ k : ℤ, |((z % 2 ^ 32).toNat : K) * 360 / 2 ^ 32 - (x + 360 * k)| ≤ 180 / 2 ^ 32) := by
    intro x z hz
    refine ⟨-(z / 2 ^ 32), ?_⟩
    have e : ((z % 2 ^ 32).toNat : ℤ) = z - 2 ^ 32 * (z / 2 ^ 32) := by
      have := Int.emod_add_mul_ediv z (2 ^ 32); omega
    have e' : ((z % 2 ^ 32).toNat : K) = (z : K) - 2 ^ 32 * ((z / 2 ^ 32 : ℤ) : K) := by
      have := congrArg (Int.cast (R := K)) e
      rw [Int.cast_natCast, Int.cast_sub, Int.cast_mul] at this
      rw [this]; norm_num
    have := decode_near hz
    rw [e']
    convert this using 2
    push_cast; ring
  have bnd : ∀ z : ℤ, 0 ≤ ((z % 2 ^ 32).toNat : K) * 360 / 2 ^ 32 ∧ ((z % 2 ^ 32).toNat : K) * 360 / 2 ^ 32 < 360 := by
    intro z
    have h1 : ((z % 2 ^ 32).toNat : K) < 2 ^ 32 := by exact_mod_cast hlt z
    have h0 : (0 : K) ≤ ((z % 2 ^ 32).toNat : K) := Nat.cast_nonneg _
    constructor
    · positivity
    · rw [div_lt_iff₀ (by positivity)]; linarith
  refine ⟨_, _, C02_pack_layout_wrap P hP ra dec ts buffer bufferSize h24 hn a d ha hd,
    unpack_positionMessage out _ _ _ hts (hlt _) (hlt _) _ 24 (by omega) le_rfl, key _ _ ha, key _ _ hd,
    (bnd a).1, (bnd a).2, (bnd d).1, (bnd d).2⟩

/-- **C03** In the other direction nothing is lost: re-encoding a decoded angle reproduces the same wire value, so
`pack ∘ unpack` is the identity on the angle fields of every accepted message. -/
theorem C03_repack (P : Platform) (out : UnpackOut K) (data : List UInt8) (n : Nat) (hn : n ≤ data.length)
    (hA : Accepts data n) (ts : UInt64) (buffer : List UInt8) (hb : 24 ≤ buffer.length) :
    ∃ out' b, unpackPosition out data n = .ok (true, out') ∧
      packPosition P out'.ra out'.dec ts buffer 24 = .ok (24, b) ∧
      slice b 12 4 = slice data 12 4 ∧ slice b 16 4 = slice data 16 4 := by
  have h20 : 20 ≤ n := le_trans hA.1 hA.2.1
  have enc : ∀ u : Nat, Encodes ((u : K) * 360 / 2 ^ 32) u := by
    intro u
    unfold Encodes IsNearest
    have : (u : K) * 360 / 2 ^ 32 / 360 * 2 ^ 32 = u := by field_simp
    rw [this]; push_cast
    constructor <;> linarith
  have hl : ∀ i, i + 4 ≤ 20 → (slice data i 4).length = 4 := by
    intro i hi; simp [slice]; omega
  have lt : ∀ i, i + 4 ≤ 20 → leVal (slice data i 4) < 2 ^ 32 := by
    intro i hi
    have := leVal_lt (slice data i 4)
    rw [hl i hi] at this; simpa using this
  refine ⟨decoded out data, _, by rw [C04_unpack _ _ _ (by omega) hn, if_pos hA],
    C02_pack_layout P _ _ ts buffer 24 le_rfl hb _ _ (enc _) (enc _) (lt 12 (by omega)) (lt 16 (by omega)), ?_, ?_⟩
  · rw [(slices_positionMessage _ _ _ _).2.2.2.1]
    exact le_leVal _ (hl 12 (by omega))
  · rw [(slices_positionMessage _ _ _ _).2.2.2.2]
    exact le_leVal _ (hl 16 (by omega))

end Verif.Codec
