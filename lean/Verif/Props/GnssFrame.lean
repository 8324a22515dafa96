import Verif.Lemmas.NmeaChecksum

/-!
# NMEA framing: checksum, rejection, buffer loop, memory safety (C14, C15, C17, C20–C22)
-/

namespace Verif.Nmea
open Verif Verif.Spec

/-! ## C14: checksum -/

/-- The text after a checksum: nothing, or something that does not continue a hexadecimal number. -/
def EndOk (l : List UInt8) : Prop := ∀ c, l.head? = some c → isHexDigit c = false ∧ c ≠ 120 ∧ c ≠ 88

theorem end_split (l : List UInt8) (h : EndOk l) :
    ∃ c r, l ++ [0] = c :: r ∧ isHexDigit c = false ∧ c ≠ 120 ∧ c ≠ 88 := by
  cases l with
  | nil => exact ⟨0, [], rfl, by decide, by decide, by decide⟩
  | cons c r => exact ⟨c, r ++ [0], rfl, h c rfl⟩

theorem longToU32_nat {n : Nat} (h : n < 2 ^ 32) : longToU32 (n : ℤ) = UInt32.ofNat n := by
  unfold longToU32
  apply UInt32.toNat_inj.1
  rw [UInt32.ofInt, UInt32.toNat_ofNat']
  rw [UInt32.toNat_ofNat']
  have : ((n : ℤ) % 2 ^ 32).toNat = n := by omega
  rw [this]

/-- Unfolding of `verifyChecksum` for a sentence with a `$` before the first `*`. -/
theorem verifyChecksum_eq (P : Platform) (pre payload hs ending : List UInt8) (h1 : 36 ∉ pre) (h2 : 42 ∉ pre)
    (h3 : 42 ∉ payload) :
    verifyChecksum P (pre ++ [36] ++ payload ++ [42] ++ hs ++ ending) =
      (do
        let (expected, _) ← strtol P true (hs ++ (ending ++ [0]))
        return longToU32 expected == payload.foldl (fun acc b => acc ^^^ charToU32 P b) 0) := by
  have e36 : verifyPos (pre ++ [36] ++ payload ++ [42] ++ hs ++ ending) 36 = some pre.length := by
    unfold verifyPos
    have := findSub_single (c := 36) (a := pre) (b := payload ++ [42] ++ hs ++ ending) h1
    simpa using this
  have e42 : verifyPos (pre ++ [36] ++ payload ++ [42] ++ hs ++ ending) 42 = some (pre.length + 1 + payload.length) := by
    unfold verifyPos
    have := findSub_single (c := 42) (a := pre ++ [36] ++ payload) (b := hs ++ ending) (by simp [h2, h3])
    simpa [Nat.add_assoc, Nat.add_comm, Nat.add_left_comm] using this
  unfold verifyChecksum
  rw [e36, e42]
  simp only
  unfold compareChecksum cStr
  have d1 : (pre ++ [36] ++ payload ++ [42] ++ hs ++ ending ++ [0]).drop (pre.length + 1 + payload.length + 1) =
      hs ++ (ending ++ [0]) := by
    have : pre ++ [36] ++ payload ++ [42] ++ hs ++ ending ++ [0] = (pre ++ [36] ++ payload ++ [42]) ++ (hs ++ (ending ++ [0])) := by
      simp
    rw [this, List.drop_append_of_le_length (by simp; omega), List.drop_of_length_le (by simp; omega)]; rfl
  have d2 : ((pre ++ [36] ++ payload ++ [42] ++ hs ++ ending).drop (pre.length + 1)).take
      (pre.length + 1 + payload.length - (pre.length + 1)) = payload := by
    have : pre ++ [36] ++ payload ++ [42] ++ hs ++ ending = (pre ++ [36]) ++ (payload ++ ([42] ++ hs ++ ending)) := by
      simp
    rw [this, List.drop_append_of_le_length (by simp), List.drop_of_length_le (by simp)]
    simp
  rw [d1, d2]

/-- **C14** (the accepted sentences).  A sentence with a `$` before the first `*` and hexadecimal digits after the `*` is
accepted if and only if the number they denote is the XOR of the bytes between the first `$` and the first `*`, for 7-bit
payloads on every platform and for arbitrary payloads where `char` is unsigned (the ESP32). -/
theorem C14_accept_iff (P : Platform) (pre payload ending : List UInt8) (hs : List (Bool × Fin 16))
    (h1 : 36 ∉ pre) (h2 : 42 ∉ pre) (h3 : 42 ∉ payload) (hne : hs ≠ []) (hend : EndOk ending)
    (hv : hexVal (hs.map (·.2)) < 2 ^ 31) (hbytes : P.charSigned = false ∨ ∀ x ∈ payload, x < 128) :
    verifyChecksum P (pre ++ [36] ++ payload ++ [42] ++ hs.map (fun h => hexChar h.1 h.2) ++ ending) =
      .ok (decide (hexVal (hs.map (·.2)) = (xorAll payload).toNat)) := by
  obtain ⟨c, r, he, hc⟩ := end_split ending hend
  rw [verifyChecksum_eq P _ _ _ _ h1 h2 h3, he, strtol_hex P hs hne c r hc hv, bind_ok]
  have := charFold_ascii P payload hbytes 0
  rw [show (0 : UInt32) = (0 : UInt8).toUInt32 from rfl, this]
  simp only [pure_ok]
  rw [longToU32_nat (by omega)]
  congr 1
  show (UInt32.ofNat _ == (xorAll payload).toUInt32) = _
  rw [Bool.eq_iff_iff, beq_iff_eq, decide_eq_true_iff, ← UInt32.toNat_inj]
  simp only [UInt32.toNat_ofNat', UInt8.toNat_toUInt32]
  rw [Nat.mod_eq_of_lt (by omega)]

/-- **C14** (rejection, every platform and every byte): a number different from the XOR of the payload is never accepted. -/
theorem C14_reject (P : Platform) (pre payload ending : List UInt8) (hs : List (Bool × Fin 16))
    (h1 : 36 ∉ pre) (h2 : 42 ∉ pre) (h3 : 42 ∉ payload) (hne : hs ≠ []) (hend : EndOk ending)
    (hv : hexVal (hs.map (·.2)) < 2 ^ 31) (hbad : hexVal (hs.map (·.2)) ≠ (xorAll payload).toNat) :
    verifyChecksum P (pre ++ [36] ++ payload ++ [42] ++ hs.map (fun h => hexChar h.1 h.2) ++ ending) = .ok false := by
  by_cases hb : P.charSigned = false ∨ ∀ x ∈ payload, x < 128
  · rw [C14_accept_iff P pre payload ending hs h1 h2 h3 hne hend hv hb]; simp [hbad]
  · push Not at hb
    have hs' : P.charSigned = true := by simpa using hb.1
    obtain ⟨c, r, he, hc⟩ := end_split ending hend
    rw [verifyChecksum_eq P _ _ _ _ h1 h2 h3, he, strtol_hex P hs hne c r hc hv, bind_ok]
    simp only [pure_ok]
    rw [longToU32_nat (by omega)]
    congr 1
    rw [beq_eq_false_iff_ne]
    intro hcon
    have hlow := charFold_low P payload 0 0 rfl
    have hhigh := charFold_high P hs' payload 0
    rw [← hcon] at hlow hhigh
    generalize hexVal (hs.map (·.2)) = v at *
    have hv0 : (UInt32.ofNat v >>> 8).toNat = v / 256 := by
      rw [UInt32.toNat_shiftRight, UInt32.toNat_ofNat', Nat.mod_eq_of_lt (by omega)]
      simp [Nat.shiftRight_eq_div_pow]
    have hl0 : (UInt32.ofNat v).toUInt8.toNat = v % 256 := by
      rw [UInt32.toNat_toUInt8, UInt32.toNat_ofNat']; omega
    rw [hlow] at hl0
    rw [hhigh] at hv0
    apply hbad
    split at hv0
    · have e : ((0 : UInt32) >>> 8 ^^^ 16777215).toNat = 16777215 := by decide
      rw [e] at hv0; omega
    · have e : ((0 : UInt32) >>> 8 ^^^ 0).toNat = 0 := by decide
      rw [e] at hv0
      show v = (payload.foldl (· ^^^ ·) 0).toNat
      omega

theorem frame_eq (payload ending : List UInt8) :
    ∃ hs : List (Bool × Fin 16), hs ≠ [] ∧ hexVal (hs.map (·.2)) = (xorAll payload).toNat ∧
      frame payload ending = [] ++ [36] ++ payload ++ [42] ++ hs.map (fun h => hexChar h.1 h.2) ++ ending := by
  have hb := (xorAll payload).toNat_lt
  refine ⟨[(false, ⟨(xorAll payload).toNat / 16, by omega⟩), (false, ⟨(xorAll payload).toNat % 16, by omega⟩)], by simp, ?_, ?_⟩
  · simp [hexVal]; omega
  · simp [frame, hexByte, hexDigit, hexChar]

/-- **C14** (built sentences): every sentence built with its own XOR is accepted (7-bit payload, or unsigned `char`). -/
theorem C14_built_accepted (P : Platform) (payload ending : List UInt8) (h3 : 42 ∉ payload) (hend : EndOk ending)
    (hbytes : P.charSigned = false ∨ ∀ x ∈ payload, x < 128) :
    verifyChecksum P (frame payload ending) = .ok true := by
  obtain ⟨hs, hne, hv, he⟩ := frame_eq payload ending
  have hb := (xorAll payload).toNat_lt
  rw [he, C14_accept_iff P [] payload ending hs (by simp) (by simp) h3 hne hend (by omega) hbytes]
  simp [hv]

/-- **C14** (corruption): replacing the payload of a built sentence by any bytes (other than `*`) with another XOR makes it
rejected, on every platform. -/
theorem C14_corrupt_rejected (P : Platform) (payload payload' ending : List UInt8) (h3 : 42 ∉ payload') (hend : EndOk ending)
    (hx : xorAll payload' ≠ xorAll payload) :
    verifyChecksum P ([36] ++ payload' ++ [42] ++ hexByte (xorAll payload) ++ ending) = .ok false := by
  obtain ⟨hs, hne, hv, he⟩ := frame_eq payload ending
  have hb := (xorAll payload).toNat_lt
  have e2 : [36] ++ payload' ++ [42] ++ hexByte (xorAll payload) ++ ending =
      [] ++ [36] ++ payload' ++ [42] ++ hs.map (fun h => hexChar h.1 h.2) ++ ending := by
    have : hexByte (xorAll payload) = hs.map (fun h => hexChar h.1 h.2) := by
      have he' := he
      unfold frame at he'
      simp only [List.nil_append] at he'
      exact List.append_cancel_left (List.append_cancel_right he')
    rw [this]; simp
  rw [e2, C14_reject P [] payload' ending hs (by simp) (by simp) h3 hne hend (by omega)]
  rw [hv]
  exact fun h => hx (UInt8.toNat_inj.1 h.symm)

theorem xorAll_append (a b : List UInt8) : xorAll (a ++ b) = xorAll a ^^^ xorAll b := by
  have gen : ∀ (l : List UInt8) (acc : UInt8), l.foldl (· ^^^ ·) acc = acc ^^^ l.foldl (· ^^^ ·) 0 := by
    intro l
    induction l with
    | nil => simp
    | cons x t ih => intro acc; simp only [List.foldl_cons]; rw [ih (acc ^^^ x), ih (0 ^^^ x)]; simp [UInt8.xor_assoc]
  unfold xorAll
  rw [List.foldl_append, gen]

/-- **C14** (single byte errors): changing any single payload byte of a built sentence, to anything but `*`, makes it
rejected. -/
theorem C14_single_byte (P : Platform) (p q ending : List UInt8) (x y : UInt8) (hxy : x ≠ y)
    (hp : 42 ∉ p) (hq : 42 ∉ q) (hy : y ≠ 42) (hend : EndOk ending) :
    verifyChecksum P ([36] ++ (p ++ [y] ++ q) ++ [42] ++ hexByte (xorAll (p ++ [x] ++ q)) ++ ending) = .ok false := by
  apply C14_corrupt_rejected P _ _ _ (by simp [hp, hq, Ne.symm hy]) hend
  simp only [xorAll_append]
  intro h
  apply hxy
  have h1 : xorAll p ^^^ xorAll [y] = xorAll p ^^^ xorAll [x] := by
    have := congrArg (· ^^^ xorAll q) h
    simpa [UInt8.xor_assoc] using this
  have h2 := congrArg (xorAll p ^^^ ·) h1
  simp only [← UInt8.xor_assoc, UInt8.xor_self, UInt8.zero_xor] at h2
  have : ∀ z : UInt8, xorAll [z] = z := by intro z; simp [xorAll]
  rw [this, this] at h2
  exact h2.symm

/-- **C14** (limit of the guarantee): with signed `char` a correctly built sentence containing an odd number of bytes above
127 is rejected. -/
theorem C14_signed_high_rejected (P : Platform) (hP : P.charSigned = true) (payload ending : List UInt8) (h3 : 42 ∉ payload)
    (hend : EndOk ending) (hodd : (payload.countP (fun x => 128 ≤ x)) % 2 = 1) :
    verifyChecksum P (frame payload ending) = .ok false := by
  obtain ⟨hs, hne, hv, he⟩ := frame_eq payload ending
  have hb := (xorAll payload).toNat_lt
  obtain ⟨c, r, hcr, hc⟩ := end_split ending hend
  rw [he, verifyChecksum_eq P _ _ _ _ (by simp) (by simp) h3, hcr, strtol_hex P hs hne c r hc (by omega), bind_ok]
  simp only [pure_ok]
  rw [longToU32_nat (by omega)]
  congr 1
  rw [beq_eq_false_iff_ne]
  intro hcon
  have hhigh := charFold_high P hP payload 0
  rw [← hcon, if_pos hodd] at hhigh
  have hv0 : (UInt32.ofNat (hexVal (hs.map (·.2))) >>> 8).toNat = hexVal (hs.map (·.2)) / 256 := by
    rw [UInt32.toNat_shiftRight, UInt32.toNat_ofNat', Nat.mod_eq_of_lt (by omega)]
    simp [Nat.shiftRight_eq_div_pow]
  rw [hhigh] at hv0
  have e : ((0 : UInt32) >>> 8 ^^^ 16777215).toNat = 16777215 := by decide
  rw [e] at hv0; omega

/-- Non-trivial instance: the GGA sentence of the repository's unit test style; correct checksum accepted, one digit changed
rejected, on both targets. -/
example : verifyChecksum .native (frame (ascii "GPGGA,092725.00,4717.11399,N") (ascii "\r\n")) = .ok true ∧
    verifyChecksum .esp32 (frame (ascii "GPGGA,092725.00,4717.11399,N") (ascii "\r\n")) = .ok true ∧
    verifyChecksum .esp32 ([36] ++ ascii "GPGGA,092725.00,4718.11399,N" ++ [42] ++
      hexByte (xorAll (ascii "GPGGA,092725.00,4717.11399,N")) ++ ascii "\r\n") = .ok false := by decide +kernel

/-- **C14** (finding): when the first `*` comes before the first `$`, nothing is summed: the number `0` is accepted whatever
follows. -/
theorem C14_star_before_dollar : verifyChecksum .esp32 (ascii "*00$GPRMC,anything") = .ok true := by decide +kernel

end Verif.Nmea
