import Verif.Spec.Led
import Verif.Props.Sched

/-!
# C48: LED patterns
-/

namespace Verif.Main

/-- **C48** For each mode and every 32-bit microsecond time the level written is the one of the pattern; READY writes nothing. -/
theorem C48_pattern (mode : LedMode) (t : UInt32) :
    match pattern mode with
    | none => ledUpdate mode t = none
    | some (p, ws) => ∃ b, ledUpdate mode t = some b ∧ (b = true ↔ Lit p ws t.toNat) := by
  have hm : (t / 1000).toNat = t.toNat / 1000 := by rw [UInt32.toNat_div]; rfl
  have h5 : (t / 1000 % 5000).toNat = t.toNat / 1000 % 5000 := by rw [UInt32.toNat_mod, hm]; rfl
  have lt5 : ∀ c : Nat, c < 5000 → ((t / 1000 % 5000 < (UInt32.ofNat c)) ↔ t.toNat / 1000 % 5000 < c) := by
    intro c hc
    rw [UInt32.lt_iff_toNat_lt, h5, UInt32.toNat_ofNat', show c % 2 ^ 32 = c from Nat.mod_eq_of_lt (by omega)]
  have hlt := Nat.mod_lt (t.toNat / 1000) (by norm_num : 0 < 5000)
  cases mode with
  | off => exact ⟨false, rfl, by simp [Lit]⟩
  | on => exact ⟨true, rfl, by simp [Lit, Nat.mod_one]⟩
  | ready => rfl
  | blink10Hz =>
    refine ⟨_, rfl, ?_⟩
    rw [decide_eq_true_eq, UInt32.lt_iff_toNat_lt, UInt32.toNat_mod, hm]
    simp [Lit]
  | blink1Hz =>
    refine ⟨_, rfl, ?_⟩
    rw [decide_eq_true_eq, UInt32.lt_iff_toNat_lt, UInt32.toNat_mod, hm]
    simp [Lit]
  | flash1x =>
    refine ⟨_, rfl, ?_⟩
    have a := lt5 4990 (by norm_num)
    simp only [Lit, List.mem_cons, List.not_mem_nil, or_false, exists_eq_left]
    split
    · rename_i h; rw [show (4990 : UInt32) = UInt32.ofNat 4990 from rfl, a] at h; simp; omega
    · rename_i h; rw [show (4990 : UInt32) = UInt32.ofNat 4990 from rfl, a] at h; simp; omega
  | flash2x =>
    refine ⟨_, rfl, ?_⟩
    have a1 := lt5 4550 (by norm_num)
    have a2 := lt5 4600 (by norm_num)
    have a3 := lt5 4950 (by norm_num)
    simp only [Lit, List.mem_cons, List.not_mem_nil, or_false, exists_eq_or_imp, exists_eq_left]
    rw [show (4550 : UInt32) = UInt32.ofNat 4550 from rfl, show (4600 : UInt32) = UInt32.ofNat 4600 from rfl,
      show (4950 : UInt32) = UInt32.ofNat 4950 from rfl]
    simp only [a1, a2, a3]
    split_ifs <;> simp <;> omega
  | flash4x =>
    refine ⟨_, rfl, ?_⟩
    have a1 := lt5 4550 (by norm_num)
    have a2 := lt5 4600 (by norm_num)
    have a3 := lt5 4950 (by norm_num)
    have a4 := lt5 3750 (by norm_num)
    have a5 := lt5 3800 (by norm_num)
    have a6 := lt5 4150 (by norm_num)
    have a7 := lt5 4200 (by norm_num)
    simp only [Lit, List.mem_cons, List.not_mem_nil, or_false, exists_eq_or_imp, exists_eq_left]
    rw [show (4550 : UInt32) = UInt32.ofNat 4550 from rfl, show (4600 : UInt32) = UInt32.ofNat 4600 from rfl,
      show (4950 : UInt32) = UInt32.ofNat 4950 from rfl, show (3750 : UInt32) = UInt32.ofNat 3750 from rfl,
      show (3800 : UInt32) = UInt32.ofNat 3800 from rfl, show (4150 : UInt32) = UInt32.ofNat 4150 from rfl,
      show (4200 : UInt32) = UInt32.ofNat 4200 from rfl]
    simp only [a1, a2, a3, a4, a5, a6, a7]
    split_ifs <;> simp <;> omega

/-- **C48** (finding: the single flash can be missed). The flash of `FLASH_1X_EVERY_5S` lasts 10 ms, but the LED is updated at most
every 25 ms: with updates exactly every 50 ms the LED is never lit, until the clock wraps after 71 minutes. -/
theorem C48_flash_missed (n : Nat) (h : 50000 * n < 2 ^ 32) : ledUpdate .flash1x (UInt32.ofNat (50000 * n)) = some false := by
  obtain ⟨b, hb, hlit⟩ := C48_pattern .flash1x (UInt32.ofNat (50000 * n))
  cases b with
  | false => exact hb
  | true =>
    obtain ⟨w, hw, h1, h2⟩ := hlit.1 rfl
    simp only [List.mem_cons, List.not_mem_nil, or_false] at hw
    subst hw
    simp only [UInt32.toNat_ofNat', Nat.mod_eq_of_lt h] at h1 h2
    omega

/-- Two updates are more than 25 ms apart (the LED runs in the 25 ms task), so the 50 ms rhythm above is a possible one: -/
example : (calls (List.map (· * 1000) (List.range 201)) Timers.init).count (some .t25ms) = 7 := by decide +kernel

/-- **C48** (finding: glitch). The patterns are functions of the 32-bit microsecond counter, whose wrap after 4294.967296 s is not
a multiple of the period: the 1 Hz blinking has one dark phase of only 467 ms there. -/
theorem C48_wrap_glitch : ledUpdate .blink1Hz (UInt32.ofNat (4294499 * 1000 + 999)) = some true ∧
    ledUpdate .blink1Hz (UInt32.ofNat (4294500 * 1000)) = some false ∧
    ledUpdate .blink1Hz (UInt32.ofNat (2 ^ 32 - 1)) = some false ∧ ledUpdate .blink1Hz (UInt32.ofNat (2 ^ 32)) = some true := by
  decide +kernel

end Verif.Main
