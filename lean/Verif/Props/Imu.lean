import Verif.Model.Imu
import Verif.Model.Pitch
import Verif.Props.Coord
import Verif.Lemmas.Strto
import Mathlib.Data.Int.Interval
import Mathlib.Order.Interval.Finset.Nat
import Mathlib.Algebra.BigOperators.Intervals
import Mathlib.Data.Nat.ModEq

/-!
# C55: accelerometer ring buffer, C56: pitch
-/

namespace Verif.Imu

open Finset

variable {K : Type} [Field K]

/-- The last `n` elements of a list, padded in front with `z` when there are fewer. -/
def lastN {α : Type} (n : Nat) (z : α) (l : List α) : List α := (List.replicate n z ++ l).drop l.length

/-- Sum of a list of vectors. -/
def vsum (l : List (K × K × K)) : K × K × K := ((l.map (·.1)).sum, (l.map (·.2.1)).sum, (l.map (·.2.2)).sum)

/-- Slot `j` of the ring holds `v`. -/
def Slot (m : Imu K) (j : Nat) (v : K × K × K) : Prop :=
  m.samples[3 * j]? = some v.1 ∧ m.samples[3 * j + 1]? = some v.2.1 ∧ m.samples[3 * j + 2]? = some v.2.2

/-- The ring after the samples `h`: element `k` of the padded history sits in slot `k % 50`. -/
structure Ring (h : List (K × K × K)) (m : Imu K) : Prop where
  len : m.samples.length = 150
  cnt : m.counter = h.length % 50
  slots : ∀ i < 50, ∀ v, (List.replicate 50 0 ++ h)[h.length + i]? = some v → Slot m ((h.length + i) % 50) v

theorem ring_init : Ring [] (init : Imu K) where
  len := by simp [init]
  cnt := rfl
  slots := by
    intro i hi v hv
    have hv' : v = 0 := by
      simp only [List.append_nil, List.length_nil, Nat.zero_add, List.getElem?_replicate, hi, if_true, Option.some.injEq] at hv
      exact hv.symm
    subst hv'
    simp only [List.length_nil, Nat.zero_add, Nat.mod_eq_of_lt hi]
    refine ⟨?_, ?_, ?_⟩ <;>
    · simp only [init, List.getElem?_replicate]
      rw [if_pos (by omega)]
      rfl

theorem ring_step {h : List (K × K × K)} {m : Imu K} (r : Ring h m) (v : K × K × K) :
    ∃ m', accSample m v = .ok m' ∧ Ring (h ++ [v]) m' ∧ m'.offset = m.offset := by
  have hc : m.counter < 50 := by rw [r.cnt]; exact Nat.mod_lt _ (by norm_num)
  refine ⟨{ m with samples := ((m.samples.set (m.counter * 3) v.1).set (m.counter * 3 + 1) v.2.1).set (m.counter * 3 + 2) v.2.2,
                   counter := (m.counter + 1) % ACC_FILTER_SAMPLES }, ?_, ⟨?_, ?_, ?_⟩, rfl⟩
  · unfold accSample put
    rw [if_pos (by rw [r.len]; omega), bind_ok, if_pos (by rw [List.length_set, r.len]; omega), bind_ok,
      if_pos (by rw [List.length_set, List.length_set, r.len]; omega), bind_ok]
    rfl
  · simp [r.len]
  · simp only [ACC_FILTER_SAMPLES, r.cnt, List.length_append, List.length_cons, List.length_nil]; omega
  · intro i hi u hu
    simp only [List.length_append, List.length_cons, List.length_nil, Nat.zero_add] at hu ⊢
    rw [← List.append_assoc] at hu
    unfold Slot
    by_cases hlast : i = 49
    · subst hlast
      have hu' : u = v := by
        rw [List.getElem?_append_right (by simp only [List.length_append, List.length_replicate]; omega)] at hu
        simp only [List.length_append, List.length_replicate] at hu
        rw [show h.length + 1 + 49 - (50 + h.length) = 0 by omega] at hu
        simpa using hu.symm
      subst hu'
      have hj : (h.length + 1 + 49) % 50 = m.counter := by rw [r.cnt]; omega
      rw [hj, Nat.mul_comm 3]
      refine ⟨?_, ?_, ?_⟩
      · rw [List.getElem?_set_ne (by omega), List.getElem?_set_ne (by omega), List.getElem?_set_self (by rw [r.len]; omega)]
      · rw [List.getElem?_set_ne (by omega), List.getElem?_set_self (by rw [List.length_set, r.len]; omega)]
      · rw [List.getElem?_set_self (by rw [List.length_set, List.length_set, r.len]; omega)]
    · have hi' : i + 1 < 50 := by omega
      rw [List.getElem?_append_left (by simp; omega)] at hu
      have hs := r.slots (i + 1) hi' u (by rw [show h.length + (i + 1) = h.length + 1 + i by omega]; exact hu)
      rw [show h.length + (i + 1) = h.length + 1 + i by omega] at hs
      have hne : (h.length + 1 + i) % 50 ≠ m.counter := by rw [r.cnt]; omega
      have hlt := Nat.mod_lt (h.length + 1 + i) (by norm_num : 50 > 0)
      obtain ⟨a, b, c⟩ := hs
      refine ⟨?_, ?_, ?_⟩
      · rw [List.getElem?_set_ne (by omega), List.getElem?_set_ne (by omega), List.getElem?_set_ne (by omega), a]
      · rw [List.getElem?_set_ne (by omega), List.getElem?_set_ne (by omega), List.getElem?_set_ne (by omega), b]
      · rw [List.getElem?_set_ne (by omega), List.getElem?_set_ne (by omega), List.getElem?_set_ne (by omega), c]

theorem ring_all (h : List (K × K × K)) {g : List (K × K × K)} {m : Imu K} (r : Ring g m) :
    ∃ m', sampleAll h m = .ok m' ∧ Ring (g ++ h) m' ∧ m'.offset = m.offset := by
  induction h generalizing g m with
  | nil => exact ⟨m, rfl, by simpa using r, rfl⟩
  | cons v vs ih =>
    obtain ⟨m1, e1, r1, o1⟩ := ring_step r v
    obtain ⟨m2, e2, r2, o2⟩ := ih r1
    refine ⟨m2, ?_, by simpa using r2, o2.trans o1⟩
    unfold sampleAll; rw [e1, bind_ok, e2]

/-- The loop adds up the slots. -/
theorem sumLoop_eq (m : Imu K) (f : Nat → K × K × K) (k : Nat) : ∀ (i : Nat) (acc : K × K × K),
    (∀ j, i ≤ j → j < i + k → Slot m j (f j)) →
    sumLoop m.samples i k acc = .ok (acc.1 + ∑ j ∈ Ico i (i + k), (f j).1, acc.2.1 + ∑ j ∈ Ico i (i + k), (f j).2.1,
      acc.2.2 + ∑ j ∈ Ico i (i + k), (f j).2.2) := by
  induction k with
  | zero => intro i acc _; simp [sumLoop]
  | succ k ih =>
    intro i acc hs
    have h0 := hs i le_rfl (by omega)
    have get_of : ∀ {n : Nat} {x : K}, m.samples[n]? = some x → get m.samples n = .ok x := by
      intro n x hx
      obtain ⟨hn, hx⟩ := List.getElem?_eq_some_iff.1 hx
      unfold get; rw [dif_pos hn, hx]
    unfold sumLoop
    rw [get_of h0.1, bind_ok, get_of h0.2.1, bind_ok, get_of h0.2.2, bind_ok, ih (i + 1) _ (fun j h1 h2 => hs j (by omega) (by omega))]
    rw [show i + (k + 1) = i + 1 + k by omega, Finset.sum_eq_sum_Ico_succ_bot (by omega : i < i + 1 + k),
      Finset.sum_eq_sum_Ico_succ_bot (by omega : i < i + 1 + k), Finset.sum_eq_sum_Ico_succ_bot (by omega : i < i + 1 + k)]
    simp only [add_assoc]

/-- A sum over 50 consecutive indices taken modulo 50 is the sum over the slots. -/
theorem sum_slots (n : Nat) (f : Nat → K) : ∑ i ∈ range 50, f ((n + i) % 50) = ∑ j ∈ Ico 0 50, f j := by
  have h := Nat.image_Ico_mod n 50
  have h2 : ∑ k ∈ Ico n (n + 50), f (k % 50) = ∑ j ∈ range 50, f j := by
    rw [← h, Finset.sum_image (fun a ha b hb hab => Nat.mod_injOn_Ico n 50 ha hb hab)]
  rw [Finset.sum_Ico_eq_sum_range, show n + 50 - n = 50 by omega] at h2
  rw [h2, Finset.range_eq_Ico]

theorem sum_getD (l : List K) : l.sum = ∑ i ∈ range l.length, l.getD i 0 := by
  induction l with
  | nil => simp
  | cons a l ih => rw [List.sum_cons, List.length_cons, Finset.sum_range_succ', ih]; simp [add_comm]

theorem lastN_length {α : Type} (n : Nat) (z : α) (l : List α) : (lastN n z l).length = n := by simp [lastN]

/-- The mean of a ring. -/
theorem mean_of_ring {h : List (K × K × K)} {m : Imu K} (r : Ring h m) :
    getMeanAcc m = .ok ((vsum (lastN 50 0 h)).1 / 50, (vsum (lastN 50 0 h)).2.1 / 50, (vsum (lastN 50 0 h)).2.2 / 50) := by
  -- the content of slot `j`
  let f : Nat → K × K × K := fun j => (m.samples.getD (3 * j) 0, m.samples.getD (3 * j + 1) 0, m.samples.getD (3 * j + 2) 0)
  have hf : ∀ j v, Slot m j v → f j = v := by
    rintro j ⟨a, b, c⟩ ⟨h1, h2, h3⟩
    simp only [f, List.getD_eq_getElem?_getD, h1, h2, h3, Option.getD_some]
  have hslot : ∀ j, 0 ≤ j → j < 0 + 50 → Slot m j (f j) := by
    intro j _ hj
    have g : ∀ n, n < 150 → m.samples[n]? = some (m.samples.getD n 0) := by
      intro n hn
      rw [List.getD_eq_getElem?_getD, List.getElem?_eq_getElem (by rw [r.len]; exact hn), Option.getD_some]
    exact ⟨g _ (by omega), g _ (by omega), g _ (by omega)⟩
  have hlast : ∀ i, i < 50 → f ((h.length + i) % 50) = (lastN 50 0 h).getD i 0 := by
    intro i hi
    apply hf
    apply r.slots i hi
    unfold lastN
    rw [List.getD_eq_getElem?_getD, List.getElem?_drop, List.getElem?_eq_getElem (by simp; omega), Option.getD_some]
  have key : ∀ (p : K × K × K → K), p 0 = 0 → ((lastN 50 0 h).map p).sum = ∑ j ∈ Ico 0 50, p (f j) := by
    intro p hp
    rw [sum_getD, List.length_map, lastN_length, ← sum_slots h.length (fun j => p (f j))]
    apply Finset.sum_congr rfl
    intro i hi
    rw [hlast i (mem_range.1 hi)]
    simp only [List.getD_eq_getElem?_getD, List.getElem?_map]
    cases (lastN 50 0 h)[i]? <;> simp [hp]
  unfold getMeanAcc meanVec3
  rw [show ACC_FILTER_SAMPLES = 50 from rfl, sumLoop_eq m f 50 0 _ hslot, bind_ok]
  simp only [vsum]
  rw [key (·.1) rfl, key (·.2.1) rfl, key (·.2.2) rfl]
  simp [pure_ok]

/-- **C55** For every sequence of samples since power-up, the filtered acceleration is the arithmetic mean of the last 50 samples,
missing ones counting as zero; no access is out of bounds. -/
theorem C55_mean (h : List (K × K × K)) : ∃ m, sampleAll h (init : Imu K) = .ok m ∧
    getMeanAcc m = .ok ((vsum (lastN 50 0 h)).1 / 50, (vsum (lastN 50 0 h)).2.1 / 50, (vsum (lastN 50 0 h)).2.2 / 50) := by
  obtain ⟨m, e, r, -⟩ := ring_all h (ring_init (K := K))
  exact ⟨m, e, mean_of_ring r⟩

/-- With 50 or more samples the padding is gone: the last 50 samples themselves. -/
theorem lastN_full {α : Type} (n : Nat) (z : α) (l : List α) (h : n ≤ l.length) : lastN n z l = l.drop (l.length - n) := by
  unfold lastN
  rw [List.drop_append, List.drop_of_length_le (by simpa using h)]
  simp

/-- **C55** (full ring) after at least 50 samples. -/
theorem C55_mean_full (h : List (K × K × K)) (hn : 50 ≤ h.length) : ∃ m, sampleAll h (init : Imu K) = .ok m ∧
    getMeanAcc m = .ok ((vsum (h.drop (h.length - 50))).1 / 50, (vsum (h.drop (h.length - 50))).2.1 / 50,
      (vsum (h.drop (h.length - 50))).2.2 / 50) := by
  have := C55_mean h
  rwa [lastN_full 50 0 h hn] at this

/-- A resting sensor: after 50 or more equal samples the mean is the sample; after only ten it is a fifth of it. -/
example : (do let m ← sampleAll (List.replicate 73 ((1 : ℚ), 2, 3)) init; getMeanAcc m) = .ok (1, 2, 3) ∧
    (do let m ← sampleAll (List.replicate 10 ((1 : ℚ), 2, 3)) init; getMeanAcc m) = .ok (1 / 5, 2 / 5, 3 / 5) := by
  constructor <;> decide +kernel

/-! ### C56 -/

open Coord Real in
/-- **C56** If the telescope rests at pitch `p` (between -180 exclusive and 180 degrees), so that the sensor has for the last 50 samples
seen gravity `g > 0` in the directions `sin p`, `cos p` (and any component along the axis), plus the constant offsets of the sensor, then
the computed pitch is exactly `p`, whatever was measured before. -/
theorem C56_pitch (h : List (ℝ × ℝ × ℝ)) (g p z : ℝ) (hg : 0 < g) (hp : -180 < p ∧ p ≤ 180) (n : Nat) (hn : 50 ≤ n) :
    ∃ m a, sampleAll (h ++ List.replicate n (g * sin (rad p), g * cos (rad p) + 0.19, z)) (setCalibration init) = .ok m ∧
      getMeanAcc m = .ok a ∧ pitch (calibrate m a) = p := by
  have r0 : Ring [] (setCalibration init : Imu ℝ) := ⟨ring_init.len, ring_init.cnt, ring_init.slots⟩
  set v : ℝ × ℝ × ℝ := (g * sin (rad p), g * cos (rad p) + 0.19, z) with hv
  obtain ⟨m, e, r, ho⟩ := ring_all (h ++ List.replicate n v) r0
  refine ⟨m, _, e, mean_of_ring r, ?_⟩
  have hl : lastN 50 0 ([] ++ (h ++ List.replicate n v)) = List.replicate 50 v := by
    rw [List.nil_append, lastN_full _ _ _ (by simp; omega), List.length_append, List.length_replicate, List.drop_append,
      List.drop_of_length_le (by omega), List.nil_append, List.drop_replicate]
    congr 1; omega
  have h1 : (vsum (List.replicate 50 v)).1 / 50 = g * sin (rad p) := by
    simp only [vsum, List.map_replicate, List.sum_replicate, hv, nsmul_eq_mul]; push_cast; ring
  have h2 : (vsum (List.replicate 50 v)).2.1 / 50 = g * cos (rad p) + 0.19 := by
    simp only [vsum, List.map_replicate, List.sum_replicate, hv, nsmul_eq_mul]; push_cast; ring
  rw [hl, h1, h2]
  have hpos := pi_pos
  have hr : rad p ∈ Set.Ioc (-π) π := by
    constructor
    · unfold rad; rw [lt_div_iff₀ (by norm_num)]; nlinarith [hp.1]
    · unfold rad; rw [div_le_iff₀ (by norm_num)]; nlinarith [hp.2]
  have harg := Complex.arg_mul_cos_add_sin_mul_I hg hr
  have hc : ((g : ℂ) * (Complex.cos (rad p) + Complex.sin (rad p) * Complex.I)) = ⟨g * cos (rad p), g * sin (rad p)⟩ := by
    apply Complex.ext <;> simp [← Complex.ofReal_cos, ← Complex.ofReal_sin]
  rw [hc] at harg
  unfold pitch calibrate
  rw [ho]
  simp only [setCalibration, sub_zero, add_sub_cancel_right]
  unfold atan2
  rw [harg]
  exact deg_rad p

/-- A telescope at 30 degrees, arbitrary samples before. -/
example : ∃ m a, sampleAll ([(1, 2, 3), (4, 5, 6)] ++ List.replicate 50 (9.81 * Real.sin (Coord.rad 30), 9.81 * Real.cos (Coord.rad 30) + 0.19, 0))
    (setCalibration init) = .ok m ∧ getMeanAcc m = .ok a ∧ pitch (calibrate m a) = 30 :=
  C56_pitch _ 9.81 30 0 (by norm_num) (by norm_num) 50 le_rfl

end Verif.Imu
