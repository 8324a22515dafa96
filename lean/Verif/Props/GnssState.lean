import Verif.Props.GnssFrame

/-!
# GNSS state changes and the serial buffer (C15, C17, C20, C21)
-/

namespace Verif.Nmea
open Verif Verif.Spec

/-! ## C15: rejected input changes nothing -/

/-- **C15** `fromRMC` -/
theorem C15_rmc (P : Platform) (g g' : Gnss) (s : List UInt8) (h : fromRMC P g s = .ok (false, g')) : g' = g := by
  unfold fromRMC at h
  obtain ⟨ok, _, h⟩ := bind_eq_ok.1 h
  split at h
  · split at h
    · simp [pure_ok] at h; exact h.symm
    · obtain ⟨_, _, h⟩ := bind_eq_ok.1 h
      simp [pure_ok] at h
  · simp [pure_ok] at h; exact h.symm

/-- **C15** `fromGGA` -/
theorem C15_gga (P : Platform) (g g' : Gnss) (s : List UInt8) (h : fromGGA P g s = .ok (false, g')) : g' = g := by
  unfold fromGGA at h
  obtain ⟨ok, _, h⟩ := bind_eq_ok.1 h
  split at h
  · split at h
    · simp [pure_ok] at h; exact h.symm
    · obtain ⟨_, _, h⟩ := bind_eq_ok.1 h
      simp [pure_ok] at h
  · simp [pure_ok] at h; exact h.symm

/-- **C15** `fromGSV` -/
theorem C15_gsv (P : Platform) (g g' : Gnss) (s : List UInt8) (h : fromGSV P g s = .ok (false, g')) : g' = g := by
  unfold fromGSV at h
  obtain ⟨ok, _, h⟩ := bind_eq_ok.1 h
  split at h
  · split at h
    · simp [pure_ok] at h; exact h.symm
    · obtain ⟨_, _, h⟩ := bind_eq_ok.1 h
      simp [pure_ok] at h
  · simp [pure_ok] at h; exact h.symm

/-- **C15** `fromNMEA` -/
theorem C15_nmea (P : Platform) (g g' : Gnss) (s : List UInt8) (h : fromNMEA P g s = .ok (false, g')) : g' = g := by
  unfold fromNMEA at h
  split at h
  · exact C15_rmc P g g' s h
  · split at h
    · exact C15_gga P g g' s h
    · split at h
      · exact C15_gsv P g g' s h
      · simp at h; exact h.symm

theorem loop_count_le (P : Platform) (s : List UInt8) (fuel e n : Nat) (g : Gnss) (m : Nat) (g' : Gnss)
    (h : fromBufferLoop P s fuel e n g = .ok (some (m, g'))) : n ≤ m ∧ (m = n → g' = g) := by
  induction fuel generalizing e n g with
  | zero => simp [fromBufferLoop] at h
  | succ f ih =>
    unfold fromBufferLoop at h
    split at h
    · obtain ⟨⟨ok, g1⟩, h1, h2⟩ := bind_eq_ok.1 h
      have := ih _ _ _ h2
      cases ok with
      | true =>
        simp only [if_true] at this
        exact ⟨by omega, fun e => by omega⟩
      | false =>
        simp only [Bool.false_eq_true, if_false] at this
        rw [C15_nmea P g g1 _ h1] at this
        exact this
    · simp at h
      obtain ⟨rfl, rfl⟩ := h
      exact ⟨le_rfl, fun _ => rfl⟩

/-- **C15** `fromBuffer`: a return value of 0 means that no field changed. -/
theorem C15_buffer (P : Platform) (g g' : Gnss) (s : List UInt8) (h : fromBuffer P g s = .ok (some (0, g'))) : g' = g :=
  (loop_count_le P s _ 0 0 g 0 g' h).2 rfl

/-- A sentence with a wrong checksum, a sentence of another type, and noise are such inputs. -/
example : fromNMEA .esp32 (.init 1 2) (ascii "$GPRMC,092725.00,A*00") = .ok (false, .init 1 2) ∧
    fromNMEA .esp32 (.init 1 2) (ascii "$GPVTG,,*00") = .ok (false, .init 1 2) ∧
    fromBuffer .native (.init 1 2) (ascii "xx$GPRMC,092725.00,A*00\n$\n\n") = .ok (some (0, .init 1 2)) := by decide +kernel

/-! ## C17: no fix keeps the last position -/

theorem updateAngle_no_fix {pos : Bool} {raw old v : ℚ} (h : updateAngle false pos raw old = .ok v) : v = old := by
  simp [updateAngle] at h; exact h.symm

theorem rmcBody_no_fix (P : Platform) (g g' : Gnss) (p : Ptr) (h : rmcBody P g p = .ok g') (hv : g'.valid = false) :
    g'.latitude = g.latitude ∧ g'.longitude = g.longitude := by
  unfold rmcBody at h
  obtain ⟨⟨_, _⟩, _, h⟩ := bind_eq_ok.1 h
  obtain ⟨⟨_, _, _⟩, _, h⟩ := bind_eq_ok.1 h
  obtain ⟨_, _, h⟩ := bind_eq_ok.1 h
  obtain ⟨_, _, h⟩ := bind_eq_ok.1 h
  obtain ⟨⟨_, _⟩, _, h⟩ := bind_eq_ok.1 h
  obtain ⟨_, _, h⟩ := bind_eq_ok.1 h
  obtain ⟨lat, hlat, h⟩ := bind_eq_ok.1 h
  obtain ⟨_, _, h⟩ := bind_eq_ok.1 h
  obtain ⟨⟨_, _⟩, _, h⟩ := bind_eq_ok.1 h
  obtain ⟨_, _, h⟩ := bind_eq_ok.1 h
  obtain ⟨lon, hlon, h⟩ := bind_eq_ok.1 h
  obtain ⟨_, _, h⟩ := bind_eq_ok.1 h
  obtain ⟨⟨_, _⟩, _, h⟩ := bind_eq_ok.1 h
  obtain ⟨_, _, h⟩ := bind_eq_ok.1 h
  obtain ⟨⟨_, _⟩, _, h⟩ := bind_eq_ok.1 h
  obtain ⟨⟨_, _⟩, _, h⟩ := bind_eq_ok.1 h
  obtain ⟨⟨_, _, _⟩, _, h⟩ := bind_eq_ok.1 h
  simp only [pure_ok, Except.ok.injEq] at h
  subst h
  simp only at hv hlat hlon ⊢
  rw [hv] at hlat hlon
  exact ⟨updateAngle_no_fix hlat, updateAngle_no_fix hlon⟩

theorem ggaBody_no_fix (P : Platform) (g g' : Gnss) (p : Ptr) (h : ggaBody P g p = .ok g') (hv : g'.valid = false) :
    g'.latitude = g.latitude ∧ g'.longitude = g.longitude := by
  unfold ggaBody at h
  obtain ⟨⟨_, _⟩, _, h⟩ := bind_eq_ok.1 h
  obtain ⟨⟨_, _, _⟩, _, h⟩ := bind_eq_ok.1 h
  obtain ⟨⟨_, _⟩, _, h⟩ := bind_eq_ok.1 h
  obtain ⟨_, _, h⟩ := bind_eq_ok.1 h
  obtain ⟨_, _, h⟩ := bind_eq_ok.1 h
  obtain ⟨⟨_, _⟩, _, h⟩ := bind_eq_ok.1 h
  obtain ⟨_, _, h⟩ := bind_eq_ok.1 h
  obtain ⟨_, _, h⟩ := bind_eq_ok.1 h
  obtain ⟨⟨_, _⟩, _, h⟩ := bind_eq_ok.1 h
  obtain ⟨lat, hlat, h⟩ := bind_eq_ok.1 h
  obtain ⟨lon, hlon, h⟩ := bind_eq_ok.1 h
  obtain ⟨⟨_, _⟩, _, h⟩ := bind_eq_ok.1 h
  obtain ⟨⟨_, _⟩, _, h⟩ := bind_eq_ok.1 h
  obtain ⟨⟨_, _⟩, _, h⟩ := bind_eq_ok.1 h
  simp only [pure_ok, Except.ok.injEq] at h
  subst h
  simp only at hv hlat hlon ⊢
  rw [hv] at hlat hlon
  exact ⟨updateAngle_no_fix hlat, updateAngle_no_fix hlon⟩

/-- **C17** Whatever bytes are fed to `fromNMEA`: if the state afterwards has no valid fix, latitude and longitude are those
from before. -/
theorem C17_no_fix_keeps_position (P : Platform) (g g' : Gnss) (s : List UInt8) (r : Bool)
    (h : fromNMEA P g s = .ok (r, g')) (hv : g'.valid = false) :
    g'.latitude = g.latitude ∧ g'.longitude = g.longitude := by
  cases r with
  | false => rw [C15_nmea P g g' s h]; exact ⟨rfl, rfl⟩
  | true =>
    unfold fromNMEA at h
    split at h
    · unfold fromRMC at h
      obtain ⟨ok, _, h⟩ := bind_eq_ok.1 h
      split at h
      · split at h
        · simp [pure_ok] at h
        · obtain ⟨g1, h1, h⟩ := bind_eq_ok.1 h
          simp [pure_ok] at h
          subst h
          exact rmcBody_no_fix P g _ _ h1 hv
      · simp [pure_ok] at h
    · split at h
      · unfold fromGGA at h
        obtain ⟨ok, _, h⟩ := bind_eq_ok.1 h
        split at h
        · split at h
          · simp [pure_ok] at h
          · obtain ⟨g1, h1, h⟩ := bind_eq_ok.1 h
            simp [pure_ok] at h
            subst h
            exact ggaBody_no_fix P g _ _ h1 hv
        · simp [pure_ok] at h
      · split at h
        · unfold fromGSV at h
          obtain ⟨ok, _, h⟩ := bind_eq_ok.1 h
          split at h
          · split at h
            · simp [pure_ok] at h
            · obtain ⟨g1, h1, h⟩ := bind_eq_ok.1 h
              simp [pure_ok] at h
              subst h
              unfold gsvBody at h1
              obtain ⟨⟨_, _⟩, _, h1⟩ := bind_eq_ok.1 h1
              obtain ⟨⟨_, _⟩, _, h1⟩ := bind_eq_ok.1 h1
              obtain ⟨⟨_, _⟩, _, h1⟩ := bind_eq_ok.1 h1
              simp only [pure_ok, Except.ok.injEq] at h1
              subst h1
              exact ⟨rfl, rfl⟩
          · simp [pure_ok] at h
        · simp at h

/-! ## C20, C21: the serial buffer -/

/-- **C21** `fromBuffer` terminates on every input: the loop never needs more than `length + 1` iterations. -/
theorem C21_terminates (P : Platform) (g : Gnss) (s : List UInt8) : fromBuffer P g s ≠ .ok none := by
  have gen : ∀ (fuel e n : Nat) (g : Gnss), s.length + 1 ≤ fuel + e → 0 < fuel → fromBufferLoop P s fuel e n g ≠ .ok none := by
    intro fuel
    induction fuel with
    | zero => intro e n g _ h; omega
    | succ f ih =>
      intro e n g hf _ h
      unfold fromBufferLoop at h
      split at h
      · rename_i a b ha hb
        obtain ⟨⟨ok, g1⟩, h1, h2⟩ := bind_eq_ok.1 h
        obtain ⟨l1, l2, _⟩ := findFrom_some hb
        exact ih _ _ _ (by omega) (by omega) h2
      · simp at h
  exact gen _ 0 0 g (by omega) (by omega)

theorem substr_infix (s : List UInt8) (a b : Nat) : substr s a b <:+: s := by
  unfold substr
  simp only
  split
  · exact (List.drop_suffix _ _).isInfix
  · exact (List.take_prefix _ _).isInfix.trans (List.drop_suffix _ _).isInfix

/-- **C21** The result of `fromBuffer` is that of feeding a list of substrings of the buffer to `fromNMEA`, and the returned
count is the number of accepted ones and at most the number of newline characters. -/
theorem C21_effects (P : Platform) (g g' : Gnss) (s : List UInt8) (n : Nat) (h : fromBuffer P g s = .ok (some (n, g'))) :
    n ≤ s.count 10 ∧ ∃ subs : List (List UInt8), (∀ l ∈ subs, l <:+: s) ∧ subs.length ≤ s.count 10 ∧
      runLines P g subs = .ok (n, g') := by
  have gen : ∀ (fuel e k : Nat) (g : Gnss) (m : Nat), fromBufferLoop P s fuel e k g = .ok (some (m, g')) →
      ∃ subs : List (List UInt8), (∀ l ∈ subs, l <:+: s) ∧ subs.length ≤ (s.drop (e + 1)).count 10 ∧ k ≤ m ∧
        runLines P g subs = .ok (m - k, g') := by
    intro fuel
    induction fuel with
    | zero => intro e k g m h; simp [fromBufferLoop] at h
    | succ f ih =>
      intro e k g m h
      unfold fromBufferLoop at h
      split at h
      · rename_i a b ha hb
        obtain ⟨⟨ok, g1⟩, h1, h2⟩ := bind_eq_ok.1 h
        obtain ⟨l1, l2, _, l3⟩ := findFrom_some hb
        obtain ⟨subs, i1, i2, i3, i4⟩ := ih _ _ _ _ h2
        have hk : (if ok then k + 1 else k) = k + (if ok then 1 else 0) := by split <;> rfl
        rw [hk] at i3 i4
        refine ⟨substr s a b :: subs, ?_, by simp; omega, by omega, ?_⟩
        · intro l hl
          rcases List.mem_cons.1 hl with rfl | hl
          · exact substr_infix _ _ _
          · exact i1 l hl
        · unfold runLines
          rw [h1, bind_ok]
          simp only
          rw [i4, bind_ok]
          simp only [pure_ok]
          congr 2
          cases ok <;> simp at i3 ⊢; omega
      · simp at h
        obtain ⟨rfl, rfl⟩ := h
        exact ⟨[], by simp, by simp, le_rfl, by simp [runLines]⟩
  obtain ⟨subs, h1, h2, h3, h4⟩ := gen _ _ _ _ _ h
  have hle : (s.drop (0 + 1)).count 10 ≤ s.count 10 := (List.drop_sublist _ _).count_le _
  have hlen : ∀ (ls : List (List UInt8)) (g g' : Gnss) (m : Nat), runLines P g ls = .ok (m, g') → m ≤ ls.length := by
    intro ls
    induction ls with
    | nil => intro g g' m h; simp [runLines] at h; omega
    | cons l ls ih =>
      intro g g' m h
      unfold runLines at h
      obtain ⟨⟨ok, g1⟩, _, h⟩ := bind_eq_ok.1 h
      obtain ⟨⟨k, g2⟩, h2, h⟩ := bind_eq_ok.1 h
      have := ih _ _ _ h2
      simp [pure_ok] at h
      have h1 := h.1
      simp only [List.length_cons]
      split at h1 <;> omega
  have := hlen _ _ _ _ h4
  exact ⟨by omega, subs, h1, by omega, by simpa using h4⟩

/-- Body of the loop lemma: from a newline at `endPos` on, complete lines are processed one by one. -/
theorem loop_lines (P : Platform) (tail : List UInt8) (ht : 10 ∉ tail) (bodies : List (List UInt8))
    (hb : ∀ b ∈ bodies, 10 ∉ b) (pre : List UInt8) (fuel k : Nat) (g : Gnss) (hf : bodies.length < fuel) :
    fromBufferLoop P (pre ++ [10] ++ ((bodies.map fun b => [36] ++ b ++ [10]).flatten ++ tail)) fuel pre.length k g =
      (do
        let (n, g') ← runLines P g (bodies.map fun b => [36] ++ b ++ [10])
        return some (k + n, g')) := by
  induction bodies generalizing pre fuel k g with
  | nil =>
    obtain ⟨f, rfl⟩ : ∃ f, fuel = f + 1 := ⟨fuel - 1, by simp at hf; omega⟩
    have h10 : findFrom [10] (pre ++ [10] ++ (([] : List (List UInt8)).flatten ++ tail)) (pre.length + 1) = none := by
      apply findFrom_none
      rw [List.drop_append_of_le_length (by simp), List.drop_of_length_le (by simp)]
      simpa using ht
    unfold fromBufferLoop
    simp only [List.map_nil]
    rw [h10]
    simp [runLines, bind_ok, pure_ok]
  | cons b bs ih =>
    obtain ⟨f, rfl⟩ : ∃ f, fuel = f + 1 := ⟨fuel - 1, by simp at hf; omega⟩
    have hb1 : 10 ∉ b := hb b (by simp)
    generalize hrest : (bs.map fun b => [36] ++ b ++ [10]).flatten ++ tail = rest
    have hs : pre ++ [10] ++ (((b :: bs).map fun b => [36] ++ b ++ [10]).flatten ++ tail) =
        pre ++ [10] ++ ([36] ++ b ++ [10] ++ rest) := by
      rw [← hrest]; simp
    have h36 : findFrom [36] (pre ++ [10] ++ ([36] ++ b ++ [10] ++ rest)) pre.length = some (pre.length + 1) := by
      have := findFrom_single (c := 36) (p := pre) (a := [10]) (b := b ++ [10] ++ rest) rfl (by decide)
      simpa using this
    have h10 : findFrom [10] (pre ++ [10] ++ ([36] ++ b ++ [10] ++ rest)) (pre.length + 1) =
        some (pre.length + 1 + (b.length + 1)) := by
      have := findFrom_single (c := 10) (p := pre ++ [10]) (a := [36] ++ b) (b := rest) (n := pre.length + 1)
        (by simp) (by simp [hb1])
      simpa [Nat.add_comm, Nat.add_left_comm] using this
    have hsub : substr (pre ++ [10] ++ ([36] ++ b ++ [10] ++ rest)) (pre.length + 1) (pre.length + 1 + (b.length + 1)) =
        [36] ++ b ++ [10] := by
      unfold substr
      simp only
      rw [if_neg (by omega), List.drop_append_of_le_length (by simp), List.drop_of_length_le (by simp)]
      have : ((((pre.length + 1 + (b.length + 1) : Nat) : ℤ) - ((pre.length + 1 : Nat) : ℤ) + 1).toNat) = ([36] ++ b ++ [10]).length := by
        simp; omega
      rw [this, List.nil_append, List.take_left]
    rw [hs]
    unfold fromBufferLoop
    rw [h36, h10]
    simp only
    rw [hsub]
    simp only [List.map_cons, runLines]
    cases hn : fromNMEA P g ([36] ++ b ++ [10]) with
    | error e => rfl
    | ok r =>
      obtain ⟨ok, g1⟩ := r
      rw [bind_ok, bind_ok]
      simp only
      have := ih (fun c hc => hb c (by simp [hc])) (pre ++ [10] ++ [36] ++ b) f (if ok = true then k + 1 else k) g1
        (by simp at hf; omega)
      rw [hrest] at this
      have e1 : pre ++ [10] ++ [36] ++ b ++ [10] ++ rest = pre ++ [10] ++ ([36] ++ b ++ [10] ++ rest) := by simp
      have e2 : (pre ++ [10] ++ [36] ++ b).length = pre.length + 1 + (b.length + 1) := by simp; omega
      rw [e1, e2] at this
      rw [this]
      cases runLines P g1 (bs.map fun b => [36] ++ b ++ [10]) with
      | error e => rfl
      | ok r =>
        obtain ⟨n, g2⟩ := r
        simp only [bind_ok, pure_ok]
        congr 3
        split <;> omega

/-- **C20** For a buffer of complete `$…\n` lines followed by an incomplete tail, `fromBuffer` has exactly the effect of
feeding the lines in order to `fromNMEA`, and returns the number of accepted lines. -/
theorem C20_lines (P : Platform) (g : Gnss) (bodies : List (List UInt8)) (hb : ∀ b ∈ bodies, 10 ∉ b) (tail : List UInt8)
    (ht : 10 ∉ tail) :
    fromBuffer P g ((bodies.map fun b => [36] ++ b ++ [10]).flatten ++ tail) =
      (runLines P g (bodies.map fun b => [36] ++ b ++ [10])).map some := by
  cases bodies with
  | nil =>
    unfold fromBuffer fromBufferLoop
    have : findFrom [10] ((([] : List (List UInt8)).map fun b => [36] ++ b ++ [10]).flatten ++ tail) (0 + 1) = none :=
      findFrom_none (by
        simp only [List.map_nil, List.flatten_nil, List.nil_append]
        exact fun h => ht (List.mem_of_mem_drop h))
    rw [this]
    simp [runLines, Except.map]
  | cons b bs =>
    have hb1 : 10 ∉ b := hb b (by simp)
    generalize hrest : (bs.map fun b => [36] ++ b ++ [10]).flatten ++ tail = rest
    have hs : ((b :: bs).map fun b => [36] ++ b ++ [10]).flatten ++ tail = [36] ++ b ++ [10] ++ rest := by
      rw [← hrest]; simp
    have h36 : findFrom [36] ([36] ++ b ++ [10] ++ rest) 0 = some 0 := by
      have := findFrom_single (c := 36) (p := []) (a := []) (b := b ++ [10] ++ rest) rfl (by decide)
      simpa using this
    have h10 : findFrom [10] ([36] ++ b ++ [10] ++ rest) (0 + 1) = some (b.length + 1) := by
      have := findFrom_single (c := 10) (p := [36]) (a := b) (b := rest) (n := 1) (by simp) hb1
      simpa [Nat.add_comm] using this
    have hsub : substr ([36] ++ b ++ [10] ++ rest) 0 (b.length + 1) = [36] ++ b ++ [10] := by
      unfold substr
      simp only
      rw [if_neg (by omega), List.drop_zero]
      have : ((((b.length + 1 : Nat) : ℤ) - ((0 : Nat) : ℤ) + 1).toNat) = ([36] ++ b ++ [10]).length := by simp; omega
      rw [this, List.take_left]
    have hlen : bs.length < ([36] ++ b ++ [10] ++ rest).length := by
      have : ∀ l : List (List UInt8), l.length ≤ ((l.map fun b => [36] ++ b ++ [10]).flatten).length := by
        intro l
        induction l with
        | nil => simp
        | cons x t ih => simp at ih ⊢; omega
      have h1 := this bs
      rw [← hrest]
      simp only [List.length_append, List.length_cons, List.length_nil] at h1 ⊢
      omega
    rw [hs]
    unfold fromBuffer fromBufferLoop
    rw [h36, h10]
    simp only
    rw [hsub]
    simp only [List.map_cons, runLines]
    cases hn : fromNMEA P g ([36] ++ b ++ [10]) with
    | error e => rfl
    | ok r =>
      obtain ⟨ok, g1⟩ := r
      rw [bind_ok, bind_ok]
      simp only
      have := loop_lines P tail ht bs (fun c hc => hb c (by simp [hc])) ([36] ++ b)
        ([36] ++ b ++ [10] ++ rest).length (if ok = true then 0 + 1 else 0) g1 hlen
      rw [hrest] at this
      have e2 : ([36] ++ b).length = b.length + 1 := by simp
      rw [e2] at this
      rw [this]
      cases runLines P g1 (bs.map fun b => [36] ++ b ++ [10]) with
      | error e => rfl
      | ok r =>
        obtain ⟨n, g2⟩ := r
        simp only [bind_ok, pure_ok, Except.map]

/-- **C20** The end of a line whose beginning was lost (no `$` in it) is skipped: the following lines are processed as if it
were absent. -/
theorem C20_leading_fragment (P : Platform) (g : Gnss) (frag : List UInt8) (h36f : 36 ∉ frag) (h10f : 10 ∉ frag)
    (bodies : List (List UInt8)) (hne : bodies ≠ []) (hb : ∀ b ∈ bodies, 10 ∉ b) (tail : List UInt8) (ht : 10 ∉ tail) :
    fromBuffer P g (frag ++ [10] ++ ((bodies.map fun b => [36] ++ b ++ [10]).flatten ++ tail)) =
      fromBuffer P g ((bodies.map fun b => [36] ++ b ++ [10]).flatten ++ tail) := by
  have hlen : ∀ l : List (List UInt8), l.length ≤ ((l.map fun b => [36] ++ b ++ [10]).flatten).length := by
    intro l
    induction l with
    | nil => simp
    | cons x t ih => simp at ih ⊢; omega
  have hlen' := hlen bodies
  rw [C20_lines P g bodies hb tail ht]
  have fin : (do let (n, g') ← runLines P g (bodies.map fun b => [36] ++ b ++ [10]); return some (0 + n, g')) =
      (runLines P g (bodies.map fun b => [36] ++ b ++ [10])).map some := by
    cases runLines P g (bodies.map fun b => [36] ++ b ++ [10]) with
    | error e => rfl
    | ok r => obtain ⟨n, g2⟩ := r; simp [bind_ok, pure_ok, Except.map]
  rw [← fin]
  cases frag with
  | nil =>
    exact loop_lines P tail ht bodies hb [] ([] ++ [10] ++ ((bodies.map fun b => [36] ++ b ++ [10]).flatten ++ tail)).length.succ 0 g
      (by simp only [List.length_append] at hlen' ⊢; omega)
  | cons x f =>
    have hl := loop_lines P tail ht bodies hb (x :: f)
      ((x :: f) ++ [10] ++ ((bodies.map fun b => [36] ++ b ++ [10]).flatten ++ tail)).length 0 g
      (by simp only [List.length_append, List.length_cons] at hlen' ⊢; omega)
    rw [← hl]
    obtain ⟨rest, hrest⟩ : ∃ rest, (bodies.map fun b => [36] ++ b ++ [10]).flatten ++ tail = [36] ++ rest := by
      cases bodies with
      | nil => exact absurd rfl hne
      | cons b bs => exact ⟨b ++ [10] ++ ((bs.map fun b => [36] ++ b ++ [10]).flatten ++ tail), by simp⟩
    rw [hrest]
    have e36 : findFrom [36] ((x :: f) ++ [10] ++ ([36] ++ rest)) 0 = some ((x :: f).length + 1) := by
      have := findFrom_single (c := 36) (p := []) (a := (x :: f) ++ [10]) (b := rest) rfl (by simp at h36f ⊢; exact h36f)
      simpa using this
    have e10 : findFrom [10] ((x :: f) ++ [10] ++ ([36] ++ rest)) (0 + 1) = some (x :: f).length := by
      have := findFrom_single (c := 10) (p := [x]) (a := f) (b := [36] ++ rest) (n := 1) rfl (by simp at h10f; exact h10f.2)
      simpa [Nat.add_comm] using this
    have esub : substr ((x :: f) ++ [10] ++ ([36] ++ rest)) ((x :: f).length + 1) (x :: f).length = [] := by
      unfold substr
      simp only
      rw [if_neg (by omega)]
      have : ((((x :: f).length : Nat) : ℤ) - (((x :: f).length + 1 : Nat) : ℤ) + 1).toNat = 0 := by omega
      rw [this, List.take_zero]
    have enil : fromNMEA P g [] = .ok (false, g) := rfl
    conv_lhs => unfold fromBuffer fromBufferLoop
    rw [e36, e10]
    simp only
    rw [esub, enil, bind_ok]
    simp

/-- A valid RMC line, a line with a wrong checksum and a valid GGA line behind a fragment, and an incomplete tail: two
sentences accepted. -/
example : (fromBuffer .esp32 (.init 0 0) (ascii "7,E,x*11\r\n$GPRMC,092725.00,A,4717.0,N,00833.0,E,0,0,070819,,*32\r\n$GPGGA,1*00\r\n$GPGGA,092726.00,4718.0,N,00833.0,E,1,08,1.0,499.6,M,,*3E\r\n$GPRMC,09")).map
      (·.map fun r => (r.1, r.2.utc, r.2.satUsed)) = .ok (some (2, ⟨26, 27, 9, 7, 8, 2019⟩, 8)) := by decide +kernel

/-- **C21** (finding) Two junk lines in front make `fromBuffer` hand everything from the first `$` to the end of the buffer to
`fromNMEA`: the checksum of the first sentence is then used to accept the second one, whose own checksum is wrong (the date
7 Aug 2019 is taken from it).  Without the junk lines that sentence is rejected. -/
theorem C21_junk_lines_bypass_checksum :
    let good := ascii "$GPGGA,092726.00,4718.0,N,00833.0,E,1,08,1.0,499.6,M,,*3E\n"
    let bad := ascii "$GPRMC,092725.00,A,1100.0,N,02200.0,E,0,0,070819,,*00\n"
    (fromNMEA .esp32 (.init 0 0) bad = .ok (false, .init 0 0)) ∧
    (fromBuffer .esp32 (.init 0 0) (good ++ bad)).map (·.map fun r => (r.1, r.2.utc)) =
      .ok (some (1, ⟨26, 27, 9, 0, 0, 0⟩)) ∧
    (fromBuffer .esp32 (.init 0 0) (ascii "a\nb\n" ++ good ++ bad)).map (·.map fun r => (r.1, r.2.utc)) =
      .ok (some (2, ⟨26, 27, 9, 7, 8, 2019⟩)) := by decide +kernel

end Verif.Nmea
