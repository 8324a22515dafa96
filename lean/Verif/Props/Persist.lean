import Verif.Model.Persist
import Verif.Lemmas.Codec
import Verif.Lemmas.Strto

/-!
# C54: persistence
-/

namespace Verif.Persist

theorem final_range (fs : FS) (f : Nat → FS) (n : Nat) : final fs (fs :: (List.range (n + 1)).map f) = f n := by
  unfold final
  rw [List.range_succ, List.map_append, ← List.cons_append, List.getLast?_append]
  simp

/-- The flash after a write: the file holds the bytes transferred, every other file is as before. -/
theorem write_final {fs : FS} {io : Io} {data : List UInt8} {length : Nat} {name : String} {ok : Bool} {states : List FS}
    (h : writeBinaryData fs io data length name = .ok (ok, states)) :
    (io.opens = true ∧ final fs states = fs.set name (data.take (min io.moved length)) ∧ ok = decide (length ≤ io.moved)) ∨
    (io.opens = false ∧ final fs states = fs ∧ ok = false) := by
  unfold writeBinaryData at h
  split at h
  · cases h
  · split at h
    · rename_i ho
      simp only [Except.ok.injEq, Prod.mk.injEq] at h
      obtain ⟨rfl, rfl⟩ := h
      left
      refine ⟨ho, final_range _ _ _, ?_⟩
      congr 1
      exact propext (by omega)
    · rename_i ho
      simp only [Except.ok.injEq, Prod.mk.injEq] at h
      obtain ⟨rfl, rfl⟩ := h
      right
      exact ⟨by simpa using ho, rfl, rfl⟩

/-- **C54** A write never reads or writes out of bounds when `length` bytes exist at `data`, and reports success exactly when the file
could be opened and all bytes were transferred; then the file holds exactly these bytes. -/
theorem C54_write (fs : FS) (io : Io) (data : List UInt8) (length : Nat) (name : String) (hl : length ≤ data.length) :
    ∃ ok states, writeBinaryData fs io data length name = .ok (ok, states) ∧
      (ok = true ↔ io.opens = true ∧ length ≤ io.moved) ∧ (ok = true → final fs states name = some (data.take length)) := by
  cases h : writeBinaryData fs io data length name with
  | error e =>
    unfold writeBinaryData at h
    rw [if_neg (by omega)] at h
    split at h <;> cases h
  | ok r =>
    obtain ⟨ok, states⟩ := r
    refine ⟨ok, states, rfl, ?_⟩
    rcases write_final h with ⟨ho, hf, rfl⟩ | ⟨ho, hf, rfl⟩
    · refine ⟨by simp [ho], fun hok => ?_⟩
      rw [decide_eq_true_eq] at hok
      rw [hf, Nat.min_eq_right hok]; simp [FS.set]
    · simp [ho]

/-- **C54** Round trip: after a successful write, a read of the same length from a working file system succeeds and delivers the written
bytes, whatever the target memory held before. -/
theorem C54_roundtrip (fs : FS) (io io' : Io) (data : List UInt8) (length : Nat) (name : String) (states : List FS)
    (hw : writeBinaryData fs io data length name = .ok (true, states)) (ho : io'.opens = true) (hm : length ≤ io'.moved)
    (target : List UInt8) (ht : length ≤ target.length) :
    readBinaryData (final fs states) io' target length name = .ok (true, data.take length ++ target.drop length) := by
  have hl : length ≤ data.length := by
    by_contra hc
    unfold writeBinaryData at hw
    rw [if_pos (by omega)] at hw; cases hw
  obtain ⟨ok, st, h1, -, h2⟩ := C54_write fs io data length name hl
  rw [hw] at h1; cases h1
  unfold readBinaryData
  rw [h2 rfl]
  have hlen : (data.take length).length = length := by simp [hl]
  simp only [ho, hlen, ge_iff_le, le_refl, decide_true, Bool.and_self, if_true, Nat.min_eq_right hm]
  rw [List.take_of_length_le hlen.le, Codec.storeSeq_ok _ _ _ (by omega)]
  rw [bind_ok]
  simp [pure_ok, hl]

/-- **C54** A successful read delivers exactly the first `length` bytes of the file and leaves the memory behind them alone; the read
fails without touching the memory when the file is missing, cannot be opened or is shorter than `length`. -/
theorem C54_read (fs : FS) (io : Io) (data : List UInt8) (length : Nat) (name : String) (hl : length ≤ data.length) :
    ∃ ok data', readBinaryData fs io data length name = .ok (ok, data') ∧ data'.length = data.length ∧
      (ok = true → ∃ content, fs name = some content ∧ length ≤ content.length ∧ data' = content.take length ++ data.drop length) ∧
      ((fs name = none ∨ io.opens = false ∨ ∃ content, fs name = some content ∧ content.length < length) → ok = false ∧ data' = data) := by
  unfold readBinaryData
  cases hf : fs name with
  | none => exact ⟨false, data, rfl, rfl, by simp, fun _ => ⟨rfl, rfl⟩⟩
  | some content =>
    by_cases hc : io.opens = true ∧ length ≤ content.length
    · obtain ⟨h1, h2⟩ := hc
      simp only [h1, ge_iff_le, h2, decide_true, Bool.and_self, if_true]
      have hb : min io.moved length ≤ length := Nat.min_le_right _ _
      rw [Codec.storeSeq_ok _ _ _ (by simp; omega), bind_ok]
      refine ⟨_, _, rfl, ?_, ?_, ?_⟩
      · simp; omega
      · intro hok
        rw [decide_eq_true_eq] at hok
        exact ⟨content, rfl, h2, by rw [hok]; simp [h2]⟩
      · rintro (h | h | ⟨c, h, h'⟩)
        · cases h
        · cases h
        · cases h; omega
    · have hne : (io.opens && decide (content.length ≥ length)) = false := by
        rw [Bool.and_eq_false_iff]; by_cases h : io.opens = true
        · right; rw [decide_eq_false_iff_not]; exact fun hh => hc ⟨h, hh⟩
        · left; simpa using h
      simp only [hne]
      exact ⟨false, data, rfl, rfl, by simp, fun _ => ⟨rfl, rfl⟩⟩

/-- **C54** Writing one file never changes another one, at no point in time. -/
theorem C54_frame (fs : FS) (io : Io) (data : List UInt8) (length : Nat) (name other : String) (hne : other ≠ name) (ok : Bool)
    (states : List FS) (h : writeBinaryData fs io data length name = .ok (ok, states)) : ∀ s ∈ states, s other = fs other := by
  unfold writeBinaryData at h
  split at h
  · cases h
  · split at h
    · simp only [Except.ok.injEq, Prod.mk.injEq] at h
      obtain ⟨-, rfl⟩ := h
      intro s hs
      rcases List.mem_cons.1 hs with rfl | hs
      · rfl
      · obtain ⟨k, -, rfl⟩ := List.mem_map.1 hs
        simp [FS.set, hne]
    · simp only [Except.ok.injEq, Prod.mk.injEq] at h
      obtain ⟨-, rfl⟩ := h
      simp

/-- **C54** Crash points: at every moment during a write the file is either untouched or holds a prefix of the new data; nothing else. -/
theorem C54_crash (fs : FS) (io : Io) (data : List UInt8) (length : Nat) (name : String) (ok : Bool)
    (states : List FS) (h : writeBinaryData fs io data length name = .ok (ok, states)) :
    ∀ s ∈ states, s name = fs name ∨ ∃ k, k ≤ length ∧ s name = some (data.take k) := by
  unfold writeBinaryData at h
  split at h
  · cases h
  · split at h
    · simp only [Except.ok.injEq, Prod.mk.injEq] at h
      obtain ⟨-, rfl⟩ := h
      intro s hs
      rcases List.mem_cons.1 hs with rfl | hs
      · left; rfl
      · obtain ⟨k, hk, rfl⟩ := List.mem_map.1 hs
        right
        have := List.mem_range.1 hk
        exact ⟨k, by have := Nat.min_le_right io.moved length; omega, by simp [FS.set]⟩
    · simp only [Except.ok.injEq, Prod.mk.injEq] at h
      obtain ⟨-, rfl⟩ := h
      intro s hs
      left
      rw [List.mem_singleton.1 hs]

/-- **C54** (finding) The write is not atomic: once the file is open, a crash before the first byte leaves it empty, and a reader then
gets neither the old nor the new data. -/
theorem C54_old_lost (fs : FS) (io : Io) (data : List UInt8) (length : Nat) (name : String) (ok : Bool)
    (states : List FS) (h : writeBinaryData fs io data length name = .ok (ok, states)) (ho : io.opens = true) (h0 : 0 < length) :
    ∃ s ∈ states, s name = some [] ∧ ∀ io' target, readBinaryData s io' target length name = .ok (false, target) := by
  unfold writeBinaryData at h
  split at h
  · cases h
  · simp only [Except.ok.injEq, Prod.mk.injEq] at h
    obtain ⟨-, rfl⟩ := h
    refine ⟨fs.set name (data.take 0), List.mem_cons_of_mem _ (List.mem_map.2 ⟨0, by simp, rfl⟩), by simp [FS.set], ?_⟩
    intro io' target
    have hs : (fs.set name (data.take 0)) name = some [] := by simp [FS.set]
    unfold readBinaryData
    rw [hs]
    simp [h0.ne']

/-- A partly written file is also rejected by the reader (its size is below `length`), so a torn write is always noticed. -/
theorem C54_torn_write_detected (fs : FS) (io io' : Io) (data : List UInt8) (length : Nat) (name : String) (ok : Bool) (states : List FS)
    (h : writeBinaryData fs io data length name = .ok (ok, states)) (target : List UInt8) (ht : length ≤ target.length) (s : FS)
    (hs : s ∈ states) (data' : List UInt8) (hr : readBinaryData s io' target length name = .ok (true, data')) :
    (s name = fs name) ∨ data'.take length = data.take length := by
  rcases C54_crash fs io data length name ok states h s hs with h1 | ⟨k, hk, h1⟩
  · exact .inl h1
  · right
    obtain ⟨ok', d', e, -, h2, -⟩ := C54_read s io' target length name ht
    rw [hr] at e
    cases e
    obtain ⟨content, hc, hlen, rfl⟩ := h2 rfl
    rw [h1] at hc; cases hc
    have : (data.take k).length ≤ k := by simp
    have hkl : k = length := by omega
    subst hkl
    simp only [List.take_take, Nat.min_self]
    rw [List.take_append_of_le_length (by simpa using hlen), List.take_take, Nat.min_self]

/-- Non-vacuous: writing three bytes over five, all transferred, and reading them back; then a crash with the file already open. -/
example : ∃ states, writeBinaryData (fun n => if n = "/cal" then some [1, 2, 3, 4, 5] else none) ⟨true, 3⟩ [7, 8, 9] 3 "/cal" = .ok (true, states) ∧
    states.length = 5 ∧ states.map (fun s => s "/cal") = [some [1, 2, 3, 4, 5], some [], some [7], some [7, 8], some [7, 8, 9]] := by
  refine ⟨_, rfl, ?_, ?_⟩ <;> decide

end Verif.Persist
