import Verif.Props.MainProtocol
import Verif.Lemmas.Decimal
import Mathlib.Data.List.Induction

/-!
# C53, C57: what is published

`sizeof(txBuffer)` is 256.
-/

set_option linter.unusedSectionVars false

namespace Verif.Main
open Printf Net Imu Spec Spec.Decimal

variable {K : Type} [Field K] [LinearOrder K] [IsStrictOrderedRing K] [FloorRing K] {S : Type}

/-! ### Specification -/

/-- Every finite `double` is below this in size. -/
def Finite (x : K) : Prop := |x| < 10 ^ 309

instance (x : ℚ) : Decidable (Finite x) := inferInstanceAs (Decidable (|x| < 10 ^ 309))

/-- `text` shows the number `x`, rounded to `p` decimals. -/
def Shows (p : Nat) (x : K) (text : List UInt8) : Prop := ∃ v : ℚ, Denotes text p v ∧ |(v : K) - x| ≤ 1 / 2 / 10 ^ p

/-- The text of one point: `[x,y],`. -/
def ShowsPoint (p : K × K) (text : List UInt8) : Prop :=
  ∃ a b, text = ascii "[" ++ a ++ ascii "," ++ b ++ ascii "]," ∧ Shows 2 p.1 a ∧ Shows 2 p.2 b

/-- The bytes of a list of points: `[`, the points, `]`. -/
def pointList (ps : List (K × K)) : List UInt8 := [91] ++ ps.flatMap vertexText ++ [93]

/-! ### The loop -/

theorem vertexText_length_ge (p : K × K) : 12 ≤ (vertexText p).length := by
  unfold vertexText
  have h1 := fmtF_length_ge (p := 2) (by norm_num) p.1
  have h2 := fmtF_length_ge (p := 2) (by norm_num) p.2
  simp only [List.length_append, List.length_cons, List.length_nil]
  omega

theorem vertexText_length_le {p : K × K} (h : Finite p.1 ∧ Finite p.2) : (vertexText p).length ≤ 632 := by
  unfold vertexText
  have h1 := fmtF_length_le (p := 2) (by norm_num) h.1
  have h2 := fmtF_length_le (p := 2) (by norm_num) h.2
  simp only [List.length_append, List.length_cons, List.length_nil]
  omega

theorem vertexText_ne_zero (p : K × K) : (0 : UInt8) ∉ vertexText p := by
  intro h
  unfold vertexText at h
  simp only [List.mem_append, List.mem_cons, List.not_mem_nil, or_false] at h
  rcases h with (((h | h) | h) | h) | h | h
  · exact absurd h (by decide)
  · exact fmtF_ne_zero _ _ h rfl
  · exact absurd h (by decide)
  · exact fmtF_ne_zero _ _ h rfl
  · exact absurd h (by decide)
  · exact absurd h (by decide)

theorem vertexLoop_fits {ps : List (K × K)} {len : Nat} {tx : List UInt8} (ht : tx.length = 256)
    (h : len + (ps.flatMap vertexText).length ≤ 255) :
    ∃ tx', vertexLoop ps len tx = .ok (len + (ps.flatMap vertexText).length, tx') ∧ tx'.length = 256 ∧
      tx'.take (len + (ps.flatMap vertexText).length) = tx.take len ++ ps.flatMap vertexText ∧
      tx'.drop (len + (ps.flatMap vertexText).length + 1) = tx.drop (len + (ps.flatMap vertexText).length + 1) := by
  induction ps generalizing len tx with
  | nil => exact ⟨tx, rfl, ht, by simp, rfl⟩
  | cons p ps ih =>
    rw [List.flatMap_cons, List.length_append] at h
    have hsz : (2 ^ 32 + 256 - len) % 2 ^ 32 = 256 - len := by omega
    have h1 := snprintf_fits (mem := tx) (out := vertexText p) (off := len) (size := 256 - len) (by omega) (by omega)
    set tx1 := tx.take len ++ vertexText p ++ 0 :: tx.drop (len + (vertexText p).length + 1) with htx1
    have hl1 : tx1.length = 256 := by rw [htx1]; simp; omega
    obtain ⟨tx', a1, a2, a3, a4⟩ := ih (len := len + (vertexText p).length) hl1 (by omega)
    refine ⟨tx', ?_, a2, ?_, ?_⟩
    · unfold vertexLoop
      rw [hsz, h1, bind_ok]
      simp only
      rw [a1, List.flatMap_cons, List.length_append, ← Nat.add_assoc]
    · rw [List.flatMap_cons, List.length_append, ← Nat.add_assoc, a3, ← List.append_assoc]
      congr 1
      have e : (tx.take len ++ vertexText p).length = len + (vertexText p).length := by simp; omega
      rw [htx1, ← e, List.take_left]
    · rw [List.flatMap_cons, List.length_append, ← Nat.add_assoc, a4]
      have e : (tx.take len ++ vertexText p ++ [0]).length = len + (vertexText p).length + 1 := by simp; omega
      have e2 : tx1 = (tx.take len ++ vertexText p ++ [0]) ++ tx.drop (len + (vertexText p).length + 1) := by rw [htx1]; simp
      rw [e2, List.drop_append, List.drop_eq_nil_of_le (by omega), List.nil_append, e, List.drop_drop]
      congr 1; omega

theorem vertexLoop_over {ps : List (K × K)} (hf : ∀ p ∈ ps, Finite p.1 ∧ Finite p.2) {len : Nat} {tx : List UInt8} (ht : tx.length = 256)
    (h1 : 256 ≤ len) (h2 : len ≤ 900) :
    vertexLoop ps len tx = .error (.ub .oobWrite) ∨
      ∃ len' tx', vertexLoop ps len tx = .ok (len', tx') ∧ 256 ≤ len' ∧ tx'.length = 256 := by
  induction ps generalizing len tx with
  | nil => exact Or.inr ⟨len, tx, rfl, h1, ht⟩
  | cons p ps ih =>
    have hv := vertexText_length_le (hf p (by simp))
    unfold vertexLoop
    by_cases h : len = 256
    · subst h
      have : (2 ^ 32 + 256 - 256) % 2 ^ 32 = 0 := by norm_num
      rw [this]
      have e : snprintfAt tx 256 0 (vertexText p) = .ok ((vertexText p).length, tx) := rfl
      rw [e, bind_ok]
      exact ih (fun q hq => hf q (by simp [hq])) ht (by omega) (by omega)
    · left
      rw [snprintf_oob (by omega) (by omega)]; rfl

theorem vertexLoop_overflows {ps : List (K × K)} (hf : ∀ p ∈ ps, Finite p.1 ∧ Finite p.2) {len : Nat} {tx : List UInt8}
    (ht : tx.length = 256) (h1 : len ≤ 255) (h : 256 ≤ len + (ps.flatMap vertexText).length) :
    vertexLoop ps len tx = .error (.ub .oobWrite) ∨
      ∃ len' tx', vertexLoop ps len tx = .ok (len', tx') ∧ 256 ≤ len' ∧ tx'.length = 256 := by
  induction ps generalizing len tx with
  | nil => simp at h; omega
  | cons p ps ih =>
    have hv := vertexText_length_le (hf p (by simp))
    have hsz : (2 ^ 32 + 256 - len) % 2 ^ 32 = 256 - len := by
      by_cases h0 : len = 0
      · subst h0; norm_num
      · omega
    rw [List.flatMap_cons, List.length_append] at h
    unfold vertexLoop
    rw [hsz]
    by_cases hfit : len + (vertexText p).length ≤ 255
    · rw [snprintf_fits (by omega) (by omega), bind_ok]
      exact ih (fun q hq => hf q (by simp [hq])) (by simp; omega) hfit (by omega)
    · rw [snprintf_trunc (by omega) (by omega) (by omega), bind_ok]
      exact vertexLoop_over (fun q hq => hf q (by simp [hq])) (by simp; omega) (by omega) (by omega)

/-! ### C53 -/

theorem storeByte_at {l : List UInt8} {i : Nat} (h : i < l.length) (v : UInt8) :
    storeByte l i v = .ok (l.take i ++ v :: l.drop (i + 1)) := by
  unfold storeByte
  rw [if_pos h, List.set_eq_take_append_cons_drop, if_pos h]

/-- **C53** If the formatted list does not fit into the 256 bytes, the publication writes outside the buffer, whoever listens. -/
theorem C53_out_of_bounds (cfg : Config) (topic : String) (ps : List (K × K)) (hf : ∀ p ∈ ps, Finite p.1 ∧ Finite p.2)
    (tx : List UInt8) (ht : tx.length = 256) (h : 256 < (pointList ps).length) :
    publishVertices cfg topic ps tx = .error (.ub .oobWrite) := by
  have h' : 256 ≤ 1 + (ps.flatMap vertexText).length := by
    unfold pointList at h; simp only [List.length_append, List.length_singleton] at h; omega
  unfold publishVertices
  rw [storeByte_at (by omega), bind_ok]
  have hl : (tx.take 0 ++ (91 : UInt8) :: tx.drop (0 + 1)).length = 256 := by simp; omega
  rcases vertexLoop_overflows hf hl (by norm_num) h' with e | ⟨len', tx', e, h1, h2⟩
  · rw [e]; rfl
  · rw [e, bind_ok]
    simp only
    have : storeByte tx' len' 93 = .error (.ub .oobWrite) := by unfold storeByte; rw [if_neg (by omega)]
    rw [this]; rfl

theorem publishVertices_eq (cfg : Config) (topic : String) (ps : List (K × K))
    (tx : List UInt8) (ht : tx.length = 256) (h : (pointList ps).length ≤ 256) :
    publishVertices cfg topic ps tx =
      (send cfg topic (pointList ps ++ tx.drop (pointList ps).length) (pointList ps).length).map
        fun o => (pointList ps ++ tx.drop (pointList ps).length, o) := by
  have e0 : (pointList ps).length = 1 + (ps.flatMap vertexText).length + 1 := by unfold pointList; simp; omega
  have h' : 1 + (ps.flatMap vertexText).length ≤ 255 := by omega
  unfold publishVertices
  rw [storeByte_at (by omega), bind_ok]
  have hl : (tx.take 0 ++ (91 : UInt8) :: tx.drop (0 + 1)).length = 256 := by simp; omega
  obtain ⟨tx', a1, a2, a3, a4⟩ := vertexLoop_fits hl h'
  rw [a1, bind_ok]
  simp only
  rw [storeByte_at (by omega), bind_ok, a3, a4, ← e0]
  have e1 : List.take 1 (tx.take 0 ++ (91 : UInt8) :: tx.drop (0 + 1)) ++ ps.flatMap vertexText ++
      93 :: List.drop (pointList ps).length (tx.take 0 ++ (91 : UInt8) :: tx.drop (0 + 1)) = pointList ps ++ tx.drop (pointList ps).length := by
    have : List.drop (pointList ps).length (tx.take 0 ++ (91 : UInt8) :: tx.drop (0 + 1)) = tx.drop (pointList ps).length := by
      rw [e0]
      simp only [List.take_zero, List.nil_append, List.drop_succ_cons, List.drop_drop]
      congr 1; omega
    rw [this]; simp [pointList]
  rw [e1]
  cases send cfg topic (pointList ps ++ tx.drop (pointList ps).length) (pointList ps).length with
  | ok o => rfl
  | error e => rfl

theorem pointList_ne_zero (ps : List (K × K)) : (0 : UInt8) ∉ pointList ps := by
  unfold pointList
  simp only [List.mem_append, List.mem_singleton, List.mem_flatMap, not_or, not_exists, not_and]
  exact ⟨⟨by decide, fun p _ => vertexText_ne_zero p⟩, by decide⟩

theorem upToNul_spec {l : List UInt8} (h : (0 : UInt8) ∈ l) : ∃ rest, l = upToNul l ++ 0 :: rest ∧ (0 : UInt8) ∉ upToNul l := by
  induction l with
  | nil => cases h
  | cons b l ih =>
    unfold upToNul
    split
    · rename_i hb; subst hb; exact ⟨l, rfl, by simp⟩
    · rename_i hb
      obtain ⟨rest, e, hn⟩ := ih (by rcases List.mem_cons.1 h with h | h; · exact absurd h.symm hb
                                     · exact h)
      refine ⟨rest, by rw [List.cons_append, ← e], ?_⟩
      simp only [List.mem_cons, not_or]
      exact ⟨fun h0 => hb h0.symm, hn⟩

/-- **C53** The publication completes exactly if the formatted list, with its brackets, fits into the 256 bytes and, with the local broker,
an older NUL byte follows it in the buffer.  An MQTT server then gets exactly the list; the subscribers of the local broker get the list
followed by whatever older bytes of the buffer come next, up to the first NUL. -/
theorem C53_in_bounds (cfg : Config) (topic : String) (ps : List (K × K))
    (hf : ∀ p ∈ ps, Finite p.1 ∧ Finite p.2) (tx : List UInt8) (ht : tx.length = 256) :
    ((∃ r, publishVertices cfg topic ps tx = .ok r) ↔
      (pointList ps).length ≤ 256 ∧ (cfg.broker = true → (0 : UInt8) ∈ tx.drop (pointList ps).length)) ∧
    (∀ tx' o, publishVertices cfg topic ps tx = .ok (tx', o) →
      o = (if cfg.mqtt then [.mqtt topic (pointList ps)] else []) ++
        (if cfg.broker then [.broker topic (pointList ps ++ upToNul (tx.drop (pointList ps).length))] else [])) := by
  have hnz := pointList_ne_zero ps
  have key : (pointList ps).length ≤ 256 → (cfg.broker = true → (0 : UInt8) ∈ tx.drop (pointList ps).length) →
      publishVertices cfg topic ps tx =
      .ok (pointList ps ++ tx.drop (pointList ps).length, (if cfg.mqtt then [.mqtt topic (pointList ps)] else []) ++
        (if cfg.broker then [.broker topic (pointList ps ++ upToNul (tx.drop (pointList ps).length))] else [])) := by
    intro h hb
    rw [publishVertices_eq cfg topic ps tx ht h]
    have e1 : sendMqtt cfg topic (pointList ps ++ tx.drop (pointList ps).length) (pointList ps).length =
        .ok (if cfg.mqtt then [.mqtt topic (pointList ps)] else []) := by
      unfold sendMqtt
      split
      · rw [readBytes_eq (by simp), List.take_left]; rfl
      · rfl
    have e2 : sendBroker cfg topic (pointList ps ++ tx.drop (pointList ps).length) =
        .ok (if cfg.broker then [.broker topic (pointList ps ++ upToNul (tx.drop (pointList ps).length))] else []) := by
      unfold sendBroker
      split
      · rename_i hbr
        obtain ⟨rest, e, hn⟩ := upToNul_spec (hb hbr)
        have : pointList ps ++ tx.drop (pointList ps).length =
            (pointList ps ++ upToNul (tx.drop (pointList ps).length)) ++ 0 :: rest := by rw [List.append_assoc, ← e]
        rw [this, readCString_eq (by simp [hnz, hn])]; rfl
      · rfl
    unfold send
    rw [e1, bind_ok, e2]; rfl
  have nokey : (pointList ps).length ≤ 256 → cfg.broker = true → (0 : UInt8) ∉ tx.drop (pointList ps).length →
      ∀ r, publishVertices cfg topic ps tx ≠ .ok r := by
    intro h hb h0 r hr
    rw [publishVertices_eq cfg topic ps tx ht h] at hr
    unfold send sendBroker at hr
    rw [hb, if_pos rfl, readCString_none (by simp [hnz, h0])] at hr
    cases hm : sendMqtt cfg topic (pointList ps ++ tx.drop (pointList ps).length) (pointList ps).length with
    | error e => rw [hm] at hr; cases hr
    | ok o => rw [hm] at hr; cases hr
  have ok_iff : ∀ r, publishVertices cfg topic ps tx = .ok r →
      (pointList ps).length ≤ 256 ∧ (cfg.broker = true → (0 : UInt8) ∈ tx.drop (pointList ps).length) := by
    intro r h
    by_cases hl : (pointList ps).length ≤ 256
    · refine ⟨hl, fun hb => ?_⟩
      by_contra h0
      exact nokey hl hb h0 r h
    · rw [C53_out_of_bounds cfg topic ps hf tx ht (by omega)] at h
      cases h
  constructor
  · constructor
    · rintro ⟨r, h⟩; exact ok_iff r h
    · intro h; exact ⟨_, key h.1 h.2⟩
  · intro tx' o h
    obtain ⟨h1, h2⟩ := ok_iff _ h
    rw [key h1 h2] at h
    injection h with h; injection h with _ h; exact h.symm

/-- **C53** (finding) With the local broker (which the shipped configuration starts whenever there is a network) and no older NUL byte behind
the list, the publication reads past the end of the buffer - after the MQTT server, if any, was served. -/
theorem C53_broker_overread (cfg : Config) (hb : cfg.broker = true) (topic : String) (ps : List (K × K))
    (tx : List UInt8) (ht : tx.length = 256) (h : (pointList ps).length ≤ 256) (h0 : (0 : UInt8) ∉ tx.drop (pointList ps).length) :
    publishVertices cfg topic ps tx = .error (.ub .oobRead) := by
  rw [publishVertices_eq cfg topic ps tx ht h]
  unfold send sendMqtt sendBroker
  rw [hb, if_pos rfl, readCString_none (by simp [pointList_ne_zero ps, h0])]
  split
  · rw [readBytes_eq (by simp)]; rfl
  · rfl

/-- **C53** The list consists of the points in order, each coordinate rounded to two decimals. -/
theorem C53_content (ps : List (K × K)) :
    ∃ texts, List.Forall₂ ShowsPoint ps texts ∧ pointList ps = ascii "[" ++ texts.flatten ++ ascii "]" := by
  refine ⟨ps.map vertexText, ?_, ?_⟩
  · induction ps with
    | nil => exact .nil
    | cons p ps ih =>
      refine .cons ⟨fmtF 2 p.1, fmtF 2 p.2, ?_, fmtF_denotes _ _, fmtF_denotes _ _⟩ ih
      rfl
  · unfold pointList
    rw [List.flatMap_def]; rfl

/-- **C53** With 22 or more stored points the publication always writes outside the buffer. -/
theorem C53_22_points (cfg : Config) (topic : String) (ps : List (K × K)) (hf : ∀ p ∈ ps, Finite p.1 ∧ Finite p.2)
    (tx : List UInt8) (ht : tx.length = 256) (h : 22 ≤ ps.length) :
    publishVertices cfg topic ps tx = .error (.ub .oobWrite) := by
  apply C53_out_of_bounds cfg topic ps hf tx ht
  have key : ∀ l : List (K × K), 12 * l.length ≤ (l.flatMap vertexText).length := by
    intro l
    induction l with
    | nil => simp
    | cons p l ih =>
      have := vertexText_length_ge p
      rw [List.flatMap_cons, List.length_append, List.length_cons]; omega
  have := key ps
  unfold pointList; simp only [List.length_append, List.length_singleton]; omega

/-- **C53** (finding) A non-empty list ends with `,]`, which is not JSON. -/
theorem C53_trailing_comma (ps : List (K × K)) (h : ps ≠ []) : ∃ front, pointList ps = front ++ ascii "],]" := by
  induction ps using List.reverseRecOn with
  | nil => exact absurd rfl h
  | append_singleton l p _ =>
    refine ⟨[91] ++ l.flatMap vertexText ++ ([91] ++ fmtF 2 p.1 ++ [44] ++ fmtF 2 p.2), ?_⟩
    have : ascii "],]" = [93, 44, 93] := by decide
    rw [this]
    simp [pointList, vertexText]

theorem step_500 {cfg : Config} {T : Tel K S} {s s' : Sys K S} {i : In K} {o : List Out} (ht : taskOf s (.loop i) = some .t500ms)
    (hi : Inv s) (h : step cfg T s (.loop i) = .ok (s', o)) :
    task500 cfg T { s with timers := (schedule s.timers i.now).2 } i = .ok (s', o) ∧
      Inv ({ s with timers := (schedule s.timers i.now).2 } : Sys K S) := by
  unfold taskOf at ht
  unfold step loop at h
  simp only [ht] at h
  exact ⟨h, hi⟩

/-- **C53** In every history: a 500 ms task with the orientation sensor that completes had at most 21 stored points. -/
theorem C53_history (cfg : Config) (hs : cfg.sensor = true) (core : S) (h : List (Tel K S × Event K)) (s : Sys K S) (o : List Out)
    (hr : run cfg h (boot cfg core) = .ok (s, o)) (T : Tel K S) (i : In K) (ht : taskOf s (.loop i) = some .t500ms)
    (hf : ∀ p ∈ T.vertices s.scope.core, Finite p.1.1 ∧ Finite p.1.2) (s' : Sys K S) (o' : List Out)
    (hstep : step cfg T s (.loop i) = .ok (s', o')) : (T.vertices s.scope.core).length ≤ 21 := by
  obtain ⟨hi, -⟩ := run_facts h (inv_boot cfg core) hr
  obtain ⟨htask, hi'⟩ := step_500 ht hi hstep
  set s0 : Sys K S := { s with timers := (schedule s.timers i.now).2 } with hs0
  unfold task500 at htask
  obtain ⟨s1, h1, hh⟩ := bind_eq_ok.1 htask
  obtain ⟨a1, a2, a3, a4, a5⟩ := pollGnss_facts h1
  rw [if_pos hs] at hh
  unfold reportAll at hh
  obtain ⟨lst, hl, hh⟩ := bind_eq_ok.1 hh
  obtain ⟨⟨ty, position⟩, hpos, hh⟩ := bind_eq_ok.1 hh
  obtain ⟨⟨s2, o1⟩, h2, hh⟩ := bind_eq_ok.1 hh
  obtain ⟨⟨tx1, o2⟩, h3, hh⟩ := bind_eq_ok.1 hh
  obtain ⟨⟨tx2, o3⟩, h4, hh⟩ := bind_eq_ok.1 hh
  obtain ⟨⟨txs, rfl, htx⟩, hout⟩ := sendPosition_facts (a1.2.2 hi') h2
  obtain ⟨l3, n3⟩ := publishAll_facts h3
  by_contra hn
  have hc : s1.scope.core = s.scope.core := by rw [a3]
  have := C53_22_points cfg "home/appliance/telescope/actual" ((T.vertices s1.scope.core).map (·.1)) (by
    rw [hc]
    intro p hp
    obtain ⟨q, hq, rfl⟩ := List.mem_map.1 hp
    exact hf q hq) tx1 (by simp only at l3; omega) (by rw [hc, List.length_map]; omega)
  simp only at h4
  rw [this] at h4
  cases h4

/-- 21 points of the shortest form fit, 22 do not. -/
example : (pointList (List.replicate 21 ((1 : ℚ), (2 : ℚ)))).length ≤ 256 ∧ (List.replicate 22 ((1 : ℚ), (2 : ℚ))).length = 22 ∧
    (∀ p ∈ List.replicate 22 ((1 : ℚ), (2 : ℚ)), Finite p.1 ∧ Finite p.2) := by
  refine ⟨by decide +kernel, rfl, ?_⟩
  intro p hp
  rw [(List.mem_replicate.1 hp).2]
  exact ⟨by decide +kernel, by decide +kernel⟩

/-- Typical coordinates are longer: 16 points already overflow. -/
example : 256 < (pointList (List.replicate 16 ((123456 / 1000 : ℚ), (-78901 / 1000 : ℚ)))).length := by decide +kernel

/-- A list that exactly fills the buffer leaves no NUL for the local broker. -/
example : publishVertices ⟨.esp32, true, false, true, true⟩ "t" (List.replicate 20 ((1 : ℚ), (2 : ℚ)) ++ [(10, 20)])
    (List.replicate 256 0) = .error (.ub .oobRead) := by decide +kernel

end Verif.Main
