import Verif.Props.GnssState

/-!
# Memory safety of the NMEA parser (C22)
-/

namespace Verif.Nmea
open Verif Verif.Spec

/-! ## The conversion functions never move across a comma -/

/-- `q` is what remains of `p` after consuming bytes that are not commas. -/
def Consumes (p q : Ptr) : Prop := ∃ pre, p = pre ++ q ∧ 44 ∉ pre

theorem Consumes.refl (p : Ptr) : Consumes p p := ⟨[], rfl, by simp⟩
theorem Consumes.trans {p q r : Ptr} (h1 : Consumes p q) (h2 : Consumes q r) : Consumes p r := by
  obtain ⟨a, rfl, ha⟩ := h1
  obtain ⟨b, rfl, hb⟩ := h2
  exact ⟨a ++ b, by simp, by simp [ha, hb]⟩

theorem consumes_dropWhile {f : UInt8 → Bool} (hf : f 44 = false) (l : Ptr) : Consumes l (l.dropWhile f) := by
  refine ⟨l.takeWhile f, (List.takeWhile_append_dropWhile).symm, ?_⟩
  intro h
  have : ∀ (l : Ptr) x, x ∈ l.takeWhile f → f x = true := by
    intro l
    induction l with
    | nil => simp
    | cons y t ih =>
      intro x hx
      rw [List.takeWhile_cons] at hx
      split at hx
      · rename_i hy
        rcases List.mem_cons.1 hx with rfl | hx
        · exact hy
        · exact ih x hx
      · cases hx
  have := this l 44 h
  rw [hf] at this; cases this

theorem consumes_sign (l : Ptr) : Consumes l (takeSign l).2 := by
  unfold takeSign
  split
  · exact ⟨[45], rfl, by decide⟩
  · exact ⟨[43], rfl, by decide⟩
  · exact .refl _

theorem consumes_hexPrefix (l : Ptr) : Consumes l (skipHexPrefix l) := by
  unfold skipHexPrefix
  split
  · rename_i x d r
    split
    · rename_i h
      simp only [Bool.and_eq_true, Bool.or_eq_true, beq_iff_eq] at h
      refine ⟨[48, x], rfl, ?_⟩
      rcases h.1 with rfl | rfl <;> decide
    · exact .refl _
  · exact .refl _

theorem consumes_strtoInt (hex : Bool) (p : Ptr) : Consumes p (strtoInt hex p).2.2 := by
  unfold strtoInt
  cases hex
  · simp only [Bool.false_eq_true, if_false]
    split
    · exact .refl _
    · exact (consumes_dropWhile (f := isSpace) (by decide) p).trans ((consumes_sign _).trans
        (consumes_dropWhile (f := isDigit) (by decide) _))
  · simp only [if_true]
    split
    · exact .refl _
    · exact (consumes_dropWhile (f := isSpace) (by decide) p).trans ((consumes_sign _).trans
        ((consumes_hexPrefix _).trans (consumes_dropWhile (f := isHexDigit) (by decide) _)))

theorem consumes_strtol {P : Platform} {hex : Bool} {p q : Ptr} {z : ℤ} (h : strtol P hex p = .ok (z, q)) : Consumes p q := by
  unfold strtol at h
  split at h
  · cases h
  · simp only [Except.ok.injEq, Prod.mk.injEq] at h
    rw [← h.2]; exact consumes_strtoInt hex p

theorem consumes_frac {f : UInt8 → Bool} (hf : f 44 = false) (l : Ptr) : Consumes l (takeFrac f l).2 := by
  unfold takeFrac
  split
  · rename_i r
    exact Consumes.trans (q := r) ⟨[46], rfl, by decide⟩ (consumes_dropWhile hf _)
  · exact .refl _

theorem consumes_exp {m : UInt8} (hm : m ≠ 44) (l : Ptr) : Consumes l (takeExp m l).2 := by
  unfold takeExp
  split
  · rename_i x r
    split
    · rename_i hx
      simp only
      split
      · exact .refl _
      · refine Consumes.trans (q := r) ⟨[x], rfl, ?_⟩ ((consumes_sign r).trans (consumes_dropWhile (by decide) _))
        rw [beq_iff_eq] at hx
        intro h44
        simp at h44
        subst h44
        exact hm hx.symm
    · exact .refl _
  · exact .refl _

theorem consumes_mant {hex : Bool} {l r : Ptr} {q : ℚ} (h : parseMant hex l = .num q r) : Consumes l r := by
  unfold parseMant at h
  cases hex
  · simp only [Bool.false_eq_true, if_false] at h
    split at h
    · cases h
    · injection h with _ h
      rw [← h]
      exact (consumes_dropWhile (f := isDigit) (by decide) l).trans
        ((consumes_frac (f := isDigit) (by decide) _).trans (consumes_exp (by decide) _))
  · simp only [if_true] at h
    split at h
    · cases h
    · injection h with _ h
      rw [← h]
      exact (consumes_dropWhile (f := isHexDigit) (by decide) l).trans
        ((consumes_frac (f := isHexDigit) (by decide) _).trans (consumes_exp (by decide) _))

theorem consumes_unsigned {l r : Ptr} {q : ℚ} (h : parseUnsigned l = .num q r) : Consumes l r := by
  unfold parseUnsigned at h
  split at h
  · cases h
  · split at h
    · rename_i x t _
      split at h
      · rename_i hx
        split at h
        · rename_i q' r' hm
          injection h with _ h
          subst h
          refine Consumes.trans (q := t) ⟨[48, x], rfl, ?_⟩ (consumes_mant hm)
          rw [beq_iff_eq] at hx
          intro h44
          simp at h44
          subst h44
          exact absurd hx (by decide)
        · exact consumes_mant h
      · exact consumes_mant h
    · exact consumes_mant h

theorem consumes_strtof {P : Platform} {p q : Ptr} {v : ℚ} (h : strtof P p = .ok (v, q)) : Consumes p q := by
  unfold strtof at h
  split at h
  · cases h
  · split at h
    · injection h with h; injection h with _ h; subst h; exact .refl _
    · cases h
    · rename_i v' rest hp
      obtain ⟨w, _, h⟩ := bind_eq_ok.1 h
      simp only [pure_ok, Except.ok.injEq, Prod.mk.injEq] at h
      rw [← h.2]
      unfold parseFloat at hp
      simp only at hp
      split at hp
      · rename_i q' r' hu
        injection hp with _ hp
        subst hp
        exact (consumes_dropWhile (f := isSpace) (by decide) p).trans ((consumes_sign _).trans (consumes_unsigned hu))
      · rename_i hx; rw [hp] at hx; exact absurd rfl (hx _ _)

/-! ## Pointers that still have `n` commas and the terminator in front of them -/

/-- The pointer is inside the string and at least `n` commas are still to come. -/
def Good (n : Nat) (p : Ptr) : Prop := n ≤ p.count 44 ∧ ∃ l, p = l ++ [0]

theorem Good.ne_nil {n : Nat} {p : Ptr} (h : Good n p) : p ≠ [] := by
  obtain ⟨_, l, rfl⟩ := h; simp

theorem Good.consume {n : Nat} {p q : Ptr} (h : Good n p) (hc : Consumes p q) (hne : 0 < n ∨ q ≠ []) : Good n q := by
  obtain ⟨hn, l, hl⟩ := h
  obtain ⟨pre, rfl, hp⟩ := hc
  have hcount : q.count 44 = (pre ++ q).count 44 := by
    rw [List.count_append, List.count_eq_zero_of_not_mem hp, Nat.zero_add]
  refine ⟨by rw [hcount]; exact hn, ?_⟩
  have hq : q ≠ [] := by
    rcases hne with h | h
    · rintro rfl
      simp only [List.count_nil] at hcount
      omega
    · exact h
  obtain ⟨q', x, rfl⟩ := List.eq_nil_or_concat q |>.resolve_left hq
  rw [List.concat_eq_append, ← List.append_assoc] at hl
  have := (List.append_inj' hl rfl).2
  exact ⟨q', by rw [List.concat_eq_append, this]⟩

theorem Good.drop1 {n : Nat} {p : Ptr} (h : Good (n + 1) p) : Good n (p.drop 1) := by
  obtain ⟨hn, l, rfl⟩ := h
  cases l with
  | nil => simp at hn
  | cons x t =>
    refine ⟨?_, t, rfl⟩
    simp only [List.cons_append, List.drop_one, List.tail_cons, List.count_cons] at hn ⊢
    split at hn <;> omega

theorem Good.deref {n : Nat} {p : Ptr} (h : Good n p) : ∃ c, deref p = .ok c := by
  cases p with
  | nil => exact absurd rfl h.ne_nil
  | cons c _ => exact ⟨c, rfl⟩

theorem Good.skip {n : Nat} {p : Ptr} (h : Good (n + 1) p) : ∃ q, skipChar p = .ok q ∧ Good n q := by
  obtain ⟨hn, l, rfl⟩ := h
  cases l with
  | nil => simp at hn
  | cons x t =>
    unfold skipChar
    simp only [List.cons_append, Verif.deref, bind_ok, pure_ok]
    refine ⟨_, rfl, ?_⟩
    split
    · exact Good.drop1 ⟨hn, x :: t, rfl⟩
    · rename_i hx
      have h1 : Good (n + 1) (t ++ [0]) := by
        refine ⟨?_, t, rfl⟩
        simp only [List.cons_append, List.count_cons] at hn
        simpa [hx] using hn
      exact h1.drop1

/-- No read outside the string. -/
def Safe {α : Type} (x : C α) : Prop := x ≠ .error (.ub .oobRead)

theorem safe_bind {α β : Type} {x : C α} {f : α → C β} (h1 : Safe x) (h2 : ∀ a, x = .ok a → Safe (f a)) : Safe (x >>= f) := by
  cases x with
  | ok a => exact h2 a rfl
  | error e =>
    intro h
    rw [bind_error] at h
    injection h with h
    exact h1 (by rw [h])

theorem safe_ok {α : Type} (a : α) : Safe (.ok a : C α) := by intro h; cases h
theorem safe_fl (F : Fmt) (q : ℚ) : Safe (fl F q) := by unfold fl; split <;> (intro h; cases h)
theorem safe_castInt (q : ℚ) : Safe (castInt q) := by unfold castInt; simp only; split <;> (intro h; cases h)

theorem safe_toFloat (P : Platform) (q : ℚ) : Safe (toFloat P q) := by
  unfold toFloat
  split
  · exact safe_bind (safe_fl _ _) fun _ _ => safe_fl _ _
  · exact safe_fl _ _

theorem safe_strtof {P : Platform} {p : Ptr} (h : p ≠ []) : Safe (strtof P p) := by
  unfold strtof
  split
  · exact absurd rfl h
  · split
    · exact safe_ok _
    · intro h; cases h
    · exact safe_bind (safe_toFloat _ _) fun _ _ => safe_ok _

theorem safe_strtol {P : Platform} {hex : Bool} {p : Ptr} (h : p ≠ []) : Safe (strtol P hex p) := by
  unfold strtol
  split
  · exact absurd rfl h
  · exact safe_ok _

theorem safe_splitTime (q : ℚ) : Safe (splitTime q) := by
  unfold splitTime
  repeat' first
    | exact safe_ok _
    | exact safe_fl _ _
    | exact safe_castInt _
    | (refine safe_bind ?_ fun _ _ => ?_)

theorem safe_toDegrees (q : ℚ) : Safe (toDegrees q) := by
  unfold toDegrees
  repeat' first
    | exact safe_fl _ _
    | (refine safe_bind ?_ fun _ _ => ?_)

theorem safe_updateAngle (v p : Bool) (r o : ℚ) : Safe (updateAngle v p r o) := by
  unfold updateAngle
  split
  · exact safe_bind (safe_toDegrees _) fun _ _ => safe_ok _
  · exact safe_ok _

theorem safe_splitDate (P : Platform) (r : UInt32) : Safe (splitDate P r) := by
  unfold splitDate
  simp only
  split <;> (intro h; cases h)

theorem safe_bind_strtof {β : Type} {P : Platform} {p : Ptr} {n : Nat} {f : ℚ × Ptr → C β} (h : Good (n + 1) p)
    (h2 : ∀ v q, Good (n + 1) q → Safe (f (v, q))) : Safe (strtof P p >>= f) :=
  safe_bind (safe_strtof h.ne_nil) fun ⟨v, q⟩ e => h2 v q (h.consume (consumes_strtof e) (Or.inl (by omega)))

theorem safe_bind_strtol {β : Type} {P : Platform} {p : Ptr} {n : Nat} {f : ℤ × Ptr → C β} (h : Good (n + 1) p)
    (h2 : ∀ v q, Good (n + 1) q → Safe (f (v, q))) : Safe (strtol P false p >>= f) :=
  safe_bind (safe_strtol h.ne_nil) fun ⟨v, q⟩ e => h2 v q (h.consume (consumes_strtol e) (Or.inl (by omega)))

theorem safe_bind_deref {β : Type} {p : Ptr} {n : Nat} {f : UInt8 → C β} (h : Good n p)
    (h2 : ∀ c, Safe (f c)) : Safe (deref p >>= f) := by
  obtain ⟨c, hc⟩ := h.deref
  rw [hc, bind_ok]; exact h2 c

theorem safe_bind_skip {β : Type} {p : Ptr} {n : Nat} {f : Ptr → C β} (h : Good (n + 1) p)
    (h2 : ∀ q, Good n q → Safe (f q)) : Safe (skipChar p >>= f) := by
  obtain ⟨q, hq, hg⟩ := h.skip
  rw [hq, bind_ok]; exact h2 q hg

theorem safe_rmcBody (P : Platform) (g : Gnss) (p : Ptr) (h : Good 8 p) : Safe (rmcBody P g p) := by
  unfold rmcBody
  refine safe_bind_strtof (n := 7) h fun _ _ h => ?_
  refine safe_bind (safe_splitTime _) fun ⟨_, _, _⟩ _ => ?_
  refine safe_bind_deref (n := 7) h.drop1 fun _ => ?_
  refine safe_bind_skip (n := 6) h.drop1 fun _ h => ?_
  refine safe_bind_strtof (n := 5) h fun _ _ h => ?_
  refine safe_bind_deref (n := 5) h.drop1 fun _ => ?_
  refine safe_bind (safe_updateAngle _ _ _ _) fun _ _ => ?_
  refine safe_bind_skip (n := 4) h.drop1 fun _ h => ?_
  refine safe_bind_strtof (n := 3) h fun _ _ h => ?_
  refine safe_bind_deref (n := 3) h.drop1 fun _ => ?_
  refine safe_bind (safe_updateAngle _ _ _ _) fun _ _ => ?_
  refine safe_bind_skip (n := 2) h.drop1 fun _ h => ?_
  refine safe_bind_strtof (n := 1) h fun _ _ h => ?_
  refine safe_bind (safe_fl _ _) fun _ _ => ?_
  refine safe_bind_strtof (n := 0) h.drop1 fun _ _ h => ?_
  refine safe_bind (safe_strtol h.drop1.ne_nil) fun ⟨_, _⟩ _ => ?_
  refine safe_bind (safe_splitDate _ _) fun ⟨_, _, _⟩ _ => ?_
  exact safe_ok _

theorem safe_ggaBody (P : Platform) (g : Gnss) (p : Ptr) (h : Good 8 p) : Safe (ggaBody P g p) := by
  unfold ggaBody
  refine safe_bind_strtof (n := 7) h fun _ _ h => ?_
  refine safe_bind (safe_splitTime _) fun ⟨_, _, _⟩ _ => ?_
  refine safe_bind_strtof (n := 6) h.drop1 fun _ _ h => ?_
  refine safe_bind_deref (n := 6) h.drop1 fun _ => ?_
  refine safe_bind_skip (n := 5) h.drop1 fun _ h => ?_
  refine safe_bind_strtof (n := 4) h fun _ _ h => ?_
  refine safe_bind_deref (n := 4) h.drop1 fun _ => ?_
  refine safe_bind_skip (n := 3) h.drop1 fun _ h => ?_
  refine safe_bind_strtol (n := 2) h fun _ _ h => ?_
  refine safe_bind (safe_updateAngle _ _ _ _) fun _ _ => ?_
  refine safe_bind (safe_updateAngle _ _ _ _) fun _ _ => ?_
  refine safe_bind_strtol (n := 1) h.drop1 fun _ _ h => ?_
  refine safe_bind_strtof (n := 0) h.drop1 fun _ _ h => ?_
  refine safe_bind (safe_strtof h.drop1.ne_nil) fun ⟨_, _⟩ _ => ?_
  exact safe_ok _

theorem safe_gsvBody (P : Platform) (g : Gnss) (p : Ptr) (h : Good 2 p) : Safe (gsvBody P g p) := by
  unfold gsvBody
  refine safe_bind_strtol (n := 1) h fun _ _ h => ?_
  refine safe_bind_strtol (n := 0) h.drop1 fun _ _ h => ?_
  refine safe_bind (safe_strtol h.drop1.ne_nil) fun ⟨_, _⟩ _ => ?_
  exact safe_ok _

/-! ## C22 -/

theorem safe_verify (P : Platform) (s : List UInt8) (h : 42 ∈ s) : Safe (verifyChecksum P s) := by
  obtain ⟨a, b, rfl, ha⟩ := mem_split h
  have h42 : verifyPos (a ++ 42 :: b) 42 = some a.length := findSub_single ha
  have hc : ∀ f, Safe (compareChecksum P (a ++ 42 :: b) f a.length) := by
    intro f
    unfold compareChecksum cStr
    refine safe_bind (safe_strtol ?_) fun ⟨_, _⟩ _ => safe_ok _
    simp
  unfold verifyChecksum
  rw [h42]
  split
  · rename_i e1 e2; injection e2 with e2; subst e2; exact hc _
  · rename_i e1 e2; injection e2 with e2; subst e2
    split
    · exact safe_ok _
    · exact hc _
  · rename_i e1; cases e1

theorem good_after_header {hdr s : List UInt8} {pos k : Nat} (hf : findSub hdr s = some pos)
    (h : ∀ a b, s = a ++ hdr ++ b → k + 1 ≤ b.count 44) : Good k ((cStr s).drop (pos + hdr.length + 1)) := by
  obtain ⟨a, b, rfl, hal⟩ := findSub_eq_some hf
  have hk := h a b rfl
  unfold cStr
  have : (a ++ hdr ++ b ++ [0]).drop (pos + hdr.length + 1) = (b ++ [0]).drop 1 := by
    have e : a ++ hdr ++ b ++ [0] = (a ++ hdr) ++ (b ++ [0]) := by simp
    have e2 : (a ++ hdr ++ (b ++ [0])).drop (pos + hdr.length) = b ++ [0] := List.drop_left' (by simp [hal])
    rw [e, ← List.drop_drop, e2]
  rw [this]
  exact Good.drop1 ⟨by simpa using hk, b, rfl⟩

/-- **C22** (safe sentences).  A string that contains a `*` and in which every RMC or GGA header is followed by at least nine
commas (the header's own and the eight between the nine fields that are read) and every GSV header by at least three is
processed without reading outside the string, whatever else it contains, on both targets. -/
theorem C22_no_oob_read (P : Platform) (g : Gnss) (s : List UInt8) (hstar : 42 ∈ s)
    (hr : ∀ a b, s = a ++ ascii "$GPRMC" ++ b → 9 ≤ b.count 44)
    (hg : ∀ a b, s = a ++ ascii "$GPGGA" ++ b → 9 ≤ b.count 44)
    (hv : ∀ a b, s = a ++ ascii "$GPGSV" ++ b → 3 ≤ b.count 44) :
    fromNMEA P g s ≠ .error (.ub .oobRead) := by
  show Safe _
  have e1 : ascii "$GPRMC" = RMC_HEADER := by decide
  have e2 : ascii "$GPGGA" = GGA_HEADER := by decide
  have e3 : ascii "$GPGSV" = GSV_HEADER := by decide
  rw [e1] at hr; rw [e2] at hg; rw [e3] at hv
  unfold fromNMEA
  split
  · unfold fromRMC
    refine safe_bind (safe_verify P s hstar) fun ok _ => ?_
    split
    · split
      · exact safe_ok _
      · rename_i pos hf
        exact safe_bind (safe_rmcBody P g _ (good_after_header hf hr)) fun _ _ => safe_ok _
    · exact safe_ok _
  · split
    · unfold fromGGA
      refine safe_bind (safe_verify P s hstar) fun ok _ => ?_
      split
      · split
        · exact safe_ok _
        · rename_i pos hf
          exact safe_bind (safe_ggaBody P g _ (good_after_header (hdr := GGA_HEADER) hf hg)) fun _ _ => safe_ok _
      · exact safe_ok _
    · split
      · unfold fromGSV
        refine safe_bind (safe_verify P s hstar) fun ok _ => ?_
        split
        · split
          · exact safe_ok _
          · rename_i pos hf
            exact safe_bind (safe_gsvBody P g _ (good_after_header hf hv)) fun _ _ => safe_ok _
        · exact safe_ok _
      · exact safe_ok _

/-- **C22** Without a `*`: on the 32-bit target every string is rejected, on a 64-bit host every string makes
`verifyChecksum` read far outside it. -/
theorem C22_missing_star (P : Platform) (s : List UInt8) (h : 42 ∉ s) :
    verifyChecksum P s = match P.word with | .w32 => .ok false | .w64 => .error (.ub .oobRead) := by
  have : verifyPos s 42 = none := findSub_single_none h
  unfold verifyChecksum
  rw [this]
  cases verifyPos s 36 <;> rfl

/-- **C22** (defect) A short sentence with a correct checksum passes `verifyChecksum` and makes the field parser read behind
the terminating NUL, on both targets. -/
theorem C22_short_sentence_oob :
    verifyChecksum .esp32 (ascii "$GPRMC*4B") = .ok true ∧
    fromNMEA .esp32 (.init 0 0) (ascii "$GPRMC*4B") = .error (.ub .oobRead) ∧
    fromNMEA .native (.init 0 0) (ascii "$GPRMC*4B") = .error (.ub .oobRead) ∧
    fromNMEA .esp32 (.init 0 0) (ascii "$GPGGA*56") = .error (.ub .oobRead) ∧
    fromNMEA .esp32 (.init 0 0) (ascii "$GPGSV*55") = .error (.ub .oobRead) ∧
    fromNMEA .esp32 (.init 0 0) (ascii "$GPRMC,092725.00,A*2F\r\n") = .error (.ub .oobRead) := by decide +kernel

/-- **C22** (finding) A GSV sentence cut after its second field reads its own checksum as the number of satellites. -/
theorem C22_short_gsv_reads_checksum :
    fromNMEA .esp32 (.init 0 0) (ascii "$GPGSV,3,1*57") = .ok (true, { Gnss.init 0 0 with satView := 57 }) := by
  decide +kernel

/-- **C22** for the serial buffer: if every line satisfies the condition, processing the buffer reads only inside the
lines. -/
theorem C22_buffer_no_oob_read (P : Platform) (g : Gnss) (bodies : List (List UInt8)) (tail : List UInt8) (ht : 10 ∉ tail)
    (hb : ∀ b ∈ bodies, 10 ∉ b)
    (hs : ∀ b ∈ bodies, 42 ∈ b ∧ ∀ p q, ([36] ++ b ++ [10] = p ++ ascii "$GPRMC" ++ q → 9 ≤ q.count 44) ∧
      ([36] ++ b ++ [10] = p ++ ascii "$GPGGA" ++ q → 9 ≤ q.count 44) ∧
      ([36] ++ b ++ [10] = p ++ ascii "$GPGSV" ++ q → 3 ≤ q.count 44)) :
    fromBuffer P g ((bodies.map fun b => [36] ++ b ++ [10]).flatten ++ tail) ≠ .error (.ub .oobRead) := by
  rw [C20_lines P g bodies hb tail ht]
  have key : ∀ (bs : List (List UInt8)) (g : Gnss), (∀ b ∈ bs, b ∈ bodies) →
      Safe (runLines P g (bs.map fun b => [36] ++ b ++ [10])) := by
    intro bs
    induction bs with
    | nil => intro g _; exact safe_ok _
    | cons b bs ih =>
      intro g hm
      obtain ⟨h1, h2⟩ := hs b (hm b (by simp))
      simp only [List.map_cons, runLines]
      refine safe_bind (C22_no_oob_read P g _ (by simp [h1]) (fun p q => (h2 p q).1) (fun p q => (h2 p q).2.1)
        (fun p q => (h2 p q).2.2)) fun ⟨ok, g1⟩ _ => ?_
      exact safe_bind (ih g1 fun c hc => hm c (by simp [hc])) fun ⟨n, g2⟩ _ => safe_ok _
  have := key bodies g (fun b hb => hb)
  cases hr : runLines P g (bodies.map fun b => [36] ++ b ++ [10]) with
  | ok r => simp [Except.map]
  | error e =>
    rw [hr] at this
    intro h
    simp only [Except.map] at h
    injection h with h
    exact this (by rw [h])

/-- A short GSV sentence with the required commas satisfies the hypotheses. -/
example : 42 ∈ ascii "$GPGSV,3,1,11,03,03*42" ∧ ∀ a b, ascii "$GPGSV,3,1,11,03,03*42" = a ++ ascii "$GPGSV" ++ b → 3 ≤ b.count 44 := by
  refine ⟨by decide, fun a b h => ?_⟩
  have hc := congrArg (List.count 44) h
  rw [List.count_append, List.count_append] at hc
  have h1 : (ascii "$GPGSV,3,1,11,03,03*42").count 44 = 5 := by decide
  have h2 : (ascii "$GPGSV").count 44 = 0 := by decide
  have h36 := congrArg (List.count 36) h
  rw [List.count_append, List.count_append] at h36
  have h3 : (ascii "$GPGSV,3,1,11,03,03*42").count 36 = 1 := by decide
  have h4 : (ascii "$GPGSV").count 36 = 1 := by decide
  cases a with
  | nil => simp at hc; omega
  | cons x t =>
    have hx : x = 36 := by
      have := congrArg List.head? h
      simp [ascii] at this
      exact this.symm
    rw [hx] at h36
    simp only [List.count_cons_self] at h36
    omega

end Verif.Nmea
