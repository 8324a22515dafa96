import Verif.Lemmas.NexStar
import Verif.Lemmas.NmeaFloat

/-!
# Properties C06-C10, C12, C13: the NexStar protocol handler

`NexStar::handleRequest` of `lib/nexstar/src/nexstar.cpp`.  All theorems hold for every telescope implementation `ops`.
-/

set_option linter.unusedSectionVars false

namespace Verif.NexStar
open Verif Verif.Nmea Verif.Spec Verif.Spec.NexStar Verif.Codec

variable {K : Type} [Field K] [LinearOrder K] [IsStrictOrderedRing K] [FloorRing K] {S : Type}

/-! ### plumbing -/

theorem branch_parses {request : List UInt8} {n : Nat} (hn : n ≤ request.length) {c : Command}
    (h : Parses (request.take n) c) : branch request n = .ok (cmdBranch c) := by
  have := branch_of_parses h
  rw [List.length_take_of_le hn, branch_take] at this
  exact this

theorem branch_unparsed {request : List UInt8} {n : Nat} (hn : n ≤ request.length)
    (h : ∀ c, ¬ Parses (request.take n) c) : branch request n = .ok .unknown := by
  have := branch_of_not_parses h
  rw [List.length_take_of_le hn, branch_take] at this
  exact this

theorem snprintf_trunc (resp out : List UInt8) {max : Nat} (h0 : 0 < max) (h : max ≤ resp.length) :
    snprintf resp max out = .ok (UInt32.ofNat out.length, written resp (out.take (max - 1))) := by
  unfold snprintf
  rw [if_neg (by omega), storeSeq_ok _ _ _ (by simp; omega)]
  simp only [bind_ok, pure_ok, written]
  simp

theorem snprintf_fit {resp out : List UInt8} {max : Nat} (ho : out.length < max) (h : max ≤ resp.length) :
    snprintf resp max out = .ok (UInt32.ofNat out.length, written resp out) := by
  rw [snprintf_trunc _ _ (by omega) h, List.take_of_length_le (by omega)]

theorem handle_of_branch {P : Platform} {ops : TelOps K S} {g : Gnss} {sc sc' : Scope S} {request resp : List UInt8} {n max : Nat}
    {b : Branch} {out : List UInt8} (hb : branch request n = .ok b) (hbody : body P ops g sc request b = .ok (some out, sc'))
    (ho : out.length < max) (h : max ≤ resp.length) :
    handleRequest P ops g sc request n resp max = .ok (UInt32.ofNat out.length, written resp out, sc') := by
  unfold handleRequest
  rw [hb, bind_ok, hbody, bind_ok]
  simp only
  rw [snprintf_fit ho h, bind_ok]; rfl

theorem readByte_take' {mem : List UInt8} {n i : Nat} {b : UInt8} (h : readByte (mem.take n) i = .ok b) : readByte mem i = .ok b := by
  unfold readByte at h ⊢
  cases hh : (mem.take n)[i]? with
  | none => rw [hh] at h; cases h
  | some x =>
    rw [hh] at h
    have : mem[i]? = some x := by
      rw [List.getElem?_take] at hh
      split at hh
      · exact hh
      · cases hh
    rw [this]; exact h

/-! ### C06: command table -/

/-- **C06** (fixed replies). A request for `K`, `V`, `P…`, `m`, `L`, `J` or `t` is answered by exactly the bytes of the
protocol table, and the telescope is unchanged. -/
theorem C06_fixed_reply (P : Platform) (ops : TelOps K S) (g : Gnss) (sc : Scope S) (request resp : List UInt8) (n max : Nat)
    (hn : n ≤ request.length) (c : Command) (hc : Parses (request.take n) c) (out : List UInt8)
    (ho : fixedReply sc.isCalibrated c = some out) (hmax : out.length < max) (hr : max ≤ resp.length) :
    handleRequest P ops g sc request n resp max = .ok (UInt32.ofNat out.length, written resp out, sc) := by
  have hb := branch_parses hn hc
  refine handle_of_branch hb ?_ hmax hr
  cases hc' : c with
  | echo x =>
    subst hc'
    have hx : readByte request 1 = .ok x := by
      apply readByte_take' (n := n)
      generalize hq : request.take n = q at hc
      cases hc; rfl
    simp only [cmdBranch, body, hx, Except.map]
    simp only [fixedReply, Option.some.injEq] at ho
    rw [ho]
  | location => subst hc'; simp [fixedReply] at ho
  | position => subst hc'; simp [fixedReply] at ho
  | time => subst hc'; simp [fixedReply] at ho
  | sync a b => subst hc'; simp [fixedReply] at ho
  | _ =>
    subst hc'
    simp only [fixedReply, Option.some.injEq] at ho
    simp only [cmdBranch, body, ho]

/-- **C06** (everything else). A byte string that is no request (in particular a request that is too short) is answered
by length 0; response memory and telescope are unchanged.  The Arduino build needs eight readable bytes, see
`C08_arduino_unknown_oob`. -/
theorem C06_unknown (P : Platform) (ops : TelOps K S) (g : Gnss) (sc : Scope S) (request resp : List UInt8) (n max : Nat)
    (hn : n ≤ request.length) (h : ∀ c, ¬ Parses (request.take n) c) (h8 : P.arduino = true → 8 ≤ request.length) :
    handleRequest P ops g sc request n resp max = .ok (0, resp, sc) := by
  unfold handleRequest
  rw [branch_unparsed hn h, bind_ok]
  have : unknownLog P request = .ok () := by
    unfold unknownLog
    split
    · rename_i ha
      obtain ⟨a0, a1, a2, a3, a4, a5, a6, a7, r, rfl⟩ := exists_eight (h8 ha)
      rfl
    · rfl
  simp only [body, this, Except.map, bind_ok, pure_ok]

/-- **C06** (no hidden effect). Only a sync request changes the telescope. -/
theorem C06_state_unchanged (P : Platform) (ops : TelOps K S) (g : Gnss) (sc : Scope S) (request resp : List UInt8) (n max : Nat)
    (hn : n ≤ request.length) (h : ∀ a d, ¬ Parses (request.take n) (.sync a d)) (k : UInt32) (resp' : List UInt8) (sc' : Scope S)
    (hok : handleRequest P ops g sc request n resp max = .ok (k, resp', sc')) : sc' = sc := by
  unfold handleRequest at hok
  obtain ⟨b, hb, hok⟩ := bind_eq_ok.1 hok
  obtain ⟨⟨out, sc1⟩, hbody, hok⟩ := bind_eq_ok.1 hok
  have h1 : sc1 = sc := by
    by_cases hs : b = .sync
    · exfalso
      by_cases hp : ∃ c, Parses (request.take n) c
      · obtain ⟨c, hc⟩ := hp
        rw [branch_parses hn hc] at hb
        injection hb with hb
        cases c <;> simp [cmdBranch, hs] at hb
        exact h _ _ hc
      · push Not at hp
        rw [branch_unparsed hn hp] at hb
        injection hb with hb; rw [← hb] at hs; cases hs
    · cases b <;> simp only [body, Except.map, bind_eq_ok] at hbody
      case sync => exact absurd rfl hs
      all_goals
        first
          | (injection hbody with hbody; injection hbody with _ hbody; exact hbody.symm)
          | (split at hbody
             · cases hbody
             · injection hbody with hbody; injection hbody with _ hbody; exact hbody.symm)
          | (obtain ⟨_, _, _, _, _, _, hbody⟩ := hbody
             injection hbody with hbody; injection hbody with _ hbody; exact hbody.symm)
  cases out with
  | none => injection hok with hok; injection hok with _ hok; injection hok with _ hok; rw [← hok, h1]
  | some o =>
    obtain ⟨⟨_, _⟩, _, hok⟩ := bind_eq_ok.1 hok
    injection hok with hok; injection hok with _ hok; injection hok with _ hok; rw [← hok, h1]

/-- Every byte string is at most one command. -/
theorem C06_unambiguous (req : List UInt8) (c c' : Command) (h : Parses req c) (h' : Parses req c') : c = c' := by
  have e := branch_of_parses h
  rw [branch_of_parses h'] at e
  injection e with e
  cases h with
  | sync ra dec h1 h2 sep rest =>
    generalize hq : 115 :: (ra ++ sep :: (dec ++ rest)) = q at h'
    cases h' <;> simp [cmdBranch] at e
    rename_i ra' dec' h1' h2' sep' rest'
    injection hq with _ hq
    have := List.append_inj hq (by omega)
    obtain ⟨rfl, h3⟩ := this
    injection h3 with _ h3
    have := List.append_inj h3 (by omega)
    rw [this.1]
  | echo x rest =>
    cases h' <;> simp [cmdBranch] at e
    rfl
  | _ => cases h' <;> simp [cmdBranch] at e ⊢

/-- A telescope for the examples: always reports (10, 20) and counts reference points. -/
def demoOps : TelOps ℚ Nat where
  position _ _ _ := .ok ⟨10, 20⟩
  addReferencePoint s _ _ _ := .ok (s + 1)

/-- Hypotheses of the theorems above on concrete requests, and the run of the model. -/
example : Parses (ascii "Kx") (.echo 120) ∧ Parses (ascii "s2DE3C3B7,0F20C28D") (.sync (ascii "2DE3C3B7") (ascii "0F20C28D")) ∧
    (∀ c, ¬ Parses (ascii "K") c) ∧
    handleRequest .esp32 demoOps (.init 47 8) ⟨0, false⟩ (ascii "Kx......") 2 (List.replicate 20 7) 20 =
      .ok (2, [120, 35, 0] ++ List.replicate 17 7, ⟨0, false⟩) ∧
    handleRequest .native demoOps (.init 47 8) ⟨0, false⟩ (ascii "K") 1 [7, 7] 2 = .ok (0, [7, 7], ⟨0, false⟩) ∧
    handleRequest .native demoOps (.init 47 8) ⟨0, false⟩ (ascii "s2DE3C3B7,0F20C28D") 18 [7, 7] 2 = .ok (1, [35, 0], ⟨1, true⟩) := by
  refine ⟨.echo 120 [], .sync (ascii "2DE3C3B7") (ascii "0F20C28D") rfl rfl 44 [], ?_, by decide +kernel, by decide +kernel,
    by decide +kernel⟩
  intro c h
  generalize hq : ascii "K" = q at h
  have : ascii "K" = [75] := by decide
  rw [this] at hq
  cases h <;> cases hq

/-! ### C07: response buffer -/

theorem locationBytes_len {P : Platform} {g : Gnss} {o : List UInt8} (h : locationBytes P g = .ok o) :
    o.length = 9 ∧ o.getLast? = some 35 := by
  unfold locationBytes at h
  obtain ⟨⟨a, b⟩, _, h⟩ := bind_eq_ok.1 h
  obtain ⟨⟨a, b⟩, _, h⟩ := bind_eq_ok.1 h
  injection h with h; subst h; exact ⟨rfl, rfl⟩

theorem positionBytes_len {P : Platform} {p : Equatorial K} {o : List UInt8} (h : positionBytes P p = .ok o) :
    o.length = 18 ∧ o.getLast? = some 35 := by
  unfold positionBytes at h
  obtain ⟨a, _, h⟩ := bind_eq_ok.1 h
  obtain ⟨b, _, h⟩ := bind_eq_ok.1 h
  injection h with h; subst h
  refine ⟨rfl, ?_⟩
  simp [fmt08X]

theorem body_len {P : Platform} {ops : TelOps K S} {g : Gnss} {sc sc' : Scope S} {request o : List UInt8} {b : Branch}
    (h : body P ops g sc request b = .ok (some o, sc')) : 1 ≤ o.length ∧ o.length ≤ 18 ∧ o.getLast? = some 35 := by
  cases b <;> simp only [body, Except.map, bind_eq_ok] at h
  case location =>
    split at h
    · cases h
    · rename_i hl
      obtain ⟨h1, h2⟩ := locationBytes_len hl
      injection h with h; injection h with h; injection h with h; subst h; exact ⟨by omega, by omega, h2⟩
  case position =>
    obtain ⟨_, _, _, _, o', ho, h⟩ := h
    obtain ⟨h1, h2⟩ := positionBytes_len ho
    injection h with h; injection h with h; injection h with h; subst h; exact ⟨by omega, by omega, h2⟩
  all_goals
    first
      | (injection h with h; injection h with h; injection h with h; subst h; simp [timeBytes])
      | (split at h
         · cases h
         · injection h with h; injection h with h; first | (injection h with h; subst h; simp) | cases h)

/-- **C07**. Whatever the request: when the call returns `k`, then `k ≤ 18`; the memory beyond `responseMaxLength` is
untouched; `k = 0` means nothing was written; otherwise there is a reply of `k` bytes ending in `#` of which the first
`responseMaxLength - 1` bytes (all of them if `responseMaxLength ≥ 19`) were written, followed by a NUL. -/
theorem C07_response (P : Platform) (ops : TelOps K S) (g : Gnss) (sc : Scope S) (request resp : List UInt8) (n max : Nat)
    (hr : max ≤ resp.length) (k : UInt32) (resp' : List UInt8) (sc' : Scope S)
    (hok : handleRequest P ops g sc request n resp max = .ok (k, resp', sc')) :
    k ≤ 18 ∧ resp'.length = resp.length ∧ resp'.drop max = resp.drop max ∧
      (k = 0 → resp' = resp) ∧
      (k ≠ 0 → ∃ out : List UInt8, out.length = k.toNat ∧ out.getLast? = some 35 ∧
        (max = 0 → resp' = resp) ∧
        (0 < max → resp' = written resp (out.take (max - 1))) ∧
        (19 ≤ max → resp' = written resp out ∧ resp'.take k.toNat = out)) := by
  unfold handleRequest at hok
  obtain ⟨b, hb, hok⟩ := bind_eq_ok.1 hok
  obtain ⟨⟨out, sc1⟩, hbody, hok⟩ := bind_eq_ok.1 hok
  cases out with
  | none =>
    injection hok with hok; injection hok with h1 hok; injection hok with h2 hok
    subst h1 h2
    exact ⟨by decide, rfl, rfl, fun _ => rfl, fun h => absurd rfl h⟩
  | some o =>
    obtain ⟨⟨k1, r1⟩, hs, hok⟩ := bind_eq_ok.1 hok
    injection hok with hok; injection hok with h1 hok; injection hok with h2 hok
    subst h1 h2
    obtain ⟨l1, l2, l3⟩ := body_len hbody
    have hk : k1 = UInt32.ofNat o.length := by
      unfold snprintf at hs
      split at hs
      · injection hs with hs; injection hs with hs _; exact hs.symm
      · obtain ⟨_, _, hs⟩ := bind_eq_ok.1 hs
        injection hs with hs; injection hs with hs _; exact hs.symm
    have hkn : k1.toNat = o.length := by
      rw [hk, UInt32.toNat_ofNat']; exact Nat.mod_eq_of_lt (by omega)
    have hk0 : k1 ≠ 0 := by
      intro h; rw [h] at hkn; simp at hkn; omega
    refine ⟨?_, ?_, ?_, fun h => absurd h hk0, fun _ => ⟨o, hkn.symm, l3, ?_, ?_, ?_⟩⟩
    · rw [UInt32.le_iff_toNat_le, hkn]; exact l2
    · by_cases hm : max = 0
      · simp [snprintf, hm] at hs; rw [hs.2]
      · rw [snprintf_trunc _ _ (by omega) hr] at hs
        injection hs with hs; injection hs with _ hs; rw [← hs]; simp [written]; omega
    · by_cases hm : max = 0
      · simp [snprintf, hm] at hs; rw [hs.2]
      · rw [snprintf_trunc _ _ (by omega) hr] at hs
        injection hs with hs; injection hs with _ hs; rw [← hs]; unfold written
        rw [show o.take (max - 1) ++ 0 :: resp.drop ((o.take (max - 1)).length + 1) =
          (o.take (max - 1) ++ [0]) ++ resp.drop ((o.take (max - 1)).length + 1) by simp]
        have hl : (o.take (max - 1)).length ≤ max - 1 := by simp
        rw [List.drop_append, List.drop_of_length_le (by simp; omega), List.nil_append, List.drop_drop]
        congr 1
        simp only [List.length_append, List.length_singleton]
        omega
    · intro hm; simp [snprintf, hm] at hs; exact hs.2.symm
    · intro hm
      rw [snprintf_trunc _ _ hm hr] at hs
      injection hs with hs; injection hs with _ hs; exact hs.symm
    · intro hm
      rw [snprintf_fit (by omega) hr] at hs
      injection hs with hs; injection hs with _ hs
      refine ⟨hs.symm, ?_⟩
      rw [← hs, hkn]; simp [written]

/-- **C07** (reply lengths). A completed request returns the length of the protocol table. -/
theorem C07_reply_length (P : Platform) (ops : TelOps K S) (g : Gnss) (sc : Scope S) (request resp : List UInt8) (n max : Nat)
    (hn : n ≤ request.length) (c : Command) (hc : Parses (request.take n) c) (k : UInt32) (resp' : List UInt8) (sc' : Scope S)
    (hok : handleRequest P ops g sc request n resp max = .ok (k, resp', sc')) : k.toNat = replyLength c := by
  unfold handleRequest at hok
  rw [branch_parses hn hc, bind_ok] at hok
  obtain ⟨⟨out, sc1⟩, hbody, hok⟩ := bind_eq_ok.1 hok
  have hout : ∃ o, out = some o ∧ o.length = replyLength c := by
    cases c <;> simp only [body, cmdBranch, Except.map, bind_eq_ok] at hbody
    case location =>
      split at hbody
      · cases hbody
      · rename_i hl
        injection hbody with h; injection h with h
        exact ⟨_, h.symm, (locationBytes_len hl).1⟩
    case position =>
      obtain ⟨_, _, _, _, o', ho, h⟩ := hbody
      injection h with h; injection h with h
      exact ⟨_, h.symm, (positionBytes_len ho).1⟩
    all_goals
      first
        | (injection hbody with h; injection h with h; exact ⟨_, h.symm, rfl⟩)
        | (split at hbody
           · cases hbody
           · injection hbody with h; injection h with h; exact ⟨_, h.symm, rfl⟩)
  obtain ⟨o, rfl, ho⟩ := hout
  obtain ⟨⟨k1, r1⟩, hs, hok⟩ := bind_eq_ok.1 hok
  injection hok with hok; injection hok with h1 hok
  subst h1
  have hk : k1 = UInt32.ofNat o.length := by
    unfold snprintf at hs
    split at hs
    · injection hs with hs; injection hs with hs _; exact hs.symm
    · obtain ⟨_, _, hs⟩ := bind_eq_ok.1 hs
      injection hs with hs; injection hs with hs _; exact hs.symm
  rw [hk, UInt32.toNat_ofNat', ho]
  exact Nat.mod_eq_of_lt (by cases c <;> simp [replyLength])

/-- With an 18-byte response buffer the `#` of a position reply is cut off although 18 is returned: 19 is needed. -/
theorem C07_nineteen_needed :
    (handleRequest .esp32 demoOps (.init 47 8) ⟨0, false⟩ (ascii "e.......") 1 (List.replicate 18 7) 18).map (fun r => (r.1, r.2.1)) =
      .ok (18, ascii "071C71C7,0E38E38E" ++ [0]) := by decide +kernel

/-! ### C08: request bounds -/

/-- Errors a computation of the handler itself may end with. -/
def OwnErrors {α : Type} (x : C α) : Prop := ∀ e, x = .error e → e = .ub .floatToInt ∨ e = .nonfinite

theorem ownErrors_ok {α : Type} (a : α) : OwnErrors (.ok a : C α) := by intro e h; cases h
theorem ownErrors_bind {α β : Type} {x : C α} {f : α → C β} (hx : OwnErrors x) (hf : ∀ a, x = .ok a → OwnErrors (f a)) :
    OwnErrors (x >>= f) := by
  intro e h
  cases hx' : x with
  | error e' =>
    rw [hx', bind_error] at h
    injection h with h; subst h; exact hx _ hx'
  | ok a => rw [hx', bind_ok] at h; exact hf a hx' e h
theorem ownErrors_map {α β : Type} {x : C α} {f : α → β} (hx : OwnErrors x) : OwnErrors (x.map f) := by
  intro e h
  cases hx' : x with
  | error e' => rw [hx'] at h; simp only [Except.map] at h; injection h with h; subst h; exact hx _ hx'
  | ok a => rw [hx'] at h; cases h
theorem ownErrors_fl {F : Fmt} {q : ℚ} : OwnErrors (fl F q) := by
  intro e h; unfold fl at h; split at h
  · cases h
  · injection h with h; exact Or.inr h.symm
theorem ownErrors_castUnsigned {P : Platform} {n : Nat} {z : ℤ} : OwnErrors (castUnsigned P n z) := by
  intro e h; unfold castUnsigned at h; split at h
  · cases h
  · split at h
    · injection h with h; exact Or.inl h.symm
    · cases h
theorem ownErrors_castU8 {P : Platform} {x : K} : OwnErrors (castU8 P x) := ownErrors_bind ownErrors_castUnsigned fun _ _ => ownErrors_ok _
theorem ownErrors_castU32 {P : Platform} {x : K} : OwnErrors (castU32 P x) := ownErrors_bind ownErrors_castUnsigned fun _ _ => ownErrors_ok _
theorem ownErrors_degMin {P : Platform} {v : ℚ} : OwnErrors (degMin P v) := by
  unfold degMin
  exact ownErrors_bind ownErrors_castU8 fun _ _ => ownErrors_bind ownErrors_fl fun _ _ => ownErrors_bind ownErrors_fl fun _ _ =>
    ownErrors_bind ownErrors_castU8 fun _ _ => ownErrors_ok _
theorem ownErrors_location {P : Platform} {g : Gnss} : OwnErrors (locationBytes P g) := by
  unfold locationBytes
  exact ownErrors_bind ownErrors_degMin fun _ _ => ownErrors_bind ownErrors_degMin fun _ _ => ownErrors_ok _
theorem ownErrors_julianDay {t : Tm} : OwnErrors (Helper.julianDay t) := by
  unfold Helper.julianDay
  simp only
  repeat' first
    | exact ownErrors_fl
    | refine ownErrors_bind ownErrors_fl fun _ _ => ?_
theorem ownErrors_lst {g : Gnss} : OwnErrors (lst g : C K) := by
  unfold lst Helper.localSiderealTime
  exact ownErrors_bind ownErrors_julianDay fun _ _ => ownErrors_ok _

theorem readByte_lt {mem : List UInt8} {i : Nat} (h : i < mem.length) : ∃ b, readByte mem i = .ok b := by
  unfold readByte
  rw [List.getElem?_eq_getElem h]; exact ⟨_, rfl⟩

theorem strncpy_ok {mem : List UInt8} {i k : Nat} (h : i + k ≤ mem.length) : ∃ s, strncpyFrom mem i k = .ok s := by
  induction k generalizing i with
  | zero => exact ⟨_, rfl⟩
  | succ k ih =>
    obtain ⟨b, hb⟩ := readByte_lt (mem := mem) (i := i) (by omega)
    unfold strncpyFrom
    rw [hb, bind_ok]
    split
    · exact ⟨_, rfl⟩
    · obtain ⟨s, hs⟩ := ih (i := i + 1) (by omega)
      rw [hs]; exact ⟨_, rfl⟩

theorem strncpy_take {mem : List UInt8} {n i k : Nat} (h : i + k ≤ n) :
    strncpyFrom (mem.take n) i k = strncpyFrom mem i k := by
  induction k generalizing i with
  | zero => rfl
  | succ k ih =>
    unfold strncpyFrom
    rw [readByte_take (by omega), ih (by omega)]

theorem strtoul_ok (P : Platform) (hex : Bool) (s : List UInt8) : ∃ v, strtoul P hex (s ++ [0]) = .ok v := by
  unfold strtoul
  cases h : s ++ [0] with
  | nil => simp at h
  | cons a t => exact ⟨_, rfl⟩

theorem syncAngle_ok (P : Platform) {mem : List UInt8} {i : Nat} (h : i + 8 ≤ mem.length) : ∃ v : K, syncAngle P mem i = .ok v := by
  obtain ⟨s, hs⟩ := strncpy_ok h
  obtain ⟨v, hv⟩ := strtoul_ok P true s
  unfold syncAngle
  rw [hs, bind_ok, hv, bind_ok]
  exact ⟨_, rfl⟩

theorem syncAngle_take (P : Platform) {mem : List UInt8} {n i : Nat} (h : i + 8 ≤ n) :
    (syncAngle P (mem.take n) i : C K) = syncAngle P mem i := by
  unfold syncAngle; rw [strncpy_take h]

theorem sync_len {request : List UInt8} {n : Nat} (h : branch request n = .ok .sync) : 18 ≤ n := by
  by_contra hn
  have e : cmdIs request n 18 115 = .ok false := cmdIs_false hn
  have fb : ∀ (c : C Bool) (b : Branch) (l : List (C Bool × Branch)), b ≠ .sync → firstBranch ((c, b) :: l) = .ok .sync →
      firstBranch l = .ok .sync := by
    intro c b l hb h
    unfold firstBranch at h
    obtain ⟨t, _, h⟩ := bind_eq_ok.1 h
    split at h
    · injection h with h; exact absurd h hb
    · exact h
  unfold branch at h
  rw [e] at h
  have h := fb _ _ _ (by decide) <| fb _ _ _ (by decide) <| fb _ _ _ (by decide) <| fb _ _ _ (by decide) <| fb _ _ _ (by decide) <|
    fb _ _ _ (by decide) <| fb _ _ _ (by decide) <| fb _ _ _ (by decide) <| fb _ _ _ (by decide) <| fb _ _ _ (by decide) h
  cases h

theorem echo_len {request : List UInt8} {n : Nat} (h : branch request n = .ok .echo) : 2 ≤ n := by
  by_contra hn
  have e : cmdIs request n 2 75 = .ok false := cmdIs_false hn
  unfold branch at h
  rw [e, firstBranch_cons_false] at h
  have fb : ∀ (c : C Bool) (b : Branch) (l : List (C Bool × Branch)), b ≠ .echo → firstBranch ((c, b) :: l) = .ok .echo →
      firstBranch l = .ok .echo := by
    intro c b l hb h
    unfold firstBranch at h
    obtain ⟨t, _, h⟩ := bind_eq_ok.1 h
    split at h
    · injection h with h; exact absurd h hb
    · exact h
  have h := fb _ _ _ (by decide) <| fb _ _ _ (by decide) <| fb _ _ _ (by decide) <| fb _ _ _ (by decide) <| fb _ _ _ (by decide) <|
    fb _ _ _ (by decide) <| fb _ _ _ (by decide) <| fb _ _ _ (by decide) <| fb _ _ _ (by decide) <| fb _ _ _ (by decide) h
  cases h

/-- Bytes the call must be able to read: the request, and in the Arduino build the eight bytes of the unknown-command log. -/
def Readable (P : Platform) (mem : List UInt8) (n : Nat) : Prop := n ≤ mem.length ∧ (P.arduino = true → 8 ≤ mem.length)

theorem body_take {P : Platform} {ops : TelOps K S} {g : Gnss} {sc : Scope S} {request : List UInt8} {n : Nat} {b : Branch}
    (hb : branch request n = .ok b) (hr' : Readable P (request.take n) n) :
    body P ops g sc (request.take n) b = body P ops g sc request b := by
  cases b <;> try rfl
  case echo =>
    have := echo_len hb
    simp only [body]; rw [readByte_take (by omega)]
  case sync =>
    have := sync_len hb
    simp only [body, doSync]; rw [syncAngle_take P (by omega), syncAngle_take P (by omega)]
  case unknown =>
    simp only [body]
    congr 1
    unfold unknownLog
    split
    · rename_i ha
      have h8 := hr'.2 ha
      rw [List.length_take] at h8
      rw [readByte_take (by omega), readByte_take (by omega), readByte_take (by omega), readByte_take (by omega),
        readByte_take (by omega), readByte_take (by omega), readByte_take (by omega), readByte_take (by omega)]
    · rfl

/-- **C08** (non-Arduino build). The call behaves exactly as if the memory behind the request ended after
`requestLength` bytes: it never looks further. -/
theorem C08_reads_only_request (P : Platform) (hP : P.arduino = false) (ops : TelOps K S) (g : Gnss) (sc : Scope S)
    (request resp : List UInt8) (n max : Nat) (hn : n ≤ request.length) :
    handleRequest P ops g sc request n resp max = handleRequest P ops g sc (request.take n) n resp max := by
  unfold handleRequest
  rw [branch_take]
  cases hb : branch request n with
  | error e => rfl
  | ok b =>
    rw [bind_ok, bind_ok, body_take hb ⟨by simp [hn], by simp [hP]⟩]

/-- **C08** (every build). The result depends on the first `requestLength` bytes only. -/
theorem C08_depends_on_prefix (P : Platform) (ops : TelOps K S) (g : Gnss) (sc : Scope S) (request request' resp : List UInt8)
    (n max : Nat) (h1 : Readable P request n) (h2 : Readable P request' n) (he : request.take n = request'.take n) :
    handleRequest P ops g sc request n resp max = handleRequest P ops g sc request' n resp max := by
  have hb : branch request n = branch request' n := by rw [← branch_take, he, branch_take]
  unfold handleRequest
  rw [hb]
  cases hb' : branch request' n with
  | error e => rfl
  | ok b =>
    rw [bind_ok, bind_ok]
    have : body P ops g sc request b = body P ops g sc request' b := by
      cases b <;> try rfl
      case echo =>
        have := echo_len hb'
        simp only [body]; rw [← readByte_take (mem := request) (n := n) (by omega), he, readByte_take (by omega)]
      case sync =>
        have := sync_len hb'
        simp only [body, doSync]
        rw [← syncAngle_take P (mem := request) (n := n) (by omega), ← syncAngle_take P (mem := request) (n := n) (by omega), he,
          syncAngle_take P (by omega), syncAngle_take P (by omega)]
      case unknown =>
        simp only [body]
        congr 1
        unfold unknownLog
        split
        · rename_i ha
          obtain ⟨_, _, _, _, _, _, _, _, _, rfl⟩ := exists_eight (h1.2 ha)
          obtain ⟨_, _, _, _, _, _, _, _, _, rfl⟩ := exists_eight (h2.2 ha)
          rfl
        · rfl
    rw [this]

/-- **C08** (Arduino build, defect). An unknown command shorter than eight bytes at the end of its buffer is read out of
bounds by the log line, whatever its length. -/
theorem C08_arduino_unknown_oob (P : Platform) (hP : P.arduino = true) (ops : TelOps K S) (g : Gnss) (sc : Scope S)
    (request resp : List UInt8) (n max : Nat) (hn : n ≤ request.length) (h : ∀ c, ¬ Parses (request.take n) c)
    (h8 : request.length < 8) : handleRequest P ops g sc request n resp max = .error (.ub .oobRead) := by
  unfold handleRequest
  rw [branch_unparsed hn h, bind_ok]
  have : unknownLog P request = .error (.ub .oobRead) := by
    unfold unknownLog
    rw [if_pos hP]
    match request, h8 with
    | [], _ => rfl
    | [_], _ => rfl
    | [_, _], _ => rfl
    | [_, _, _], _ => rfl
    | [_, _, _, _], _ => rfl
    | [_, _, _, _, _], _ => rfl
    | [_, _, _, _, _, _], _ => rfl
    | [_, _, _, _, _, _, _], _ => rfl
    | _ :: _ :: _ :: _ :: _ :: _ :: _ :: _ :: _, h8 => simp at h8; omega
  simp only [body, this, Except.map, bind_error]

/-- **C07/C08** (safety). With enough readable request bytes and a response memory of at least `responseMaxLength` bytes, the
handler itself never reads or writes out of bounds, whatever the request: the only ways not to return are an
out-of-range float-to-integer conversion and a non-finite number, or an error inside the telescope's own methods. -/
theorem C08_memory_safe (P : Platform) (ops : TelOps K S) (hpos : ∀ s a b, OwnErrors (ops.position s a b))
    (hadd : ∀ s e a b, OwnErrors (ops.addReferencePoint s e a b)) (g : Gnss) (sc : Scope S)
    (request resp : List UInt8) (n max : Nat) (hr : Readable P request n) (hm : max ≤ resp.length) (e : Stop)
    (he : handleRequest P ops g sc request n resp max = .error e) : e = .ub .floatToInt ∨ e = .nonfinite := by
  obtain ⟨hn, h8⟩ := hr
  have hb : ∃ b, branch request n = .ok b := by
    by_cases h : ∃ c, Parses (request.take n) c
    · obtain ⟨c, hc⟩ := h; exact ⟨_, branch_parses hn hc⟩
    · push Not at h; exact ⟨_, branch_unparsed hn h⟩
  obtain ⟨b, hb⟩ := hb
  have hbody : OwnErrors (body P ops g sc request b) := by
    cases b with
    | echo =>
      obtain ⟨x, hx⟩ := readByte_lt (mem := request) (i := 1) (by have := echo_len hb; omega)
      simp only [body, hx]; exact ownErrors_ok _
    | location => exact ownErrors_map ownErrors_location
    | position =>
      exact ownErrors_bind ownErrors_lst fun _ _ => ownErrors_bind (hpos _ _ _) fun _ _ =>
        ownErrors_bind (ownErrors_bind ownErrors_castU32 fun _ _ => ownErrors_bind ownErrors_castU32 fun _ _ => ownErrors_ok _)
          fun _ _ => ownErrors_ok _
    | sync =>
      have := sync_len hb
      obtain ⟨x, hx⟩ := syncAngle_ok (K := K) P (mem := request) (i := 1) (by omega)
      obtain ⟨y, hy⟩ := syncAngle_ok (K := K) P (mem := request) (i := 10) (by omega)
      refine ownErrors_map ?_
      unfold doSync
      rw [hx, bind_ok, hy, bind_ok]
      exact ownErrors_bind ownErrors_lst fun _ _ => ownErrors_bind (hadd _ _ _ _) fun _ _ => ownErrors_ok _
    | unknown =>
      refine ownErrors_map ?_
      unfold unknownLog
      split
      · rename_i ha
        obtain ⟨_, _, _, _, _, _, _, _, _, rfl⟩ := exists_eight (h8 ha)
        exact ownErrors_ok _
      · exact ownErrors_ok _
    | _ => exact ownErrors_ok _
  revert he
  unfold handleRequest
  rw [hb, bind_ok]
  refine (ownErrors_bind hbody ?_) e
  rintro ⟨out, sc'⟩ _
  cases out with
  | none => exact ownErrors_ok _
  | some o =>
    refine ownErrors_bind ?_ fun _ _ => ownErrors_ok _
    by_cases h0 : max = 0
    · subst h0; exact ownErrors_ok _
    · rw [snprintf_trunc _ _ (by omega) hm]; exact ownErrors_ok _

/-- Hypotheses of the C08 theorems: a 256-byte receive buffer; and the short unknown command `x` on the ESP32. -/
example : Readable .esp32 (ascii "Kx" ++ List.replicate 254 0) 2 ∧ (∀ s a b, OwnErrors (demoOps.position s a b)) ∧
    handleRequest .esp32 demoOps (.init 47 8) ⟨0, false⟩ (ascii "x") 1 [7, 7] 2 = .error (.ub .oobRead) :=
  ⟨⟨by decide +kernel, fun _ => by decide +kernel⟩, fun _ _ _ => ownErrors_ok _, by decide +kernel⟩

end Verif.NexStar
