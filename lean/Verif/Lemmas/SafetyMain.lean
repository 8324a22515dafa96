import Verif.Lemmas.SafetyGnss
import Verif.Lemmas.SafetyTel
import Verif.Props.Imu
import Verif.Props.Heading
import Verif.Props.MainReport

/-!
# Every part of the firmware completes unless there is a hazard
-/

set_option linter.unusedSectionVars false

namespace Verif.NexStar
open Verif.Spec.NexStar Nmea

variable {K : Type} [Field K] [LinearOrder K] [IsStrictOrderedRing K] [FloorRing K] {S : Type}

theorem castU32_total {P : Platform} {x : K} (h : P.fcast = .strict → -1 < x ∧ x < 4294967296) : ∃ d, castU32 P x = .ok d := by
  unfold castU32 castUnsigned
  split
  · exact ⟨_, rfl⟩
  · rename_i hn
    cases hP : P.fcast with
    | wrap => exact ⟨_, rfl⟩
    | strict =>
      exfalso
      obtain ⟨h0, h1⟩ := h hP
      apply hn
      unfold truncZ
      split
      · rename_i hx
        refine ⟨Int.floor_nonneg.2 hx, ?_⟩
        rw [Int.floor_lt]; push_cast; exact h1
      · rename_i hx
        have : (-1 : ℤ) < ⌈x⌉ := Int.lt_ceil.2 (by push_cast; exact h0)
        have h2 : ⌈x⌉ ≤ 0 := Int.ceil_le.2 (by push_cast; exact (not_le.1 hx).le)
        constructor
        · omega
        · exact lt_of_le_of_lt h2 (by norm_num)

theorem handle_total (P : Platform) (ops : TelOps K S) (g : Gnss) (hg : g.Sane) (sc : Scope S) (request resp : List UInt8) (n : Nat)
    (hn : n ≤ request.length) (hresp : resp.length = 256)
    (hshort : (∀ c, ¬ Parses (request.take n) c) → P.arduino = true → 8 ≤ request.length)
    (hloc : Parses (request.take n) .location → P.fcast = .strict → (0 ≤ g.latitude ∧ g.latitude < 256) ∧ 0 ≤ g.longitude ∧ g.longitude < 256)
    (hpos : Parses (request.take n) .position → ∀ t : K, Helper.localSiderealTime g.utc (g.longitude : K) = .ok t →
      ∃ p, ops.position sc.core (g.latitude : K) t = .ok p ∧ 0 ≤ p.ra ∧ p.ra < 360 ∧ p.dec ≤ 90 ∧
        (P.fcast = .strict → -(360 / 2 ^ 32) < p.dec))
    (hsync : ∀ a d, Parses (request.take n) (.sync a d) → ∀ r (t : K), ∃ c, ops.addReferencePoint sc.core r (g.latitude : K) t = .ok c) :
    ∃ k r sc', handleRequest P ops g sc request n resp 256 = .ok (k, r, sc') := by
  by_cases hp : ∃ c, Parses (request.take n) c
  · obtain ⟨c, hc⟩ := hp
    have hb := branch_parses hn hc
    suffices h : ∃ out sc', body P ops g sc request (cmdBranch c) = .ok (some out, sc') by
      obtain ⟨out, sc', h⟩ := h
      have hl := (body_len h).2.1
      exact ⟨_, _, _, handle_of_branch hb h (by omega) (by omega)⟩
    obtain ⟨t, ht, -⟩ := Helper.lst_total g.utc hg.year hg.mon hg.mday (g.longitude : K)
    cases c with
    | echo x =>
      have : 1 < request.length := by
        generalize hq : request.take n = q at hc
        cases hc with
        | echo x rest =>
          have := congrArg List.length hq
          simp at this; omega
      obtain ⟨b, hb⟩ := readByte_lt this
      simp only [body, cmdBranch, hb]
      exact ⟨_, _, rfl⟩
    | location =>
      have hl : ∃ o, locationBytes P g = .ok o := by
        obtain ⟨⟨d1, m1⟩, e1⟩ := degMin_total P g.latitude fun hs => (hloc hc hs).1
        obtain ⟨⟨d2, m2⟩, e2⟩ := degMin_total P g.longitude fun hs => (hloc hc hs).2
        unfold locationBytes
        rw [e1, bind_ok]; simp only; rw [e2, bind_ok]
        exact ⟨_, rfl⟩
      obtain ⟨o, hl⟩ := hl
      simp only [body, cmdBranch, hl]
      exact ⟨_, _, rfl⟩
    | position =>
      obtain ⟨p, hp, h0, h1, h2, h3⟩ := hpos hc t ht
      have e32 : (2 : K) ^ 32 = 4294967296 := by norm_num
      obtain ⟨u, hu⟩ := castU32_total (P := P) (x := p.ra / 360 * 4294967296) (fun _ => by constructor <;> linarith)
      obtain ⟨v, hv⟩ := castU32_total (P := P) (x := p.dec / 360 * 4294967296) (fun hs => by
        have := h3 hs
        rw [e32] at this
        constructor <;> linarith)
      simp only [body, cmdBranch]
      have ht' : lst g = .ok t := ht
      rw [ht', bind_ok, hp, bind_ok]
      unfold positionBytes
      rw [hu, bind_ok, hv, bind_ok]
      exact ⟨_, _, rfl⟩
    | sync a d =>
      have hl : 18 ≤ request.length := by
        generalize hq : request.take n = q at hc
        cases hc with
        | sync ra dec h1 h2 sep rest =>
          have := congrArg List.length hq
          simp at this; omega
      obtain ⟨ra, h1⟩ := syncAngle_ok (K := K) P (mem := request) (i := 1) (by omega)
      obtain ⟨dec, h2⟩ := syncAngle_ok (K := K) P (mem := request) (i := 10) (by omega)
      obtain ⟨c, hcc⟩ := hsync a d hc ⟨ra, wrapDec dec⟩ t
      have ht' : lst g = .ok t := ht
      have : doSync P ops g sc request = .ok ⟨c, true⟩ := by
        unfold doSync
        rw [h1, bind_ok, h2, bind_ok, ht', bind_ok, hcc, bind_ok]; rfl
      simp only [body, cmdBranch, this]
      exact ⟨_, _, rfl⟩
    | _ => exact ⟨_, _, rfl⟩
  · push Not at hp
    exact ⟨_, _, _, C06_unknown P ops g sc request resp n 256 hn hp (hshort hp)⟩

end Verif.NexStar

namespace Verif.Main
open Printf Net Imu Spec Spec.NexStar NexStar

variable {K : Type} [Field K] [LinearOrder K] [IsStrictOrderedRing K] [FloorRing K] {S : Type}

/-- With the local broker the last byte of the buffer is NUL. -/
def Nul (cfg : Config) (tx : List UInt8) : Prop := cfg.broker = true → tx[255]? = some 0

theorem nul_text {cfg : Config} {out tx : List UInt8} (h : Nul cfg tx) (hl : out.length ≤ 255) :
    Nul cfg (out ++ 0 :: tx.drop (out.length + 1)) := by
  intro hb
  have := h hb
  rw [List.getElem?_append_right hl]
  rcases Nat.eq_or_lt_of_le hl with e | e
  · rw [e]; rfl
  · obtain ⟨k, hk⟩ : ∃ k, 255 - out.length = k + 1 := ⟨254 - out.length, by omega⟩
    rw [hk, List.getElem?_cons_succ, List.getElem?_drop]
    rw [show out.length + 1 + k = 255 by omega]; exact this

theorem nul_list {cfg : Config} {out tx : List UInt8} (h : Nul cfg tx) (hl : out.length ≤ if cfg.broker then 255 else 256) :
    Nul cfg (out ++ tx.drop out.length) := by
  intro hb
  rw [hb, if_pos rfl] at hl
  rw [List.getElem?_append_right hl, List.getElem?_drop, show out.length + (255 - out.length) = 255 by omega]
  exact h hb

theorem nul_set {cfg : Config} {tx : List UInt8} {i : Nat} {b : UInt8} (h : Nul cfg tx) (hi : i ≠ 255) : Nul cfg (tx.set i b) := by
  intro hb
  rw [List.getElem?_set_ne hi]; exact h hb

theorem handle_nul {cfg : Config} {P : Platform} {ops : TelOps K S} {g : Nmea.Gnss} {sc sc' : Scope S} {request resp resp' : List UInt8} {n : Nat}
    {k : UInt32} (hr : resp.length = 256) (hN : Nul cfg resp) (h : handleRequest P ops g sc request n resp 256 = .ok (k, resp', sc')) :
    Nul cfg resp' ∧ k.toNat ≤ 18 ∧ resp'.length = 256 := by
  obtain ⟨h18, hl, -, h0, h1⟩ := C07_response P ops g sc request resp n 256 (by omega) k resp' sc' h
  have h18' : k.toNat ≤ 18 := UInt32.le_iff_toNat_le.1 h18
  refine ⟨?_, h18', by omega⟩
  by_cases hk : k = 0
  · rw [h0 hk]; exact hN
  · obtain ⟨out, e, -, -, -, e2⟩ := h1 hk
    rw [(e2 (by norm_num)).1]
    exact nul_text hN (by omega)

theorem send_total {cfg : Config} {topic : String} {tx : List UInt8} {n : Nat} (hn : n ≤ tx.length) (hN : Nul cfg tx) :
    ∃ o, send cfg topic tx n = .ok o := by
  unfold send sendMqtt sendBroker
  rw [readBytes_eq hn]
  cases hb : cfg.broker with
  | false => cases cfg.mqtt <;> exact ⟨_, rfl⟩
  | true =>
    rw [readCString_of_mem (List.mem_of_getElem? (hN hb))]
    cases cfg.mqtt <;> exact ⟨_, rfl⟩

theorem publishAll_total {cfg : Config} {l : List (String × List UInt8)} {tx : List UInt8} (ht : tx.length = 256) (hN : Nul cfg tx)
    (hl : ∀ x ∈ l, x.2.length ≤ 255 ∧ (0 : UInt8) ∉ x.2) : ∃ tx' o, publishAll cfg l tx = .ok (tx', o) ∧ tx'.length = 256 ∧ Nul cfg tx' := by
  induction l generalizing tx with
  | nil => exact ⟨tx, _, rfl, ht, hN⟩
  | cons x l ih =>
    obtain ⟨topic, out⟩ := x
    obtain ⟨h1, h2⟩ := hl (topic, out) (by simp)
    simp only at h1 h2
    obtain ⟨tx', o, h, a, b⟩ := ih (tx := out ++ 0 :: tx.drop (out.length + 1)) (by simp; omega) (nul_text hN h1) (fun x hx => hl x (by simp [hx]))
    refine ⟨tx', messages cfg topic out ++ o, ?_, a, b⟩
    unfold publishAll
    rw [publish_text ht h1 h2, bind_ok]
    simp only
    rw [h]; rfl

theorem publishVertices_total {cfg : Config} (topic : String) (ps : List (K × K)) {tx : List UInt8} (ht : tx.length = 256) (hN : Nul cfg tx)
    (hl : (pointList ps).length ≤ if cfg.broker then 255 else 256) :
    ∃ tx' o, publishVertices cfg topic ps tx = .ok (tx', o) ∧ tx'.length = 256 ∧ Nul cfg tx' := by
  have hl' : (pointList ps).length ≤ 256 := hl.trans (by split <;> norm_num)
  have hN' := nul_list (out := pointList ps) hN hl
  obtain ⟨o, ho⟩ := send_total (topic := topic) (n := (pointList ps).length) (by simp) hN'
  refine ⟨_, o, ?_, ?_, hN'⟩
  · rw [publishVertices_eq cfg topic ps tx ht hl', ho]; rfl
  · simp; omega

theorem sendPosition_total {cfg : Config} {s : Sys K S} (hi : Inv s) (hN : Nul cfg s.tx) {p : Equatorial K}
    (h : cfg.platform.fcast = .strict → client s ≠ none → s.gnssAvailable = true → s.nexStarMode = false → Codec.InDomain p.ra ∧ Codec.InDomain p.dec) :
    ∃ tx o, sendPosition cfg s p = .ok ({ s with tx }, o) ∧ tx.length = 256 ∧ Nul cfg tx := by
  unfold sendPosition
  cases hc : client s with
  | none => exact ⟨s.tx, _, rfl, hi.1, hN⟩
  | some c =>
    simp only
    split
    · rename_i hg
      simp only [Bool.and_eq_true, Bool.not_eq_true'] at hg
      have hpack : ∃ tx, Codec.packPosition cfg.platform p.ra p.dec 0 s.tx 256 = .ok (24, tx) ∧ tx.length = 256 ∧ Nul cfg tx := by
        have ⟨u, hu⟩ : ∃ u, Codec.encodeAngle cfg.platform p.ra = .ok u := by
          cases hP : cfg.platform.fcast with
          | strict =>
            obtain ⟨a, ha, ha'⟩ := (Codec.inDomain_iff p.ra).1 (h hP (by simp [hc]) hg.1 hg.2).1
            exact ⟨_, Codec.encodeAngle_ok ha' ha⟩
          | wrap => obtain ⟨z, hz⟩ := Codec.exists_encodes p.ra; exact ⟨_, Codec.encodeAngle_wrap hP hz⟩
        have ⟨v, hv⟩ : ∃ u, Codec.encodeAngle cfg.platform p.dec = .ok u := by
          cases hP : cfg.platform.fcast with
          | strict =>
            obtain ⟨a, ha, ha'⟩ := (Codec.inDomain_iff p.dec).1 (h hP (by simp [hc]) hg.1 hg.2).2
            exact ⟨_, Codec.encodeAngle_ok ha' ha⟩
          | wrap => obtain ⟨z, hz⟩ := Codec.exists_encodes p.dec; exact ⟨_, Codec.encodeAngle_wrap hP hz⟩
        have e := Codec.pack_bytes cfg.platform p.ra p.dec 0 s.tx 256 (by norm_num) (by rw [hi.1])
        rw [hu, bind_ok, hv, bind_ok, pure_ok] at e
        refine ⟨_, e, pack_length hi.1 e, ?_⟩
        have hd := ((Codec.C01_pack_contract cfg.platform p.ra p.dec 0 s.tx 256 (by rw [hi.1])).2.2 _ _ e).2.1
        intro hb
        have := hN hb
        rw [show (255 : Nat) = 24 + 231 from rfl, ← List.getElem?_drop] at this ⊢
        rw [hd]; exact this
      obtain ⟨tx, e, hl, hN'⟩ := hpack
      rw [e, bind_ok]
      simp only [if_true]
      rw [readBytes_eq (by omega), bind_ok]
      exact ⟨tx, _, rfl, hl, hN'⟩
    · exact ⟨s.tx, _, rfl, hi.1, hN⟩

theorem commaList_no_zero (m : List K) : (0 : UInt8) ∉ [91] ++ commaList (m.map (fmtF 2)) ++ [93] := by
  have : ∀ l : List (List UInt8), (∀ x ∈ l, (0 : UInt8) ∉ x) → (0 : UInt8) ∉ commaList l := by
    intro l hl
    induction l using commaList.induct with
    | case1 => simp [commaList]
    | case2 x => simpa [commaList] using hl x (by simp)
    | case3 x xs hx ih =>
      have h1 := hl x (by simp)
      have h2 := ih (fun y hy => hl y (by simp [hy]))
      unfold commaList
      simp [h1, h2]
  have h1 := this (m.map (fmtF 2)) (by
    intro x hx
    obtain ⟨y, -, rfl⟩ := List.mem_map.1 hx
    exact fmtF_no_zero _ _)
  simp [h1]

theorem reportAll_total (cfg : Config) (T : Tel K S) (s : Sys K S) (hi : Inv s) (hN : Nul cfg s.tx) (lst : K) (ty : Nat)
    (position : Equatorial K) (m : List K)
    (hl : Helper.localSiderealTime s.gnss.utc (s.gnss.longitude : K) = .ok lst)
    (hpos : T.calibrated s.scope.core (s.gnss.latitude : K) lst = .ok (ty, position))
    (hsend : cfg.platform.fcast = .strict → client s ≠ none → s.gnssAvailable = true → s.nexStarMode = false →
      Codec.InDomain position.ra ∧ Codec.InDomain position.dec)
    (hq : ∀ q ∈ quantities T s position lst, |q.2.2| < 10 ^ 200)
    (hv : (T.vertices s.scope.core).length < 10 ^ 50) (htr : T.triangles s.scope.core < 10 ^ 50) (hty : ty < 10 ^ 50)
    (ha : (pointList ((T.vertices s.scope.core).map (·.1))).length ≤ if cfg.broker then 255 else 256)
    (hr : (pointList ((T.vertices s.scope.core).map (·.2))).length ≤ if cfg.broker then 255 else 256)
    (hm : T.matrix s.scope.core = .ok m) (hml : (commaList (m.map (fmtF 2))).length ≤ 253) :
    ∃ tx o, reportAll cfg T s = .ok ({ s with tx }, o) ∧ tx.length = 256 ∧ Nul cfg tx := by
  obtain ⟨tx0, o1, e0, l0, N0⟩ := sendPosition_total hi hN hsend
  have hrep := report_ok T { s with tx := tx0 } ty position lst hq hv htr hty
  obtain ⟨tx1, o2, e1, l1, N1⟩ := publishAll_total l0 N0 hrep
  obtain ⟨tx2, o3, e2, l2, N2⟩ := publishVertices_total "home/appliance/telescope/actual" ((T.vertices s.scope.core).map (·.1)) l1 N1 ha
  obtain ⟨tx3, o4, e3, l3, N3⟩ := publishVertices_total "home/appliance/telescope/reference" ((T.vertices s.scope.core).map (·.2)) l2 N2 hr
  have e6 := publish_text (cfg := cfg) (topic := "home/appliance/telescope/matrix") l3 (out := [91] ++ commaList (m.map (fmtF 2)) ++ [93])
    (by simp; omega) (commaList_no_zero m)
  set out := [91] ++ commaList (m.map (fmtF 2)) ++ [93] with hout
  have hol : out.length ≤ 255 := by rw [hout]; simp; omega
  refine ⟨out ++ 0 :: tx3.drop (out.length + 1), o1 ++ o2 ++ o3 ++ o4 ++ messages cfg "home/appliance/telescope/matrix" out, ?_, ?_, nul_text N3 hol⟩
  · unfold reportAll
    rw [hl, bind_ok, hpos, bind_ok]
    simp only
    rw [e0, bind_ok]
    simp only at e1 ⊢
    rw [e1, bind_ok]
    simp only
    rw [e2, bind_ok]
    simp only
    rw [e3, bind_ok]
    simp only
    rw [hm, bind_ok, e6]
    rfl
  · simp only [List.length_append, List.length_cons, List.length_drop]; omega

theorem mqttLoop_total {cfg : Config} {T : Tel K S} (ms : List (List UInt8 × List UInt8)) {s : Sys K S} (hi : Inv s) (hN : Nul cfg s.tx) :
    ∃ s' o, mqttLoop T ms s = .ok (s', o) ∧ Nul cfg s'.tx ∧ s'.imu = s.imu ∧ s'.temperature = s.temperature := by
  induction ms generalizing s with
  | nil => exact ⟨s, _, rfl, hN, rfl, rfl⟩
  | cons m ms ih =>
    obtain ⟨topic, payload⟩ := m
    have h1 : ∃ s' o, mqttCallback T s topic payload = .ok (s', o) ∧ Nul cfg s'.tx ∧ s'.imu = s.imu ∧ s'.temperature = s.temperature := by
      unfold mqttCallback
      split
      · exact ⟨s, _, rfl, hN, rfl, rfl⟩
      · rename_i hp
        split
        · exact ⟨s, _, rfl, hN, rfl, rfl⟩
        · obtain ⟨b, hb⟩ := readByte_lt (mem := payload) (i := 0) (by omega)
          rw [hb, bind_ok]
          split
          · have e : storeByte s.tx 0 48 = .ok (s.tx.set 0 48) := by unfold storeByte; rw [if_pos (by rw [hi.1]; norm_num)]
            simp only [e, bind_ok]
            rw [readBytes_eq (by rw [List.length_set, hi.1]; norm_num), bind_ok]
            exact ⟨_, _, rfl, nul_set hN (by norm_num), rfl, rfl⟩
          · exact ⟨s, _, rfl, hN, rfl, rfl⟩
    obtain ⟨s1, o1, e1, N1, f1, f2⟩ := h1
    obtain ⟨s2, o2, e2, N2, g1, g2⟩ := ih ((mqttCallback_same e1).1.2.2 hi) N1
    refine ⟨s2, o1 ++ o2, ?_, N2, g1.trans f1, g2.trans f2⟩
    unfold mqttLoop
    rw [e1, bind_ok]; simp only; rw [e2]; rfl

theorem unpack_total {data : List UInt8} (h : data.length = 256) (n : Nat) (out : Codec.UnpackOut K) (hts : out.timestamp = none) :
    ∃ o, Codec.unpackPosition out data n = .ok (decide (Codec.Accepts data n), o) := by
  have hb : ∀ i, i < 256 → ∃ b, readByte data i = .ok b := fun i hi => readByte_lt (by omega)
  by_cases hn : n ≤ 256
  · rw [Codec.C04_unpack out data n (by omega) (by omega)]
    by_cases ha : Codec.Accepts data n
    · rw [if_pos ha, decide_eq_true ha]; exact ⟨_, rfl⟩
    · rw [if_neg ha, decide_eq_false ha]; exact ⟨_, rfl⟩
  · have key := Codec.C04_unpack out (data ++ List.replicate n 0) n (by simp; omega) (by simp)
    have hs : ∀ i k, i + k ≤ 256 → slice (data ++ List.replicate n 0) i k = slice data i k := by
      intro i k hik
      unfold slice
      rw [List.drop_append_of_le_length (by omega), List.take_append_of_le_length (by simp; omega)]
    have hacc : Codec.Accepts (data ++ List.replicate n 0) n ↔ Codec.Accepts data n := by
      unfold Codec.Accepts
      rw [hs 0 2 (by norm_num), hs 2 2 (by norm_num)]
    have hread : ∀ i, i < 256 → readByte (data ++ List.replicate n 0) i = readByte data i := by
      intro i hi
      unfold readByte
      rw [List.getElem?_append_left (by omega)]
    have e : Codec.unpackPosition out (data ++ List.replicate n 0) n = Codec.unpackPosition out data n := by
      unfold Codec.unpackPosition
      rw [hts]
      simp only [hread 0 (by norm_num), hread 1 (by norm_num), hread 2 (by norm_num), hread 3 (by norm_num), hread 12 (by norm_num), hread 13 (by norm_num), hread 14 (by norm_num), hread 15 (by norm_num),
        hread 16 (by norm_num), hread 17 (by norm_num), hread 18 (by norm_num), hread 19 (by norm_num)]
    rw [← e, key]
    by_cases ha : Codec.Accepts data n
    · rw [if_pos (hacc.2 ha), decide_eq_true ha]; exact ⟨_, rfl⟩
    · rw [if_neg (fun h => ha (hacc.1 h)), decide_eq_false ha]; exact ⟨_, rfl⟩

end Verif.Main
