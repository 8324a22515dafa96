import Verif.Lemmas.System

/-!
# C58: the whole firmware, from a goto message to the next position packet
-/

namespace Verif.System
open Verif.Align Verif.Coord Verif.Telescope Verif.Spec Verif.Main

variable {σ : Type}

/-- The wire values in a packet, on every platform. -/
theorem pack_units {K : Type} [Field K] [LinearOrder K] [IsStrictOrderedRing K] [FloorRing K] {P : Platform} {ra dec : K} {ts : UInt64}
    {buffer tx : List UInt8} {n : Nat} (h24 : 24 ≤ n) (hn : n ≤ buffer.length) {k : UInt32}
    (h : Codec.packPosition P ra dec ts buffer n = .ok (k, tx)) {a d : ℤ} (ha : Codec.Encodes ra a) (hd : Codec.Encodes dec d) :
    slice (tx.take 24) 12 4 = le 4 (a % 2 ^ 32).toNat ∧ slice (tx.take 24) 16 4 = le 4 (d % 2 ^ 32).toNat := by
  have key : tx = positionMessage ts.toNat (a % 2 ^ 32).toNat (d % 2 ^ 32).toNat ++ buffer.drop 24 := by
    cases hP : P.fcast with
    | wrap =>
      rw [Codec.C02_pack_layout_wrap P hP ra dec ts buffer n h24 hn a d ha hd] at h
      injection h with h; injection h with _ h; exact h.symm
    | strict =>
      have hdom : Codec.InDomain ra ∧ Codec.InDomain dec := by
        by_contra hc
        rw [(Codec.C05_pack_ub_iff P hP ra dec ts buffer n h24 hn).2 hc] at h
        cases h
      obtain ⟨u, hu, hu'⟩ := (Codec.inDomain_iff ra).1 hdom.1
      obtain ⟨v, hv, hv'⟩ := (Codec.inDomain_iff dec).1 hdom.2
      rw [Codec.C02_pack_layout P ra dec ts buffer n h24 hn u v hu' hv' hu hv] at h
      have uniq : ∀ (x : K) (y z : ℤ), Codec.Encodes x y → Codec.Encodes x z → y = z := by
        intro x y z hy hz
        exact ((Codec.floor_encodes x y).1 hy).symm.trans ((Codec.floor_encodes x z).1 hz)
      have ea := uniq _ _ _ ha hu'
      have ed := uniq _ _ _ hd hv'
      injection h with h; injection h with _ h
      rw [← h, ea, ed]
      have : ((u : ℤ) % 2 ^ 32).toNat = u := by omega
      have : ((v : ℤ) % 2 ^ 32).toNat = v := by omega
      simp_all
  have hl : (positionMessage ts.toNat (a % 2 ^ 32).toNat (d % 2 ^ 32).toNat).length = 24 := by simp [positionMessage, Codec.le_length]
  rw [key, List.take_append_of_le_length (by omega), List.take_of_length_le (by omega)]
  have := Codec.slices_positionMessage ts.toNat (a % 2 ^ 32).toNat (d % 2 ^ 32).toNat []
  simp only [List.append_nil] at this
  tauto

/-- A sync with a declination in [0°, 360°) is one with the declination in (-90°, 90°). -/
theorem sync_wrapped (env : Env ℝ σ) (T : Telescope.Tel) (ra dec lat t : ℝ) :
    addReferencePoint env T ⟨ra, dec⟩ lat t = addReferencePoint env T ⟨ra, dec - 360⟩ lat t := by
  have := C30_turns_e2h ra dec lat t 0 (-1) 0 0
  simp only [Int.cast_zero, zero_mul, add_zero, Int.cast_neg, Int.cast_one] at this
  unfold addReferencePoint
  rw [← this, show dec + -1 * 360 = dec - 360 by ring]

theorem set_same {T' : Telescope.Tel} {o : Horizontal} (h : T'.orientation = o) : Telescope.setOrientation T' o = T' := by
  unfold Telescope.setOrientation; rw [← h]

theorem sync_orientation {env : Env ℝ σ} {T T' : Telescope.Tel} {r : Equatorial ℝ} {lat t : ℝ} (h : addReferencePoint env T r lat t = .ok T') :
    T'.orientation = T.orientation := by
  unfold addReferencePoint at h
  obtain ⟨_, _, h⟩ := bind_eq_ok.1 h
  obtain ⟨_, _, h⟩ := bind_eq_ok.1 h
  simp only [pure_ok, Except.ok.injEq] at h
  rw [← h]

/-- The stars known after a sync in a new direction. -/
theorem stars_after {g : List (Env ℝ σ × Op)} (hg : ∀ e ∈ g, IsSort e.1.sort) {T : Telescope.Tel} (hr : Telescope.run g Telescope.new = .ok T)
    (hnew : toPt T.orientation ∉ T.alignment.used.map VertexPair.actual) (hfew : T.alignment.used.length ≠ 63) (r : Equatorial ℝ) (lat t : ℝ) :
    (knows (g.map Prod.snd)).stars.length = T.alignment.used.length ∧
    (∀ a, a ∈ directions (g.map Prod.snd) ↔ a ∈ T.alignment.used.map VertexPair.actual) ∧
    (knows (g.map Prod.snd ++ [.sync r lat t])).stars = (knows (g.map Prod.snd)).stars ++ [⟨T.orientation, r, lat, t⟩] := by
  have hR := run_rep g hg _ T _ Rep.new hr
  obtain ⟨hnow, q, bs, hqs, hrun, hL⟩ := hR
  have hI := (run_refines q hqs _ _ Inv.fresh bs _ hrun).2
  rw [← ledger] at hI
  change _ = List.map Star.pair (knows (g.map Prod.snd)).stars at hL
  change T.orientation = (knows (g.map Prod.snd)).now at hnow
  have hlen : (knows (g.map Prod.snd)).stars.length = T.alignment.used.length := by
    rw [hI.stores.length, hL, List.length_map]
  refine ⟨hlen, fun a => stored_directions hI hL a, ?_⟩
  have hn : (knows (g.map Prod.snd)).now ∉ (knows (g.map Prod.snd)).stars.map Star.at' := by
    intro hc
    apply hnew
    rw [← stored_directions hI hL, hnow]
    obtain ⟨k, hk, e⟩ := List.mem_map.1 hc
    exact List.mem_map.2 ⟨k, hk, by rw [e]⟩
  rw [hnow]
  unfold knows at *
  rw [List.foldl_append]
  simp only [List.foldl_cons, List.foldl_nil, Knows.step]
  rw [if_neg hn, if_neg (by omega)]

/-- At most one star known, another direction: what the telescope reports after the sync. -/
theorem reported_few {g : List (Env ℝ σ × Op)} (hg : ∀ e ∈ g, IsSort e.1.sort) {T T' : Telescope.Tel}
    (hr : Telescope.run g Telescope.new = .ok T) (hfew : T.alignment.used.length < 2)
    (hnew : toPt T.orientation ∉ T.alignment.used.map VertexPair.actual) {env : Env ℝ σ} (he : IsSort env.sort) (env' : Env ℝ σ)
    (r : Equatorial ℝ) (lat t : ℝ) (h0 : -90 < r.dec) (h1 : r.dec < 90) (hs : addReferencePoint env T r lat t = .ok T') (d : ℝ) :
    ∃ ty, getCalibratedOrientation env' T' lat (t + d) = .ok (ty, later r d) := by
  obtain ⟨hlen, -, hst⟩ := stars_after hg hr hnew (by omega) r lat t
  rw [← set_same (sync_orientation hs)]
  match hq : (knows (g.map Prod.snd)).stars, hlen with
  | [], _ =>
    rw [hq] at hst
    exact ⟨_, C37_one_star g hg T T' hr env env' he r lat t hs _ hst h0 h1 d⟩
  | [k], _ =>
    rw [hq] at hst
    exact ⟨_, C37_two_stars g hg T T' hr env env' he r lat t hs k _ _ hst (.inr rfl) h0 h1 d⟩
  | _ :: _ :: _, hl => simp only [List.length_cons] at hl; omega

/-- Any number of stars, exact arithmetic: what the telescope reports after the sync. -/
theorem reported_many {g : List (Env ℝ (Option (Circle ℝ)) × Op)} (hg : ∀ e ∈ g, IsSort e.1.sort) {T T' : Telescope.Tel}
    (hr : Telescope.run g Telescope.new = .ok T) (hfew : T.alignment.used.length < 63)
    (hnew : toPt T.orientation ∉ T.alignment.used.map VertexPair.actual) {env env' : Env ℝ (Option (Circle ℝ))} (he : IsSort env.sort)
    (htest : env.test = exactTest) (hrd : env'.rd = id) (r : Equatorial ℝ) (lat t : ℝ) (h0 : -90 < r.dec) (h1 : r.dec < 90)
    (hs : addReferencePoint env T r lat t = .ok T')
    (hgen : Generic (toPt T.orientation :: T.alignment.used.map VertexPair.actual))
    (hns : NoSliver (toPt T.orientation :: T.alignment.used.map VertexPair.actual)) (b c : Pt ℝ)
    (hb : Belong (toPt T.orientation :: T.alignment.used.map VertexPair.actual) (toPt T.orientation) b c) (d : ℝ) :
    ∃ ty, getCalibratedOrientation env' T' lat (t + d) = .ok (ty, later r d) := by
  obtain ⟨-, hdir, hst⟩ := stars_after hg hr hnew (by omega) r lat t
  have hmem : ∀ a, a ∈ toPt T.orientation :: T.alignment.used.map VertexPair.actual ↔ a ∈ directions (g.map Prod.snd ++ [.sync r lat t]) := by
    intro a
    rw [List.mem_cons, ← hdir]
    unfold directions
    rw [hst, List.map_append, List.mem_append, List.map_singleton, List.mem_singleton, or_comm]
  rw [← set_same (sync_orientation hs)]
  exact C37_many_stars g hg T T' hr env env' he htest hrd r lat t hs (Generic.of_mem hmem hgen) (NoSliver.of_mem hmem hns)
    ⟨T.orientation, r, lat, t⟩ (by rw [hst]; simp) b c (Belong.of_mem hmem hb) h0 h1 d

/-- The packet made from a reported position. -/
theorem packet_units {P : Platform} {tx0 tx : List UInt8} (h256 : tx0.length = 256) {k : UInt32} (ru du : Nat) (hdu : du < 2 ^ 32)
    (r : Equatorial ℝ) (hra : r.ra = (ru : ℝ) * 360 / 2 ^ 32) (hdec : r.dec = (du : ℝ) * 360 / 2 ^ 32 ∨ r.dec = (du : ℝ) * 360 / 2 ^ 32 - 360)
    (d : ℝ) (h : Codec.packPosition P (later r d).ra (later r d).dec 0 tx0 256 = .ok (k, tx)) :
    (∃ z : ℤ, IsNearest ((ru : ℝ) + d / 360 * 2 ^ 32) z ∧ slice (tx.take 24) 12 4 = le 4 (z % 2 ^ 32).toNat) ∧
      slice (tx.take 24) 16 4 = le 4 du := by
  obtain ⟨z0, hz0⟩ := Codec.exists_encodes (later r d).ra
  obtain ⟨v, hv, hmod⟩ : ∃ v : ℤ, Codec.Encodes (later r d).dec v ∧ (v % 2 ^ 32).toNat = du := by
    rcases hdec with e | e
    · refine ⟨du, ?_, by omega⟩
      unfold Codec.Encodes IsNearest later
      simp only
      rw [e, show (du : ℝ) * 360 / 2 ^ 32 / 360 * 2 ^ 32 = du by field_simp]
      push_cast
      constructor <;> linarith
    · refine ⟨du - 2 ^ 32, ?_, by omega⟩
      unfold Codec.Encodes IsNearest later
      simp only
      rw [e, show ((du : ℝ) * 360 / 2 ^ 32 - 360) / 360 * 2 ^ 32 = du - 2 ^ 32 by field_simp]
      push_cast
      constructor <;> linarith
  obtain ⟨p1, p2⟩ := pack_units (by norm_num) (by omega) h hz0 hv
  rw [hmod] at p2
  refine ⟨?_, p2⟩
  obtain ⟨-, -, j, hj⟩ := Helper.C23_fmod_range (r.ra + d) (360 : ℝ) (by norm_num)
  refine ⟨z0 + j * 2 ^ 32, ?_, ?_⟩
  · unfold Codec.Encodes IsNearest later at hz0
    simp only at hz0
    unfold IsNearest
    have : (ru : ℝ) + d / 360 * 2 ^ 32 = Helper.fMod (r.ra + d) 360 / 360 * 2 ^ 32 + j * 2 ^ 32 := by
      have e : Helper.fMod (r.ra + d) (360 : ℝ) = r.ra + d - j * 360 := by linarith
      rw [e, hra]; field_simp; ring
    rw [this]
    push_cast
    constructor <;> linarith [hz0.1, hz0.2]
  · rw [p1]
    congr 2
    omega

/-- Histories that leave the telescope alone: no 100 ms task, no Bluetooth data. -/
def Quiet (cfg : Config) (s : Sys ℝ Telescope.Tel) (h : List (Env ℝ σ × Event ℝ)) : Prop :=
  ¬ Happened cfg s (h.map fun x => (real x.1, x.2)) fun s e => taskOf s e = some .t100ms ∨ ∃ b, e = .bluetooth b

theorem quiet_scope {cfg : Config} {s0 s : Sys ℝ Telescope.Tel} {h : List (Env ℝ σ × Event ℝ)} {o : List Out} (hi : Main.Inv s0)
    (hr : Main.run cfg (h.map fun x => (real x.1, x.2)) s0 = .ok (s, o)) (hq : Quiet cfg s0 h) : Main.Inv s ∧ s.scope = s0.scope := by
  induction h using List.reverseRecOn generalizing s o with
  | nil => injection hr with hr; injection hr with hr _; subst hr; exact ⟨hi, rfl⟩
  | append_singleton h x ih =>
    obtain ⟨env, e⟩ := x
    unfold Quiet at hq
    rw [List.map_append] at hr hq
    obtain ⟨s1, o1, o2, h1, h2, rfl⟩ := run_snoc.1 hr
    rw [List.map_singleton, happened_snoc h1, not_or] at hq
    obtain ⟨i1, e1⟩ := ih h1 hq.1
    have := hq.2
    push Not at this
    refine ⟨(step_facts i1 h2).1, ?_⟩
    rw [step_still i1 h2 this.1 this.2, e1]

/-- The common part of the two theorems below. -/
theorem goto_packet (cfg : Config) (h1 : List (Env ℝ σ × Event ℝ)) (hs1 : ∀ e ∈ h1, IsSort e.1.sort) (s1 s2 s3 s4 : Sys ℝ Telescope.Tel)
    (o1 o2 o4 : List Out) (hr1 : firmware cfg h1 = .ok (s1, o1)) (env env' : Env ℝ σ) (he : IsSort env.sort) (i i' : In ℝ)
    (hg : Main.step cfg (real env) s1 (.loop i) = .ok (s2, o2)) (ht : taskOf s1 (.loop i) = some .t100ms) (c c' : Net.Conn)
    (hc : s1.net.remote = some c ∧ c ∈ s1.net.open') (hm : i.messages = []) (msg : List UInt8) (hd : i.tcp = .data msg)
    (h20 : 20 ≤ msg.length) (hl : msg.length ≤ 256) (hlen : leVal (slice msg 0 2) = 20) (htype : leVal (slice msg 2 2) = 0)
    (hdec : leVal (slice msg 16 4) < 2 ^ 30 ∨ 3 * 2 ^ 30 < leVal (slice msg 16 4))
    (i3 : Main.Inv s3) (e3 : s3.scope.core = s2.scope.core)
    (hp : Main.step cfg (real env') s3 (.loop i') = .ok (s4, o4)) (b : List UInt8) (hb : Out.tcp c' b ∈ o4) (hbl : 18 < b.length)
    (t1 t2 : ℝ) (ht1 : Helper.localSiderealTime s1.gnss.utc (s1.gnss.longitude : ℝ) = .ok t1)
    (ht2 : Helper.localSiderealTime s4.gnss.utc (s4.gnss.longitude : ℝ) = .ok t2) (hlat : s4.gnss.latitude = s1.gnss.latitude)
    (hrep : ∀ (g : List (Env ℝ σ × Op)) (T T' : Telescope.Tel) (r : Equatorial ℝ), (∀ e ∈ g, IsSort e.1.sort) →
      Telescope.run g Telescope.new = .ok T → T.orientation = ⟨s2.heading, s2.pitch⟩ → T.alignment = s1.scope.core.alignment →
      addReferencePoint env T r (s1.gnss.latitude : ℝ) t1 = .ok T' → -90 < r.dec → r.dec < 90 → ∀ d, ∃ ty,
        getCalibratedOrientation env' T' (s1.gnss.latitude : ℝ) (t1 + d) = .ok (ty, later r d)) :
    (∃ z : ℤ, IsNearest ((leVal (slice msg 12 4) : ℝ) + (t2 - t1) / 360 * 2 ^ 32) z ∧ slice b 12 4 = le 4 (z % 2 ^ 32).toNat) ∧
      slice b 16 4 = slice msg 16 4 := by
  obtain ⟨i1, g, hgs, hgr⟩ := telescope_history cfg h1 hs1 s1 o1 hr1
  obtain ⟨-, -, -, heading, pitch, lst, hlst, hsync⟩ := C50_goto cfg _ _ s1 o1 hr1 (real env) i s2 o2 hg ht c hc hm msg hd h20 hl hlen htype
  have : lst = t1 := by rw [ht1] at hlst; injection hlst with e; exact e.symm
  subst this
  have hor : (⟨heading, pitch⟩ : Horizontal) = ⟨s2.heading, s2.pitch⟩ := by
    rw [← step_orientation hg ht, sync_orientation hsync]; rfl
  obtain ⟨-, -, -, -, lst', ty, position, tx, hlst', hcal, hpk, rfl⟩ := step_packet i3 hp hb hbl
  have : lst' = t2 := by rw [ht2] at hlst'; injection hlst' with e; exact e.symm
  subst this
  have hslice : (slice msg 16 4).length = 4 := by unfold slice; simp; omega
  have hdu : leVal (slice msg 16 4) < 2 ^ 32 := by
    have := Codec.leVal_lt (slice msg 16 4)
    rw [hslice] at this; exact lt_of_lt_of_eq this (by norm_num)
  set ru := leVal (slice msg 12 4) with hru
  set du := leVal (slice msg 16 4) with hdu'
  have hgT : ∃ g' : List (Env ℝ σ × Op), (∀ e ∈ g', IsSort e.1.sort) ∧
      Telescope.run g' Telescope.new = .ok (Telescope.setOrientation s1.scope.core ⟨heading, pitch⟩) := by
    refine ⟨g ++ [(env, .orient ⟨heading, pitch⟩)], ?_, ?_⟩
    · intro e hmem
      rcases List.mem_append.1 hmem with h1 | h1
      · exact hgs e h1
      · rw [List.mem_singleton.1 h1]; exact he
    · rw [tel_run_append, hgr]; rfl
  obtain ⟨g', hgs', hgr'⟩ := hgT
  obtain ⟨r, hra, hdecr, hb0, hb1, hsync'⟩ : ∃ r : Equatorial ℝ, r.ra = (ru : ℝ) * 360 / 2 ^ 32 ∧
      (r.dec = (du : ℝ) * 360 / 2 ^ 32 ∨ r.dec = (du : ℝ) * 360 / 2 ^ 32 - 360) ∧ -90 < r.dec ∧ r.dec < 90 ∧
      addReferencePoint env (Telescope.setOrientation s1.scope.core ⟨heading, pitch⟩) r (s1.gnss.latitude : ℝ) lst = .ok s2.scope.core := by
    rcases hdec with hd | hd
    · refine ⟨⟨(ru : ℝ) * 360 / 2 ^ 32, (du : ℝ) * 360 / 2 ^ 32⟩, rfl, Or.inl rfl, ?_, ?_, hsync⟩
      · have : (0 : ℝ) ≤ du := Nat.cast_nonneg _
        simp only; linarith
      · have : (du : ℝ) < 2 ^ 30 := by exact_mod_cast hd
        simp only; linarith
    · refine ⟨⟨(ru : ℝ) * 360 / 2 ^ 32, (du : ℝ) * 360 / 2 ^ 32 - 360⟩, rfl, Or.inr rfl, ?_, ?_, ?_⟩
      · have : (3 * 2 ^ 30 : ℝ) < du := by exact_mod_cast hd
        simp only; linarith
      · have : (du : ℝ) < 2 ^ 32 := by exact_mod_cast hdu
        simp only; linarith
      · rw [← sync_wrapped]; exact hsync
  obtain ⟨ty', hty⟩ := hrep g' _ _ r hgs' hgr' hor rfl hsync' hb0 hb1 (lst' - lst)
  rw [add_sub_cancel, ← hlat, ← e3] at hty
  simp only [real, hty, Except.map] at hcal
  injection hcal with hcal; injection hcal with _ hcal
  subst hcal
  obtain ⟨q1, q2⟩ := packet_units i3.1 ru du hdu r hra hdecr _ hpk
  refine ⟨q1, ?_⟩
  rw [q2]
  exact Codec.le_leVal _ hslice

/-- **C58** The whole firmware, from goto to position packet.  After any history since power-up: a connected client sends a Stellarium goto
message (LENGTH 20, TYPE 0, declination strictly between -90° and 90°); so far at most one point was published as synced, and not the
direction in which the telescope points now.  Then every position packet sent before the next run of the 100 ms task (and before Bluetooth
data) carries exactly the declination of the goto message, and its right ascension advanced by exactly the sidereal time that passed,
rounded to the nearest wire unit.  No assumption on the platform, on the arithmetic of the geometric tests, or on GNSS data in between
except that the latitude is the same. -/
theorem C58_goto_then_packet (cfg : Config) (h1 h2 : List (Env ℝ σ × Event ℝ)) (hs1 : ∀ e ∈ h1, IsSort e.1.sort)
    (s1 s2 s3 s4 : Sys ℝ Telescope.Tel) (o1 o2 o3 o4 : List Out) (hr1 : firmware cfg h1 = .ok (s1, o1)) (env env' : Env ℝ σ)
    (he : IsSort env.sort) (i i' : In ℝ) (hg : Main.step cfg (real env) s1 (.loop i) = .ok (s2, o2))
    (ht : taskOf s1 (.loop i) = some .t100ms) (c c' : Net.Conn) (hc : s1.net.remote = some c ∧ c ∈ s1.net.open') (hm : i.messages = [])
    (msg : List UInt8) (hd : i.tcp = .data msg) (h20 : 20 ≤ msg.length) (hl : msg.length ≤ 256) (hlen : leVal (slice msg 0 2) = 20)
    (htype : leVal (slice msg 2 2) = 0) (hdec : leVal (slice msg 16 4) < 2 ^ 30 ∨ 3 * 2 ^ 30 < leVal (slice msg 16 4))
    (hfew : (synced s1).length < 2) (hnew : pointing s2 ∉ synced s1)
    (hr2 : Main.run cfg (h2.map fun x => (real x.1, x.2)) s2 = .ok (s3, o3)) (hq : Quiet cfg s2 h2)
    (hp : Main.step cfg (real env') s3 (.loop i') = .ok (s4, o4)) (b : List UInt8) (hb : Out.tcp c' b ∈ o4) (hbl : 18 < b.length)
    (t1 t2 : ℝ) (ht1 : Helper.localSiderealTime s1.gnss.utc (s1.gnss.longitude : ℝ) = .ok t1)
    (ht2 : Helper.localSiderealTime s4.gnss.utc (s4.gnss.longitude : ℝ) = .ok t2) (hlat : s4.gnss.latitude = s1.gnss.latitude) :
    (∃ z : ℤ, IsNearest ((leVal (slice msg 12 4) : ℝ) + (t2 - t1) / 360 * 2 ^ 32) z ∧ slice b 12 4 = le 4 (z % 2 ^ 32).toNat) ∧
      slice b 16 4 = slice msg 16 4 := by
  obtain ⟨i3, e3⟩ := quiet_scope (step_facts (telescope_history cfg h1 hs1 s1 o1 hr1).1 hg).1 hr2 hq
  refine goto_packet cfg h1 hs1 s1 s2 s3 s4 o1 o2 o4 hr1 env env' he i i' hg ht c c' hc hm msg hd h20 hl hlen htype hdec i3 (by rw [e3]) hp b hb
    hbl t1 t2 ht1 ht2 hlat ?_
  intro g T T' r hgs hgr hor hal hsync h0 h1 d
  unfold synced at hfew hnew
  rw [List.length_map, ← hal] at hfew
  rw [← hal, show pointing s2 = toPt ⟨s2.heading, s2.pitch⟩ from rfl, ← hor] at hnew
  exact reported_few hgs hgr hfew hnew he env' r _ _ h0 h1 hsync d

/-- **C58** (any number of stars). The same with up to 62 synced points before, when the directions are generic, no three nearly
collinear, the new one belongs together with two others (Spec/Delaunay.lean), and the geometric tests are exact. -/
theorem C58_goto_then_packet_many (cfg : Config) (h1 h2 : List (Env ℝ (Option (Circle ℝ)) × Event ℝ)) (hs1 : ∀ e ∈ h1, IsSort e.1.sort)
    (s1 s2 s3 s4 : Sys ℝ Telescope.Tel) (o1 o2 o3 o4 : List Out) (hr1 : firmware cfg h1 = .ok (s1, o1))
    (env env' : Env ℝ (Option (Circle ℝ))) (he : IsSort env.sort) (htest : env.test = exactTest) (hrd : env'.rd = id) (i i' : In ℝ)
    (hg : Main.step cfg (real env) s1 (.loop i) = .ok (s2, o2))
    (ht : taskOf s1 (.loop i) = some .t100ms) (c c' : Net.Conn) (hc : s1.net.remote = some c ∧ c ∈ s1.net.open') (hm : i.messages = [])
    (msg : List UInt8) (hd : i.tcp = .data msg) (h20 : 20 ≤ msg.length) (hl : msg.length ≤ 256) (hlen : leVal (slice msg 0 2) = 20)
    (htype : leVal (slice msg 2 2) = 0) (hdec : leVal (slice msg 16 4) < 2 ^ 30 ∨ 3 * 2 ^ 30 < leVal (slice msg 16 4))
    (hfew : (synced s1).length < 63) (hnew : pointing s2 ∉ synced s1)
    (hgen : Generic (pointing s2 :: synced s1)) (hns : NoSliver (pointing s2 :: synced s1)) (p q : Pt ℝ)
    (hbel : Belong (pointing s2 :: synced s1) (pointing s2) p q)
    (hr2 : Main.run cfg (h2.map fun x => (real x.1, x.2)) s2 = .ok (s3, o3)) (hq : Quiet cfg s2 h2)
    (hp : Main.step cfg (real env') s3 (.loop i') = .ok (s4, o4)) (b : List UInt8) (hb : Out.tcp c' b ∈ o4) (hbl : 18 < b.length)
    (t1 t2 : ℝ) (ht1 : Helper.localSiderealTime s1.gnss.utc (s1.gnss.longitude : ℝ) = .ok t1)
    (ht2 : Helper.localSiderealTime s4.gnss.utc (s4.gnss.longitude : ℝ) = .ok t2) (hlat : s4.gnss.latitude = s1.gnss.latitude) :
    (∃ z : ℤ, IsNearest ((leVal (slice msg 12 4) : ℝ) + (t2 - t1) / 360 * 2 ^ 32) z ∧ slice b 12 4 = le 4 (z % 2 ^ 32).toNat) ∧
      slice b 16 4 = slice msg 16 4 := by
  obtain ⟨i3, e3⟩ := quiet_scope (step_facts (telescope_history cfg h1 hs1 s1 o1 hr1).1 hg).1 hr2 hq
  refine goto_packet cfg h1 hs1 s1 s2 s3 s4 o1 o2 o4 hr1 env env' he i i' hg ht c c' hc hm msg hd h20 hl hlen htype hdec i3 (by rw [e3]) hp b hb
    hbl t1 t2 ht1 ht2 hlat ?_
  intro g T T' r hgs hgr hor hal hsync h0 h1 d
  unfold synced at hfew hnew hgen hns hbel
  rw [List.length_map, ← hal] at hfew
  rw [← hal, show pointing s2 = toPt ⟨s2.heading, s2.pitch⟩ from rfl, ← hor] at hnew hgen hns hbel
  exact reported_many hgs hgr hfew hnew he htest hrd r _ _ h0 h1 hsync hgen hns p q hbel d

/-- **C58** (same time). If no GNSS data arrived in between, the packet carries exactly the eight bytes of the goto message. -/
theorem C58_same_bytes (cfg : Config) (h1 h2 : List (Env ℝ σ × Event ℝ)) (hs1 : ∀ e ∈ h1, IsSort e.1.sort)
    (s1 s2 s3 s4 : Sys ℝ Telescope.Tel) (o1 o2 o3 o4 : List Out) (hr1 : firmware cfg h1 = .ok (s1, o1)) (env env' : Env ℝ σ)
    (he : IsSort env.sort) (i i' : In ℝ) (hg : Main.step cfg (real env) s1 (.loop i) = .ok (s2, o2))
    (ht : taskOf s1 (.loop i) = some .t100ms) (c c' : Net.Conn) (hc : s1.net.remote = some c ∧ c ∈ s1.net.open') (hm : i.messages = [])
    (msg : List UInt8) (hd : i.tcp = .data msg) (h20 : 20 ≤ msg.length) (hl : msg.length ≤ 256) (hlen : leVal (slice msg 0 2) = 20)
    (htype : leVal (slice msg 2 2) = 0) (hdec : leVal (slice msg 16 4) < 2 ^ 30 ∨ 3 * 2 ^ 30 < leVal (slice msg 16 4))
    (hfew : (synced s1).length < 2) (hnew : pointing s2 ∉ synced s1)
    (hr2 : Main.run cfg (h2.map fun x => (real x.1, x.2)) s2 = .ok (s3, o3)) (hq : Quiet cfg s2 h2)
    (hser : ∀ x ∈ h2, ∀ j : In ℝ, x.2 = .loop j → j.serial = []) (hser' : i'.serial = [])
    (hp : Main.step cfg (real env') s3 (.loop i') = .ok (s4, o4)) (b : List UInt8) (hb : Out.tcp c' b ∈ o4) (hbl : 18 < b.length) :
    slice b 12 8 = slice msg 12 8 := by
  obtain ⟨i1, -⟩ := telescope_history cfg h1 hs1 s1 o1 hr1
  have i2 := (step_facts i1 hg).1
  have g2 : s2.gnss = s1.gnss := step_gnss i1 hg (by rw [ht]; simp)
  have g3 : Main.Inv s3 ∧ s3.gnss = s2.gnss := by
    clear hp hq
    induction h2 using List.reverseRecOn generalizing s3 o3 with
    | nil => injection hr2 with hr; injection hr with hr _; subst hr; exact ⟨i2, rfl⟩
    | append_singleton h x ih =>
      obtain ⟨env, e⟩ := x
      rw [List.map_append] at hr2
      obtain ⟨s5, o5, o6, h5, h6, rfl⟩ := run_snoc.1 hr2
      obtain ⟨i5, e5⟩ := ih s5 o5 h5 (fun x hx => hser x (List.mem_append_left _ hx))
      refine ⟨(step_facts i5 h6).1, ?_⟩
      rw [← e5]
      cases e with
      | loop j => exact step_gnss_empty i5 h6 (hser (env, .loop j) (by simp) j rfl)
      | bluetooth b => exact step_gnss i5 h6 (by simp [taskOf])
      | arrive c => exact step_gnss i5 h6 (by simp [taskOf])
      | gone c => exact step_gnss i5 h6 (by simp [taskOf])
  have g4 : s4.gnss = s1.gnss := (step_gnss_empty g3.1 hp hser').trans (g3.2.trans g2)
  obtain ⟨-, -, -, -, lst, ty, position, tx, hlst, -⟩ := step_packet g3.1 hp hb hbl
  obtain ⟨⟨z, hz, e1⟩, e2⟩ := C58_goto_then_packet cfg h1 h2 hs1 s1 s2 s3 s4 o1 o2 o3 o4 hr1 env env' he i i' hg ht c c' hc hm msg hd h20 hl
    hlen htype hdec hfew hnew hr2 hq hp b hb hbl lst lst (by rw [← g4]; exact hlst) hlst (by rw [g4])
  have hz' : z = (leVal (slice msg 12 4) : ℤ) := by
    rw [sub_self, zero_div, zero_mul, add_zero] at hz
    obtain ⟨z1, z2⟩ := hz
    have a1 : (leVal (slice msg 12 4) : ℤ) < z + 1 := by
      have : ((leVal (slice msg 12 4) : ℤ) : ℝ) < ((z + 1 : ℤ) : ℝ) := by push_cast; linarith
      exact_mod_cast this
    have a2 : z < (leVal (slice msg 12 4) : ℤ) + 1 := by
      have : (z : ℝ) < (((leVal (slice msg 12 4) : ℤ) + 1 : ℤ) : ℝ) := by push_cast; linarith
      exact_mod_cast this
    omega
  have hs4 : (slice msg 12 4).length = 4 := by unfold slice; simp; omega
  have hlt : leVal (slice msg 12 4) < 2 ^ 32 := by
    have := Codec.leVal_lt (slice msg 12 4)
    rw [hs4] at this; exact lt_of_lt_of_eq this (by norm_num)
  have hmod : (z % 2 ^ 32).toNat = leVal (slice msg 12 4) := by omega
  rw [hmod, Codec.le_leVal _ hs4] at e1
  have split : ∀ l : List UInt8, slice l 12 8 = slice l 12 4 ++ slice l 16 4 := by
    intro l
    unfold slice
    rw [show (8 : Nat) = 4 + 4 from rfl, List.take_add, List.drop_drop]
  rw [split, split, e1, e2]

end Verif.System
