import Verif.Props.System
import Verif.Lemmas.Sensors
import Verif.Lemmas.SafetyMain
import Verif.Spec.Stars

/-!
# C58: the packets sent while the telescope keeps pointing at the star
-/

set_option linter.unusedSectionVars false

namespace Verif.Main
open Printf Net Imu Spec.NexStar NexStar

variable {K : Type} [Field K] [LinearOrder K] [IsStrictOrderedRing K] [FloorRing K] {S : Type}

theorem tcpGoto_refused {T : Tel K S} {s s' : Sys K S} {n : UInt32} (hl : s.rx.length = 256) (hn : ¬ Codec.Accepts s.rx n.toNat)
    (h : tcpGoto T s n = .ok s') : s' = s := by
  obtain ⟨o, e⟩ := unpack_total (K := K) hl n.toNat ⟨0, 0, none⟩ rfl
  unfold tcpGoto at h
  rw [e, bind_ok, decide_eq_false hn] at h
  injection h with h; exact h.symm

theorem tcpReceive_believed {rx : List UInt8} (h : rx.length = 256) (r : TcpRead) :
    ∃ n : UInt32, tcpReceive rx r = .ok (n, afterRead rx r) ∧ (0 < n ↔ r ≠ .data []) ∧ n.toNat = System.believed r := by
  obtain ⟨n, h1, h2, h3⟩ := tcpReceive_eq h r
  refine ⟨n, h1, h2, ?_⟩
  cases r with
  | failed => injection h1 with h1; injection h1 with h1 _; subst h1; rfl
  | data b => exact h3 b rfl

theorem tcpTask_still {cfg : Config} {T : Tel K S} {s s' : Sys K S} {r : TcpRead} {o : List Out} (hi : Inv s)
    (hno : ∀ c, client s = some c → r ≠ .data [] → (∀ a d, ¬ Parses (afterRead s.rx r) (.sync a d)) ∧
      ((∀ c, ¬ Parses (afterRead s.rx r) c) → ¬ Codec.Accepts (afterRead s.rx r) (System.believed r)))
    (h : tcpTask cfg T s r = .ok (s', o)) : s'.scope = s.scope := by
  unfold tcpTask at h
  split at h
  · rename_i c hc
    obtain ⟨n, hrx, hn, hb⟩ := tcpReceive_believed hi.2 r
    have hrl := afterRead_length hi.2 r
    unfold tcpInput at h
    rw [hrx, bind_ok] at h
    simp only at h
    split at h
    · rename_i hpos
      obtain ⟨n1, n2⟩ := hno c hc (hn.1 hpos)
      obtain ⟨⟨k, tx, scope⟩, hh, h⟩ := bind_eq_ok.1 h
      obtain ⟨-, -, -, hk, hkeep⟩ := handle_facts (by simp [hrl]) hi.1 hh
      rw [List.take_of_length_le (by rw [hrl])] at hk hkeep
      have hsc := hkeep n1
      simp only at h
      split at h
      · obtain ⟨b, _, h⟩ := bind_eq_ok.1 h
        injection h with h; injection h with h _; subst h; exact hsc
      · rename_i hk0
        obtain ⟨s4, h4, h⟩ := bind_eq_ok.1 h
        injection h with h; injection h with h _; subst h
        have := tcpGoto_refused (s := { s with rx := afterRead s.rx r, tx := tx, scope := scope }) hrl
          (by rw [hb]; exact n2 fun c hc => hk0 (hk.2 ⟨c, hc⟩)) h4
        rw [this]; exact hsc
    · injection h with h; injection h with h _; subst h; rfl
  · injection h with h; injection h with h _; subst h; rfl

theorem mqttLoop_still {T : Tel K S} {ms : List (List UInt8 × List UInt8)} {s s' : Sys K S} {o : List Out} (hno : ∀ m ∈ ms, ¬ IsReset m.1 m.2)
    (h : mqttLoop T ms s = .ok (s', o)) : s' = s := by
  induction ms generalizing s s' o with
  | nil => injection h with h; injection h with h _; exact h.symm
  | cons m ms ih =>
    obtain ⟨topic, payload⟩ := m
    unfold mqttLoop at h
    rw [C52_ignored T s topic payload (hno (topic, payload) (by simp)), bind_ok] at h
    obtain ⟨⟨s2, o2⟩, h2, h⟩ := bind_eq_ok.1 h
    injection h with h; injection h with h _; subst h
    exact ih (fun m hm => hno m (by simp [hm])) h2

/-- Every other event leaves the telescope as it is, or turns it to the new heading and pitch. -/
theorem step_stars {cfg : Config} {T : Tel K S} {s s' : Sys K S} {e : Event K} {o : List Out} (hi : Inv s)
    (h : step cfg T s e = .ok (s', o)) (hno : ¬ ChangesStars cfg s e) :
    s'.scope.core = if taskOf s e = some .t100ms then T.setOrientation s.scope.core (s'.heading : K) s'.pitch else s.scope.core := by
  by_cases h1 : ∃ b, e = .bluetooth b
  · obtain ⟨b, rfl⟩ := h1
    rw [if_neg (by simp [taskOf])]
    simp only [step, onBluetoothData] at h
    obtain ⟨⟨n, tx, scope⟩, hh, h⟩ := bind_eq_ok.1 h
    obtain ⟨-, -, -, -, hkeep⟩ := handle_facts le_rfl hi.1 hh
    rw [List.take_length] at hkeep
    have hsc := hkeep fun a d hp => hno (.sync _ b a d (.bluetooth b) hp)
    simp only at h
    split at h
    · obtain ⟨b, _, h⟩ := bind_eq_ok.1 h
      injection h with h; injection h with h _; subst h; exact congrArg _ hsc
    · injection h with h; injection h with h _; subst h; exact congrArg _ hsc
  · push Not at h1
    by_cases h2 : taskOf s e = some .t100ms
    · rw [if_pos h2]
      cases e with
      | bluetooth b => exact absurd rfl (h1 b)
      | arrive c => cases h2
      | gone c => cases h2
      | loop i =>
        have h2' := h2
        simp only [taskOf] at h2
        simp only [step, loop, h2] at h
        unfold task100 at h
        obtain ⟨s1, k1, h⟩ := bind_eq_ok.1 h
        obtain ⟨⟨s2, o1⟩, k2, h⟩ := bind_eq_ok.1 h
        obtain ⟨⟨s3, o2⟩, k3, h⟩ := bind_eq_ok.1 h
        simp only [pure_ok] at h
        injection h with h; injection h with hs ho
        have f : s'.scope = s3.scope ∧ s'.heading = s3.heading ∧ s'.pitch = s3.pitch := by subst hs; split <;> exact ⟨rfl, rfl, rfl⟩
        have m1 := readSensors_moves k1
        obtain ⟨-, a1, a2⟩ := tcpTask_moves k2
        obtain ⟨b1, b2, b3, b4, b5, b6⟩ := readSensors_same k1
        have i1 : Inv s1 := b1.2.2 hi
        have e2 : s2.scope = s1.scope := by
          refine tcpTask_still i1 ?_ k2
          intro c hc hr
          have hc' : s.net.remote = some c ∧ c ∈ s.net.open' := by rw [← b2]; exact client_eq.1 hc
          have hreq : Request s (.loop i) (afterRead s1.rx i.tcp) := by rw [b3]; exact .tcp i c h2' hc' hr
          exact ⟨fun a d hp => hno (.sync _ _ a d hreq hp), fun hn ha => hno (.goto i _ hreq hn ha)⟩
        have e3 : s3 = s2 := by
          unfold mqttTask at k3
          split at k3
          · rename_i hm
            exact mqttLoop_still (fun m hmem hr => hno (.reset i h2' hm m hmem hr)) k3
          · injection k3 with k3; injection k3 with k3 _; exact k3.symm
        rw [f.1, f.2.1, f.2.2, e3, e2, a1, a2]
        exact m1
    · rw [if_neg h2, step_still hi h h2 h1]

end Verif.Main

namespace Verif.System
open Verif.Align Verif.Coord Verif.Telescope Verif.Spec Verif.Main

variable {σ : Type}

/-- The pointing of the telescope is what the sensors said last. -/
def Aimed (s : Sys ℝ Telescope.Tel) : Prop := s.scope.core.orientation = ⟨s.heading, s.pitch⟩

theorem heading_kept {cfg : Config} {env : Env ℝ σ} {s s' : Sys ℝ Telescope.Tel} {e : Event ℝ} {o : List Out} (hi : Main.Inv s)
    (h : Main.step cfg (real env) s e = .ok (s', o)) (ht : taskOf s e ≠ some .t100ms) : s'.heading = s.heading ∧ s'.pitch = s.pitch := by
  have q := step_senses hi h
  refine ⟨?_, q.pitch' ht⟩
  have := q.heading
  cases e with
  | loop i =>
    have ht' : (schedule s.timers i.now).1 ≠ some .t100ms := ht
    simp only [encReadings, if_neg ht', List.nil_append, Main.heading, headingRun] at this
    injection this with this; exact this.symm
  | bluetooth b => injection this with this; exact this.symm
  | arrive c => injection this with this; exact this.symm
  | gone c => injection this with this; exact this.symm

theorem run_stars {cfg : Config} {s0 s : Sys ℝ Telescope.Tel} {h : List (Env ℝ σ × Event ℝ)} {o : List Out} (hi : Main.Inv s0) (ha : Aimed s0)
    (hr : Main.run cfg (h.map fun x => (real x.1, x.2)) s0 = .ok (s, o))
    (hno : ¬ Happened cfg s0 (h.map fun x => (real x.1, x.2)) (ChangesStars cfg)) :
    Main.Inv s ∧ Aimed s ∧ s.scope.core.alignment = s0.scope.core.alignment := by
  induction h using List.reverseRecOn generalizing s o with
  | nil => injection hr with hr; injection hr with hr _; subst hr; exact ⟨hi, ha, rfl⟩
  | append_singleton h x ih =>
    obtain ⟨env, e⟩ := x
    rw [List.map_append] at hr hno
    obtain ⟨s1, o1, o2, h1, h2, rfl⟩ := run_snoc.1 hr
    rw [List.map_singleton, happened_snoc h1, not_or] at hno
    obtain ⟨i1, a1, e1⟩ := ih h1 hno.1
    refine ⟨(step_facts i1 h2).1, ?_⟩
    have key := step_stars i1 h2 hno.2
    split at key
    · rw [← e1]
      unfold Aimed
      rw [key]; exact ⟨rfl, rfl⟩
    · rename_i ht
      obtain ⟨k1, k2⟩ := heading_kept i1 h2 ht
      unfold Aimed at a1 ⊢
      rw [key, k1, k2]; exact ⟨a1, e1⟩

theorem still_core {cfg : Config} {s2 s3 : Sys ℝ Telescope.Tel} {h : List (Env ℝ σ × Event ℝ)} {o : List Out} (hi : Main.Inv s2) (ha : Aimed s2)
    (hr : Main.run cfg (h.map fun x => (real x.1, x.2)) s2 = .ok (s3, o))
    (hno : ¬ Happened cfg s2 (h.map fun x => (real x.1, x.2)) (ChangesStars cfg)) (hpt : pointing s3 = pointing s2) :
    Main.Inv s3 ∧ s3.scope.core = s2.scope.core := by
  obtain ⟨i3, a3, e3⟩ := run_stars hi ha hr hno
  refine ⟨i3, ?_⟩
  have h1 : (s3.heading : ℝ) = s2.heading := congrArg Pt.x hpt
  have h2 : s3.pitch = s2.pitch := congrArg Pt.y hpt
  unfold Aimed at ha a3
  rw [h1, h2, ← ha] at a3
  cases hc3 : s3.scope.core with
  | mk x y =>
    cases hc2 : s2.scope.core with
    | mk x' y' => rw [hc3, hc2] at a3 e3; simp only at a3 e3; rw [a3, e3]

/-- **C58** (while tracking). The same for every position packet sent as long as no star is synced and the alignment is not reset, however
many runs of the tasks lie in between and wherever the telescope pointed meanwhile, whenever the telescope points where it did at the goto. -/
theorem C58_still_pointing (cfg : Config) (h1 h2 : List (Env ℝ σ × Event ℝ)) (hs1 : ∀ e ∈ h1, IsSort e.1.sort)
    (s1 s2 s3 s4 : Sys ℝ Telescope.Tel) (o1 o2 o3 o4 : List Out) (hr1 : firmware cfg h1 = .ok (s1, o1)) (env env' : Env ℝ σ)
    (he : IsSort env.sort) (i i' : In ℝ) (hg : Main.step cfg (real env) s1 (.loop i) = .ok (s2, o2))
    (ht : taskOf s1 (.loop i) = some .t100ms) (c c' : Net.Conn) (hc : s1.net.remote = some c ∧ c ∈ s1.net.open') (hm : i.messages = [])
    (msg : List UInt8) (hd : i.tcp = .data msg) (h20 : 20 ≤ msg.length) (hl : msg.length ≤ 256) (hlen : leVal (slice msg 0 2) = 20)
    (htype : leVal (slice msg 2 2) = 0) (hdec : leVal (slice msg 16 4) < 2 ^ 30 ∨ 3 * 2 ^ 30 < leVal (slice msg 16 4))
    (hfew : (synced s1).length < 2) (hnew : pointing s2 ∉ synced s1)
    (hr2 : Main.run cfg (h2.map fun x => (real x.1, x.2)) s2 = .ok (s3, o3))
    (hno : ¬ Happened cfg s2 (h2.map fun x => (real x.1, x.2)) (ChangesStars cfg)) (hpt : pointing s3 = pointing s2)
    (hp : Main.step cfg (real env') s3 (.loop i') = .ok (s4, o4)) (b : List UInt8) (hb : Out.tcp c' b ∈ o4) (hbl : 18 < b.length)
    (t1 t2 : ℝ) (ht1 : Helper.localSiderealTime s1.gnss.utc (s1.gnss.longitude : ℝ) = .ok t1)
    (ht2 : Helper.localSiderealTime s4.gnss.utc (s4.gnss.longitude : ℝ) = .ok t2) (hlat : s4.gnss.latitude = s1.gnss.latitude) :
    (∃ z : ℤ, IsNearest ((leVal (slice msg 12 4) : ℝ) + (t2 - t1) / 360 * 2 ^ 32) z ∧ slice b 12 4 = le 4 (z % 2 ^ 32).toNat) ∧
      slice b 16 4 = slice msg 16 4 := by
  obtain ⟨i3, e3⟩ := still_core (step_facts (telescope_history cfg h1 hs1 s1 o1 hr1).1 hg).1 (step_orientation hg ht) hr2 hno hpt
  refine goto_packet cfg h1 hs1 s1 s2 s3 s4 o1 o2 o4 hr1 env env' he i i' hg ht c c' hc hm msg hd h20 hl hlen htype hdec i3 e3 hp b hb
    hbl t1 t2 ht1 ht2 hlat ?_
  intro g T T' r hgs hgr hor hal hsync h0 h1 d
  unfold synced at hfew hnew
  rw [List.length_map, ← hal] at hfew
  rw [← hal, show pointing s2 = toPt ⟨s2.heading, s2.pitch⟩ from rfl, ← hor] at hnew
  exact reported_few hgs hgr hfew hnew he env' r _ _ h0 h1 hsync d

/-- **C58** (while tracking, any number of stars). -/
theorem C58_still_pointing_many (cfg : Config) (h1 h2 : List (Env ℝ (Option (Circle ℝ)) × Event ℝ)) (hs1 : ∀ e ∈ h1, IsSort e.1.sort)
    (s1 s2 s3 s4 : Sys ℝ Telescope.Tel) (o1 o2 o3 o4 : List Out) (hr1 : firmware cfg h1 = .ok (s1, o1))
    (env env' : Env ℝ (Option (Circle ℝ))) (he : IsSort env.sort) (htest : env.test = exactTest) (hrd : env'.rd = id) (i i' : In ℝ)
    (hg : Main.step cfg (real env) s1 (.loop i) = .ok (s2, o2))
    (ht : taskOf s1 (.loop i) = some .t100ms) (c c' : Net.Conn) (hc : s1.net.remote = some c ∧ c ∈ s1.net.open') (hm : i.messages = [])
    (msg : List UInt8) (hd : i.tcp = .data msg) (h20 : 20 ≤ msg.length) (hl : msg.length ≤ 256) (hlen : leVal (slice msg 0 2) = 20)
    (htype : leVal (slice msg 2 2) = 0) (hdec : leVal (slice msg 16 4) < 2 ^ 30 ∨ 3 * 2 ^ 30 < leVal (slice msg 16 4))
    (hfew : (synced s1).length < 63) (hnew : pointing s2 ∉ synced s1)
    (hgen : Generic (pointing s2 :: synced s1)) (hns : NoSliver (pointing s2 :: synced s1)) (p q : Pt ℝ)
    (hbel : Belong (pointing s2 :: synced s1) (pointing s2) p q)
    (hr2 : Main.run cfg (h2.map fun x => (real x.1, x.2)) s2 = .ok (s3, o3))
    (hno : ¬ Happened cfg s2 (h2.map fun x => (real x.1, x.2)) (ChangesStars cfg)) (hpt : pointing s3 = pointing s2)
    (hp : Main.step cfg (real env') s3 (.loop i') = .ok (s4, o4)) (b : List UInt8) (hb : Out.tcp c' b ∈ o4) (hbl : 18 < b.length)
    (t1 t2 : ℝ) (ht1 : Helper.localSiderealTime s1.gnss.utc (s1.gnss.longitude : ℝ) = .ok t1)
    (ht2 : Helper.localSiderealTime s4.gnss.utc (s4.gnss.longitude : ℝ) = .ok t2) (hlat : s4.gnss.latitude = s1.gnss.latitude) :
    (∃ z : ℤ, IsNearest ((leVal (slice msg 12 4) : ℝ) + (t2 - t1) / 360 * 2 ^ 32) z ∧ slice b 12 4 = le 4 (z % 2 ^ 32).toNat) ∧
      slice b 16 4 = slice msg 16 4 := by
  obtain ⟨i3, e3⟩ := still_core (step_facts (telescope_history cfg h1 hs1 s1 o1 hr1).1 hg).1 (step_orientation hg ht) hr2 hno hpt
  refine goto_packet cfg h1 hs1 s1 s2 s3 s4 o1 o2 o4 hr1 env env' he i i' hg ht c c' hc hm msg hd h20 hl hlen htype hdec i3 e3 hp b hb
    hbl t1 t2 ht1 ht2 hlat ?_
  intro g T T' r hgs hgr hor hal hsync h0 h1 d
  unfold synced at hfew hnew hgen hns hbel
  rw [List.length_map, ← hal] at hfew
  rw [← hal, show pointing s2 = toPt ⟨s2.heading, s2.pitch⟩ from rfl, ← hor] at hnew hgen hns hbel
  exact reported_many hgs hgr hfew hnew he htest hrd r _ _ h0 h1 hsync hgen hns p q hbel d

/-- **C58** (stars are kept). After any history since power-up and any further history without a sync, a goto message or a reset, the
published synced points are the same. -/
theorem C58_stars_kept (cfg : Config) (h1 h2 : List (Env ℝ σ × Event ℝ)) (s1 s2 : Sys ℝ Telescope.Tel) (o1 o2 : List Out)
    (hr1 : firmware cfg h1 = .ok (s1, o1)) (hr2 : Main.run cfg (h2.map fun x => (real x.1, x.2)) s1 = .ok (s2, o2))
    (hno : ¬ Happened cfg s1 (h2.map fun x => (real x.1, x.2)) (ChangesStars cfg)) : synced s2 = synced s1 := by
  have hi := (run_facts _ (inv_boot cfg Telescope.new) hr1).1
  suffices Main.Inv s2 ∧ s2.scope.core.alignment = s1.scope.core.alignment by unfold synced; rw [this.2]
  induction h2 using List.reverseRecOn generalizing s2 o2 with
  | nil => injection hr2 with hr; injection hr with hr _; subst hr; exact ⟨hi, rfl⟩
  | append_singleton h x ih =>
    obtain ⟨env, e⟩ := x
    rw [List.map_append] at hr2 hno
    obtain ⟨s3, o3, o4, h1, h2, rfl⟩ := run_snoc.1 hr2
    rw [List.map_singleton, happened_snoc h1, not_or] at hno
    obtain ⟨i1, e1⟩ := ih s3 o3 h1 hno.1
    refine ⟨(step_facts i1 h2).1, ?_⟩
    have key := step_stars i1 h2 hno.2
    split at key
    · rw [← e1, key]; rfl
    · rw [key, e1]

end Verif.System
