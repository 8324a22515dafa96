import Verif.Spec.Firmware64Stop
import Verif.Props.Firmware64Stars
import Verif.Lemmas.Safety

/-!
# Lemmas: the steps of the firmware in IEEE arithmetic complete
-/

namespace Verif.Firmware64

open Verif Verif.Main Verif.Align Verif.Spec Verif.Spec.NexStar Verif.Telescope64 Verif.Coord64 Printf Net Imu
open Verif.Session64 (Ev Seen Known SiderealAt Tells SameSky wire)

variable {σ : Type}

theorem ok_or_error {α : Type} (x : C α) : (∃ a, x = .ok a) ∨ ∃ e, x = .error e := by
  cases x with
  | ok a => exact Or.inl ⟨a, rfl⟩
  | error e => exact Or.inr ⟨e, rfl⟩

/-! ### The sensors -/

/-- The filter holds samples within range and a small offset. -/
def Gravity (m : Imu ℚ) : Prop :=
  (∃ h, Ring h m ∧ Imu32.InRange h) ∧ |m.offset.1| ≤ 1 ∧ |m.offset.2.1| ≤ 1 ∧ |m.offset.2.2| ≤ 1

theorem gravity_lastN {h : List (ℚ × ℚ × ℚ)} (hr : Imu32.InRange h) : Imu32.InRange (lastN 50 0 h) := by
  intro v hv
  unfold lastN at hv
  rcases List.mem_append.1 (List.mem_of_mem_drop hv) with hv | hv
  · rw [List.eq_of_mem_replicate hv]; norm_num
  · exact hr v hv

theorem gravity_step {m m' : Imu ℚ} {v : ℚ × ℚ × ℚ} (hg : Gravity m) (hv : |v.1| ≤ 20 ∧ |v.2.1| ≤ 20 ∧ |v.2.2| ≤ 20)
    (h : accSample m v = .ok m') : Gravity m' := by
  obtain ⟨⟨l, r, hr⟩, ho⟩ := hg
  obtain ⟨m1, e, r1, o1⟩ := ring_step r v
  rw [h] at e
  injection e with e; subst e
  refine ⟨⟨_, r1, fun w hw => ?_⟩, by rw [o1]; exact ho⟩
  rcases List.mem_append.1 hw with hw | hw
  · exact hr w hw
  · rw [List.mem_singleton.1 hw]; exact hv

theorem gravity_init : Gravity (Imu.init : Imu ℚ) := ⟨⟨[], ring_init, by intro v hv; cases hv⟩, by simp [Imu.init]⟩

theorem gravity_boot {m : Imu ℚ} (h : Imu32.setCalibration Imu.init = .ok m) : Gravity m := by
  obtain ⟨oy, hoy, eoy⟩ := Imu32.fl32_err (-2) (by norm_num) (by norm_num) 0.19 (by norm_num)
  obtain ⟨oz, hoz, eoz⟩ := Imu32.fl32_err (-2) (by norm_num) (by norm_num) (-0.18) (by norm_num)
  unfold Imu32.setCalibration at h
  rw [hoy, bind_ok, hoz, bind_ok, pure_ok] at h
  injection h with h; subst h
  rw [abs_le] at eoy eoz
  norm_num at eoy eoz
  refine ⟨⟨[], ⟨ring_init.len, ring_init.cnt, ring_init.slots⟩, by intro v hv; cases hv⟩, by norm_num, ?_, ?_⟩
  · show |oy| ≤ 1
    rw [abs_le]; constructor <;> linarith [eoy.1, eoy.2]
  · show |oz| ≤ 1
    rw [abs_le]; constructor <;> linarith [eoz.1, eoz.2]

theorem boot_total (cfg : Config) : ∃ s, boot cfg = .ok s ∧ Gravity s.imu := by
  obtain ⟨oy, hoy, -⟩ := Imu32.fl32_err (-2) (by norm_num) (by norm_num) 0.19 (by norm_num)
  obtain ⟨oz, hoz, -⟩ := Imu32.fl32_err (-2) (by norm_num) (by norm_num) (-0.18) (by norm_num)
  have e : ∃ m, Imu32.setCalibration Imu.init = .ok m := by
    unfold Imu32.setCalibration; rw [hoy, bind_ok, hoz, bind_ok]; exact ⟨_, rfl⟩
  obtain ⟨m, e⟩ := e
  unfold boot
  split
  · rw [e, bind_ok]; exact ⟨_, rfl, gravity_boot e⟩
  · exact ⟨_, rfl, gravity_init⟩

/-- The pitch is always calculated. -/
theorem measure_total {F : Fmt} (hF : F = b32 ∨ F = b64) {A : ℚ → ℚ → ℚ} (hA : ∀ x y, |(A x y : ℝ)| ≤ 3.15) {m : Imu ℚ} (hm : Gravity m) :
    ∃ p, Imu32.measure F A m = .ok p := by
  obtain ⟨⟨l, r, hr⟩, o1, o2, o3⟩ := hm
  obtain ⟨a, ex, g1, -, b1, b2, b3, g3, g4, g5⟩ := Imu32.mean_err r (gravity_lastN hr)
  have z : ∀ o : ℚ, |o - o| ≤ 1 / 2 ^ 26 := by intro o; rw [sub_self]; norm_num
  obtain ⟨x, x1, -⟩ := Imu32.sub_err b1 g3 o1 (z _)
  obtain ⟨y, y1, -⟩ := Imu32.sub_err b2 g4 o2 (z _)
  obtain ⟨w, w1, -⟩ := Imu32.sub_err b3 g5 o3 (z _)
  have ht := hA x y
  set t := A x y with htdef
  obtain ⟨p, hp, ep⟩ := Imu32.prod180_err hF t ht
  obtain ⟨p1, p2⟩ := Coord64.pi_bounds
  have hp0 : (0 : ℝ) < Coord64.PI := by linarith
  have bp : |(p : ℝ)| ≤ 568 := by
    have := abs_sub_abs_le_abs_sub (p : ℝ) (t * 180)
    rw [abs_mul, abs_of_pos (by norm_num : (0 : ℝ) < 180)] at this
    norm_num at ep ht; linarith
  have bd : |((p / Coord64.PI : ℚ) : ℝ)| < 2 ^ 8 := by
    push_cast
    rw [abs_div, abs_of_pos hp0, div_lt_iff₀ hp0]
    nlinarith
  obtain ⟨d, hd, ed⟩ := Coord64.fl_err 8 (by norm_num) (p / Coord64.PI) bd
  have hs := Coord64.eps_small
  have bd' : |(d : ℝ)| < 2 ^ 9 := by
    have := abs_sub_abs_le_abs_sub (d : ℝ) ((p / Coord64.PI : ℚ) : ℝ)
    norm_num only at ed bd hs this ⊢
    linarith
  obtain ⟨q, hq, -⟩ := Imu32.fl32_err_real 9 (by norm_num) d bd'
  refine ⟨q, ?_⟩
  unfold Imu32.measure Imu32.calibrate Imu32.pitch
  rw [g1, bind_ok, x1, bind_ok, y1, bind_ok, w1, bind_ok, pure_ok, bind_ok]
  simp only
  rw [← htdef, hp, bind_ok, hd, bind_ok, hq]

theorem headingStep_total {h : ℚ} (hh : IsHeading h) (w : UInt16) : ∃ q, headingStep (fl b32) (fl b64) h w = .ok q := by
  obtain ⟨q, hq, -⟩ := C27_step h w hh
  rcases ok_or_error (headingStep (fl b32) (fl b64) h w) with ⟨a, e⟩ | ⟨x, e⟩
  · exact ⟨a, e⟩
  · have : heading [w] h = .error x := by
      show (headingStep (fl b32) (fl b64) h _ >>= _) = _
      rw [e]; rfl
    rw [this] at hq; cases hq

theorem readSensors_total {F : Formats} (hF : F.arc = b32 ∨ F.arc = b64) {W : World σ} (hA : Angular W) {s : Sys} (hg : Gravity s.imu) (hh : IsHeading s.heading)
    (i : In ℚ) : ∃ p q, Imu32.measure F.arc W.atan2f s.imu = .ok p ∧
      headingStep (fl b32) (fl b64) s.heading (frame i.encoder.1 i.encoder.2) = .ok q ∧
      readSensors F W s i = .ok { s with heading := q, pitch := p, scope := { s.scope with core := setOrientation s.scope.core ⟨q, p⟩ } } := by
  obtain ⟨p, hp⟩ := measure_total hF hA hg
  obtain ⟨q, hq⟩ := headingStep_total hh (frame i.encoder.1 i.encoder.2)
  refine ⟨p, q, hp, hq, ?_⟩
  unfold readSensors
  rw [hp, bind_ok, hq, bind_ok]; rfl

/-! ### Requests -/

/-- What happens if the protocol handler does not complete; otherwise it leaves a short text in the buffer. -/
theorem handle_cases {F : Formats} {P : Platform} {W : World σ} {g : Nmea.Gnss} {sc : NexStar.Scope Tel} {r resp : List UInt8} (hr : resp.length = 256) :
    (∃ k resp' sc', handleRequest F P W g sc r r.length resp 256 = .ok (k, resp', sc') ∧ k.toNat ≤ 18 ∧ resp'.length = 256) ∨
    ∃ x, handleRequest F P W g sc r r.length resp 256 = .error x ∧
      ((P.arduino = true ∧ r.length < 8 ∧ (∀ c, ¬ Parses r c) ∧ x = .ub .oobRead) ∨
       (Parses r .location ∧ P.fcast = .strict ∧ (g.latitude < 0 ∨ 256 ≤ g.latitude ∨ g.longitude < 0 ∨ 256 ≤ g.longitude)) ∨
       (Parses r .position ∧ Session64.reply F.wide P W.libm g sc.core = .error x) ∨
       (∃ a d, Parses r (.sync a d) ∧ Session64.sync F.wide P W.libm W.env g sc.core r = .error x)) := by
  have snp : ∀ o : List UInt8, o.length ≤ 18 → ∃ r', NexStar.snprintf resp 256 o = .ok (UInt32.ofNat o.length, r') ∧ r'.length = 256 ∧
      (UInt32.ofNat o.length).toNat ≤ 18 := by
    intro o ho
    have hst := Codec.storeSeq_ok (o.take (256 - 1) ++ [0]) resp 0 (by simp only [List.length_append, List.length_take, List.length_singleton]; omega)
    refine ⟨_, by unfold NexStar.snprintf; rw [if_neg (by decide), hst, bind_ok]; rfl, (storeSeq_length hst).trans hr, ?_⟩
    rw [UInt32.toNat_ofNat', Nat.mod_eq_of_lt (by omega)]; exact ho
  by_cases hc : ∃ c, Parses r c
  · obtain ⟨c, hc⟩ := hc
    have hb := NexStar.branch_of_parses hc
    rcases cmdBranch_cases c with ⟨e, rfl⟩ | ⟨e, a, d, rfl⟩ | ⟨e1, e2, e3, e4⟩
    · rcases ok_or_error (Session64.reply F.wide P W.libm g sc.core) with ⟨o, ho⟩ | ⟨x, hx⟩
      · have hlen : o.length = 18 := by
          unfold Session64.reply at ho
          obtain ⟨_, _, ho⟩ := bind_eq_ok.1 ho
          obtain ⟨_, _, ho⟩ := bind_eq_ok.1 ho
          unfold NexStar.positionBytes64 at ho
          obtain ⟨_, _, ho⟩ := bind_eq_ok.1 ho
          obtain ⟨_, _, ho⟩ := bind_eq_ok.1 ho
          injection ho with ho; subst ho
          simp [NexStar.fmt08X]
        obtain ⟨r', h1, h2, h3⟩ := snp o hlen.le
        refine Or.inl ⟨_, r', sc, ?_, h3, h2⟩
        unfold handleRequest
        rw [hb, bind_ok, e]
        show (((Session64.reply F.wide P W.libm g sc.core >>= fun o => pure (some o, sc))) >>= _) = _
        rw [ho]
        simp only [bind_ok, pure_ok]
        rw [h1]; rfl
      · refine Or.inr ⟨x, ?_, Or.inr (Or.inr (Or.inl ⟨hc, hx⟩))⟩
        unfold handleRequest
        rw [hb, bind_ok, e]
        show (((Session64.reply F.wide P W.libm g sc.core >>= fun o => pure (some o, sc))) >>= _) = _
        rw [hx]; rfl
    · rcases ok_or_error (Session64.sync F.wide P W.libm W.env g sc.core r) with ⟨T, ho⟩ | ⟨x, hx⟩
      · obtain ⟨r', h1, h2, h3⟩ := snp [35] (by simp)
        refine Or.inl ⟨_, r', ⟨T, true⟩, ?_, h3, h2⟩
        unfold handleRequest
        rw [hb, bind_ok, e]
        show (((Session64.sync F.wide P W.libm W.env g sc.core r >>= fun core => pure (some [35], (⟨core, true⟩ : NexStar.Scope Tel)))) >>= _) = _
        rw [ho]
        simp only [bind_ok, pure_ok]
        rw [h1]; rfl
      · refine Or.inr ⟨x, ?_, Or.inr (Or.inr (Or.inr ⟨a, d, hc, hx⟩))⟩
        unfold handleRequest
        rw [hb, bind_ok, e]
        show (((Session64.sync F.wide P W.libm W.env g sc.core r >>= fun core => pure (some [35], (⟨core, true⟩ : NexStar.Scope Tel)))) >>= _) = _
        rw [hx]; rfl
    · rw [handle_other hb e1 e2]
      rcases ok_or_error (NexStar.body P reset.ops g sc r (NexStar.cmdBranch c)) with ⟨⟨out, sc'⟩, ho⟩ | ⟨x, hx⟩
      · refine Or.inl ?_
        cases out with
        | none =>
          exfalso
          cases c <;> simp only [NexStar.body, NexStar.cmdBranch, Except.map] at ho e1 e2
          all_goals first
            | exact e1 rfl
            | exact e2 rfl
            | (split at ho <;> simp at ho)
            | simp at ho
        | some o =>
          obtain ⟨-, hl, -⟩ := NexStar.body_len ho
          obtain ⟨r', h1, h2, h3⟩ := snp o hl
          refine ⟨_, r', sc', ?_, h3, h2⟩
          unfold NexStar.handleRequest
          rw [hb, bind_ok, ho, bind_ok]
          simp only
          rw [h1]; rfl
      · refine Or.inr ⟨x, ?_, Or.inr (Or.inl ?_)⟩
        · unfold NexStar.handleRequest
          rw [hb, bind_ok, hx]; rfl
        · cases c with
          | position => exact absurd rfl e3
          | sync a d => exact absurd rfl (e4 a d)
          | location =>
            refine ⟨hc, ?_⟩
            by_contra hn
            have hl : ∃ o, NexStar.locationBytes P g = .ok o := by
              have key : P.fcast = .strict → (0 ≤ g.latitude ∧ g.latitude < 256) ∧ 0 ≤ g.longitude ∧ g.longitude < 256 := by
                intro hs
                by_contra hk
                apply hn
                refine ⟨hs, ?_⟩
                by_contra hq
                push Not at hq
                exact hk ⟨⟨hq.1, hq.2.1⟩, hq.2.2.1, hq.2.2.2⟩
              obtain ⟨⟨d1, m1⟩, e1⟩ := NexStar.degMin_total P g.latitude fun hs => (key hs).1
              obtain ⟨⟨d2, m2⟩, e2⟩ := NexStar.degMin_total P g.longitude fun hs => (key hs).2
              unfold NexStar.locationBytes
              rw [e1, bind_ok]; simp only; rw [e2, bind_ok]
              exact ⟨_, rfl⟩
            obtain ⟨o, hl⟩ := hl
            simp only [NexStar.body, NexStar.cmdBranch, hl] at hx
            cases hx
          | echo y =>
            exfalso
            have : 1 < r.length := by
              cases hc with
              | echo x rest => simp
            obtain ⟨b, hb'⟩ := NexStar.readByte_lt this
            simp only [NexStar.body, NexStar.cmdBranch, hb'] at hx
            cases hx
          | _ => simp only [NexStar.body, NexStar.cmdBranch] at hx; cases hx
  · have hn : ∀ c, ¬ Parses r c := fun c h => hc ⟨c, h⟩
    have hb := NexStar.branch_of_not_parses hn
    rw [handle_other hb (by decide) (by decide)]
    by_cases h8 : P.arduino = true → 8 ≤ r.length
    · exact Or.inl ⟨_, _, _, NexStar.C06_unknown P reset.ops g sc r resp r.length 256 le_rfl (by rw [List.take_length]; exact hn) h8, by decide, hr⟩
    · push Not at h8
      obtain ⟨ha, hl⟩ := h8
      have hu : NexStar.unknownLog P r = .error (.ub .oobRead) := by
        unfold NexStar.unknownLog
        rw [if_pos ha]
        match r, hl with
        | [], _ => rfl
        | [_], _ => rfl
        | [_, _], _ => rfl
        | [_, _, _], _ => rfl
        | [_, _, _, _], _ => rfl
        | [_, _, _, _, _], _ => rfl
        | [_, _, _, _, _, _], _ => rfl
        | [_, _, _, _, _, _, _], _ => rfl
        | _ :: _ :: _ :: _ :: _ :: _ :: _ :: _ :: _, h => simp at h; omega
      refine Or.inr ⟨.ub .oobRead, ?_, Or.inl ⟨ha, hl, hn, rfl⟩⟩
      unfold NexStar.handleRequest
      rw [hb, bind_ok]
      simp only [NexStar.body, hu]
      rfl

/-- The Bluetooth callback. -/
theorem bluetooth_stop {F : Formats} {cfg : Config} {W : World σ} {s : Sys} (hi : Inv s) {b : List UInt8} {x : Stop}
    (h : onBluetoothData F cfg W s b = .error x) : Cause F cfg W s (.bluetooth b) x := by
  unfold onBluetoothData at h
  rcases handle_cases (F := F) (P := cfg.platform) (W := W) (g := s.gnss) (sc := s.scope) (r := b) hi.1 with ⟨k, tx, sc', e, hk, hl⟩ | ⟨y, e, hy⟩
  · exfalso
    rw [e, bind_ok] at h
    simp only at h
    split at h
    · rw [readBytes_eq (by omega), bind_ok] at h
      cases h
    · cases h
  · rw [e] at h
    injection h with h; subst h
    rcases hy with ⟨h1, h2, h3, rfl⟩ | ⟨h1, h2, h3⟩ | ⟨h1, h2⟩ | ⟨a, d, h1, h2⟩
    · exact .short b h1 h2 h3
    · exact .location _ b _ (.bluetooth b) h1 h2 h3
    · exact .position _ b _ _ (.bluetooth b) h1 (.bluetooth b) h2
    · refine .sync _ b a d _ _ (.bluetooth b) h1 (.bluetooth b) ?_
      show Session64.request F.wide cfg.platform W.libm W.env s.gnss s.scope.core b = _
      unfold Session64.request
      rw [NexStar.branch_of_parses h1, bind_ok]
      exact h2

/-! ### The 100 ms task -/

theorem client_ne {s : Sys} {c : Conn} (h : client s = some c) : s.net.remote = some c ∧ c ∈ s.net.open' := by
  obtain ⟨c', h1, h2⟩ := client_some.1 (show client s ≠ none by rw [h]; simp)
  have : c' = c := by
    unfold client at h
    split at h
    · rw [h1] at h; injection h
    · cases h
  subst this
  exact ⟨h1, h2⟩

/-- Data from the TCP client; `s0` is the state before the sensors were read. -/
theorem tcp_stop {F : Formats} {cfg : Config} {W : World σ} {s0 s : Sys} {i : In ℚ} (hi : Inv s) (ht : taskOf s0 (.loop i) = some .t100ms)
    (hnet : s.net = s0.net) (hrx : s.rx = s0.rx) (hg : s.gnss = s0.gnss) (hT : Finds F W s0 (.loop i) s.scope.core) :
    (∃ s' o, tcpTask F cfg W s i.tcp = .ok (s', o)) ∨ ∃ x, tcpTask F cfg W s i.tcp = .error x ∧ Cause F cfg W s0 (.loop i) x := by
  unfold tcpTask
  cases hc : client s with
  | none => exact Or.inl ⟨s, _, rfl⟩
  | some c =>
    simp only
    unfold tcpInput
    obtain ⟨n, he, hn, hrec⟩ := tcpReceive_facts hi.2 i.tcp
    rw [he, bind_ok]
    simp only
    have hrl := afterRead_length hi.2 i.tcp
    by_cases hpos : n > 0
    · rw [if_pos hpos]
      have hr := hn.1 hpos
      have hq : Request s0 (.loop i) (afterRead s0.rx i.tcp) := .tcp i c ht (by rw [← hnet]; exact client_ne hc) hr
      rw [← hrx] at hq
      rcases handle_cases (F := F) (P := cfg.platform) (W := W) (g := s.gnss) (sc := s.scope) (r := afterRead s.rx i.tcp) hi.1 with
        ⟨k, tx, sc', e, hk, hl⟩ | ⟨y, e, hy⟩
      · have hf := handle_facts hi.1 e
        rw [hrl] at e
        rw [e, bind_ok]
        simp only
        by_cases hk0 : k > 0
        · rw [if_pos hk0, readBytes_eq (by omega), bind_ok]
          exact Or.inl ⟨_, _, rfl⟩
        · rw [if_neg hk0]
          have hnc : ∀ c, ¬ Parses (afterRead s.rx i.tcp) c := fun c hc => hk0 (hf.2.1.2 ⟨c, hc⟩)
          have hsc : sc' = s.scope := hf.2.2.2.1 (fun a d => hnc _)
          subst hsc
          unfold tcpGoto
          simp only
          rw [hrec]
          rcases ok_or_error (Session64.goto F.wide W.libm W.env s.gnss s.scope.core (afterRead s.rx i.tcp) (received i.tcp)) with ⟨T, ho⟩ | ⟨x, hx⟩
          · rw [ho]; exact Or.inl ⟨_, _, rfl⟩
          · refine Or.inr ⟨x, by rw [hx]; rfl, ?_⟩
            by_cases htl : ∃ u v, Tells (.goto s.gnss (afterRead s.rx i.tcp) (received i.tcp)) s.gnss u v
            · obtain ⟨u, v, htl⟩ := htl
              rw [hg] at htl hx
              exact .goto i _ u v _ x hq hnc htl hT hx
            · push Not at htl
              rw [goto_silent (by omega) htl] at hx
              cases hx
      · rw [hrl] at e
        rw [e]
        refine Or.inr ⟨y, rfl, ?_⟩
        rw [hg] at hy
        rcases hy with ⟨-, h2, -⟩ | ⟨h1, h2, h3⟩ | ⟨h1, h2⟩ | ⟨a, d, h1, h2⟩
        · omega
        · exact .location _ _ _ hq h1 h2 h3
        · exact .position _ _ _ _ hq h1 hT h2
        · refine .sync _ _ a d _ _ hq h1 hT ?_
          show Session64.request F.wide cfg.platform W.libm W.env s0.gnss s.scope.core _ = _
          unfold Session64.request
          rw [NexStar.branch_of_parses h1, bind_ok]
          exact h2
    · rw [if_neg hpos]
      exact Or.inl ⟨_, _, rfl⟩

theorem task100_stop {F : Formats} (hF : F.arc = b32 ∨ F.arc = b64) {cfg : Config} {W : World σ} (hA : Angular W) {s0 s : Sys} {i : In ℚ} (hi : Inv s)
    (hm : Gravity s.imu) (hh : IsHeading s.heading) (ht : taskOf s0 (.loop i) = some .t100ms)
    (hs : s = { s0 with timers := s.timers }) :
    (∃ s' o, task100 F cfg W s i = .ok (s', o)) ∨ ∃ x, task100 F cfg W s i = .error x ∧ Cause F cfg W s0 (.loop i) x := by
  obtain ⟨p, q, hp, hq, hr⟩ := readSensors_total hF hA hm hh i
  unfold task100
  rw [hr, bind_ok]
  set s1 : Sys := { s with heading := q, pitch := p, scope := { s.scope with core := setOrientation s.scope.core ⟨q, p⟩ } } with hs1
  have e1 : s.imu = s0.imu := by rw [hs]
  have e2 : s.heading = s0.heading := by rw [hs]
  have e3 : s.scope = s0.scope := by rw [hs]
  have e4 : s.net = s0.net := by rw [hs]
  have e5 : s.rx = s0.rx := by rw [hs]
  have e6 : s.gnss = s0.gnss := by rw [hs]
  rw [e1] at hp
  rw [e2] at hq
  have hT : Finds F W s0 (.loop i) s1.scope.core := by
    have : s1.scope.core = setOrientation s0.scope.core ⟨q, p⟩ := by rw [hs1, e3]
    rw [this]
    exact .tcp i p q hp hq
  have i1 : Inv s1 := hi
  rcases tcp_stop (F := F) (cfg := cfg) (W := W) (s0 := s0) (s := s1) i1 ht e4 e5 e6 hT with ⟨s2, o1, e⟩ | ⟨x, e, hc⟩
  · rw [e, bind_ok]
    simp only
    have i2 := (tcpTask_facts i1 e).1
    have hmq : ∃ s3 o2, mqttTask cfg reset s2 i.messages = .ok (s3, o2) := by
      unfold mqttTask
      split
      · obtain ⟨s3, o2, h3, -⟩ := mqttLoop_total (cfg := { cfg with broker := false }) (T := reset) i.messages i2 (by intro h; cases h)
        exact ⟨s3, o2, h3⟩
      · exact ⟨_, _, rfl⟩
    obtain ⟨s3, o2, h3⟩ := hmq
    rw [h3, bind_ok]
    exact Or.inl ⟨_, _, rfl⟩
  · rw [e]
    exact Or.inr ⟨x, rfl, hc⟩

/-! ### The samples -/

theorem pollGnss_imu {cfg : Config} {s s' : Sys} {serial : List UInt8} (h1 : pollGnss cfg s serial = .ok s') : s'.imu = s.imu := by
  unfold pollGnss at h1
  simp only at h1
  split at h1
  · obtain ⟨rx1, _, h1⟩ := bind_eq_ok.1 h1
    obtain ⟨rx2, _, h1⟩ := bind_eq_ok.1 h1
    obtain ⟨r, _, h1⟩ := bind_eq_ok.1 h1
    cases r with
    | none => cases h1
    | some r =>
      obtain ⟨n, g⟩ := r
      simp only at h1
      split at h1 <;> (injection h1 with h1; subst h1; rfl)
  · injection h1 with h1; subst h1; rfl

theorem task500_imu {F : Formats} {cfg : Config} {W : World σ} {s s' : Sys} {i : In ℚ} {o : List Out} (hi : Inv s)
    (h : task500 F cfg W s i = .ok (s', o)) : s'.imu = s.imu := by
  unfold task500 at h
  obtain ⟨s1, h1, h⟩ := bind_eq_ok.1 h
  have e1 := pollGnss_imu h1
  have i1 : Inv s1 := (pollGnss_facts h1).1.2.2 hi
  clear h1
  split at h
  · unfold reportAll at h
    obtain ⟨_, _, h⟩ := bind_eq_ok.1 h
    obtain ⟨_, _, h⟩ := bind_eq_ok.1 h
    obtain ⟨_, _, h⟩ := bind_eq_ok.1 h
    obtain ⟨⟨s2, o1⟩, h2, h⟩ := bind_eq_ok.1 h
    obtain ⟨_, _, h⟩ := bind_eq_ok.1 h
    obtain ⟨_, _, h⟩ := bind_eq_ok.1 h
    obtain ⟨_, _, h⟩ := bind_eq_ok.1 h
    obtain ⟨_, _, h⟩ := bind_eq_ok.1 h
    obtain ⟨_, _, h⟩ := bind_eq_ok.1 h
    obtain ⟨_, _, h⟩ := bind_eq_ok.1 h
    injection h with h; injection h with h _; subst h
    show s2.imu = s.imu
    rw [← e1]
    obtain ⟨⟨tx, rfl, -⟩, -⟩ := sendPosition_facts i1 h2
    rfl
  · injection h with h; injection h with h _; subst h; exact e1

theorem reportGnss_imu {K : Type} [Field K] [LinearOrder K] [IsStrictOrderedRing K] [FloorRing K] {S : Type} {cfg : Config} {s s' : Main.Sys K S} {o : List Out} (hr : reportGnss cfg s = .ok (s', o)) : s'.imu = s.imu := by
  unfold reportGnss at hr
  split at hr
  · obtain ⟨⟨n, tx3⟩, _, hr⟩ := bind_eq_ok.1 hr
    obtain ⟨o2, _, hr⟩ := bind_eq_ok.1 hr
    obtain ⟨o3, _, hr⟩ := bind_eq_ok.1 hr
    rw [pure_ok] at hr
    have := congrArg (fun p => p.1.imu) (Except.ok.inj hr)
    exact this.symm
  · have := congrArg (fun p => p.1.imu) (Except.ok.inj hr)
    exact this.symm

theorem task2s_imu {cfg : Config} {s s' : Sys} {i : In ℚ} {o : List Out} (h : task2s cfg s i = .ok (s', o)) : s'.imu = s.imu := by
  unfold task2s at h
  obtain ⟨tx1, _, h⟩ := bind_eq_ok.1 h
  obtain ⟨tx2, _, h⟩ := bind_eq_ok.1 h
  obtain ⟨rx1, _, h⟩ := bind_eq_ok.1 h
  obtain ⟨rx2, _, h⟩ := bind_eq_ok.1 h
  obtain ⟨⟨s2, o2⟩, hr, h⟩ := bind_eq_ok.1 h
  have := reportGnss_imu hr
  clear hr
  injection h with h; injection h with h _; subst h
  exact this

theorem imu_same {F : Formats} {cfg : Config} {W : World σ} {s s' : Sys} {e : Event ℚ} {o : List Out} (hi : Inv s) (h : step F cfg W s e = .ok (s', o)) :
    s'.imu = s.imu ∨ ∃ i, e = .loop i ∧ accSample s.imu i.acc = .ok s'.imu := by
  cases e with
  | arrive c => injection h with h; injection h with h _; subst h; exact Or.inl rfl
  | gone c => injection h with h; injection h with h _; subst h; exact Or.inl rfl
  | bluetooth b =>
    refine Or.inl ?_
    unfold step onBluetoothData at h
    obtain ⟨⟨k, tx, scope⟩, hk, h⟩ := bind_eq_ok.1 h
    simp only at h
    split at h
    · obtain ⟨_, _, h⟩ := bind_eq_ok.1 h
      injection h with h; injection h with h _; subst h; rfl
    · injection h with h; injection h with h _; subst h; rfl
  | loop i =>
    unfold step loop at h
    simp only at h
    cases hk : (schedule s.timers i.now).1 with
    | none => rw [hk] at h; injection h with h; injection h with h _; subst h; exact Or.inl rfl
    | some k =>
      rw [hk] at h
      cases k with
      | filter =>
        simp only at h
        unfold taskFilter at h
        split at h
        · obtain ⟨m, hm, h⟩ := bind_eq_ok.1 h
          injection h with h; injection h with h _; subst h
          exact Or.inr ⟨i, rfl, hm⟩
        · injection h with h; injection h with h _; subst h; exact Or.inl rfl
      | t25ms =>
        injection h with h
        unfold task25 at h
        split at h <;> (injection h with h _; subst h; exact Or.inl rfl)
      | t100ms =>
        refine Or.inl ?_
        simp only at h
        unfold task100 at h
        obtain ⟨s1, h1, h⟩ := bind_eq_ok.1 h
        obtain ⟨⟨s2, o1⟩, h2, h⟩ := bind_eq_ok.1 h
        obtain ⟨⟨s3, o2⟩, h3, h⟩ := bind_eq_ok.1 h
        simp only [pure_ok] at h
        injection h with h; injection h with hs _
        obtain ⟨p, q, e1, -, -⟩ := readSensors_facts h1
        have i1 : Inv s1 := by rw [e1]; exact hi
        have a := tcpTask_facts i1 h2
        have m3 : s3.imu = s2.imu := by
          unfold mqttTask at h3
          split at h3
          · obtain ⟨s4, o4, h4, -, h5, -⟩ := mqttLoop_total (cfg := { cfg with broker := false }) (T := reset) i.messages a.1 (by intro h; cases h)
            rw [h3] at h4
            injection h4 with h4; injection h4 with h4 _; subst h4; exact h5
          · injection h3 with h3; injection h3 with h3 _; subst h3; rfl
        have : s'.imu = s3.imu := by
          subst hs
          split <;> rfl
        rw [this, m3, a.2.2.2.2.2.1, e1]
      | t500ms =>
        have := task500_imu (s := { s with timers := (schedule s.timers i.now).2 }) hi h
        exact Or.inl this
      | t1s => injection h with h; injection h with h _; subst h; exact Or.inl rfl
      | t2s =>
        have := task2s_imu (s := { s with timers := (schedule s.timers i.now).2 }) h
        exact Or.inl this
      | t30s => injection h with h; injection h with h _; subst h; exact Or.inl rfl

/-! ### One step -/

/-- What holds of every state reached. -/
structure Live (s : Sys) : Prop where
  ok : Ok s
  gravity : Gravity s.imu

theorem live_step {F : Formats} {cfg : Config} {W : World σ} {s s' : Sys} {e : Event ℚ} {o : List Out} (hl : Live s) (he : InScale e)
    (h : step F cfg W s e = .ok (s', o)) : Live s' := by
  refine ⟨(step_facts hl.ok h).1, ?_⟩
  rcases imu_same hl.ok.inv h with e1 | ⟨i, rfl, e1⟩
  · rw [e1]; exact hl.gravity
  · exact gravity_step hl.gravity he e1

theorem pollGnss_cases {cfg : Config} {s : Sys} (hi : Inv s) (serial : List UInt8) :
    (∃ s', pollGnss cfg s serial = .ok s') ∨
      ∀ n g, Nmea.fromBuffer cfg.platform s.gnss (serial.take 255) ≠ .ok (some (n, g)) := by
  by_cases hb : ∃ n g, Nmea.fromBuffer cfg.platform s.gnss (serial.take 255) = .ok (some (n, g))
  · refine Or.inl ?_
    obtain ⟨n, g, hb⟩ := hb
    unfold pollGnss
    simp only
    split
    · have hle : (serial.take 255).length ≤ 255 := by simp
      rw [Codec.storeSeq_ok _ _ _ (by rw [hi.2]; omega), bind_ok]
      set rx1 := s.rx.take 0 ++ serial.take 255 ++ s.rx.drop (0 + (serial.take 255).length) with hrx1
      have l1 : rx1.length = 256 := by rw [hrx1]; simp [hi.2]
      have e2 : storeByte rx1 (serial.take 255).length 0 = .ok (rx1.set (serial.take 255).length 0) := by
        unfold storeByte; rw [if_pos (by omega)]
      rw [e2, bind_ok]
      have e3 : (rx1.set (serial.take 255).length 0).take (serial.take 255).length = serial.take 255 := by
        rw [List.take_set_of_le (le_refl _), hrx1]
        simp
      rw [e3, hb, bind_ok]
      simp only
      split <;> exact ⟨_, rfl⟩
    · exact ⟨_, rfl⟩
  · push Not at hb
    exact Or.inr hb

theorem report_no_zero (s : Sys) (ty : Nat) (position horizontal : ℚ × ℚ) (hours : ℚ) :
    ∀ m ∈ report s ty position horizontal hours, (0 : UInt8) ∉ m.2 := by
  unfold report
  simp only [List.forall_mem_cons, List.not_mem_nil, false_imp_iff, implies_true, and_true]
  refine ⟨fmtF_no_zero _ _, fmtF_no_zero _ _, fmtF_no_zero _ _, fmtF_no_zero _ _, fmtF_no_zero _ _, fmtF_no_zero _ _, fmtF_no_zero _ _, fmtF_no_zero _ _, ?_⟩
  simp only [List.mem_append, not_or, fmtI_ne_zero, not_false_iff, and_true, true_and]
  refine ⟨⟨?_, ?_⟩, ?_⟩ <;> decide +kernel

theorem sendPosition_cases {cfg : Config} {s : Sys} (hi : Inv s) (p : ℚ × ℚ) :
    (∃ tx o, sendPosition cfg s p = .ok ({ s with tx }, o) ∧ tx.length = 256 ∧ (Nul cfg s.tx → Nul cfg tx)) ∨
    ∃ x, sendPosition cfg s p = .error x ∧ client s ≠ none ∧ s.gnssAvailable = true ∧ s.nexStarMode = false ∧
      (Codec.encodeAngle64 cfg.platform p.1 = .error x ∨ Codec.encodeAngle64 cfg.platform p.2 = .error x) := by
  unfold sendPosition
  cases hc : client s with
  | none => exact Or.inl ⟨s.tx, _, rfl, hi.1, id⟩
  | some c =>
    simp only
    split
    · rename_i hg
      simp only [Bool.and_eq_true, Bool.not_eq_true'] at hg
      rw [Codec.pack_bytes64 cfg.platform p.1 p.2 0 s.tx 256 (by norm_num) (by rw [hi.1])]
      rcases ok_or_error (Codec.encodeAngle64 cfg.platform p.1) with ⟨u, hu⟩ | ⟨x, hx⟩
      · rcases ok_or_error (Codec.encodeAngle64 cfg.platform p.2) with ⟨v, hv⟩ | ⟨x, hx⟩
        · rw [hu, hv]
          simp only [bind_ok, pure_ok]
          have hpm : (positionMessage (0 : UInt64).toNat u.toNat v.toNat).length = 24 := rfl
          have hl : (positionMessage (0 : UInt64).toNat u.toNat v.toNat ++ s.tx.drop 24).length = 256 := by
            rw [List.length_append, hpm, List.length_drop, hi.1]
          rw [if_pos trivial, readBytes_eq (by omega), bind_ok]
          refine Or.inl ⟨_, _, rfl, hl, fun hN hb => ?_⟩
          have := hN hb
          rw [List.getElem?_append_right (by rw [hpm]; norm_num), List.getElem?_drop, hpm]
          exact this
        · rw [hu, hx]
          exact Or.inr ⟨x, rfl, by simp, hg.1, hg.2, Or.inr rfl⟩
      · rw [hx]
        exact Or.inr ⟨x, rfl, by simp, hg.1, hg.2, Or.inl rfl⟩
    · exact Or.inl ⟨s.tx, _, rfl, hi.1, id⟩

theorem reportAll_stop {F : Formats} {cfg : Config} {W : World σ} {s : Sys} (hi : Inv s) {x : Stop} (h : reportAll F cfg W s = .error x) :
    ReportCause F cfg W s x := by
  by_cases hN : Nul cfg s.tx
  swap
  · unfold Nul at hN
    push Not at hN
    exact .buffer hN.1 hN.2
  unfold reportAll at h
  rcases ok_or_error (Helper.localSiderealTime64 F.wide s.gnss.utc s.gnss.longitude) with ⟨lst, h1⟩ | ⟨y, h1⟩
  swap
  · rw [h1] at h
    injection h with h; subst h
    exact .numbers (by unfold numbers; rw [h1]; rfl)
  rw [h1, bind_ok] at h
  rcases ok_or_error (getCalibratedOrientation W.libm s.scope.core s.gnss.latitude lst) with ⟨p, h2⟩ | ⟨y, h2⟩
  swap
  · rw [h2] at h
    injection h with h; subst h
    exact .numbers (by unfold numbers; rw [h1, bind_ok, h2]; rfl)
  rw [h2, bind_ok] at h
  rcases ok_or_error (equatorialToHorizontal W.libm p.2.1 p.2.2 s.gnss.latitude lst) with ⟨c, h3⟩ | ⟨y, h3⟩
  swap
  · rw [h3] at h
    injection h with h; subst h
    exact .numbers (by unfold numbers; rw [h1, bind_ok, h2, bind_ok, h3]; rfl)
  rw [h3, bind_ok] at h
  rcases sendPosition_cases (cfg := cfg) hi p.2 with ⟨tx0, o1, e0, l0, N0⟩ | ⟨y, e0, q1, q2, q3, q4⟩
  swap
  · rw [e0] at h
    injection h with h; subst h
    exact .packet lst p q1 q2 q3 h1 h2 q4
  rw [e0, bind_ok] at h
  simp only at h
  rcases ok_or_error (fl b64 (lst / 15)) with ⟨hr, h4⟩ | ⟨y, h4⟩
  swap
  · rw [h4] at h
    injection h with h; subst h
    exact .numbers (by unfold numbers; rw [h1, bind_ok, h2, bind_ok, h3, bind_ok, h4]; rfl)
  rw [h4, bind_ok] at h
  by_cases ht : ∃ m ∈ report s (code p.1) p.2 c hr, 255 < m.2.length
  · obtain ⟨m, hm, hm'⟩ := ht
    exact .text p.1 p.2 c hr m hm hm'
  push Not at ht
  obtain ⟨tx1, o2, e1, l1, N1⟩ := publishAll_total (cfg := cfg) l0 (N0 hN) (fun m hm => ⟨ht m hm, report_no_zero s (code p.1) p.2 c hr m hm⟩)
  rw [show report { s with tx := tx0 } (code p.1) p.2 c hr = report s (code p.1) p.2 c hr from rfl, e1, bind_ok] at h
  simp only at h
  by_cases ha : (pointList (s.scope.core.alignment.used.map fun v => (v.actual.x, v.actual.y))).length ≤ if cfg.broker then 255 else 256
  swap
  · exact .points _ (Or.inl rfl) (not_le.1 ha)
  by_cases hb : (pointList (s.scope.core.alignment.used.map fun v => (v.reference.x, v.reference.y))).length ≤ if cfg.broker then 255 else 256
  swap
  · exact .points _ (Or.inr rfl) (not_le.1 hb)
  obtain ⟨tx2, o3, e2, l2, N2⟩ := publishVertices_total (cfg := cfg) "home/appliance/telescope/actual" _ l1 N1 ha
  obtain ⟨tx3, o4, e3, l3, N3⟩ := publishVertices_total (cfg := cfg) "home/appliance/telescope/reference" _ l2 N2 hb
  rw [e2, bind_ok] at h
  simp only at h
  rw [e3, bind_ok] at h
  simp only at h
  rcases ok_or_error (Align64.getTransformationMatrix s.scope.core.alignment s.scope.core.orientation) with ⟨m, h5⟩ | ⟨y, h5⟩
  swap
  · rw [h5] at h
    injection h with h; subst h
    exact .numbers (by unfold numbers; rw [h1, bind_ok, h2, bind_ok, h3, bind_ok, h4, bind_ok, h5]; rfl)
  rw [h5, bind_ok] at h
  by_cases hm : 253 < (commaList (elements W m)).length ∨ (0 : UInt8) ∈ commaList (elements W m)
  · exact .matrix m h5 hm
  push Not at hm
  rw [publish_text (cfg := cfg) (topic := "home/appliance/telescope/matrix") l3 (out := [91] ++ commaList (elements W m) ++ [93])
    (by simp; omega) (by simp [hm.2])] at h
  cases h

theorem poll_timers {F : Formats} {cfg : Config} {W : World σ} {s s2 : Sys} {t : Timers} {serial : List UInt8}
    (h : pollGnss cfg { s with timers := t } serial = .ok s2) :
    ∃ s3, pollGnss cfg s serial = .ok s3 ∧ ∀ {x}, ReportCause F cfg W s2 x → ReportCause F cfg W s3 x := by
  have key : ∀ s3 : Sys, s2 = { s3 with timers := t } → ∀ {x}, ReportCause F cfg W s2 x → ReportCause F cfg W s3 x := by
    rintro s3 rfl x hx
    cases hx with
    | numbers h => exact .numbers h
    | packet lst p a b c d e f => exact .packet lst p a b c d e f
    | buffer a b => exact .buffer a b
    | text a b c d m e f => exact .text a b c d m e f
    | points a b c => exact .points a b c
    | matrix a b c => exact .matrix a b c
  have e : pollGnss cfg { s with timers := t } serial = pollGnss cfg s serial >>= fun s3 => .ok { s3 with timers := t } := by
    unfold pollGnss
    simp only
    split
    · rcases ok_or_error (storeSeq s.rx 0 (serial.take 255)) with ⟨a, h1⟩ | ⟨y, h1⟩
      · rw [h1]
        simp only [bind_ok]
        rcases ok_or_error (storeByte a (serial.take 255).length 0) with ⟨b, h2⟩ | ⟨y, h2⟩
        · rw [h2]
          simp only [bind_ok]
          rcases ok_or_error (Nmea.fromBuffer cfg.platform s.gnss (b.take (serial.take 255).length)) with ⟨c, h3⟩ | ⟨y, h3⟩
          · rw [h3]
            simp only [bind_ok]
            cases c with
            | none => rfl
            | some c =>
              obtain ⟨n, g⟩ := c
              simp only
              split <;> rfl
          · rw [h3]; rfl
        · rw [h2]; rfl
      · rw [h1]; rfl
    · rfl
  rw [e] at h
  obtain ⟨s3, h3, h⟩ := bind_eq_ok.1 h
  injection h with h
  exact ⟨s3, h3, key s3 h.symm⟩

theorem step_stop {F : Formats} (hF : F.arc = b32 ∨ F.arc = b64) {cfg : Config} {W : World σ} (hA : Angular W) {s : Sys} (hl : Live s) {e : Event ℚ} {x : Stop}
    (h : step F cfg W s e = .error x) : Cause F cfg W s e x := by
  have hi := hl.ok.inv
  cases e with
  | arrive c => cases h
  | gone c => cases h
  | bluetooth b => exact bluetooth_stop hi h
  | loop i =>
    unfold step loop at h
    simp only at h
    set s1 : Sys := { s with timers := (schedule s.timers i.now).2 } with hs1
    cases hk : (schedule s.timers i.now).1 with
    | none => rw [hk] at h; cases h
    | some k =>
      rw [hk] at h
      cases k with
      | filter =>
        obtain ⟨⟨l, r, -⟩, -⟩ := hl.gravity
        obtain ⟨s2, o2, e, -⟩ := taskFilter_total (cfg := cfg) (s := s1) ⟨l, r⟩ i
        rw [e] at h; cases h
      | t25ms => cases h
      | t100ms =>
        rcases task100_stop hF (cfg := cfg) hA (s0 := s) (s := s1) (i := i) hi hl.gravity hl.ok.heading hk rfl with ⟨s2, o2, e⟩ | ⟨y, e, hc⟩
        · rw [e] at h; cases h
        · rw [e] at h; injection h with h; subst h; exact hc
      | t500ms =>
        simp only at h
        unfold task500 at h
        by_cases hsen : cfg.sensor = true
        · rcases pollGnss_cases (cfg := cfg) (s := s1) hi i.serial with ⟨s2, e⟩ | hn
          · rw [e, bind_ok, if_pos hsen] at h
            obtain ⟨s3, e3, h3⟩ := poll_timers (F := F) (W := W) e
            exact .report i s3 x hk hsen e3 (h3 (reportAll_stop ((pollGnss_facts e).1.2.2 hi) h))
          · exact .gnss i x hk hn
        · rcases pollGnss_cases (cfg := cfg) (s := s1) hi i.serial with ⟨s2, e⟩ | hn
          · rw [e, bind_ok, if_neg hsen] at h; cases h
          · exact .gnss i x hk hn
      | t1s => cases h
      | t2s =>
        by_cases hb : ¬ s.gnss.Sane ∨ cfg.broker = true ∧ s.tx[255]? ≠ some 0
        · exact .status i x hk hb
        · push Not at hb
          obtain ⟨s2, o2, e, -⟩ := task2s_total (cfg := cfg) (s := s1) hi hb.2 hb.1 i
          rw [e] at h; cases h
      | t30s => cases h

end Verif.Firmware64
