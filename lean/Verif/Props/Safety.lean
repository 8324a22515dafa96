import Verif.Lemmas.Safety
import Mathlib.Data.List.Sort

/-!
# C63: only the listed hazards can stop the firmware
-/

set_option linter.unusedSectionVars false

namespace Verif.Main
open Printf

variable {K : Type} [Field K] [LinearOrder K] [IsStrictOrderedRing K] [FloorRing K] {S : Type}

/-- **C57** The report completes (no memory error, nothing truncated) whenever the position is known and can be encoded for a connected client,
the numbers are of reasonable size, and the two point lists and the matrix fit into the buffer; with a local broker one byte less may be
used and the last byte of the buffer must be NUL, as it is after power-up and after every step without a hazard (C63). -/
theorem C57_completes (cfg : Config) (T : Tel K S) (s : Sys K S) (hi : Inv s) (hN : cfg.broker = true → s.tx[255]? = some 0) (lst : K) (ty : Nat)
    (position : Equatorial K) (m : List K)
    (hl : Helper.localSiderealTime s.gnss.utc (s.gnss.longitude : K) = .ok lst)
    (hpos : T.calibrated s.scope.core (s.gnss.latitude : K) lst = .ok (ty, position))
    (hsend : client s ≠ none → Codec.InDomain position.ra ∧ Codec.InDomain position.dec)
    (hq : ∀ q ∈ quantities T s position lst, |q.2.2| < 10 ^ 200)
    (hv : (T.vertices s.scope.core).length < 10 ^ 50) (htr : T.triangles s.scope.core < 10 ^ 50) (hty : ty < 10 ^ 50)
    (ha : (pointList ((T.vertices s.scope.core).map (·.1))).length ≤ if cfg.broker then 255 else 256)
    (hr : (pointList ((T.vertices s.scope.core).map (·.2))).length ≤ if cfg.broker then 255 else 256)
    (hm : T.matrix s.scope.core = .ok m) (hml : (commaList (m.map (fmtF 2))).length ≤ 253) :
    ∃ tx o, reportAll cfg T s = .ok ({ s with tx }, o) ∧ (cfg.broker = true → tx[255]? = some 0) := by
  obtain ⟨tx, o, h1, -, h2⟩ := reportAll_total cfg T s hi hN lst ty position m hl hpos (fun _ hc _ _ => hsend hc) hq hv htr hty ha hr hm hml
  exact ⟨tx, o, h1, h2⟩

end Verif.Main

namespace Verif.System
open Verif.Align Verif.Spec Verif.Spec.NexStar Verif.Main NexStar

theorem reached_new : Reached Telescope.new := ⟨[], by simp, rfl⟩

/-- As long as there was no hazard, the firmware has completed every step and its state is safe. -/
theorem runs_safe (cfg : Config) (h : List (Env ℝ (Option (Circle ℝ)) × Event ℝ)) (hn : ∀ x ∈ h, Normal x.1)
    (hz : ∀ h1 x h2 s o, h = h1 ++ x :: h2 → firmware cfg h1 = .ok (s, o) → ¬ Hazard cfg x.1 s x.2) :
    ∃ s o, firmware cfg h = .ok (s, o) ∧ Safe cfg s ∧ Reached s.scope.core := by
  induction h using List.reverseRecOn with
  | nil => exact ⟨_, _, rfl, safe_boot cfg, reached_new⟩
  | append_singleton h x ih =>
    obtain ⟨s, o, hr, hs, hT⟩ := ih (fun y hy => hn y (by simp [hy])) fun h1 y h2 s o e hr => hz h1 y (h2 ++ [x]) s o (by simp [e]) hr
    obtain ⟨s', o', e', hs', hT'⟩ := step_total (hn x (by simp)) hs hT x.2 (hz h x [] s o (by simp) hr)
    refine ⟨s', o ++ o', ?_, hs', hT'⟩
    unfold firmware at hr ⊢
    rw [List.map_append]
    exact Main.run_snoc.2 ⟨s, o, o', hr, e', rfl⟩

/-- **C63.** If the firmware stops — an access outside a buffer, an undefined conversion, a result that is not a number — then there was
a moment in its history at which one of the listed hazards was present. -/
theorem C63_only_hazards (cfg : Config) (h : List (Env ℝ (Option (Circle ℝ)) × Event ℝ)) (hn : ∀ x ∈ h, Normal x.1) {e : Stop}
    (hstop : firmware cfg h = .error e) :
    ∃ h1 x h2 s o, h = h1 ++ x :: h2 ∧ firmware cfg h1 = .ok (s, o) ∧ Hazard cfg x.1 s x.2 := by
  by_contra hc
  push Not at hc
  obtain ⟨s, o, hr, -⟩ := runs_safe cfg h hn hc
  rw [hr] at hstop
  cases hstop

/-- In particular: the telescope answers every question for the position after every history of the firmware, with a position on the
sphere. -/
theorem C63_always_a_position (cfg : Config) (h : List (Env ℝ (Option (Circle ℝ)) × Event ℝ)) (hn : ∀ x ∈ h, Normal x.1)
    {s : Sys ℝ Telescope.Tel} {o : List Out} (hr : firmware cfg h = .ok (s, o)) (env : Env ℝ (Option (Circle ℝ))) (lat t : ℝ) :
    ∃ ty p, Telescope.getCalibratedOrientation env s.scope.core lat t = .ok (ty, p) ∧ 0 ≤ p.ra ∧ p.ra < 360 ∧ -90 ≤ p.dec ∧ p.dec ≤ 90 := by
  have hT : Reached s.scope.core := by
    induction h using List.reverseRecOn generalizing s o with
    | nil =>
      injection hr with hr; injection hr with hr _; subst hr
      exact reached_new
    | append_singleton h x ih =>
      unfold firmware at hr
      rw [List.map_append] at hr
      obtain ⟨s1, o1, o2, h1, h2, -⟩ := Main.run_snoc.1 hr
      exact (ih (fun y hy => hn y (by simp [hy])) h1).moves (hn x (by simp)).sort
        (Main.step_moves (Main.run_facts _ (inv_boot cfg _) h1).1 h2)
  obtain ⟨ty, p, e, -, r⟩ := hT.position (env := env) lat t
  exact ⟨ty, p, e, r⟩

/-- The hazard of a short message is real: on the device, less than eight bytes over Bluetooth that are no command stop the firmware. -/
theorem C63_short_stops (cfg : Config) (h : List (Env ℝ (Option (Circle ℝ)) × Event ℝ)) {s : Sys ℝ Telescope.Tel} {o : List Out}
    (hr : firmware cfg h = .ok (s, o)) (env : Env ℝ (Option (Circle ℝ))) (b : List UInt8) (ha : cfg.platform.arduino = true)
    (hl : b.length < 8) (hn : ∀ c, ¬ Parses b c) : firmware cfg (h ++ [(env, .bluetooth b)]) = .error (.ub .oobRead) := by
  unfold firmware at hr ⊢
  rw [List.map_append, Main.run_append, hr, bind_ok]
  have hb : NexStar.branch b b.length = .ok .unknown := by
    have := branch_unparsed (request := b) (n := b.length) (le_refl _) (by rw [List.take_length]; exact hn)
    exact this
  have hu : NexStar.unknownLog cfg.platform b = .error (.ub .oobRead) := by
    unfold NexStar.unknownLog
    rw [if_pos ha]
    match b, hl with
    | [], _ => rfl
    | [_], _ => rfl
    | [_, _], _ => rfl
    | [_, _, _], _ => rfl
    | [_, _, _, _], _ => rfl
    | [_, _, _, _, _], _ => rfl
    | [_, _, _, _, _, _], _ => rfl
    | [_, _, _, _, _, _, _], _ => rfl
    | _ :: _ :: _ :: _ :: _ :: _ :: _ :: _ :: _, h => simp at h; omega
  have hh : NexStar.handleRequest cfg.platform (real env).ops s.gnss s.scope b b.length s.tx 256 = .error (.ub .oobRead) := by
    unfold NexStar.handleRequest
    rw [hb, bind_ok]
    simp only [NexStar.body, hu]
    rfl
  simp only [List.map_cons, List.map_nil, Main.run, Main.step, Main.onBluetoothData, hh]
  rfl

/-- The hazard of a negative declination is real: where the conversion to `uint32_t` is undefined, asking for the position stops the
firmware. -/
theorem C63_position_stops (cfg : Config) (h : List (Env ℝ (Option (Circle ℝ)) × Event ℝ)) (hn : ∀ x ∈ h, Normal x.1) {s : Sys ℝ Telescope.Tel} {o : List Out}
    (hr : firmware cfg h = .ok (s, o)) (env : Env ℝ (Option (Circle ℝ))) (hs : cfg.platform.fcast = .strict) {t : ℝ}
    (ht : Helper.localSiderealTime s.gnss.utc (s.gnss.longitude : ℝ) = .ok t) {ty : TType} {p : Equatorial ℝ}
    (hpos : Telescope.getCalibratedOrientation env s.scope.core s.gnss.latitude t = .ok (ty, p))
    (hd : p.dec ≤ -(360 / 2 ^ 32)) : firmware cfg (h ++ [(env, .bluetooth [101])]) = .error (.ub .floatToInt) := by
  have h0 : 0 ≤ p.ra ∧ p.ra < 360 := by
    obtain ⟨ty', p', e', r⟩ := C63_always_a_position cfg h hn hr env s.gnss.latitude t
    rw [hpos] at e'; injection e' with e'; injection e' with _ e'; subst e'
    exact ⟨r.1, r.2.1⟩
  unfold firmware at hr ⊢
  rw [List.map_append, Main.run_append, hr, bind_ok]
  have hb : NexStar.branch [101] 1 = .ok .position := by decide
  have e1 : ∃ u, castU32 cfg.platform (p.ra / 360 * 4294967296) = .ok u := castU32_total fun _ => by constructor <;> linarith
  obtain ⟨u, e1⟩ := e1
  have e2 : castU32 cfg.platform (p.dec / 360 * 4294967296) = .error (.ub .floatToInt) := by
    have : p.dec / 360 * 4294967296 ≤ -1 := by
      have : (2 : ℝ) ^ 32 = 4294967296 := by norm_num
      rw [this] at hd
      linarith
    unfold castU32 castUnsigned
    have hneg : ¬ (0 ≤ truncZ (p.dec / 360 * 4294967296) ∧ truncZ (p.dec / 360 * 4294967296) < 2 ^ 32) := by
      rintro ⟨hc, -⟩
      unfold truncZ at hc
      rw [if_neg (by linarith)] at hc
      have : ⌈p.dec / 360 * 4294967296⌉ ≤ -1 := Int.ceil_le.2 (by push_cast; exact this)
      omega
    rw [if_neg hneg, hs]
    rfl
  have hh : NexStar.handleRequest cfg.platform (real env).ops s.gnss s.scope [101] 1 s.tx 256 = .error (.ub .floatToInt) := by
    have hl : NexStar.lst s.gnss = .ok t := ht
    have hp : (real env).ops.position s.scope.core s.gnss.latitude t = .ok p := by
      simp only [Main.Tel.ops, real, hpos]
      rfl
    unfold NexStar.handleRequest
    rw [hb, bind_ok]
    simp only [NexStar.body]
    rw [hl, bind_ok, hp, bind_ok]
    unfold NexStar.positionBytes
    rw [e1, bind_ok, e2]
    rfl
  simp only [List.map_cons, List.map_nil, Main.run, Main.step, Main.onBluetoothData, List.length_cons, List.length_nil, hh]
  rfl

/-- There are admissible environments. -/
noncomputable example : Σ' env : Env ℝ (Option (Circle ℝ)), Normal env :=
  haveI : Std.Total (fun u v : VertexPair ℝ => u.actual.x ≤ v.actual.x) := ⟨fun _ _ => le_total _ _⟩
  haveI : IsTrans (VertexPair ℝ) (fun u v => u.actual.x ≤ v.actual.x) := ⟨fun _ _ _ => le_trans⟩
  ⟨⟨exactTest, some ⟨0, 0, 0⟩, fun l => l.insertionSort (fun u v => u.actual.x ≤ v.actual.x), fun _ => 0, id⟩,
    ⟨fun l => ⟨List.perm_insertionSort _ l, List.pairwise_insertionSort _ l⟩, rfl, _, rfl⟩⟩

/-- A history without hazards: connections come and go and "J" is asked over Bluetooth, on any platform, arbitrarily often. -/
example (cfg : Config) (env : Env ℝ (Option (Circle ℝ))) (he : Normal env) (n : Nat) :
    ∃ s o, firmware cfg ((List.replicate n [(env, .arrive 7), (env, .bluetooth [74]), (env, .gone 7)]).flatten) = .ok (s, o) := by
  have hJ : ∀ c, Parses [74] c → c = .aligned := by intro c hc; cases hc; rfl
  obtain ⟨s, o, hr, -⟩ := runs_safe cfg ((List.replicate n [(env, Event.arrive 7), (env, .bluetooth [74]), (env, .gone 7)]).flatten)
    (fun x hx => by
      simp only [List.mem_flatten, List.mem_replicate] at hx
      obtain ⟨l, ⟨-, rfl⟩, hx⟩ := hx
      fin_cases hx <;> exact he)
    (fun h1 x h2 s o e hr hz => by
      have hx : x ∈ (List.replicate n [(env, Event.arrive 7), (env, .bluetooth [74]), (env, .gone 7)]).flatten := by rw [e]; simp
      simp only [List.mem_flatten, List.mem_replicate] at hx
      obtain ⟨l, ⟨-, rfl⟩, hx⟩ := hx
      fin_cases hx
      · cases hz with
        | location e r hq => cases hq
        | position e r hq => cases hq
        | sync e r hq => cases hq
      · cases hz with
        | short b ha hl hn => exact hn .aligned (.aligned [])
        | location e r hq hp => cases hq; cases hJ _ hp
        | position e r hq hp => cases hq; cases hJ _ hp
        | sync e r hq a d hp => cases hq; cases hJ _ hp
      · cases hz with
        | location e r hq => cases hq
        | position e r hq => cases hq
        | sync e r hq => cases hq)
  exact ⟨s, o, hr⟩

/-- A history with a hazard: one byte that is no command, on the device. -/
example (env : Env ℝ (Option (Circle ℝ))) : firmware ⟨.esp32, true, true, true, true⟩ [(env, .bluetooth [0])] = .error (.ub .oobRead) :=
  C63_short_stops _ [] (s := boot _ _) (o := []) rfl env [0] rfl (by decide) (by intro c hc; cases hc)

end Verif.System
