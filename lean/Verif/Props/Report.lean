import Verif.Spec.Report
import Verif.Props.Sensors

/-!
# C65: the report of the 500 ms task, in every history of the firmware
-/

set_option linter.unusedSectionVars false

namespace Verif.System
open Verif.Align Verif.Spec Verif.Spec.Decimal Verif.Main Imu Coord Printf

variable {σ : Type}

theorem denotes_fmtI (n : Nat) : Denotes (fmtI n) 0 n := by
  refine ⟨false, dec n, [], ?_, fun c hc => dec_digit hc, rfl, by simp, ?_, ?_⟩
  · intro h
    have := dec_length_pos n
    rw [h] at this; simp at this
  · unfold fmtI; rw [if_neg (by omega)]; simp
  · simp [natValue_dec, show natValue [] = 0 from rfl]

theorem mqttOf_append (a b : List Out) : mqttOf (a ++ b) = mqttOf a ++ mqttOf b := by simp [mqttOf]

theorem mqttOf_messages {cfg : Config} (hm : cfg.mqtt = true) (topic : String) (p : List UInt8) : mqttOf (messages cfg topic p) = [(topic, p)] := by
  unfold messages mqttOf
  rw [hm]
  cases cfg.broker <;> rfl

theorem mqttOf_messages' {cfg : Config} (hm : cfg.mqtt = false) (topic : String) (p : List UInt8) : mqttOf (messages cfg topic p) = [] := by
  unfold messages mqttOf
  rw [hm]
  cases cfg.broker <;> rfl

theorem brokerOf_append (a b : List Out) : brokerOf (a ++ b) = brokerOf a ++ brokerOf b := by simp [brokerOf]

theorem brokerOf_messages {cfg : Config} (hm : cfg.broker = true) (topic : String) (p : List UInt8) : brokerOf (messages cfg topic p) = [(topic, p)] := by
  unfold messages brokerOf
  rw [hm]
  cases cfg.mqtt <;> rfl

theorem brokerOf_messages' {cfg : Config} (hm : cfg.broker = false) (topic : String) (p : List UInt8) : brokerOf (messages cfg topic p) = [] := by
  unfold messages brokerOf
  rw [hm]
  cases cfg.mqtt <;> rfl

theorem brokerOf_flatMap {cfg : Config} (hm : cfg.broker = true) (l : List (String × List UInt8)) :
    brokerOf (l.flatMap fun x => messages cfg x.1 x.2) = l := by
  induction l with
  | nil => rfl
  | cons x l ih => rw [List.flatMap_cons, brokerOf_append, brokerOf_messages hm, ih]; rfl

theorem mqttOf_flatMap' {cfg : Config} (hm : cfg.mqtt = false) (l : List (String × List UInt8)) :
    mqttOf (l.flatMap fun x => messages cfg x.1 x.2) = [] := by
  induction l with
  | nil => rfl
  | cons x l ih => rw [List.flatMap_cons, mqttOf_append, mqttOf_messages' hm, ih]; rfl

theorem brokerOf_flatMap' {cfg : Config} (hm : cfg.broker = false) (l : List (String × List UInt8)) :
    brokerOf (l.flatMap fun x => messages cfg x.1 x.2) = [] := by
  induction l with
  | nil => rfl
  | cons x l ih => rw [List.flatMap_cons, brokerOf_append, brokerOf_messages' hm, ih]; rfl

theorem mqttOf_flatMap {cfg : Config} (hm : cfg.mqtt = true) (l : List (String × List UInt8)) :
    mqttOf (l.flatMap fun x => messages cfg x.1 x.2) = l := by
  induction l with
  | nil => rfl
  | cons x l ih => rw [List.flatMap_cons, mqttOf_append, mqttOf_messages hm, ih]; rfl

/-- The pitch is at most half a turn, in every history. -/
theorem pitch_range (cfg : Config) (h : List (Env ℝ σ × Event ℝ)) {s : Sys ℝ Telescope.Tel} {o : List Out}
    (hr : firmware cfg h = .ok (s, o)) : |s.pitch| ≤ 180 := by
  induction h using List.reverseRecOn generalizing s o with
  | nil =>
    injection hr with hr; injection hr with hr _; subst hr
    show |(0 : ℝ)| ≤ 180
    norm_num
  | append_singleton h x ih =>
    obtain ⟨env, e⟩ := x
    unfold firmware at hr
    rw [List.map_append] at hr
    obtain ⟨s1, o1, o2, h1, h2, -⟩ := Main.run_snoc.1 hr
    have q := step_senses (run_facts _ (inv_boot cfg Telescope.new) h1).1 h2
    by_cases ht : taskOf s1 e = some .t100ms
    · obtain ⟨m, -, e5⟩ := q.pitch ht
      rw [e5]; exact pitch_bound _
    · rw [q.pitch' ht]; exact ih h1

theorem type_spec {T : Telescope.Tel} (h : Reached T) (env : Env ℝ (Option (Circle ℝ))) {ty : TType}
    (ht : getTransformationType env T.alignment (Telescope.toPt T.orientation) = .ok ty) : IsType env T (code ty) := by
  obtain ⟨L, hI⟩ := h.ready.inv
  constructor
  · intro hno
    unfold getTransformationType at ht
    rw [hno] at ht
    injection ht with ht
    subst ht
    have hlen : T.alignment.used.length = T.alignment.numVertices := by rw [hI.stores.length, hI.num]
    rw [hlen]
    split
    · rename_i h1; rw [h1]; rfl
    split
    · rename_i h2; rw [Nat.min_eq_right h2]; rfl
    · have : T.alignment.numVertices = 0 := by omega
      rw [this]; rfl
  · intro hne
    rcases tri_choice env T.alignment (Telescope.toPt T.orientation) hI.len h.ready.tris hne with ⟨i, hi, _, _, h2⟩ | ⟨i, hi, _, _, h2⟩
    · rw [h2] at ht; injection ht with ht; subst ht
      exact Or.inl ⟨rfl, i, hi.1⟩
    · rw [h2] at ht; injection ht with ht; subst ht
      exact Or.inr ⟨rfl, hi.1⟩

theorem shows_matrix (M : Linalg.Mat3 ℝ) :
    ShowsMatrix ![![M.a00, M.a01, M.a02], ![M.a10, M.a11, M.a12], ![M.a20, M.a21, M.a22]]
      ([91] ++ commaList ((rows M).map (fmtF 2)) ++ [93]) := by
  refine ⟨fun i j => fmtF 2 ((![![M.a00, M.a01, M.a02], ![M.a10, M.a11, M.a12], ![M.a20, M.a21, M.a22]] : Fin 3 → Fin 3 → ℝ) i j),
    fun i j => fmtF_denotes 2 _, ?_⟩
  have e1 : ascii "[" = [91] := by decide
  have e2 : ascii ", " = [44, 32] := by decide
  have e3 : ascii "]" = [93] := by decide
  rw [e1, e2, e3]
  simp [rows, commaList]

theorem matrix_length {M : Linalg.Mat3 ℝ} (h : ∀ x ∈ rows M, |x| < 10 ^ 20) : (commaList ((rows M).map (fmtF 2))).length ≤ 253 := by
  have hx : ∀ x ∈ rows M, (fmtF 2 x).length ≤ 25 := by
    intro x hx
    have := fmtF_length_le (p := 2) (d := 20) (by norm_num) (h x hx)
    omega
  unfold rows at hx ⊢
  simp only [List.forall_mem_cons] at hx
  simp only [List.map_cons, List.map_nil, commaList, List.length_append, List.length_cons, List.length_nil]
  omega

theorem lst_range {t : Tm} {lon r : ℝ} (h : Helper.localSiderealTime t lon = .ok r) : 0 ≤ r ∧ r < 360 := by
  unfold Helper.localSiderealTime at h
  obtain ⟨j, -, h⟩ := bind_eq_ok.1 h
  injection h with h
  subst h
  have := Helper.C23_fmod_range (K := ℝ)
  exact ⟨(this _ 360 (by norm_num)).1, (this _ 360 (by norm_num)).2.1⟩

/-- What `getCalibratedOrientation` computes from the matrix. -/
theorem calibrated_matrix {T : Telescope.Tel} {env : Env ℝ σ} {M : Linalg.Mat3 ℝ} {lat lst : ℝ} {n : Nat} {p : Equatorial ℝ}
    (hM : getTransformationMatrix env T.alignment (Telescope.toPt T.orientation) = .ok M)
    (h : (real env).calibrated T lat lst = .ok (n, p)) :
    (∃ ty, getTransformationType env T.alignment (Telescope.toPt T.orientation) = .ok ty ∧ n = code ty) ∧
    p = horizontalToEquatorial (M.a00 * T.orientation.az + M.a01 * T.orientation.alt + M.a02)
      (M.a10 * T.orientation.az + M.a11 * T.orientation.alt + M.a12) lat lst := by
  simp only [real, Telescope.getCalibratedOrientation] at h
  cases ht : getTransformationType env T.alignment (Telescope.toPt T.orientation) with
  | error e => rw [ht] at h; cases h
  | ok ty =>
    rw [ht, bind_ok] at h
    unfold Align.getCalibratedOrientation at h
    rw [hM, bind_ok] at h
    simp only [bind_ok, pure_ok, Except.map, Except.ok.injEq, Prod.mk.injEq] at h
    obtain ⟨rfl, rfl⟩ := h
    refine ⟨⟨ty, rfl, rfl⟩, ?_⟩
    have e0 : (Linalg.mulVec M ⟨(Telescope.toPt T.orientation).x, (Telescope.toPt T.orientation).y, 1⟩).v0 =
        M.a00 * T.orientation.az + M.a01 * T.orientation.alt + M.a02 := by
      simp [Linalg.mulVec, Linalg.dotVec, Telescope.toPt, Linalg.Mat3.get]
    have e1 : (Linalg.mulVec M ⟨(Telescope.toPt T.orientation).x, (Telescope.toPt T.orientation).y, 1⟩).v1 =
        M.a10 * T.orientation.az + M.a11 * T.orientation.alt + M.a12 := by
      simp [Linalg.mulVec, Linalg.dotVec, Telescope.toPt, Linalg.Mat3.get]
    rw [e0, e1]
    simp only [Telescope.ofPt]
    obtain ⟨-, -, k, hk⟩ := Helper.C23_fmod_range (M.a00 * T.orientation.az + M.a01 * T.orientation.alt + M.a02) 360 (by norm_num)
    have := C30_turns_h2e (Helper.fMod (M.a00 * T.orientation.az + M.a01 * T.orientation.alt + M.a02) 360)
      (M.a10 * T.orientation.az + M.a11 * T.orientation.alt + M.a12) lat lst k 0 0 0
    simp only [Int.cast_zero, zero_mul, add_zero] at this
    rw [← this]
    congr 1
    linarith

/-- **C65** In every history of the firmware, whenever the 500 ms task completes (with orientation sensor), it sends one report of twelve
messages to the MQTT server, if there is one, and to the local broker, if it runs.  They show one position of the telescope in both
coordinate systems, and the matrix they show maps heading and pitch, as they show them, to that position; and they show the number of
points, of triangles and the type of the alignment.  (Finding: in the report to the local broker the two point lists are followed by
left-over bytes of the buffer.) -/
theorem C65_report (cfg : Config) (hsen : cfg.sensor = true)
    (h : List (Env ℝ (Option (Circle ℝ)) × Event ℝ)) (hso : ∀ x ∈ h, IsSort x.1.sort) {s : Sys ℝ Telescope.Tel} {o : List Out}
    (hr : firmware cfg h = .ok (s, o)) (env : Env ℝ (Option (Circle ℝ))) (i : In ℝ) (ht : taskOf s (.loop i) = some .t500ms)
    {s' : Sys ℝ Telescope.Tel} {o' : List Out} (hs : Main.step cfg (real env) s (.loop i) = .ok (s', o'))
    (htemp : |s'.temperature| < 10 ^ 200)
    (hfin : ∀ v ∈ s'.scope.core.alignment.used, Finite v.actual.x ∧ Finite v.actual.y ∧ Finite v.reference.x ∧ Finite v.reference.y) :
    ∃ (lst ra dec az alt : ℝ) (m : Fin 3 → Fin 3 → ℝ) (ty : Nat),
      Helper.localSiderealTime s'.gnss.utc (s'.gnss.longitude : ℝ) = .ok lst ∧
      (0 ≤ ra ∧ ra < 360 ∧ -90 ≤ dec ∧ dec ≤ 90 ∧ 0 ≤ az ∧ az < 360 ∧ -90 ≤ alt ∧ alt ≤ 90) ∧
      SameDirection az alt ra dec s'.gnss.latitude lst ∧
      SameDirection (m 0 0 * s'.heading + m 0 1 * s'.pitch + m 0 2) (m 1 0 * s'.heading + m 1 1 * s'.pitch + m 1 2) ra dec s'.gnss.latitude lst ∧
      IsType env s'.scope.core ty ∧
      ∃ alt' az' ra' dec' lst' pitch' heading' temp' counts actual reference matrix matrixB staleA staleR,
        mqttOf o' = (if cfg.mqtt then twelve alt' az' ra' dec' lst' pitch' heading' temp' counts actual reference matrix else []) ∧
        brokerOf o' = (if cfg.broker then twelve alt' az' ra' dec' lst' pitch' heading' temp' counts (actual ++ staleA) (reference ++ staleR) matrixB
          else []) ∧
        Shows 3 alt alt' ∧ Shows 3 az az' ∧ Shows 3 ra ra' ∧ Shows 3 dec dec' ∧ Shows 3 (lst / 15) lst' ∧ Shows 3 s'.pitch pitch' ∧
        Shows 3 (s'.heading : ℝ) heading' ∧ Shows 1 s'.temperature temp' ∧
        ShowsCounts s'.scope.core.alignment.used.length s'.scope.core.alignment.triangles.length ty counts ∧
        ShowsPoints (s'.scope.core.alignment.used.map VertexPair.actual) actual ∧
        ShowsPoints (s'.scope.core.alignment.used.map VertexPair.reference) reference ∧
        ((∀ i j, |m i j| < 10 ^ 20) → ShowsMatrix m matrix ∧ matrixB = matrix) := by
  obtain ⟨hi, g, hg, hgr⟩ := telescope_history cfg h hso s o hr
  have hT : Reached s.scope.core := ⟨g, hg, hgr⟩
  have hor := C64_no_early_report cfg h hr i ht
  have hpit := pitch_range cfg h hr
  have hhd := (C64_heading cfg h hr).2
  have q := step_senses hi hs
  obtain ⟨htask, hi'⟩ := step_500 ht hi hs
  set s0 : Sys ℝ Telescope.Tel := { s with timers := (schedule s.timers i.now).2 } with hs0
  unfold task500 at htask
  obtain ⟨s1, h1, hh⟩ := bind_eq_ok.1 htask
  obtain ⟨a1, a2, a3, a4, a5⟩ := pollGnss_facts h1
  rw [if_pos hsen] at hh
  unfold reportAll at hh
  obtain ⟨lst, hl, hh⟩ := bind_eq_ok.1 hh
  obtain ⟨⟨ty, position⟩, hpos, hh⟩ := bind_eq_ok.1 hh
  obtain ⟨⟨s2, o1⟩, h2, hh⟩ := bind_eq_ok.1 hh
  obtain ⟨⟨tx1, o2⟩, h3, hh⟩ := bind_eq_ok.1 hh
  obtain ⟨⟨tx2, o3⟩, h4, hh⟩ := bind_eq_ok.1 hh
  obtain ⟨⟨tx3, o4⟩, h5, hh⟩ := bind_eq_ok.1 hh
  obtain ⟨m, hm, hh⟩ := bind_eq_ok.1 hh
  obtain ⟨⟨tx4, o5⟩, h6, hh⟩ := bind_eq_ok.1 hh
  injection hh with hh; injection hh with hh ho; subst hh ho
  obtain ⟨⟨txs, rfl, htx⟩, hout⟩ := sendPosition_facts (a1.2.2 hi') h2
  simp only at h3 h4 h5 hm h6 htemp hfin ⊢
  have hcore : s1.scope.core = s.scope.core := by rw [a3]
  have hne : taskOf s (.loop i) ≠ some .t100ms := by rw [ht]; simp
  have hp1 : s1.pitch = s.pitch := q.pitch' hne
  have hh1 : s1.heading = s.heading := by
    have := q.heading
    simp only [taskOf] at hne
    simp only [encReadings, if_neg hne, List.nil_append, Main.heading, headingRun] at this
    injection this with this; exact this.symm
  obtain ⟨M, ty0, hM, -⟩ := Telescope.ready_matrix (hcore ▸ hT : Reached s1.scope.core).ready env (Telescope.toPt s1.scope.core.orientation)
  have hmr : m = rows M := by
    simp only [real, hM, Except.map, Except.ok.injEq] at hm
    exact hm.symm
  subst hmr
  obtain ⟨⟨ty', hty, rfl⟩, hpe⟩ := calibrated_matrix hM hpos
  obtain ⟨r1, r2, r3, r4, -⟩ := C30_ranges (M.a00 * s1.scope.core.orientation.az + M.a01 * s1.scope.core.orientation.alt + M.a02)
      (M.a10 * s1.scope.core.orientation.az + M.a11 * s1.scope.core.orientation.alt + M.a12) s1.gnss.latitude lst
  rw [← hpe] at r1 r2 r3 r4
  obtain ⟨-, -, -, -, z1, z2, z3, z4⟩ := C30_ranges position.ra position.dec s1.gnss.latitude lst
  obtain ⟨l1, l2⟩ := lst_range hl
  obtain ⟨c0, c1⟩ := reachedFew (hcore ▸ hT : Reached s1.scope.core)
  have hor1 : s1.scope.core.orientation = ⟨s1.heading, s1.pitch⟩ := by rw [hcore, hor, hh1, hp1]
  have hq : ∀ q ∈ quantities (real env) { s1 with tx := txs } position lst, |q.2.2| < 10 ^ 200 := by
    have hh0 : (0 : ℝ) ≤ (s1.heading : ℝ) := by rw [hh1]; exact_mod_cast hhd.1
    have hh1 : (s1.heading : ℝ) < 360 := by rw [hh1]; exact_mod_cast hhd.2
    have hp := abs_le.1 hpit
    rw [← hp1] at hp
    unfold quantities
    simp only [List.forall_mem_cons]
    refine ⟨abs_lt_huge ?_ ?_, abs_lt_huge ?_ ?_, abs_lt_huge (by linarith) (by linarith), abs_lt_huge (by linarith) (by linarith),
      abs_lt_huge (by linarith) (by linarith), abs_lt_huge (by linarith) (by linarith), abs_lt_huge (by linarith) (by linarith), htemp, by simp⟩
    · change -1000 ≤ (Coord.equatorialToHorizontal position.ra position.dec s1.gnss.latitude lst).alt; linarith
    · change (Coord.equatorialToHorizontal position.ra position.dec s1.gnss.latitude lst).alt ≤ 1000; linarith
    · change -1000 ≤ (Coord.equatorialToHorizontal position.ra position.dec s1.gnss.latitude lst).az; linarith
    · change (Coord.equatorialToHorizontal position.ra position.dec s1.gnss.latitude lst).az ≤ 1000; linarith
  have hvl : ((real env).vertices s1.scope.core).length = s1.scope.core.alignment.used.length := by simp [real]
  have htl : (real env).triangles s1.scope.core = s1.scope.core.alignment.triangles.length := rfl
  have hrep := report_ok (real env) { s1 with tx := txs } (code ty') position lst hq
    (by rw [hvl]; exact lt_trans c0 (by norm_num)) (lt_of_le_of_lt c1 (by norm_num)) (by cases ty' <;> norm_num [code])
  obtain ⟨tx', e⟩ := publishAll_text (cfg := cfg) (tx := txs) htx hrep
  simp only at e
  rw [e] at h3
  injection h3 with h3; injection h3 with h3 ho2
  subst h3
  have t1 : tx'.length = 256 := (publishAll_facts e).1.trans htx
  have t2 : tx2.length = 256 := (publishVertices_facts h4).1.trans t1
  have t3 : tx3.length = 256 := (publishVertices_facts h5).1.trans t2
  have o3e : o3 = _ := (C53_in_bounds cfg _ _ (by
    intro p hp
    simp only [real, List.map_map, List.mem_map] at hp
    obtain ⟨v, hv, rfl⟩ := hp
    exact ⟨(hfin v hv).1, (hfin v hv).2.1⟩) tx' t1).2 _ _ h4
  have o4e : o4 = _ := (C53_in_bounds cfg _ _ (by
    intro p hp
    simp only [real, List.map_map, List.mem_map] at hp
    obtain ⟨v, hv, rfl⟩ := hp
    exact ⟨(hfin v hv).2.2.1, (hfin v hv).2.2.2⟩) tx2 t2).2 _ _ h5
  -- the matrix text
  have h6' : ∃ b b', o5 = (if cfg.mqtt then [Out.mqtt "home/appliance/telescope/matrix" b] else []) ++
        (if cfg.broker then [Out.broker "home/appliance/telescope/matrix" b'] else []) ∧
      ((∀ x ∈ rows M, |x| < 10 ^ 20) → b = [91] ++ commaList ((rows M).map (fmtF 2)) ++ [93] ∧ b' = b) := by
    by_cases hsm : ∀ x ∈ rows M, |x| < 10 ^ 20
    · have := matrix_length hsm
      rw [publish_text t3 (by simp; omega) (commaList_no_zero _)] at h6
      injection h6 with h6; injection h6 with _ h6
      exact ⟨_, _, h6.symm, fun _ => ⟨rfl, rfl⟩⟩
    · unfold publish at h6
      obtain ⟨⟨n, tx⟩, -, h6⟩ := bind_eq_ok.1 h6
      obtain ⟨o, h7, h6⟩ := bind_eq_ok.1 h6
      injection h6 with h6; injection h6 with _ h6; subst h6
      unfold send at h7
      obtain ⟨oa, ha, h7⟩ := bind_eq_ok.1 h7
      obtain ⟨ob, hb, h7⟩ := bind_eq_ok.1 h7
      injection h7 with h7
      have h8 : ∃ b, oa = if cfg.mqtt then [Out.mqtt "home/appliance/telescope/matrix" b] else [] := by
        unfold sendMqtt at ha
        split at ha
        · cases hb : readBytes tx n with
          | error e => rw [hb] at ha; cases ha
          | ok b => rw [hb] at ha; injection ha with ha; exact ⟨b, by rw [if_pos ‹_›]; exact ha.symm⟩
        · injection ha with ha; exact ⟨[], by rw [if_neg ‹_›]; exact ha.symm⟩
      have h9 : ∃ b, ob = if cfg.broker then [Out.broker "home/appliance/telescope/matrix" b] else [] := by
        unfold sendBroker at hb
        split at hb
        · cases hb' : readCString tx with
          | error e => rw [hb'] at hb; cases hb
          | ok b => rw [hb'] at hb; injection hb with hb; exact ⟨b, by rw [if_pos ‹_›]; exact hb.symm⟩
        · injection hb with hb; exact ⟨[], by rw [if_neg ‹_›]; exact hb.symm⟩
      obtain ⟨b, rfl⟩ := h8
      obtain ⟨b', rfl⟩ := h9
      exact ⟨b, b', h7.symm, fun hc => absurd hc hsm⟩
  obtain ⟨b, b', rfl, hb⟩ := h6'
  have ho1 : mqttOf o1 = [] := by
    rcases hout with rfl | ⟨c', tx, hc', hga, hnx, hpk, rfl⟩ <;> rfl
  have ho1' : brokerOf o1 = [] := by
    rcases hout with rfl | ⟨c', tx, hc', hga, hnx, hpk, rfl⟩ <;> rfl
  have sd1 := (C30_same_direction position.ra position.dec s1.gnss.latitude lst).2
  have sd2 := (C30_same_direction (M.a00 * s1.scope.core.orientation.az + M.a01 * s1.scope.core.orientation.alt + M.a02)
      (M.a10 * s1.scope.core.orientation.az + M.a11 * s1.scope.core.orientation.alt + M.a12) s1.gnss.latitude lst).1
  rw [← hpe, hor1] at sd2
  simp only at sd2
  refine ⟨lst, position.ra, position.dec, (equatorialToHorizontal position.ra position.dec s1.gnss.latitude lst).az,
    (equatorialToHorizontal position.ra position.dec s1.gnss.latitude lst).alt,
    ![![M.a00, M.a01, M.a02], ![M.a10, M.a11, M.a12], ![M.a20, M.a21, M.a22]], code ty', hl, ⟨r1, r2, r3, r4, z1, z2, z3, z4⟩, sd1, sd2,
    type_spec (hcore ▸ hT : Reached s1.scope.core) env hty, ?_⟩
  refine ⟨fmtF 3 (equatorialToHorizontal position.ra position.dec s1.gnss.latitude lst).alt,
    fmtF 3 (equatorialToHorizontal position.ra position.dec s1.gnss.latitude lst).az, fmtF 3 position.ra, fmtF 3 position.dec,
    fmtF 3 (lst / 15), fmtF 3 s1.pitch, fmtF 3 s1.heading, fmtF 1 s1.temperature,
    ascii "{\"vertices\":" ++ fmtI s1.scope.core.alignment.used.length ++ ascii ",\"triangles\":" ++
      fmtI s1.scope.core.alignment.triangles.length ++ ascii ", \"type\": " ++ fmtI (code ty') ++ ascii "}",
    pointList ((s1.scope.core.alignment.used.map VertexPair.actual).map fun p => (p.x, p.y)),
    pointList ((s1.scope.core.alignment.used.map VertexPair.reference).map fun p => (p.x, p.y)), b, b',
    upToNul (tx'.drop (pointList (((real env).vertices s1.scope.core).map fun v => (v.1.1, v.1.2))).length),
    upToNul (tx2.drop (pointList (((real env).vertices s1.scope.core).map fun v => (v.2.1, v.2.2))).length), ?_, ?_, fmtF_denotes _ _, fmtF_denotes _ _,
    fmtF_denotes _ _, fmtF_denotes _ _, fmtF_denotes _ _, fmtF_denotes _ _, fmtF_cast (K := ℝ) 3 s1.heading ▸ fmtF_denotes 3 (s1.heading : ℝ),
    fmtF_denotes _ _, ?_, ?_, ?_, ?_⟩
  rotate_left 2
  · exact ⟨_, _, _, denotes_fmtI _, denotes_fmtI _, denotes_fmtI _, rfl⟩
  · obtain ⟨texts, f1, f2⟩ := C53_content ((s1.scope.core.alignment.used.map VertexPair.actual).map fun p => (p.x, p.y))
    exact ⟨texts, f1, f2⟩
  · obtain ⟨texts, f1, f2⟩ := C53_content ((s1.scope.core.alignment.used.map VertexPair.reference).map fun p => (p.x, p.y))
    exact ⟨texts, f1, f2⟩
  · intro hsm
    have hall : ∀ x ∈ rows M, |x| < 10 ^ 20 := by
      intro x hx
      simp only [rows, List.mem_cons, List.not_mem_nil, or_false] at hx
      rcases hx with rfl | rfl | rfl | rfl | rfl | rfl | rfl | rfl | rfl
      · exact hsm 0 0
      · exact hsm 0 1
      · exact hsm 0 2
      · exact hsm 1 0
      · exact hsm 1 1
      · exact hsm 1 2
      · exact hsm 2 0
      · exact hsm 2 1
      · exact hsm 2 2
    obtain ⟨e1, e2⟩ := hb hall
    exact ⟨by rw [e1]; exact shows_matrix M, e2⟩
  · rw [mqttOf_append, mqttOf_append, mqttOf_append, mqttOf_append, ho1, ← ho2, o3e, o4e]
    cases hm : cfg.mqtt with
    | false =>
      rw [mqttOf_flatMap' hm]
      cases cfg.broker <;> rfl
    | true =>
      rw [mqttOf_flatMap hm]
      cases cfg.broker <;>
      · simp only [real, List.map_map, mqttOf, Main.report, List.nil_append, List.cons_append, List.length_map, twelve]
        rfl
  · rw [brokerOf_append, brokerOf_append, brokerOf_append, brokerOf_append, ho1', ← ho2, o3e, o4e]
    cases hm : cfg.broker with
    | false =>
      rw [brokerOf_flatMap' hm]
      cases cfg.mqtt <;> rfl
    | true =>
      rw [brokerOf_flatMap hm]
      cases cfg.mqtt <;>
      · simp only [real, List.map_map, brokerOf, Main.report, List.nil_append, List.cons_append, List.length_map, twelve]
        rfl

/-! ### The hypotheses are met -/

/-- Nobody connected, nothing aligned. -/
structure Untouched (s : Sys ℝ Telescope.Tel) : Prop where
  alignment : s.scope.core.alignment = Align.fresh
  net : s.net = Net.Net.init

theorem untouched_client {s : Sys ℝ Telescope.Tel} (h : Untouched s) : client s = none := by unfold client; rw [h.net]; rfl

/-- Only the 100 ms task changes the connections. -/
theorem calm_net {cfg : Config} {env : Env ℝ (Option (Circle ℝ))} {s s' : Sys ℝ Telescope.Tel} (hi : Main.Inv s) (i : In ℝ) {o : List Out}
    (h : Main.step cfg (real env) s (.loop i) = .ok (s', o)) (hne : taskOf s (.loop i) ≠ some .t100ms) : s'.net = s.net := by
  simp only [taskOf] at hne
  simp only [Main.step, loop] at h
  set s0 : Sys ℝ Telescope.Tel := { s with timers := (schedule s.timers i.now).2 } with hs0
  have hi0 : Main.Inv s0 := hi
  cases ht : (schedule s.timers i.now).1 with
  | none => rw [ht] at h; injection h with h; injection h with h _; subst h; rfl
  | some k =>
    rw [ht] at h hne
    cases k with
    | filter => obtain ⟨-, imu, rfl⟩ := taskFilter_facts h; rfl
    | t25ms =>
      simp only at h
      injection h with h
      have := (task25_facts s0 i).1
      rw [h] at this
      simp only at this
      subst this; rfl
    | t1s => injection h with h; injection h with h _; subst h; rfl
    | t30s => injection h with h; injection h with h _; subst h; rfl
    | t500ms => exact (task500_facts hi0 h).2.2.2.2.1
    | t2s => exact (task2s_facts hi0 h).2.2.2.2.1
    | t100ms => exact absurd rfl hne

theorem calm_quiet {cfg : Config} {env : Env ℝ (Option (Circle ℝ))} {s s' : Sys ℝ Telescope.Tel} (hi : Main.Inv s) (hq : Untouched s) (now : UInt32)
    (a : ℝ × ℝ × ℝ) {o : List Out} (h : Main.step cfg (real env) s (calm now a) = .ok (s', o)) : Untouched s' := by
  by_cases ht : taskOf s (calm now a) = some .t100ms
  · have ht' : (schedule s.timers now).1 = some .t100ms := ht
    simp only [calm, Main.step, loop, ht', task100] at h
    obtain ⟨s1, h1, h⟩ := bind_eq_ok.1 h
    have q1 : Untouched s1 := by
      unfold readSensors at h1
      obtain ⟨m, -, h1⟩ := bind_eq_ok.1 h1
      obtain ⟨hd, -, h1⟩ := bind_eq_ok.1 h1
      injection h1 with h1
      subst h1
      exact ⟨hq.alignment, hq.net⟩
    unfold tcpTask at h
    rw [untouched_client q1] at h
    simp only [bind_ok] at h
    have hm : mqttTask cfg (real env) s1 [] = .ok (s1, []) := by unfold mqttTask; split <;> rfl
    rw [hm] at h
    simp only [bind_ok, pure_ok, Except.ok.injEq, Prod.mk.injEq] at h
    obtain ⟨rfl, -⟩ := h
    split
    · refine ⟨q1.alignment, ?_⟩
      show Net.checkForConnections s1.net = _
      rw [q1.net]; rfl
    · exact ⟨q1.alignment, q1.net⟩
  · have h1 := step_still hi h ht (by intro b hb; cases hb)
    refine ⟨by rw [h1]; exact hq.alignment, ?_⟩
    rw [calm_net hi _ h ht, hq.net]

theorem untouched_run (cfg : Config) (env : Env ℝ (Option (Circle ℝ))) (a : ℝ × ℝ × ℝ) (l : List UInt32) {s : Sys ℝ Telescope.Tel} {o : List Out}
    (hr : firmware cfg (l.map fun now => (env, calm now a)) = .ok (s, o)) : Untouched s := by
  induction l using List.reverseRecOn generalizing s o with
  | nil => injection hr with hr; injection hr with hr _; subst hr; exact ⟨rfl, rfl⟩
  | append_singleton l now ih =>
    unfold firmware at hr
    rw [List.map_append, List.map_append] at hr
    obtain ⟨s1, o1, o2, h1, h2, -⟩ := Main.run_snoc.1 hr
    exact calm_quiet (run_facts _ (inv_boot cfg Telescope.new) h1).1 (ih h1) now a h2

theorem untouched_safe {cfg : Config} {env : Env ℝ (Option (Circle ℝ))} {s : Sys ℝ Telescope.Tel} (hq : Untouched s) (now : UInt32) (a : ℝ × ℝ × ℝ) :
    ¬ Hazard cfg env s (calm now a) := by
  by_cases ht : taskOf s (calm now a) = some .t500ms
  · intro hz
    have hr : ∀ r, ¬ Request s (calm now a) r := by
      intro r hr
      cases hr with
      | tcp i c h1 h2 h3 => exact h3 rfl
    unfold calm at ht hr hz
    have hu : s.scope.core.alignment.used = [] := by rw [hq.alignment]; rfl
    cases hz with
    | gnss i h1 h2 => exact h2 rfl
    | location e r h => exact hr _ h
    | position e r h => exact hr _ h
    | sync e r h => exact hr _ h
    | goto i r h => exact hr _ h
    | packet i h1 h2 h3 h4 => exact h4 (untouched_client hq)
    | points i h1 h2 ps hps h =>
      have : ps = [] := by rw [hu] at hps; simpa using hps
      subst this
      have e0 : (pointList ([] : List (ℝ × ℝ))).length = 2 := rfl
      rw [e0] at h
      split at h <;> omega
    | matrix i h1 h2 M hM h =>
      have : M = Linalg.identity := by
        unfold getTransformationMatrix at hM
        have e1 : s.scope.core.alignment.triangles = [] := by rw [hq.alignment]; rfl
        have e2 : s.scope.core.alignment.numVertices = 0 := by rw [hq.alignment]; rfl
        rw [e1] at hM
        simp only at hM
        rw [e2, if_neg (by norm_num)] at hM
        injection hM with hM; exact hM.symm
      subst this
      have := matrix_length (M := Linalg.identity) (by
        intro x hx
        simp only [rows, Linalg.identity, List.mem_cons, List.not_mem_nil, or_false] at hx
        rcases hx with rfl | rfl | rfl | rfl | rfl | rfl | rfl | rfl | rfl <;> norm_num)
      omega
    | temperature i h1 h2 => simp only at h2; norm_num at h2
  · exact calm_safe now a ht

/-- In any `Normal` environment the demonstration of C64 runs on, and the next call of `loop()` sends the twelve messages. -/
example (cfg : Config) (hsen : cfg.sensor = true) (hmq : cfg.mqtt = true) (hbr : cfg.broker = true)
    (env : Env ℝ (Option (Circle ℝ))) (hn : Normal env) (a : ℝ × ℝ × ℝ) :
    ∃ s o s' o', firmware cfg ((demoTimes ++ [1000050]).map fun now => (env, calm now a)) = .ok (s, o) ∧
      taskOf s (calm 1000050 a) = some .t500ms ∧ Main.step cfg (real env) s (calm 1000050 a) = .ok (s', o') ∧ (mqttOf o').length = 12 ∧
      (brokerOf o').length = 12 := by
  have hmem : ∀ l : List UInt32, ∀ x ∈ l.map (fun now => (env, calm now a)), Normal x.1 := by
    intro l x hx; obtain ⟨_, _, rfl⟩ := List.mem_map.1 hx; exact hn
  obtain ⟨s', o', hr, hsafe, -⟩ := runs_safe cfg ((demoTimes ++ [1000050] ++ [1000050]).map fun now => (env, calm now a)) (hmem _) (by
    intro h1 x h2 s o e hr
    obtain ⟨l1, l', e1, rfl, e2⟩ := List.map_eq_append_iff.1 e
    obtain ⟨now, l2, rfl, rfl, -⟩ := List.map_eq_cons_iff.1 e2
    exact untouched_safe (untouched_run cfg env a l1 hr) now a)
  have hq := untouched_run cfg env a _ hr
  unfold firmware at hr
  rw [List.map_append, List.map_append] at hr
  obtain ⟨s, o, o2, h1, h2, -⟩ := Main.run_snoc.1 hr
  have h1' : firmware cfg ((demoTimes ++ [1000050]).map fun now => (env, calm now a)) = .ok (s, o) := h1
  have ht : taskOf s (calm 1000050 a) = some .t500ms := by
    show (schedule s.timers 1000050).1 = _
    have htm : ∀ (l : List UInt32) s o, firmware cfg (l.map fun now => (env, calm now a)) = .ok (s, o) →
        s.timers = l.foldl (fun t now => (schedule t now).2) Timers.init := by
      intro l s o hr
      have hev : events (l.map fun now => (env, calm now a)) = l.map (calm · a) := by simp [events]
      obtain ⟨t1, -, -⟩ := run_senses _ (inv_boot cfg Telescope.new) hr
      rw [events_map, hev, timers_calm] at t1
      exact t1
    rw [htm _ s o h1']
    decide +kernel
  refine ⟨s, o, s', o2, h1', ht, h2, ?_⟩
  have hu : s'.scope.core.alignment.used = [] := by rw [hq.alignment]; rfl
  obtain ⟨-, -, -, -, -, -, -, -, -, -, -, -, p1, p2, p3, p4, p5, p6, p7, p8, p9, p10, p11, p12, p13, p14, p15, e, e', -⟩ :=
    C65_report cfg hsen _ (fun x hx => (hmem _ x hx).sort) h1' env _ ht h2 hsafe.temp (by rw [hu]; simp)
  rw [e, e', hmq, hbr]; exact ⟨rfl, rfl⟩

end Verif.System
