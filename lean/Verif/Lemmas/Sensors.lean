import Verif.Spec.Sensors
import Verif.Lemmas.System
import Verif.Props.Imu
import Verif.Props.Heading

/-!
# The sensors: what every event does to the filters
-/

set_option linter.unusedSectionVars false

namespace Verif.Main
open Printf Net Imu Spec.NexStar NexStar

variable {K : Type} [Field K] [LinearOrder K] [IsStrictOrderedRing K] [FloorRing K] {S : Type}

/-- Timers, filters and temperature are the same. -/
structure Frame (s s' : Sys K S) : Prop where
  timers : s'.timers = s.timers
  imu : s'.imu = s.imu
  heading : s'.heading = s.heading
  pitch : s'.pitch = s.pitch
  temperature : s'.temperature = s.temperature

theorem Frame.refl (s : Sys K S) : Frame s s := ⟨rfl, rfl, rfl, rfl, rfl⟩
theorem Frame.trans {a b c : Sys K S} (h : Frame a b) (h' : Frame b c) : Frame a c :=
  ⟨h'.1.trans h.1, h'.2.trans h.2, h'.3.trans h.3, h'.4.trans h.4, h'.5.trans h.5⟩

theorem bluetooth_frame {cfg : Config} {T : Tel K S} {s s' : Sys K S} {b : List UInt8} {o : List Out}
    (h : onBluetoothData cfg T s b = .ok (s', o)) : Frame s s' := by
  unfold onBluetoothData at h
  obtain ⟨⟨n, tx, scope⟩, hh, h⟩ := bind_eq_ok.1 h
  simp only at h
  split at h
  · obtain ⟨bytes, _, h⟩ := bind_eq_ok.1 h
    injection h with h; injection h with h ho; subst h; exact ⟨rfl, rfl, rfl, rfl, rfl⟩
  · injection h with h; injection h with h ho; subst h; exact ⟨rfl, rfl, rfl, rfl, rfl⟩

theorem tcpTask_frame {cfg : Config} {T : Tel K S} {s1 s2 : Sys K S} {r : TcpRead} {o1 : List Out} (h2 : tcpTask cfg T s1 r = .ok (s2, o1)) :
    Frame s1 s2 := by
  unfold tcpTask at h2
  split at h2
  · unfold tcpInput at h2
    obtain ⟨⟨r, rx⟩, _, h2⟩ := bind_eq_ok.1 h2
    simp only at h2
    split at h2
    · obtain ⟨⟨k, tx, scope⟩, hh, h2⟩ := bind_eq_ok.1 h2
      simp only at h2
      split at h2
      · obtain ⟨b, _, h2⟩ := bind_eq_ok.1 h2
        injection h2 with h2; injection h2 with h2 _; subst h2; exact ⟨rfl, rfl, rfl, rfl, rfl⟩
      · obtain ⟨s4, h4, h2⟩ := bind_eq_ok.1 h2
        injection h2 with h2; injection h2 with h2 _; subst h2
        unfold tcpGoto at h4
        obtain ⟨⟨ok, ref⟩, _, h4⟩ := bind_eq_ok.1 h4
        simp only at h4
        split at h4
        · obtain ⟨t, _, h4⟩ := bind_eq_ok.1 h4
          obtain ⟨c, hc, h4⟩ := bind_eq_ok.1 h4
          injection h4 with h4; subst h4; exact ⟨rfl, rfl, rfl, rfl, rfl⟩
        · injection h4 with h4; subst h4; exact ⟨rfl, rfl, rfl, rfl, rfl⟩
    · injection h2 with h2; injection h2 with h2 _; subst h2; exact ⟨rfl, rfl, rfl, rfl, rfl⟩
  · injection h2 with h2; injection h2 with h2 _; subst h2; exact ⟨rfl, rfl, rfl, rfl, rfl⟩

theorem mqttLoop_frame {T : Tel K S} {ms : List (List UInt8 × List UInt8)} {s s' : Sys K S} {o : List Out}
    (h : mqttLoop T ms s = .ok (s', o)) : Frame s s' := by
  induction ms generalizing s s' o with
  | nil => injection h with h; injection h with h _; subst h; exact .refl _
  | cons m ms ih =>
    obtain ⟨topic, payload⟩ := m
    unfold mqttLoop at h
    obtain ⟨⟨s1, o1⟩, h1, h⟩ := bind_eq_ok.1 h
    obtain ⟨⟨s2, o2⟩, h2, h⟩ := bind_eq_ok.1 h
    injection h with h; injection h with h _; subst h
    refine Frame.trans ?_ (ih h2)
    unfold mqttCallback at h1
    split at h1
    · injection h1 with h1; injection h1 with h1 _; subst h1; exact .refl _
    · split at h1
      · injection h1 with h1; injection h1 with h1 _; subst h1; exact .refl _
      · obtain ⟨p, _, h1⟩ := bind_eq_ok.1 h1
        split at h1
        · obtain ⟨tx, _, h1⟩ := bind_eq_ok.1 h1
          obtain ⟨b, _, h1⟩ := bind_eq_ok.1 h1
          injection h1 with h1; injection h1 with h1 _; subst h1; exact ⟨rfl, rfl, rfl, rfl, rfl⟩
        · injection h1 with h1; injection h1 with h1 _; subst h1; exact .refl _

theorem pollGnss_frame {cfg : Config} {s s' : Sys K S} {serial : List UInt8} (h : pollGnss cfg s serial = .ok s') : Frame s s' := by
  unfold pollGnss at h
  simp only at h
  split at h
  · obtain ⟨rx1, hr1, h⟩ := bind_eq_ok.1 h
    obtain ⟨rx2, hr2, h⟩ := bind_eq_ok.1 h
    obtain ⟨r, _, h⟩ := bind_eq_ok.1 h
    cases r with
    | none => cases h
    | some r =>
      obtain ⟨n, g⟩ := r
      simp only at h
      split at h <;> (injection h with h; subst h; exact ⟨rfl, rfl, rfl, rfl, rfl⟩)
  · injection h with h; subst h; exact ⟨rfl, rfl, rfl, rfl, rfl⟩

theorem task500_frame {cfg : Config} {T : Tel K S} {s s' : Sys K S} {i : In K} {o : List Out} (hi : Inv s)
    (h : task500 cfg T s i = .ok (s', o)) : Frame s s' := by
  unfold task500 at h
  obtain ⟨s1, h1, h⟩ := bind_eq_ok.1 h
  have f1 := pollGnss_frame h1
  have i1 := (pollGnss_facts h1).1.2.2 hi
  split at h
  · unfold reportAll at h
    obtain ⟨lst, hl, h⟩ := bind_eq_ok.1 h
    obtain ⟨⟨ty, position⟩, hpos, h⟩ := bind_eq_ok.1 h
    obtain ⟨⟨s2, o1⟩, h2, h⟩ := bind_eq_ok.1 h
    obtain ⟨⟨tx1, o2⟩, h3, h⟩ := bind_eq_ok.1 h
    obtain ⟨⟨tx2, o3⟩, h4, h⟩ := bind_eq_ok.1 h
    obtain ⟨⟨tx3, o4⟩, h5, h⟩ := bind_eq_ok.1 h
    obtain ⟨m, hm, h⟩ := bind_eq_ok.1 h
    obtain ⟨⟨tx4, o5⟩, h6, h⟩ := bind_eq_ok.1 h
    injection h with h; injection h with h ho; subst h
    obtain ⟨⟨txs, rfl, htx⟩, hout⟩ := sendPosition_facts i1 h2
    exact f1.trans ⟨rfl, rfl, rfl, rfl, rfl⟩
  · injection h with h; injection h with h ho; subst h; exact f1

/-- What the readings of one event do. -/
structure Senses (cfg : Config) (T : Tel K S) (s : Sys K S) (e : Event K) (s' : Sys K S) : Prop where
  timers : s'.timers = timersOf s.timers [e]
  imu : sampleAll (if cfg.sensor then accReadings s.timers [e] else []) s.imu = .ok s'.imu
  heading : heading (encReadings s.timers [e]) s.heading = .ok s'.heading
  pitch : taskOf s e = some .t100ms → ∃ m, getMeanAcc s.imu = .ok m ∧ s'.pitch = T.pitch (calibrate s.imu m)
  pitch' : taskOf s e ≠ some .t100ms → s'.pitch = s.pitch
  temperature : s'.temperature = s.temperature ∨ ∃ i, e = .loop i ∧ taskOf s e = some .t2s ∧ s'.temperature = i.temperature

theorem senses_of_frame {cfg : Config} {T : Tel K S} {s s' : Sys K S} {i : In K} {k : Option Task} (ht : (schedule s.timers i.now).1 = k)
    (h1 : k ≠ some .filter) (h2 : k ≠ some .t100ms) (h : Frame { s with timers := (schedule s.timers i.now).2 } s') :
    Senses cfg T s (.loop i) s' := by
  subst ht
  refine ⟨by simp only [timersOf, h.timers], ?_, ?_, fun hc => absurd hc h2, fun _ => h.pitch, Or.inl h.temperature⟩
  · simp only [accReadings, if_neg h1, List.nil_append, ite_self, sampleAll, h.imu]
  · simp only [encReadings, if_neg h2, List.nil_append, Main.heading, headingRun, h.heading]; rfl

theorem step_senses {cfg : Config} {T : Tel K S} {s s' : Sys K S} {e : Event K} {o : List Out} (hi : Inv s)
    (h : step cfg T s e = .ok (s', o)) : Senses cfg T s e s' := by
  cases e with
  | bluetooth b =>
    have f := bluetooth_frame h
    exact ⟨by simp [timersOf, f.timers], by simp [accReadings, sampleAll, f.imu], by simp [encReadings, headingRun, f.heading, pure_ok],
      by simp [taskOf], fun _ => f.pitch, Or.inl f.temperature⟩
  | arrive c =>
    injection h with h; injection h with h _; subst h
    exact ⟨by simp [timersOf], by simp [accReadings, sampleAll], by simp [encReadings, headingRun, pure_ok],
      by simp [taskOf], fun _ => rfl, Or.inl rfl⟩
  | gone c =>
    injection h with h; injection h with h _; subst h
    exact ⟨by simp [timersOf], by simp [accReadings, sampleAll], by simp [encReadings, headingRun, pure_ok],
      by simp [taskOf], fun _ => rfl, Or.inl rfl⟩
  | loop i =>
    simp only [step, loop] at h
    set s0 : Sys K S := { s with timers := (schedule s.timers i.now).2 } with hs0
    have hi0 : Inv s0 := hi
    cases ht : (schedule s.timers i.now).1 with
    | none =>
      rw [ht] at h; injection h with h; injection h with h _; subst h
      exact senses_of_frame ht (by simp) (by simp) (.refl _)
    | some k =>
      rw [ht] at h
      cases k with
      | filter =>
        simp only at h
        unfold taskFilter at h
        refine ⟨?_, ?_, ?_, by simp [taskOf, ht], ?_, ?_⟩
        · split at h
          · obtain ⟨imu, _, h⟩ := bind_eq_ok.1 h
            injection h with h; injection h with h _; subst h; rfl
          · injection h with h; injection h with h _; subst h; rfl
        · split at h
          · rename_i hsen
            obtain ⟨imu, hm, h⟩ := bind_eq_ok.1 h
            injection h with h; injection h with h _; subst h
            rw [if_pos hsen]
            simp only [accReadings, ht, if_true, List.append_nil, sampleAll]
            have hm' : accSample s.imu i.acc = .ok imu := hm
            rw [hm']; rfl
          · rename_i hsen
            injection h with h; injection h with h _; subst h
            rw [if_neg hsen]; rfl
        · have : s'.heading = s.heading := by
            split at h
            · obtain ⟨imu, _, h⟩ := bind_eq_ok.1 h
              injection h with h; injection h with h _; subst h; rfl
            · injection h with h; injection h with h _; subst h; rfl
          simp [encReadings, ht, headingRun, this, pure_ok]
        · intro _
          split at h
          · obtain ⟨imu, _, h⟩ := bind_eq_ok.1 h
            injection h with h; injection h with h _; subst h; rfl
          · injection h with h; injection h with h _; subst h; rfl
        · left
          split at h
          · obtain ⟨imu, _, h⟩ := bind_eq_ok.1 h
            injection h with h; injection h with h _; subst h; rfl
          · injection h with h; injection h with h _; subst h; rfl
      | t25ms =>
        simp only at h
        injection h with h
        have := (task25_facts s0 i).1
        rw [h] at this
        simp only at this
        subst this
        exact senses_of_frame ht (by simp) (by simp) (.refl _)
      | t1s =>
        injection h with h; injection h with h _; subst h
        exact senses_of_frame ht (by simp) (by simp) (.refl _)
      | t30s =>
        injection h with h; injection h with h _; subst h
        exact senses_of_frame ht (by simp) (by simp) (.refl _)
      | t500ms => exact senses_of_frame ht (by simp) (by simp) (task500_frame hi0 h)
      | t2s =>
        simp only at h
        unfold task2s at h
        obtain ⟨tx1, h1, h⟩ := bind_eq_ok.1 h
        obtain ⟨tx2, h2, h⟩ := bind_eq_ok.1 h
        obtain ⟨rx1, h3, h⟩ := bind_eq_ok.1 h
        obtain ⟨rx2, h4, h⟩ := bind_eq_ok.1 h
        obtain ⟨⟨s1, o1⟩, h5, h⟩ := bind_eq_ok.1 h
        have f : Frame s0 s1 := by
          unfold reportGnss at h5
          split at h5
          · obtain ⟨⟨len, tx⟩, _, h5⟩ := bind_eq_ok.1 h5
            obtain ⟨o2, _, h5⟩ := bind_eq_ok.1 h5
            obtain ⟨o3, _, h5⟩ := bind_eq_ok.1 h5
            injection h5 with h5; injection h5 with h5 _; subst h5; exact ⟨rfl, rfl, rfl, rfl, rfl⟩
          · injection h5 with h5; injection h5 with h5 _; subst h5; exact ⟨rfl, rfl, rfl, rfl, rfl⟩
        injection h with h; injection h with h _; subst h
        refine ⟨?_, ?_, ?_, by simp [taskOf, ht], fun _ => f.pitch, ?_⟩
        · simp only [timersOf]; exact f.timers
        · simp [accReadings, ht, sampleAll, f.imu, hs0]
        · simp [encReadings, ht, headingRun, f.heading, hs0, pure_ok]
        · simp only
          split
          · exact Or.inr ⟨i, rfl, ht, rfl⟩
          · exact Or.inl f.temperature
      | t100ms =>
        simp only at h
        unfold task100 at h
        obtain ⟨s1, h1, h⟩ := bind_eq_ok.1 h
        obtain ⟨⟨s2, o1⟩, h2, h⟩ := bind_eq_ok.1 h
        obtain ⟨⟨s3, o2⟩, h3, h⟩ := bind_eq_ok.1 h
        simp only [pure_ok] at h
        injection h with h; injection h with hs ho
        have f3 : Frame s1 s3 := by
          refine (tcpTask_frame h2).trans ?_
          unfold mqttTask at h3
          split at h3
          · exact mqttLoop_frame h3
          · injection h3 with h3; injection h3 with h3 _; subst h3; exact .refl _
        have f : Frame s1 s' := by
          refine f3.trans ?_
          subst hs; split <;> exact ⟨rfl, rfl, rfl, rfl, rfl⟩
        unfold readSensors at h1
        obtain ⟨m, hm, h1⟩ := bind_eq_ok.1 h1
        obtain ⟨hd, hh, h1⟩ := bind_eq_ok.1 h1
        injection h1 with h1
        subst h1
        refine ⟨?_, ?_, ?_, ?_, fun hc => absurd (by simp [taskOf, ht]) hc, Or.inl f.temperature⟩
        · simp only [timersOf]; exact f.timers
        · have := f.imu
          simp only at this
          simp [accReadings, ht, sampleAll, this, hs0]
        · have hf := f.heading
          simp only at hf
          simp only [encReadings, ht, if_true, List.append_nil, Main.heading, headingRun]
          have hh' : headingStep (fl b32) (fl b64) s.heading (frame i.encoder.1 i.encoder.2) = .ok hd := hh
          rw [hh', bind_ok, hf]; rfl
        · intro _
          exact ⟨m, hm, f.pitch⟩

theorem timersOf_append (t : Timers) (a b : List (Event K)) : timersOf t (a ++ b) = timersOf (timersOf t a) b := by
  induction a generalizing t with
  | nil => rfl
  | cons e a ih => cases e <;> simp [timersOf, ih]

theorem accReadings_append (t : Timers) (a b : List (Event K)) :
    accReadings t (a ++ b) = accReadings t a ++ accReadings (timersOf t a) b := by
  induction a generalizing t with
  | nil => rfl
  | cons e a ih => cases e <;> simp [timersOf, accReadings, ih]

theorem encReadings_append (t : Timers) (a b : List (Event K)) :
    encReadings t (a ++ b) = encReadings t a ++ encReadings (timersOf t a) b := by
  induction a generalizing t with
  | nil => rfl
  | cons e a ih => cases e <;> simp [timersOf, encReadings, ih]

theorem sampleAll_append (a b : List (K × K × K)) (m : Imu.Imu K) : sampleAll (a ++ b) m = sampleAll a m >>= sampleAll b := by
  induction a generalizing m with
  | nil => rfl
  | cons v a ih =>
    simp only [List.cons_append, sampleAll]
    cases accSample m v with
    | error e => rfl
    | ok m' => simp only [bind_ok]; exact ih m'

theorem heading_append (a b : List UInt16) (h : ℚ) : heading (a ++ b) h = heading a h >>= heading b := by
  induction a generalizing h with
  | nil => rfl
  | cons v a ih =>
    show (headingStep (fl b32) (fl b64) h v >>= _) = (headingStep (fl b32) (fl b64) h v >>= _) >>= _
    cases headingStep (fl b32) (fl b64) h v with
    | error e => rfl
    | ok m' => simp only [bind_ok]; exact ih m'

/-- The filters after any history. -/
theorem run_senses {cfg : Config} {s0 s : Sys K S} (h : List (Tel K S × Event K)) {o : List Out} (hi : Inv s0)
    (hr : run cfg h s0 = .ok (s, o)) :
    s.timers = timersOf s0.timers (h.map (·.2)) ∧
    sampleAll (if cfg.sensor then accReadings s0.timers (h.map (·.2)) else []) s0.imu = .ok s.imu ∧
    heading (encReadings s0.timers (h.map (·.2))) s0.heading = .ok s.heading := by
  induction h using List.reverseRecOn generalizing s o with
  | nil =>
    injection hr with hr; injection hr with hr _; subst hr
    exact ⟨rfl, by simp [accReadings, sampleAll], rfl⟩
  | append_singleton h x ih =>
    obtain ⟨T, e⟩ := x
    obtain ⟨s1, o1, o2, h1, h2, -⟩ := run_snoc.1 hr
    obtain ⟨a1, a2, a3⟩ := ih h1
    have q := step_senses (run_facts h hi h1).1 h2
    refine ⟨?_, ?_, ?_⟩
    · rw [List.map_append, timersOf_append, ← a1]; exact q.timers
    · rw [List.map_append, accReadings_append, ← a1]
      have := q.imu
      cases hs : cfg.sensor with
      | false => rw [hs] at this a2; simp only [Bool.false_eq_true, if_false, sampleAll] at this a2 ⊢; rw [a2]; exact this
      | true =>
        rw [hs] at this a2
        simp only [if_true] at this a2 ⊢
        rw [sampleAll_append, a2, bind_ok]; exact this
    · rw [List.map_append, encReadings_append, ← a1, heading_append, a3, bind_ok]; exact q.heading

end Verif.Main
