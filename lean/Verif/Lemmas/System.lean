import Verif.Lemmas.MainStep
import Verif.Props.MainProtocol
import Verif.Props.TelescopeMany
import Verif.Props.EndToEnd
import Verif.Spec.System

/-!
# The telescope inside the firmware: every event makes a sequence of telescope calls
-/

set_option linter.unusedSectionVars false

namespace Verif.Main
open Printf Net Imu Spec.NexStar NexStar

variable {K : Type} [Field K] [LinearOrder K] [IsStrictOrderedRing K] [FloorRing K] {S : Type}

/-- `b` results from `a` by calls of the state-changing methods of the telescope; `turn` tells whether `setOrientation` is among them. -/
inductive Moves (T : Tel K S) (turn : Prop) : S → S → Prop
  | refl (a : S) : Moves T turn a a
  | orient {a b : S} (ht : turn) (x y : K) (h : Moves T turn a b) : Moves T turn a (T.setOrientation b x y)
  | sync {a b c : S} (r : Equatorial K) (lat t : K) (h : Moves T turn a b) (hs : T.addReferencePoint b r lat t = .ok c) : Moves T turn a c
  | clear {a b : S} (h : Moves T turn a b) : Moves T turn a (T.clear b)

theorem Moves.mono {T : Tel K S} {p q : Prop} (hpq : p → q) {a b : S} (h : Moves T p a b) : Moves T q a b := by
  induction h with
  | refl => exact .refl _
  | orient ht x y _ ih => exact .orient (hpq ht) x y ih
  | sync r lat t _ hs ih => exact .sync r lat t ih hs
  | clear _ ih => exact .clear ih

theorem Moves.trans {T : Tel K S} {turn : Prop} {a b c : S} (h : Moves T turn a b) (h' : Moves T turn b c) : Moves T turn a c := by
  induction h' with
  | refl => exact h
  | orient ht x y _ ih => exact .orient ht x y ih
  | sync r lat t _ hs ih => exact .sync r lat t ih hs
  | clear _ ih => exact .clear ih

theorem handle_moves {P : Platform} {T : Tel K S} {g : Nmea.Gnss} {sc sc' : Scope S} {request resp resp' : List UInt8} {n m : Nat}
    {k : UInt32} (h : handleRequest P T.ops g sc request n resp m = .ok (k, resp', sc')) : Moves T False sc.core sc'.core := by
  unfold handleRequest at h
  obtain ⟨b, _, h⟩ := bind_eq_ok.1 h
  obtain ⟨⟨out, sc1⟩, hb, h⟩ := bind_eq_ok.1 h
  have e : sc' = sc1 := by
    cases out with
    | none => injection h with h; injection h with _ h; injection h with _ h; exact h.symm
    | some o =>
      obtain ⟨⟨x, y⟩, _, h⟩ := bind_eq_ok.1 h
      injection h with h; injection h with _ h; injection h with _ h; exact h.symm
  subst e
  have key : sc' = sc ∨ ∃ r lat t, T.addReferencePoint sc.core r lat t = .ok sc'.core := by
    cases b with
    | sync =>
      simp only [body] at hb
      cases hd : doSync P T.ops g sc request with
      | error e => rw [hd] at hb; cases hb
      | ok sc2 =>
        rw [hd] at hb
        injection hb with hb; injection hb with _ e; subst e
        unfold doSync at hd
        obtain ⟨ra, _, hd⟩ := bind_eq_ok.1 hd
        obtain ⟨dec, _, hd⟩ := bind_eq_ok.1 hd
        obtain ⟨t, _, hd⟩ := bind_eq_ok.1 hd
        obtain ⟨c, hc, hd⟩ := bind_eq_ok.1 hd
        injection hd with hd; subst hd
        exact Or.inr ⟨_, _, _, hc⟩
    | position =>
      simp only [body] at hb
      obtain ⟨t, _, hb⟩ := bind_eq_ok.1 hb
      obtain ⟨p, _, hb⟩ := bind_eq_ok.1 hb
      obtain ⟨q, _, hb⟩ := bind_eq_ok.1 hb
      injection hb with hb; injection hb with _ e; exact Or.inl e.symm
    | echo =>
      simp only [body] at hb
      cases hq : readByte request 1 with
      | error e => rw [hq] at hb; cases hb
      | ok v => rw [hq] at hb; injection hb with hb; injection hb with _ e; exact Or.inl e.symm
    | location =>
      simp only [body] at hb
      cases hq : locationBytes P g with
      | error e => rw [hq] at hb; cases hb
      | ok v => rw [hq] at hb; injection hb with hb; injection hb with _ e; exact Or.inl e.symm
    | unknown =>
      simp only [body] at hb
      cases hq : unknownLog P request with
      | error e => rw [hq] at hb; cases hb
      | ok v => rw [hq] at hb; injection hb with hb; injection hb with _ e; exact Or.inl e.symm
    | _ => simp only [body] at hb; injection hb with hb; injection hb with _ e; exact Or.inl e.symm
  rcases key with e | ⟨r, lat, t, e⟩
  · rw [e]; exact .refl _
  · exact .sync r lat t (.refl _) e

theorem mqttLoop_moves {T : Tel K S} {ms : List (List UInt8 × List UInt8)} {s s' : Sys K S} {o : List Out}
    (h : mqttLoop T ms s = .ok (s', o)) : Moves T False s.scope.core s'.scope.core := by
  induction ms generalizing s s' o with
  | nil => injection h with h; injection h with h _; subst h; exact .refl _
  | cons m ms ih =>
    obtain ⟨topic, payload⟩ := m
    unfold mqttLoop at h
    obtain ⟨⟨s1, o1⟩, h1, h⟩ := bind_eq_ok.1 h
    obtain ⟨⟨s2, o2⟩, h2, h⟩ := bind_eq_ok.1 h
    injection h with h; injection h with h _; subst h
    refine Moves.trans ?_ (ih h2)
    unfold mqttCallback at h1
    split at h1
    · injection h1 with h1; injection h1 with h1 _; subst h1; exact .refl _
    · split at h1
      · injection h1 with h1; injection h1 with h1 _; subst h1; exact .refl _
      · obtain ⟨p, _, h1⟩ := bind_eq_ok.1 h1
        split at h1
        · obtain ⟨tx, _, h1⟩ := bind_eq_ok.1 h1
          obtain ⟨b, _, h1⟩ := bind_eq_ok.1 h1
          injection h1 with h1; injection h1 with h1 _; subst h1; exact .clear (.refl _)
        · injection h1 with h1; injection h1 with h1 _; subst h1; exact .refl _

theorem tcpGoto_moves {T : Tel K S} {s s' : Sys K S} {n : UInt32} (h : tcpGoto T s n = .ok s') : Moves T False s.scope.core s'.scope.core := by
  unfold tcpGoto at h
  obtain ⟨⟨ok, ref⟩, _, h⟩ := bind_eq_ok.1 h
  simp only at h
  split at h
  · obtain ⟨t, _, h⟩ := bind_eq_ok.1 h
    obtain ⟨c, hc, h⟩ := bind_eq_ok.1 h
    injection h with h; subst h; exact .sync _ _ _ (.refl _) hc
  · injection h with h; subst h; exact .refl _

theorem readSensors_moves {T : Tel K S} {s s1 : Sys K S} {i : In K} (h1 : readSensors T s i = .ok s1) :
    s1.scope.core = T.setOrientation s.scope.core (s1.heading : K) s1.pitch := by
  unfold readSensors at h1
  obtain ⟨m, _, h1⟩ := bind_eq_ok.1 h1
  obtain ⟨hd, _, h1⟩ := bind_eq_ok.1 h1
  injection h1 with h1; subst h1; rfl

theorem tcpTask_moves {cfg : Config} {T : Tel K S} {s1 s2 : Sys K S} {r : TcpRead} {o1 : List Out} (h2 : tcpTask cfg T s1 r = .ok (s2, o1)) :
    Moves T False s1.scope.core s2.scope.core ∧ s2.heading = s1.heading ∧ s2.pitch = s1.pitch := by
  unfold tcpTask at h2
  split at h2
  · unfold tcpInput at h2
    obtain ⟨⟨r, rx⟩, _, h2⟩ := bind_eq_ok.1 h2
    simp only at h2
    split at h2
    · obtain ⟨⟨k, tx, scope⟩, hh, h2⟩ := bind_eq_ok.1 h2
      have := handle_moves hh
      simp only at h2
      split at h2
      · obtain ⟨b, _, h2⟩ := bind_eq_ok.1 h2
        injection h2 with h2; injection h2 with h2 _; subst h2; exact ⟨this, rfl, rfl⟩
      · obtain ⟨s4, h4, h2⟩ := bind_eq_ok.1 h2
        injection h2 with h2; injection h2 with h2 _; subst h2
        refine ⟨this.trans (tcpGoto_moves h4), ?_⟩
        unfold tcpGoto at h4
        obtain ⟨⟨ok, ref⟩, _, h4⟩ := bind_eq_ok.1 h4
        simp only at h4
        split at h4
        · obtain ⟨t, _, h4⟩ := bind_eq_ok.1 h4
          obtain ⟨c, hc, h4⟩ := bind_eq_ok.1 h4
          injection h4 with h4; subst h4; exact ⟨rfl, rfl⟩
        · injection h4 with h4; subst h4; exact ⟨rfl, rfl⟩
    · injection h2 with h2; injection h2 with h2 _; subst h2; exact ⟨.refl _, rfl, rfl⟩
  · injection h2 with h2; injection h2 with h2 _; subst h2; exact ⟨.refl _, rfl, rfl⟩

theorem mqttLoop_sensors {T : Tel K S} {ms : List (List UInt8 × List UInt8)} {s s' : Sys K S} {o : List Out}
    (h : mqttLoop T ms s = .ok (s', o)) : s'.heading = s.heading ∧ s'.pitch = s.pitch := by
  induction ms generalizing s s' o with
  | nil => injection h with h; injection h with h _; subst h; exact ⟨rfl, rfl⟩
  | cons m ms ih =>
    obtain ⟨topic, payload⟩ := m
    unfold mqttLoop at h
    obtain ⟨⟨s1, o1⟩, h1, h⟩ := bind_eq_ok.1 h
    obtain ⟨⟨s2, o2⟩, h2, h⟩ := bind_eq_ok.1 h
    injection h with h; injection h with h _; subst h
    have := ih h2
    rw [this.1, this.2]
    unfold mqttCallback at h1
    split at h1
    · injection h1 with h1; injection h1 with h1 _; subst h1; exact ⟨rfl, rfl⟩
    · split at h1
      · injection h1 with h1; injection h1 with h1 _; subst h1; exact ⟨rfl, rfl⟩
      · obtain ⟨p, _, h1⟩ := bind_eq_ok.1 h1
        split at h1
        · obtain ⟨tx, _, h1⟩ := bind_eq_ok.1 h1
          obtain ⟨b, _, h1⟩ := bind_eq_ok.1 h1
          injection h1 with h1; injection h1 with h1 _; subst h1; exact ⟨rfl, rfl⟩
        · injection h1 with h1; injection h1 with h1 _; subst h1; exact ⟨rfl, rfl⟩

/-- The 100 ms task: the telescope is turned to the new heading and pitch, then only syncs and resets. -/
theorem task100_moves {cfg : Config} {T : Tel K S} {s s' : Sys K S} {i : In K} {o : List Out}
    (h : task100 cfg T s i = .ok (s', o)) :
    Moves T False (T.setOrientation s.scope.core (s'.heading : K) s'.pitch) s'.scope.core := by
  unfold task100 at h
  obtain ⟨s1, h1, h⟩ := bind_eq_ok.1 h
  obtain ⟨⟨s2, o1⟩, h2, h⟩ := bind_eq_ok.1 h
  obtain ⟨⟨s3, o2⟩, h3, h⟩ := bind_eq_ok.1 h
  simp only [pure_ok] at h
  injection h with h; injection h with hs ho
  have f : s'.scope = s3.scope ∧ s'.heading = s3.heading ∧ s'.pitch = s3.pitch := by subst hs; split <;> exact ⟨rfl, rfl, rfl⟩
  have m1 := readSensors_moves h1
  obtain ⟨m2, a1, a2⟩ := tcpTask_moves h2
  have m3 : Moves T False s2.scope.core s3.scope.core ∧ s3.heading = s2.heading ∧ s3.pitch = s2.pitch := by
    unfold mqttTask at h3
    split at h3
    · exact ⟨mqttLoop_moves h3, mqttLoop_sensors h3⟩
    · injection h3 with h3; injection h3 with h3 _; subst h3; exact ⟨.refl _, rfl, rfl⟩
  obtain ⟨m3, b1, b2⟩ := m3
  rw [f.1, f.2.1, f.2.2, b1, b2, a1, a2, ← m1]
  exact m2.trans m3

/-- Only the 100 ms task and Bluetooth data change the telescope. -/
theorem step_still {cfg : Config} {T : Tel K S} {s s' : Sys K S} {e : Event K} {o : List Out} (hi : Inv s)
    (h : step cfg T s e = .ok (s', o)) (hne : taskOf s e ≠ some .t100ms) (hb : ∀ b, e ≠ .bluetooth b) : s'.scope = s.scope := by
  cases e with
  | bluetooth b => exact absurd rfl (hb b)
  | arrive c => injection h with h; injection h with h _; subst h; rfl
  | gone c => injection h with h; injection h with h _; subst h; rfl
  | loop i =>
    simp only [taskOf] at hne
    simp only [step, loop] at h
    set s0 : Sys K S := { s with timers := (schedule s.timers i.now).2 } with hs0
    have hi0 : Inv s0 := hi
    have e0 : s0.scope = s.scope := rfl
    cases ht : (schedule s.timers i.now).1 with
    | none => rw [ht] at h; injection h with h; injection h with h _; subst h; rfl
    | some k =>
      rw [ht] at h hne
      cases k with
      | filter => obtain ⟨-, imu, rfl⟩ := taskFilter_facts h; rfl
      | t25ms =>
        simp only at h
        injection h with h
        have := (task25_facts s0 i).1
        rw [h] at this
        simp only at this
        subst this; rfl
      | t1s => injection h with h; injection h with h _; subst h; rfl
      | t30s => injection h with h; injection h with h _; subst h; rfl
      | t500ms => exact (task500_facts hi0 h).2.1
      | t2s => exact (task2s_facts hi0 h).2.1
      | t100ms => exact absurd rfl hne

theorem step_moves {cfg : Config} {T : Tel K S} {s s' : Sys K S} {e : Event K} {o : List Out} (hi : Inv s)
    (h : step cfg T s e = .ok (s', o)) : Moves T True s.scope.core s'.scope.core := by
  by_cases h1 : ∃ b, e = .bluetooth b
  · obtain ⟨b, rfl⟩ := h1
    simp only [step, onBluetoothData] at h
    obtain ⟨⟨n, tx, scope⟩, hh, h⟩ := bind_eq_ok.1 h
    have := handle_moves hh
    simp only at h
    split at h
    · obtain ⟨b, _, h⟩ := bind_eq_ok.1 h
      injection h with h; injection h with h _; subst h; exact this.mono False.elim
    · injection h with h; injection h with h _; subst h; exact this.mono False.elim
  · push Not at h1
    by_cases h2 : taskOf s e = some .t100ms
    · cases e with
      | loop i =>
        simp only [taskOf] at h2
        simp only [step, loop, h2] at h
        refine Moves.trans ?_ ((task100_moves (s := { s with timers := (schedule s.timers i.now).2 }) h).mono False.elim)
        exact .orient trivial _ _ (.refl _)
      | bluetooth b => exact absurd rfl (h1 b)
      | arrive c => cases h2
      | gone c => cases h2
    · rw [step_still hi h h2 h1]; exact .refl _

/-- The 500 ms task alone changes what is known about the observer. -/
theorem step_gnss {cfg : Config} {T : Tel K S} {s s' : Sys K S} {e : Event K} {o : List Out} (hi : Inv s)
    (h : step cfg T s e = .ok (s', o)) (hne : taskOf s e ≠ some .t500ms) : s'.gnss = s.gnss := by
  cases e with
  | bluetooth b => exact (bluetooth_facts hi h).2.2.1
  | arrive c => injection h with h; injection h with h _; subst h; rfl
  | gone c => injection h with h; injection h with h _; subst h; rfl
  | loop i =>
    simp only [taskOf] at hne
    simp only [step, loop] at h
    set s0 : Sys K S := { s with timers := (schedule s.timers i.now).2 } with hs0
    have hi0 : Inv s0 := hi
    cases ht : (schedule s.timers i.now).1 with
    | none => rw [ht] at h; injection h with h; injection h with h _; subst h; rfl
    | some k =>
      rw [ht] at h hne
      cases k with
      | filter => obtain ⟨-, imu, rfl⟩ := taskFilter_facts h; rfl
      | t25ms =>
        simp only at h
        injection h with h
        have := (task25_facts s0 i).1
        rw [h] at this
        simp only at this
        subst this; rfl
      | t1s => injection h with h; injection h with h _; subst h; rfl
      | t30s => injection h with h; injection h with h _; subst h; rfl
      | t500ms => exact absurd rfl hne
      | t2s => exact (task2s_facts hi0 h).2.2.2.2.2.1
      | t100ms => exact (task100_facts hi0 h).2.2.2.1

/-- With no serial data the 500 ms task does not change it either. -/
theorem step_gnss_empty {cfg : Config} {T : Tel K S} {s s' : Sys K S} {i : In K} {o : List Out} (hi : Inv s)
    (h : step cfg T s (.loop i) = .ok (s', o)) (hs : i.serial = []) : s'.gnss = s.gnss := by
  by_cases ht : taskOf s (.loop i) = some .t500ms
  · simp only [taskOf] at ht
    simp only [step, loop, ht] at h
    obtain ⟨-, -, -, -, -, ⟨s1, h1, h2, -⟩, -⟩ := task500_facts (s := { s with timers := (schedule s.timers i.now).2 }) hi h
    rw [h2]
    rw [hs] at h1
    unfold pollGnss at h1
    simp only [List.take_nil, List.length_nil, lt_irrefl, if_false] at h1
    injection h1 with h1; subst h1; rfl
  · exact step_gnss hi h ht

end Verif.Main

namespace Verif.System
open Verif.Align Verif.Coord Verif.Telescope

variable {σ : Type}

theorem tel_run_append (l l' : List (Env ℝ σ × Op)) (T : Telescope.Tel) :
    Telescope.run (l ++ l') T = (Telescope.run l T).bind (Telescope.run l') := by
  induction l generalizing T with
  | nil => rfl
  | cons x xs ih =>
    obtain ⟨env, op⟩ := x
    simp only [List.cons_append, Telescope.run]
    cases hst : Telescope.step env op T with
    | error e => rfl
    | ok T' => exact ih T'

theorem moves_run {env : Env ℝ σ} (he : IsSort env.sort) {a b : Telescope.Tel} {turn : Prop} (h : Main.Moves (real env) turn a b) :
    ∃ g : List (Env ℝ σ × Op), (∀ e ∈ g, IsSort e.1.sort) ∧ Telescope.run g a = .ok b := by
  have ext : ∀ (g : List (Env ℝ σ × Op)) (op : Op) (b c : Telescope.Tel), (∀ e ∈ g, IsSort e.1.sort) → Telescope.run g a = .ok b →
      Telescope.step env op b = .ok c → ∃ g : List (Env ℝ σ × Op), (∀ e ∈ g, IsSort e.1.sort) ∧ Telescope.run g a = .ok c := by
    intro g op b c hg hr hs
    refine ⟨g ++ [(env, op)], ?_, ?_⟩
    · intro e hmem
      rcases List.mem_append.1 hmem with h1 | h1
      · exact hg e h1
      · rw [List.mem_singleton.1 h1]; exact he
    · rw [tel_run_append, hr]
      show Telescope.run [(env, op)] b = _
      simp only [Telescope.run, hs, bind_ok]
  induction h with
  | refl => exact ⟨[], by simp, rfl⟩
  | orient _ x y _ ih => obtain ⟨g, hg, hr⟩ := ih; exact ext g (.orient ⟨x, y⟩) _ _ hg hr rfl
  | sync r lat t _ hs ih => obtain ⟨g, hg, hr⟩ := ih; exact ext g (.sync r lat t) _ _ hg hr hs
  | clear _ ih => obtain ⟨g, hg, hr⟩ := ih; exact ext g .clear _ _ hg hr rfl

theorem moves_orientation {env : Env ℝ σ} {a b : Telescope.Tel} (h : Main.Moves (real env) False a b) : b.orientation = a.orientation := by
  induction h with
  | refl => rfl
  | orient ht => exact ht.elim
  | sync r lat t _ hs ih =>
    simp only [real, Telescope.addReferencePoint] at hs
    obtain ⟨_, _, hs⟩ := bind_eq_ok.1 hs
    obtain ⟨_, _, hs⟩ := bind_eq_ok.1 hs
    injection hs with hs
    rw [← hs]; exact ih
  | clear _ ih => exact ih

/-- After the 100 ms task the telescope is oriented as the sensors say. -/
theorem step_orientation {cfg : Main.Config} {env : Env ℝ σ} {s s' : Main.Sys ℝ Telescope.Tel} {i : Main.In ℝ} {o : List Main.Out}
    (h : Main.step cfg (real env) s (.loop i) = .ok (s', o)) (ht : Main.taskOf s (.loop i) = some .t100ms) :
    s'.scope.core.orientation = ⟨s'.heading, s'.pitch⟩ := by
  simp only [Main.taskOf] at ht
  simp only [Main.step, Main.loop, ht] at h
  exact moves_orientation (Main.task100_moves (s := { s with timers := (Main.schedule s.timers i.now).2 }) h)

/-- After any history of the firmware the telescope is the one after some history of telescope calls. -/
theorem telescope_history (cfg : Main.Config) (h : List (Env ℝ σ × Main.Event ℝ)) (hs : ∀ e ∈ h, IsSort e.1.sort)
    (s : Main.Sys ℝ Telescope.Tel) (o : List Main.Out) (hr : firmware cfg h = .ok (s, o)) :
    Main.Inv s ∧ ∃ g : List (Env ℝ σ × Op), (∀ e ∈ g, IsSort e.1.sort) ∧ Telescope.run g Telescope.new = .ok s.scope.core := by
  unfold firmware at hr
  refine ⟨(Main.run_facts _ (Main.inv_boot cfg _) hr).1, ?_⟩
  induction h using List.reverseRecOn generalizing s o with
  | nil =>
    injection hr with hr; injection hr with hr _; subst hr
    exact ⟨[], by simp, rfl⟩
  | append_singleton h x ih =>
    obtain ⟨env, e⟩ := x
    rw [List.map_append] at hr
    obtain ⟨s1, o1, o2, h1, h2, rfl⟩ := Main.run_snoc.1 hr
    obtain ⟨g, hg, hgr⟩ := ih (fun e he => hs e (List.mem_append_left _ he)) s1 o1 h1
    have hi := (Main.run_facts _ (Main.inv_boot cfg _) h1).1
    obtain ⟨g', hg', hgr'⟩ := moves_run (hs (env, e) (by simp)) (Main.step_moves hi h2)
    refine ⟨g ++ g', ?_, ?_⟩
    · intro e hmem
      rcases List.mem_append.1 hmem with h1 | h1
      · exact hg e h1
      · exact hg' e h1
    · rw [tel_run_append, hgr]; exact hgr'

end Verif.System
