import Verif.Spec.Telescope
import Verif.Props.AlignMaps
import Verif.Props.AlignReset
import Verif.Props.Coord

/-!
# Telescope histories as alignment histories
-/

namespace Verif.Telescope

open Verif.Align Verif.Coord

variable {σ : Type}

/-- The point pair an alignment gets for a star. -/
noncomputable def Star.pair (s : Star) : Pt ℝ × Pt ℝ :=
  (toPt s.at', toPt (equatorialToHorizontal s.ref.ra s.ref.dec s.lat s.lst))

theorem toPt_inj {a b : Horizontal} (h : toPt a = toPt b) : a = b := by
  cases a; cases b; simp only [toPt, Pt.mk.injEq] at h; simp [h.1, h.2]

theorem ledger_append (a b : List (Align.Op ℝ)) : ledger (a ++ b) = b.foldl ledgerStep (ledger a) := by
  unfold ledger; rw [List.foldl_append]

theorem run_append {K σ : Type} [Field K] [LinearOrder K] [IsStrictOrderedRing K] (a b : List (Env K σ × Align.Op K)) :
    ∀ s, Align.run (a ++ b) s = (Align.run a s >>= fun r => Align.run b r.2 >>= fun q => pure (r.1 ++ q.1, q.2)) := by
  induction a with
  | nil =>
    intro s
    simp only [List.nil_append, Align.run, bind_ok]
    cases Align.run b s with
    | error e => rfl
    | ok v => rfl
  | cons e a ih =>
    intro s
    obtain ⟨env, op⟩ := e
    simp only [List.cons_append, Align.run]
    cases Align.step env op s with
    | error e => rfl
    | ok r =>
      simp only [bind_ok]
      rw [ih]
      cases Align.run a r.2 with
      | error e => rfl
      | ok r1 =>
        simp only [bind_ok, pure_ok]
        cases Align.run b r1.2 with
        | error e => rfl
        | ok r2 => rfl

/-- The alignment and the orientation of `T` are those after some alignment history whose ledger are the known stars. -/
structure Rep (σ : Type) (T : Tel) (k : Knows) : Prop where
  now : T.orientation = k.now
  hist : ∃ (h : List (Env ℝ σ × Align.Op ℝ)) (bs : List Bool), (∀ e ∈ h, IsSort e.1.sort) ∧
    Align.run h fresh = .ok (bs, T.alignment) ∧ ledger (h.map Prod.snd) = k.stars.map Star.pair

theorem Rep.new : Rep σ new ⟨⟨0, 0⟩, []⟩ := ⟨rfl, [], [], by simp, rfl, rfl⟩

theorem mem_pairs (k : Knows) : toPt k.now ∈ (k.stars.map Star.pair).map Prod.fst ↔ k.now ∈ k.stars.map Star.at' := by
  simp only [List.map_map, List.mem_map, Function.comp, Star.pair]
  constructor
  · rintro ⟨s, h1, h2⟩; exact ⟨s, h1, toPt_inj h2⟩
  · rintro ⟨s, h1, h2⟩; exact ⟨s, h1, by rw [h2]⟩

theorem ledgerStep_knows (k : Knows) (r : Equatorial ℝ) (lat t : ℝ) :
    ledgerStep (k.stars.map Star.pair) (.add (toPt k.now) (toPt (equatorialToHorizontal r.ra r.dec lat t)))
      = (k.step (.sync r lat t)).stars.map Star.pair := by
  simp only [ledgerStep, Knows.step]
  by_cases hm : k.now ∈ k.stars.map Star.at'
  · rw [if_pos ((mem_pairs k).2 hm), if_pos hm]
  · rw [if_neg (fun h => hm ((mem_pairs k).1 h)), if_neg hm, List.length_map]
    by_cases h63 : k.stars.length = 63
    · rw [if_pos h63, if_pos h63]; rfl
    · rw [if_neg h63, if_neg h63, List.map_append]; rfl

theorem sync_hist (env : Env ℝ σ) (he : IsSort env.sort) (T T' : Tel) (k : Knows) (hR : Rep σ T k) (r : Equatorial ℝ) (lat t : ℝ)
    (h : addReferencePoint env T r lat t = .ok T') :
    ∃ (g : List (Env ℝ σ × Align.Op ℝ)) (bs : List Bool) (s : State ℝ), (∀ e ∈ g, IsSort e.1.sort) ∧
      Align.run g fresh = .ok (bs, s) ∧ triangulateActual env s = .ok T'.alignment ∧ T'.orientation = k.now ∧
      ledger (g.map Prod.snd) = (k.step (.sync r lat t)).stars.map Star.pair := by
  obtain ⟨hnow, g, bs, hg, hrun, hL⟩ := hR
  unfold addReferencePoint at h
  obtain ⟨a, ha, h⟩ := bind_eq_ok.1 h
  obtain ⟨s, hs, h⟩ := bind_eq_ok.1 h
  simp only [pure_ok, Except.ok.injEq] at h
  subst h
  rw [hnow] at ha
  refine ⟨g ++ [(env, .add (toPt k.now) (toPt (equatorialToHorizontal r.ra r.dec lat t)))], bs ++ [a.1], a.2, ?_, ?_, hs, hnow, ?_⟩
  · intro e hmem
    rcases List.mem_append.1 hmem with h1 | h1
    · exact hg e h1
    · rw [List.mem_singleton.1 h1]; exact he
  · rw [run_append, hrun, bind_ok]
    simp only [Align.run, Align.step, ha, bind_ok, pure_ok]
  · rw [List.map_append, ledger_append, hL]
    exact ledgerStep_knows k r lat t

theorem step_rep (env : Env ℝ σ) (he : IsSort env.sort) (T T' : Tel) (k : Knows) (hR : Rep σ T k) (op : Op)
    (h : step env op T = .ok T') : Rep σ T' (k.step op) := by
  cases op with
  | orient o =>
    simp only [step, Except.ok.injEq] at h
    subst h
    exact ⟨rfl, hR.hist⟩
  | clear =>
    simp only [step, Except.ok.injEq] at h
    subst h
    obtain ⟨hnow, g, bs, hg, hrun, hL⟩ := hR
    refine ⟨hnow, g ++ [(env, .clear)], bs ++ [true], ?_, ?_, ?_⟩
    · intro e hmem
      rcases List.mem_append.1 hmem with h1 | h1
      · exact hg e h1
      · rw [List.mem_singleton.1 h1]; exact he
    · rw [run_append, hrun, bind_ok]
      rfl
    · rw [List.map_append, ledger_append, hL]
      rfl
  | sync r lat t =>
    obtain ⟨g, bs, s, hg, hrun, ht, hnow, hL⟩ := sync_hist env he T T' k hR r lat t h
    refine ⟨?_, g ++ [(env, .triangulate)], bs ++ [true], ?_, ?_, ?_⟩
    · rw [hnow]
      simp only [Knows.step]
      split
      · rfl
      · split <;> rfl
    · intro e hmem
      rcases List.mem_append.1 hmem with h1 | h1
      · exact hg e h1
      · rw [List.mem_singleton.1 h1]; exact he
    · rw [run_append, hrun, bind_ok]
      simp only [Align.run, Align.step, ht, bind_ok, pure_ok]
    · rw [List.map_append, ledger_append, hL]
      rfl

theorem run_rep : ∀ (h : List (Env ℝ σ × Op)), (∀ e ∈ h, IsSort e.1.sort) → ∀ (T T' : Tel) (k : Knows), Rep σ T k →
    run h T = .ok T' → Rep σ T' ((h.map Prod.snd).foldl Knows.step k) := by
  intro h
  induction h with
  | nil => intro _ T T' k hR hr; simp only [run, Except.ok.injEq] at hr; subst hr; exact hR
  | cons e h ih =>
    intro hs T T' k hR hr
    obtain ⟨env, op⟩ := e
    simp only [run] at hr
    obtain ⟨T1, h1, h2⟩ := bind_eq_ok.1 hr
    exact ih (fun e he => hs e (List.mem_cons_of_mem _ he)) T1 T' _
      (step_rep env (hs (env, op) List.mem_cons_self) T T1 k hR op h1) h2

/-- A star whose pair the alignment reports exactly is reported by the telescope where it was synced. -/
theorem reported_of (lat lst d : ℝ) (ref : Equatorial ℝ) (h0 : -90 < ref.dec) (h1 : ref.dec < 90) :
    horizontalToEquatorial (Helper.fMod (equatorialToHorizontal ref.ra ref.dec lat lst).az 360)
      (equatorialToHorizontal ref.ra ref.dec lat lst).alt lat (lst + d) = later ref d := by
  obtain ⟨_, _, k, hk⟩ := Helper.C23_fmod_range (equatorialToHorizontal ref.ra ref.dec lat lst).az (360 : ℝ) (by norm_num)
  have e : Helper.fMod (equatorialToHorizontal ref.ra ref.dec lat lst).az 360
      = (equatorialToHorizontal ref.ra ref.dec lat lst).az + ((-k : ℤ) : ℝ) * 360 := by push_cast; linarith
  rw [e]
  have ht := C30_turns_h2e (equatorialToHorizontal ref.ra ref.dec lat lst).az (equatorialToHorizontal ref.ra ref.dec lat lst).alt
    lat (lst + d) (-k) 0 0 0
  simp only [Int.cast_zero, zero_mul, add_zero] at ht
  rw [ht, C30_rotation_h2e, C29_roundtrip _ _ _ _ h0 h1, later]
  simp only
  congr 1
  obtain ⟨_, _, j, hj⟩ := Helper.C23_fmod_range ref.ra (360 : ℝ) (by norm_num)
  rw [show ref.ra + d = (Helper.fMod ref.ra 360 + d) + j * 360 by linarith]
  exact (Helper.C23_fmod_periodic _ _ (by norm_num) _).symm

end Verif.Telescope
