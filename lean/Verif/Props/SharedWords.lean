import Verif.Lemmas.SharedWords
import Verif.Lemmas.TornDouble
import Verif.Spec.AlignDemo
import Verif.Props.Shared

/-!
# C81: the telescope object shared by two tasks of a 32-bit processor
-/

namespace Verif.Shared

open Verif.Align Linalg

set_option linter.unusedSectionVars false

/-! ### The halves of a `double` -/

/-- The two words of a `double` are words, and they determine it. -/
theorem C81_words {v : ℚ} (h : Representable b64 v) (hv : |v| < (2 : ℚ) ^ (1024 : ℤ)) :
    highWord v < 2 ^ 32 ∧ lowWord v < 2 ^ 32 ∧ ofWords (highWord v) (lowWord v) = v := by
  refine ⟨?_, Nat.mod_lt _ (by norm_num), torn_self h hv⟩
  have hn := significand_lt v
  have he := ulpExp_ge64 v
  have hE : biased v < 2 ^ 11 := by
    unfold biased
    split
    · norm_num
    · rename_i hc; have := ulp_le h hv hc; omega
  unfold highWord
  split <;> omega

/-- A number with a foreign low word is off by less than 2⁻²¹ times the next larger power of two. -/
theorem C81_torn_close {v : ℚ} (h : Representable b64 v) {k : ℤ} (hk : -1021 ≤ k) (hk' : k ≤ 1024) (hv : |v| < (2 : ℚ) ^ k) (w : ℚ) :
    |torn v w - v| < (2 : ℚ) ^ (k - 21) := torn_close h hk hk' hv w

/-- It keeps its sign and does not leave a range with integer limits. -/
theorem C81_torn_range {v : ℚ} (h : Representable b64 v) {B : ℕ} (hB : B ≤ 2 ^ 20) (hv : |v| < B) (w : ℚ) :
    |torn v w| < B ∧ (0 ≤ v → 0 ≤ torn v w) := by
  refine ⟨torn_below h hB hv w, fun h0 => torn_nonneg h ?_ h0 w⟩
  refine hv.trans_le ?_
  calc (B : ℚ) ≤ (2 : ℚ) ^ (20 : ℤ) := by exact_mod_cast hB
    _ ≤ (2 : ℚ) ^ (1024 : ℤ) := zpow_le_zpow_right₀ (by norm_num) (by norm_num)

/-- The words of 1, 256, -0.5, 360 and the smallest subnormal number. -/
example : highWord 1 = 0x3FF00000 ∧ lowWord 1 = 0 ∧ highWord 256 = 0x40700000 ∧ highWord (-1 / 2) = 0xBFE00000 ∧ highWord 360 = 0x40768000 ∧
    lowWord (1 / 3) = 0x55555555 ∧ highWord 0 = 0 ∧ lowWord 0 = 0 := by decide +kernel

/-! ### Accesses in one piece are among the executions -/

variable {K σ α : Type} [Field K] [LinearOrder K] [IsStrictOrderedRing K] {mix : K → K → K}

/-- Every execution with whole accesses is also one with single words. -/
theorem C81_includes (hmix : ∀ v, mix v v = v) : ∀ (sched : List Race.Task) (ps ps' : Race.Task → Prog K α) (m m' : Mem K),
    par sched ps m = .ok (ps', m') →
    ∃ sched', wpar mix sched' (fun t => .run (ps t)) ⟨m, m⟩ = .ok (fun t => .run (ps' t), ⟨m', m'⟩) := by
  intro sched
  induction sched with
  | nil =>
    intro ps ps' m m' h
    simp only [par, Except.ok.injEq, Prod.mk.injEq] at h
    obtain ⟨rfl, rfl⟩ := h
    exact ⟨[], rfl⟩
  | cons t sched ih =>
    intro ps ps' m m' h
    simp only [par] at h
    obtain ⟨⟨p1, m1⟩, h1, h2⟩ := bind_eq_ok.1 h
    obtain ⟨sched', h3⟩ := ih _ _ _ _ h2
    have e : ∀ (q : Pend K α), Function.update (Function.update (fun t => Pend.run (ps t)) t q) t (.run p1) =
        fun u => Pend.run (Function.update ps t p1 u) := by
      intro q
      funext u
      by_cases hu : u = t
      · subst hu; simp
      · simp [hu]
    have e' : Function.update (fun t => Pend.run (ps t)) t (.run p1) = fun u => Pend.run (Function.update ps t p1 u) := by
      funext u
      by_cases hu : u = t
      · subst hu; simp
      · simp [hu]
    rcases step_words hmix h1 with h4 | ⟨r, h4, h5⟩
    · refine ⟨(t, true) :: sched', ?_⟩
      simp only [wpar, h4, bind_ok, e']
      exact h3
    · refine ⟨(t, true) :: (t, true) :: sched', ?_⟩
      simp only [wpar, h4, bind_ok, Function.update_self, h5, e]
      exact h3

/-! ### Two tasks -/

/-- **Positions and new orientations, word by word.**  As long as neither task synchronises or resets, no schedule makes an access fail; the
azimuth and the altitude of a position have the high word of one and the low word of another value the telescope had, and the matrix is the
one of the alignment for exactly the point that was read. -/
theorem C81_looking (hmix : ∀ v, mix v v = v) {env : Env K σ} {writes : List (VertexPair K) → List (Nat × Fin 4 × K)} {fuel : Nat}
    {xs ys : List K} {m : Mem K} {s : State K} {p : Pt K} (hs : Reached s) (hm : WellFormed m) (h : Holds m s p) (hx : p.x ∈ xs)
    (hy : p.y ∈ ys) (calls : Race.Task → List (Call K)) (hlook : ∀ t, ∀ c ∈ calls t, c.Looks) (ho : ∀ t, OrientsIn xs ys (calls t))
    (sched : List (Race.Task × Bool)) :
    ∃ ps m', wpar mix sched (fun t => .run (callsP env writes fuel (calls t))) ⟨m, m⟩ = .ok (ps, m') ∧
      ∀ t rs, ps t = .run (.ret rs) → ∀ r ∈ rs, (∃ u ∈ xs, ∃ w ∈ xs, r.actual.x = mix u w) ∧ (∃ u ∈ ys, ∃ w ∈ ys, r.actual.y = mix u w) ∧
        getTransformationMatrix env s r.actual = .ok r.matrix := by
  have hx' := self_mixes hmix hx
  have hy' := self_mixes hmix hy
  have hcalls : ∀ t, rwp (still m (mixes mix xs) (mixes mix ys)) True (callsP env writes fuel (calls t)) fun rs => ∀ r ∈ rs,
      r.actual.x ∈ mixes mix xs ∧ r.actual.y ∈ mixes mix ys ∧ getTransformationMatrix env s r.actual = .ok r.matrix := by
    intro t
    refine still_calls hm h hs.len.1 hs.len.2 (List.ne_nil_of_mem hx') (List.ne_nil_of_mem hy') (fun x _ y _ => hs.answers env _) ?_ _
      (hlook t) (fun q hq => ⟨self_mixes hmix (ho t q hq).1, self_mixes hmix (ho t q hq).2⟩)
    intro x hx y hy x' hx' y' hy' M ty hM hty
    exact ⟨hx, hy, hM⟩
  obtain ⟨ps, m', e, -, hp⟩ := wpar_pok (still_join (xs := xs) (ys := ys) hmix (m := m)) still_put sched
    (fun t => .run (callsP env writes fuel (calls t))) ⟨m, m⟩ (insideW_still ⟨p.x, hx, h.az⟩ ⟨p.y, hy, h.alt⟩)
    (fun t => ⟨hcalls t, turns_calls _ _ _ _ (ho t)⟩)
  refine ⟨ps, m', e, fun t rs hrs r hr => ?_⟩
  have := hp t
  rw [hrs] at this
  obtain ⟨h1, h2, h3⟩ := this.1 r hr
  obtain ⟨u, hu, w, hw, e1⟩ := mem_mixes.1 h1
  obtain ⟨u', hu', w', hw', e2⟩ := mem_mixes.1 h2
  exact ⟨⟨u, hu, w, hw, e1.symm⟩, ⟨u', hu', w', hw', e2.symm⟩, h3⟩

/-- **Resets, word by word.** -/
theorem C81_reset (hmix : ∀ v, mix v v = v) {env : Env K σ} {writes : List (VertexPair K) → List (Nat × Fin 4 × K)} {fuel : Nat}
    {xs ys : List K} {m : Mem K} {s : State K} {p : Pt K} (hs : Reached s) (hm : WellFormed m) (h : Holds m s p) (hx : p.x ∈ xs)
    (hy : p.y ∈ ys) (calls : Race.Task → List (Call K)) (hnone : ∀ t, ∀ c ∈ calls t, c.AddsNone) (ho : ∀ t, OrientsIn xs ys (calls t))
    (sched : List (Race.Task × Bool)) :
    ∃ ps m', wpar mix sched (fun t => .run (callsP env writes fuel (calls t))) ⟨m, m⟩ = .ok (ps, m') ∧
      ∀ t rs, ps t = .run (.ret rs) → ∀ r ∈ rs, (∃ u ∈ xs, ∃ w ∈ xs, r.actual.x = mix u w) ∧ (∃ u ∈ ys, ∃ w ∈ ys, r.actual.y = mix u w) ∧
        (r.matrix = identity ∨ ∃ i : Nat, s.matrices[i]? = some (some r.matrix)) := by
  have hx' := self_mixes hmix hx
  have hy' := self_mixes hmix hy
  obtain ⟨ps, m', e, -, hp⟩ := wpar_pok (S := True) (Q := fun _ rs => ∀ r ∈ rs, r.actual.x ∈ mixes mix xs ∧ r.actual.y ∈ mixes mix ys ∧
    (r.matrix = identity ∨ ∃ i : Nat, s.matrices[i]? = some (some r.matrix)))
    (resets_join (xs := xs) (ys := ys) hmix (m := m)) resets_put sched
    (fun t => .run (callsP env writes fuel (calls t))) ⟨m, m⟩ (insideW_resets hm ⟨p.x, hx, h.az⟩ ⟨p.y, hy, h.alt⟩)
    (fun t => ⟨resets_calls hm h hs.len.2 hs.computed (List.ne_nil_of_mem hx') (List.ne_nil_of_mem hy') _ (hnone t)
      (fun q hq => ⟨self_mixes hmix (ho t q hq).1, self_mixes hmix (ho t q hq).2⟩), turns_calls _ _ _ _ (ho t)⟩)
  refine ⟨ps, m', e, fun t rs hrs r hr => ?_⟩
  have := hp t
  rw [hrs] at this
  obtain ⟨h1, h2, h3⟩ := this.1 r hr
  obtain ⟨u, hu, w, hw, e1⟩ := mem_mixes.1 h1
  obtain ⟨u', hu', w', hw', e2⟩ := mem_mixes.1 h2
  exact ⟨⟨u, hu, w, hw, e1.symm⟩, ⟨u', hu', w', hw', e2.symm⟩, h3⟩

/-- **One task synchronises, word by word.**  Whatever the other task asks or however it turns the telescope meanwhile, no schedule makes an
access leave the arrays, and when the synchronising task is done both halves of all members hold the alignment its calls produce in one step
each, for orientations whose words the telescope had. -/
theorem C81_one_writer (hmix : ∀ v, mix v v = v) {env : Env K σ} (hsort : IsSort env.sort)
    {writes : List (VertexPair K) → List (Nat × Fin 4 × K)} (hws : SortsAs env.sort writes) {fuel : Nat} {xs ys : List K} {m : Mem K}
    {s : State K} {p : Pt K} (hs : Reached s) (hm : WellFormed m) (h : Holds m s p) (hx : p.x ∈ xs) (hy : p.y ∈ ys) (w : Race.Task)
    (calls : Race.Task → List (Call K)) (hfine : Fine env (mixes mix xs) (mixes mix ys) (calls w) s) (hlook : ∀ c ∈ calls w.other, c.Looks)
    (ho : ∀ t, OrientsIn xs ys (calls t)) (sched : List (Race.Task × Bool)) :
    ∃ ps m', wpar mix sched (fun t => .run (callsP env writes fuel (calls t))) ⟨m, m⟩ = .ok (ps, m') ∧
      ∀ rs, ps w = .run (.ret rs) → ∃ s' pu pl, Outcome env (mixes mix xs) (mixes mix ys) (calls w) s s' ∧ Holds m'.up s' pu ∧
        Holds m'.low s' pl ∧ pu.x ∈ xs ∧ pu.y ∈ ys ∧ pl.x ∈ xs ∧ pl.y ∈ ys := by
  have ho' : OrientsIn (mixes mix xs) (mixes mix ys) (calls w) :=
    fun q hq => ⟨self_mixes hmix (ho w q hq).1, self_mixes hmix (ho w q hq).2⟩
  have ha : Agree xs ys m m := ⟨fun _ _ _ => rfl, Or.inl rfl, Or.inl rfl⟩
  obtain ⟨ps, m', vu, vl, e, hu, hl, hw⟩ := wpar_safe (xs := xs) (ys := ys) hmix w sched
    (fun t => .run (callsP env writes fuel (calls t))) m m ⟨m, m⟩ 0 ha ha
    ⟨rfl, ⟨⟨p.x, hx, h.az⟩, ⟨p.y, hy, h.alt⟩⟩,
      wp_calls hsort hws (calls w) m s p hm h hs.len.1 (self_mixes hmix hx) (self_mixes hmix hy) ho' hfine, turns_calls _ _ _ _ (ho w)⟩
    (Known.zero m) (rsafe_calls (calls w.other) 0 hlook (ho w.other))
  refine ⟨ps, m', e, fun rs hrs => ?_⟩
  rw [hrs] at hw
  obtain ⟨rfl, ⟨⟨x, hx1, ex⟩, y, hy1, ey⟩, ⟨-, s', p', h1, -, -, h4⟩, -⟩ := hw
  have half : ∀ mm : Mem K, Agree xs ys vu mm → ∃ q, Holds mm s' q ∧ q.x ∈ xs ∧ q.y ∈ ys := by
    intro mm ha
    obtain ⟨x', ex', hx'⟩ : ∃ x, mm .az = some x ∧ x ∈ xs := by
      rcases ha.2.1 with e | ⟨x, hx', e⟩
      · exact ⟨_, e.trans ex, hx1⟩
      · exact ⟨x, e, hx'⟩
    obtain ⟨y', ey', hy'⟩ : ∃ y, mm .alt = some y ∧ y ∈ ys := by
      rcases ha.2.2 with e | ⟨y, hy', e⟩
      · exact ⟨_, e.trans ey, hy1⟩
      · exact ⟨y, e, hy'⟩
    exact ⟨⟨x', y'⟩, h1.reorient ha.1 ex' ey', hx', hy'⟩
  obtain ⟨pu, a1, a2, a3⟩ := half _ hu
  obtain ⟨pl, b1, b2, b3⟩ := half _ hl
  exact ⟨s', pu, pl, h4, a1, b1, a2, a3, b2, b3⟩

/-! ### What that means for the angles -/

theorem mixDouble_self (v : ℚ) : mixDouble v v = v := if_pos rfl

theorem mixDouble_close {v : ℚ} (h : Representable b64 v) {k : ℤ} (hk : -1021 ≤ k) (hk' : k ≤ 1024) (hv : |v| < (2 : ℚ) ^ k) (w : ℚ) :
    |mixDouble v w - v| < (2 : ℚ) ^ (k - 21) := by
  unfold mixDouble
  split
  · rw [sub_self, abs_zero]; positivity
  · exact torn_close h hk hk' hv w

/-- **Positions are hardly disturbed.**  The orientations are `double`s as the sensors deliver them, 0° ≤ azimuth < 360° and |altitude| < 91°.
Then, whatever the schedule of the single words, every position is computed for an azimuth in the same range at most 2⁻¹² of a degree (0.9″)
from one the telescope had and an altitude at most 2⁻¹⁴ of a degree (0.3″) from one it had, with the matrix of the alignment for that point. -/
theorem C81_angles {env : Env ℚ σ} {writes : List (VertexPair ℚ) → List (Nat × Fin 4 × ℚ)} {fuel : Nat} {xs ys : List ℚ} {m : Mem ℚ}
    {s : State ℚ} {p : Pt ℚ} (hs : Reached s) (hm : WellFormed m) (h : Holds m s p) (hx : p.x ∈ xs) (hy : p.y ∈ ys)
    (hxs : ∀ x ∈ xs, Representable b64 x ∧ 0 ≤ x ∧ x < 360) (hys : ∀ y ∈ ys, Representable b64 y ∧ |y| < 91)
    (calls : Race.Task → List (Call ℚ)) (hlook : ∀ t, ∀ c ∈ calls t, c.Looks) (ho : ∀ t, OrientsIn xs ys (calls t))
    (sched : List (Race.Task × Bool)) :
    ∃ ps m', wpar mixDouble sched (fun t => .run (callsP env writes fuel (calls t))) ⟨m, m⟩ = .ok (ps, m') ∧
      ∀ t rs, ps t = .run (.ret rs) → ∀ r ∈ rs, 0 ≤ r.actual.x ∧ r.actual.x < 360 ∧ |r.actual.y| < 91 ∧
        (∃ x ∈ xs, |r.actual.x - x| < 1 / 4096) ∧ (∃ y ∈ ys, |r.actual.y - y| < 1 / 16384) ∧
        getTransformationMatrix env s r.actual = .ok r.matrix := by
  obtain ⟨ps, m', e, hp⟩ := C81_looking mixDouble_self (env := env) (writes := writes) (fuel := fuel) hs hm h hx hy calls hlook ho sched
  refine ⟨ps, m', e, fun t rs hrs r hr => ?_⟩
  obtain ⟨⟨u, hu, w, hw, e1⟩, ⟨u', hu', w', hw', e2⟩, h3⟩ := hp t rs hrs r hr
  obtain ⟨ru, u0, u1⟩ := hxs u hu
  obtain ⟨ru', u1'⟩ := hys u' hu'
  have hb : |u| < (360 : ℕ) := by rw [abs_of_nonneg u0]; exact_mod_cast u1
  have hb' : |u'| < (91 : ℕ) := by exact_mod_cast u1'
  have c1 : |mixDouble u w - u| < 1 / 4096 := by
    have := mixDouble_close ru (k := 9) (by norm_num) (by norm_num) (hb.trans (by norm_num)) w
    exact this.trans_le (by norm_num)
  have c2 : |mixDouble u' w' - u'| < 1 / 16384 := by
    have := mixDouble_close ru' (k := 7) (by norm_num) (by norm_num) (hb'.trans (by norm_num)) w'
    exact this.trans_le (by norm_num)
  have c3 : 0 ≤ mixDouble u w ∧ mixDouble u w < 360 := by
    unfold mixDouble
    split
    · exact ⟨u0, u1⟩
    · obtain ⟨a, b⟩ := C81_torn_range ru (by norm_num) hb w
      exact ⟨b u0, by have := (abs_lt.1 a).2; exact_mod_cast this⟩
  have c4 : |mixDouble u' w'| < 91 := by
    unfold mixDouble
    split
    · exact u1'
    · exact_mod_cast (C81_torn_range ru' (by norm_num) hb' w').1
  rw [← e1] at c1 c3
  rw [← e2] at c2 c4
  exact ⟨c3.1, c3.2, c4, ⟨u, hu, c1⟩, ⟨u', hu', c2⟩, h3⟩

/-! ### The bound is attained -/

/-- The largest `double` below 256. -/
def below256 : ℚ := 256 - 1 / 2 ^ 45

example : Representable b64 below256 ∧ Representable b64 256 :=
  ⟨⟨2 ^ 53 - 1, -45, by decide, by decide, by norm_num [below256]⟩, ⟨256, 0, by decide, by decide, by norm_num⟩⟩

/-- The readings a task has got. -/
def doneWith : Pend K α → Option α
  | .run (.ret a) => some a
  | _ => none

/-- The telescope turns from the largest `double` below 256° to 256°, and a position is computed for an azimuth it never had, almost 2⁻¹²
degrees beyond both. -/
theorem C81_torn_azimuth : ∃ (sched : List (Race.Task × Bool)) (ps : Race.Task → Pend ℚ (List (Reading ℚ))) (m : Words ℚ),
    wpar mixDouble sched (fun t => .run (callsP demoEnv demoWrites 200 (match t with | .loop => [.orient ⟨256, 20⟩] | .bluetooth => [.position])))
      ⟨memOf fresh ⟨below256, 20⟩ none, memOf fresh ⟨below256, 20⟩ none⟩ = .ok (ps, m) ∧
      ((doneWith (ps .bluetooth)).map fun rs => rs.map fun r => r.actual.x) = some [256 + 1 / 2 ^ 12 - 1 / 2 ^ 44] := by
  refine ⟨(.loop, true) :: List.replicate 40 (.bluetooth, true), ?_⟩
  have key : (match wpar mixDouble ((.loop, true) :: List.replicate 40 (.bluetooth, true)) (fun t => .run (callsP demoEnv demoWrites 200
      (match t with | .loop => [.orient ⟨256, 20⟩] | .bluetooth => [.position])))
      ⟨memOf (fresh : State ℚ) ⟨below256, 20⟩ none, memOf fresh ⟨below256, 20⟩ none⟩ with
      | .ok r => ((doneWith (r.1 .bluetooth)).map fun rs => rs.map fun r => r.actual.x) == some [256 + 1 / 2 ^ 12 - 1 / 2 ^ 44]
      | .error _ => false) = true := by decide +kernel
  split at key
  · rename_i r e
    exact ⟨r.1, r.2, e, by simpa using key⟩
  · cases key

/-- The hypotheses of `C81_angles` are met. -/
example : (∀ x ∈ [(10 : ℚ), 50], Representable b64 x ∧ 0 ≤ x ∧ x < 360) ∧ (∀ y ∈ [(20 : ℚ), 25], Representable b64 y ∧ |y| < 91) := by
  constructor
  · intro x hx
    simp only [List.mem_cons, List.not_mem_nil, or_false] at hx
    rcases hx with rfl | rfl
    · exact ⟨⟨10, 0, by decide, by decide, by norm_num⟩, by norm_num, by norm_num⟩
    · exact ⟨⟨50, 0, by decide, by decide, by norm_num⟩, by norm_num, by norm_num⟩
  · intro x hx
    simp only [List.mem_cons, List.not_mem_nil, or_false] at hx
    rcases hx with rfl | rfl
    · exact ⟨⟨20, 0, by decide, by decide, by norm_num⟩, by rw [abs_of_pos (by norm_num)]; norm_num⟩
    · exact ⟨⟨25, 0, by decide, by decide, by norm_num⟩, by rw [abs_of_pos (by norm_num)]; norm_num⟩

/-- The hypotheses of `C81_one_writer` are met: two stars are synchronised while the telescope turns by a third of a degree and positions are
asked for. -/
example : Fine demoEnv (mixes mixDouble [10, 50 + 6004799503160661 / 2 ^ 54]) (mixes mixDouble [20]) (demoCalls .loop) (fresh : State ℚ) := by
  have key : ∀ x ∈ mixes mixDouble [(10 : ℚ), 50 + 6004799503160661 / 2 ^ 54], ∀ y ∈ mixes mixDouble [(20 : ℚ)],
      (syncAtOnce demoEnv fresh ⟨x, y⟩ ⟨30, 40⟩).isOk = true ∧
      ∀ x' ∈ mixes mixDouble [(10 : ℚ), 50 + 6004799503160661 / 2 ^ 54], ∀ y' ∈ mixes mixDouble [(20 : ℚ)],
        (do let s ← syncAtOnce demoEnv fresh ⟨x, y⟩ ⟨30, 40⟩; syncAtOnce demoEnv s ⟨x', y'⟩ ⟨71, 44⟩).isOk = true := by
    decide +kernel
  intro x hx y hy
  obtain ⟨h1, h2⟩ := key x hx y hy
  obtain ⟨s1, e1⟩ := ok_of_isOk h1
  refine ⟨s1, e1, fun x' hx' y' hy' => ?_⟩
  have h2 := h2 x' hx' y' hy'
  rw [e1, bind_ok] at h2
  obtain ⟨s2, e2⟩ := ok_of_isOk h2
  exact ⟨s2, e2, trivial⟩

/-- There are four azimuths then. -/
example : (mixes mixDouble [(10 : ℚ), 50 + 6004799503160661 / 2 ^ 54]).length = 4 ∧
    (mixes mixDouble [(10 : ℚ), 50 + 6004799503160661 / 2 ^ 54]).Nodup := by decide +kernel

end Verif.Shared
