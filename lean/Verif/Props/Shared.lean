import Verif.Lemmas.SharedPar
import Verif.Spec.AlignDemo
import Verif.Spec.Telescope

/-!
# C76: the telescope object shared by the Bluetooth task and `loop()`
-/

namespace Verif.Shared

open Verif.Align Linalg

variable {K σ : Type} [Field K] [LinearOrder K] [IsStrictOrderedRing K]

set_option linter.unusedSectionVars false

/-! ### One task alone: the accesses amount to the methods of `Model/Align.lean` -/

/-- A synchronisation on its own leaves the alignment that `addVertexPair` and `TriangulateActual` compute in one step. -/
theorem C76_alone_sync {env : Env K σ} (hsort : IsSort env.sort) {writes : List (VertexPair K) → List (Nat × Fin 4 × K)}
    (hws : SortsAs env.sort writes) {fuel : Nat} (hfuel : 192 < fuel) {m : Mem K} {s s' : State K} {p r : Pt K} (hs : Reached s)
    (hm : WellFormed m) (h : Holds m s p) (hr : syncAtOnce env s p r = .ok s') :
    ∃ m', exec (syncP env writes fuel r) m = .ok (some (), m') ∧ Holds m' s' p ∧ WellFormed m' := by
  have hq : Quiet (fun _ _ => False : Volatile K) := fun l v hv => hv.elim
  have key : wp (fun _ _ => False) WellFormed False (syncP env writes fuel r >>= fun a => .ret a) m fun _ m' => Holds m' s' p := by
    refine wp_sync hq hsort hws (Or.inr hfuel) hm h hs.len.1 ?_
    intro x y hx hy
    rcases hx with rfl | hx
    · rcases hy with rfl | hy
      · exact ⟨s', hr, fun m' w' h' _ => ⟨w', h'⟩⟩
      · exact hy.elim
    · exact hx.elim
  obtain ⟨a, m', e, w, h'⟩ := exec_of_wp key
  refine ⟨m', ?_, h', w⟩
  have : (syncP env writes fuel r >>= fun a => Prog.ret a) = syncP env writes fuel r := by
    show (syncP env writes fuel r).bind _ = _
    generalize syncP env writes fuel r = q
    clear key e
    induction q with
    | ret a => rfl
    | spin => rfl
    | fail e => rfl
    | get l k ih => simp only [Prog.bind]; congr 1; funext v; exact ih v
    | put l v k ih => simp only [Prog.bind, ih]
  rw [this] at e
  exact e

/-- A position on its own is the one of `getTransformationType` and `getTransformationMatrix`, and nothing is written. -/
theorem C76_alone_position {env : Env K σ} {fuel : Nat} (hfuel : 192 < fuel) {m : Mem K} {s : State K} {p : Pt K} (hs : Reached s)
    (hm : WellFormed m) (h : Holds m s p) :
    ∃ ty M, getTransformationType env s p = .ok ty ∧ getTransformationMatrix env s p = .ok M ∧
      exec (positionP env fuel) m = .ok (some ⟨ty, p, M⟩, m) := by
  obtain ⟨M, ty, hM, hty⟩ := hs.answers env p
  have hin : Inside (still m [p.x] [p.y]) m := inside_still ⟨p.x, by simp, h.az⟩ ⟨p.y, by simp, h.alt⟩
  have key : rwp (still m [p.x] [p.y]) False (positionP env fuel >>= fun a => .ret a) fun r => r = ⟨ty, p, M⟩ := by
    refine still_position hm h hs.len.1 hs.len.2 (Or.inr hfuel) (by simp) (by simp) ?_ ?_
    · intro x hx y hy
      rw [List.mem_singleton] at hx hy
      subst hx; subst hy
      exact ⟨M, ty, hM, hty⟩
    · intro x hx y hy x' hx' y' hy' M' ty' hM' hty'
      rw [List.mem_singleton] at hx hy hx' hy'
      subst hx; subst hy; subst hx'; subst hy'
      change getTransformationMatrix env s p = _ at hM'
      change getTransformationType env s p = _ at hty'
      rw [hM] at hM'; rw [hty] at hty'
      injection hM' with e1; injection hty' with e2
      subst e1; subst e2
      rfl
  obtain ⟨a, m', e, ha, ho⟩ := exec_rwp hin key
  refine ⟨ty, M, hty, hM, ?_⟩
  have : (positionP env fuel >>= fun a => Prog.ret a) = positionP env fuel := by
    show (positionP env fuel).bind _ = _
    generalize positionP env fuel = q
    clear key e
    induction q with
    | ret a => rfl
    | spin => rfl
    | fail e => rfl
    | get l k ih => simp only [Prog.bind]; congr 1; funext v; exact ih v
    | put l v k ih => simp only [Prog.bind, ih]
  rw [this] at e
  have hm' : m' = m := by
    funext l
    rcases ho l with h' | ⟨v, hv, h'⟩
    · exact h'
    · rw [h']
      cases l with
      | az => exact (by rw [List.mem_singleton.1 hv]; exact h.az.symm)
      | alt => exact (by rw [List.mem_singleton.1 hv]; exact h.alt.symm)
      | numV => exact hv.symm
      | numT => exact hv.symm
      | tri i k => exact hv.symm
      | vert i k => exact hv.symm
      | mat i r c => exact hv.symm
  rw [e, ha, hm']

/-- `syncAtOnce` is `Telescope::addReferencePoint` of `Model/Telescope.lean`. -/
theorem C76_telescope_sync {env : Env ℝ σ} (T : Telescope.Tel) (ref : Equatorial ℝ) (lat lst : ℝ) :
    Telescope.addReferencePoint env T ref lat lst =
      (syncAtOnce env T.alignment (Telescope.toPt T.orientation)
        (Telescope.toPt (Coord.equatorialToHorizontal ref.ra ref.dec lat lst))).map fun s => { T with alignment := s } := by
  unfold Telescope.addReferencePoint syncAtOnce
  dsimp only
  cases addVertexPair env T.alignment (Telescope.toPt T.orientation)
    (Telescope.toPt (Coord.equatorialToHorizontal ref.ra ref.dec lat lst)) with
  | error e => rfl
  | ok a =>
    simp only [bind_ok]
    cases triangulateActual env a.2 with
    | error e => rfl
    | ok s => rfl

/-- The value of a reading is what `Telescope::getCalibratedOrientation` of `Model/Telescope.lean` converts to equatorial coordinates. -/
theorem C76_telescope_position {env : Env ℝ σ} (T : Telescope.Tel) (r : Reading ℝ) (lat lst : ℝ) (hp : r.actual = Telescope.toPt T.orientation)
    (hty : getTransformationType env T.alignment r.actual = .ok r.ty) (hM : getTransformationMatrix env T.alignment r.actual = .ok r.matrix) :
    Telescope.getCalibratedOrientation env T lat lst = .ok (r.ty, Coord.horizontalToEquatorial r.value.x r.value.y lat lst) := by
  unfold Telescope.getCalibratedOrientation Align.getCalibratedOrientation
  rw [← hp, hty, bind_ok, hM]
  rfl

/-- The alignments of the histories of a telescope are the ones considered here. -/
theorem C76_telescope_reached (g : List (Env ℝ σ × Telescope.Op)) (hg : ∀ e ∈ g, IsSort e.1.sort) :
    ∀ (T T' : Telescope.Tel), Reached T.alignment → Telescope.run g T = .ok T' → Reached T'.alignment := by
  induction g with
  | nil => intro T T' h hr; simp only [Telescope.run, Except.ok.injEq] at hr; subst hr; exact h
  | cons x g ih =>
    obtain ⟨env, op⟩ := x
    intro T T' h hr
    simp only [Telescope.run] at hr
    obtain ⟨T1, h1, hr⟩ := bind_eq_ok.1 hr
    refine ih (fun e he => hg e (List.mem_cons_of_mem _ he)) T1 T' ?_ hr
    cases op with
    | orient o => simp only [Telescope.step, Except.ok.injEq] at h1; subst h1; exact h
    | clear => simp only [Telescope.step, Except.ok.injEq] at h1; subst h1; exact h.clear
    | sync r lat t =>
      simp only [Telescope.step] at h1
      rw [C76_telescope_sync] at h1
      cases hs : syncAtOnce env T.alignment (Telescope.toPt T.orientation)
          (Telescope.toPt (Coord.equatorialToHorizontal r.ra r.dec lat t)) with
      | error e => rw [hs] at h1; cases h1
      | ok s =>
        rw [hs] at h1
        simp only [Except.map, Except.ok.injEq] at h1
        subst h1
        exact .sync (hg _ List.mem_cons_self) h hs

/-! ### Two tasks -/

/-- **Positions and new orientations.**  As long as neither task synchronises or resets, no schedule makes an access fail, and a position
uses an azimuth and an altitude the telescope had and the matrix of the alignment for exactly that point. -/
theorem C76_looking {env : Env K σ} {writes : List (VertexPair K) → List (Nat × Fin 4 × K)} {fuel : Nat} {xs ys : List K} {m : Mem K}
    {s : State K} {p : Pt K} (hs : Reached s) (hm : WellFormed m) (h : Holds m s p) (hx : p.x ∈ xs) (hy : p.y ∈ ys)
    (calls : Race.Task → List (Call K)) (hlook : ∀ t, ∀ c ∈ calls t, c.Looks) (ho : ∀ t, OrientsIn xs ys (calls t))
    (sched : List Race.Task) :
    ∃ ps m', par sched (fun t => callsP env writes fuel (calls t)) m = .ok (ps, m') ∧
      ∀ t rs, ps t = .ret rs → ∀ r ∈ rs, r.actual.x ∈ xs ∧ r.actual.y ∈ ys ∧ getTransformationMatrix env s r.actual = .ok r.matrix ∧
        ∃ x ∈ xs, ∃ y ∈ ys, getTransformationType env s ⟨x, y⟩ = .ok r.ty := by
  have hin : Inside (still m xs ys) m := inside_still ⟨p.x, hx, h.az⟩ ⟨p.y, hy, h.alt⟩
  have hcalls : ∀ t, rwp (still m xs ys) True (callsP env writes fuel (calls t)) fun rs => ∀ r ∈ rs, r.actual.x ∈ xs ∧ r.actual.y ∈ ys ∧
      getTransformationMatrix env s r.actual = .ok r.matrix ∧ ∃ x ∈ xs, ∃ y ∈ ys, getTransformationType env s ⟨x, y⟩ = .ok r.ty := by
    intro t
    refine still_calls hm h hs.len.1 hs.len.2 (List.ne_nil_of_mem hx) (List.ne_nil_of_mem hy) (fun x _ y _ => hs.answers env _) ?_ _
      (hlook t) (ho t)
    intro x hx y hy x' hx' y' hy' M ty hM hty
    exact ⟨hx, hy, hM, x', hx', y', hy', hty⟩
  obtain ⟨ps, m', e, -, hp⟩ := par_rwp sched (fun t => callsP env writes fuel (calls t)) m hin hcalls
  refine ⟨ps, m', e, fun t rs hrs => ?_⟩
  have := hp t
  rw [hrs] at this
  exact this

/-- **Resets.**  If the alignment is also reset by one of the tasks, still no access fails, and a position uses an azimuth and an altitude the
telescope had and either the identity or one of the matrices the alignment had before the reset. -/
theorem C76_reset {env : Env K σ} {writes : List (VertexPair K) → List (Nat × Fin 4 × K)} {fuel : Nat} {xs ys : List K} {m : Mem K}
    {s : State K} {p : Pt K} (hs : Reached s) (hm : WellFormed m) (h : Holds m s p) (hx : p.x ∈ xs) (hy : p.y ∈ ys)
    (calls : Race.Task → List (Call K)) (hnone : ∀ t, ∀ c ∈ calls t, c.AddsNone) (ho : ∀ t, OrientsIn xs ys (calls t))
    (sched : List Race.Task) :
    ∃ ps m', par sched (fun t => callsP env writes fuel (calls t)) m = .ok (ps, m') ∧
      ∀ t rs, ps t = .ret rs → ∀ r ∈ rs, r.actual.x ∈ xs ∧ r.actual.y ∈ ys ∧
        (r.matrix = identity ∨ ∃ i : Nat, s.matrices[i]? = some (some r.matrix)) := by
  have hin : Inside (resets m xs ys) m := inside_resets hm ⟨p.x, hx, h.az⟩ ⟨p.y, hy, h.alt⟩
  obtain ⟨ps, m', e, -, hp⟩ := par_rwp (S := True) (Q := fun _ rs => ∀ r ∈ rs, r.actual.x ∈ xs ∧ r.actual.y ∈ ys ∧
    (r.matrix = identity ∨ ∃ i : Nat, s.matrices[i]? = some (some r.matrix)))
    sched (fun t => callsP env writes fuel (calls t)) m hin
    (fun t => resets_calls hm h hs.len.2 hs.computed (List.ne_nil_of_mem hx) (List.ne_nil_of_mem hy) _ (hnone t) (ho t))
  refine ⟨ps, m', e, fun t rs hrs => ?_⟩
  have := hp t
  rw [hrs] at this
  exact this

/-- **One task synchronises.**  Whatever the other task asks or however it turns the telescope meanwhile, no schedule makes an access leave
the arrays, and when the synchronising task is done the alignment is the one its calls produce in one step each. -/
theorem C76_one_writer {env : Env K σ} (hsort : IsSort env.sort) {writes : List (VertexPair K) → List (Nat × Fin 4 × K)}
    (hws : SortsAs env.sort writes) {fuel : Nat} {xs ys : List K} {m : Mem K} {s : State K} {p : Pt K} (hs : Reached s) (hm : WellFormed m)
    (h : Holds m s p) (hx : p.x ∈ xs) (hy : p.y ∈ ys) (w : Race.Task) (calls : Race.Task → List (Call K))
    (hfine : Fine env xs ys (calls w) s) (hlook : ∀ c ∈ calls w.other, c.Looks) (ho : ∀ t, OrientsIn xs ys (calls t))
    (sched : List Race.Task) :
    ∃ ps m', par sched (fun t => callsP env writes fuel (calls t)) m = .ok (ps, m') ∧
      ∀ rs, ps w = .ret rs → ∃ s' p', Outcome env xs ys (calls w) s s' ∧ Holds m' s' p' ∧ p'.x ∈ xs ∧ p'.y ∈ ys := by
  obtain ⟨ps, m', view, e, ha, hw⟩ := par_safe (xs := xs) (ys := ys) w sched (fun t => callsP env writes fuel (calls t)) m m 0
    ⟨fun _ _ _ => rfl, Or.inl rfl, Or.inl rfl⟩ (wp_calls hsort hws (calls w) m s p hm h hs.len.1 hx hy (ho w) hfine) (Known.zero m)
    (rsafe_calls (calls w.other) 0 hlook (ho w.other))
  refine ⟨ps, m', e, fun rs hrs => ?_⟩
  rw [hrs] at hw
  obtain ⟨-, s', p', h1, h2, h3, h4⟩ := hw
  obtain ⟨x, ex, hx'⟩ : ∃ x, m' .az = some x ∧ x ∈ xs := by
    rcases ha.2.1 with e | ⟨x, hx', e⟩
    · exact ⟨p'.x, e.trans h1.az, h2⟩
    · exact ⟨x, e, hx'⟩
  obtain ⟨y, ey, hy'⟩ : ∃ y, m' .alt = some y ∧ y ∈ ys := by
    rcases ha.2.2 with e | ⟨y, hy', e⟩
    · exact ⟨p'.y, e.trans h1.alt, h3⟩
    · exact ⟨y, e, hy'⟩
  exact ⟨s', ⟨x, y⟩, h4, h1.reorient ha.1 ex ey, hx', hy'⟩

/-! ### Concrete cases -/

/-- Writing all elements back, one after the other. -/
def storeAll : Nat → List (VertexPair K) → List (Nat × Fin 4 × K)
  | _, [] => []
  | k, v :: vs => (k, 0, v.actual.x) :: (k, 1, v.actual.y) :: (k, 2, v.reference.x) :: (k, 3, v.reference.y) :: storeAll (k + 1) vs

theorem storeAll_below (vs : List (VertexPair K)) : ∀ k, ∀ w ∈ storeAll k vs, k ≤ w.1 ∧ w.1 < k + vs.length := by
  induction vs with
  | nil => intro k w hw; simp [storeAll] at hw
  | cons v vs ih =>
    intro k w hw
    simp only [storeAll, List.mem_cons, List.length_cons] at hw ⊢
    rcases hw with rfl | rfl | rfl | rfl | hw
    · simp
    · simp
    · simp
    · simp
    · have := ih (k + 1) w hw; omega

theorem applyWrites_below (ws : List (Nat × Fin 4 × K)) (k : Nat) (hw : ∀ w ∈ ws, k ≤ w.1) (g : Nat → Fin 4 → K) (i : Nat) (f : Fin 4)
    (hi : i < k) : applyWrites ws g i f = g i f := by
  induction ws generalizing g with
  | nil => rfl
  | cons w ws ih =>
    have := hw w (by simp)
    simp only [applyWrites]
    rw [ih (fun u hu => hw u (List.mem_cons_of_mem _ hu)), if_neg (by omega)]

theorem storeAll_spec (vs : List (VertexPair K)) : ∀ (k : Nat) (g : Nat → Fin 4 → K) (i : Nat) (v : VertexPair K), vs[i]? = some v →
    ∀ f, applyWrites (storeAll k vs) g (k + i) f = field v f := by
  induction vs with
  | nil => intro k g i v hv; simp at hv
  | cons u vs ih =>
    intro k g i v hv f
    simp only [storeAll, applyWrites]
    cases i with
    | zero =>
      simp only [List.getElem?_cons_zero, Option.some.injEq] at hv
      subst hv
      rw [applyWrites_below _ (k + 1) (fun w hw => (storeAll_below vs (k + 1) w hw).1) _ _ _ (by omega)]
      match f with
      | 0 => simp [field]
      | 1 => simp [field]
      | 2 => simp [field]
      | 3 => simp [field]
    | succ i =>
      simp only [List.getElem?_cons_succ] at hv
      have := ih (k + 1) (fun a b => if a = k ∧ b = 3 then u.reference.y else if a = k ∧ b = 2 then u.reference.x else
        if a = k ∧ b = 1 then u.actual.y else if a = k ∧ b = 0 then u.actual.x else g a b) i v hv f
      rw [show k + 1 + i = k + (i + 1) by omega] at this
      exact this

/-- Every sort can be carried out by such writes. -/
theorem sortsAs_storeAll {sort : List (VertexPair K) → List (VertexPair K)} (h : IsSort sort) : SortsAs sort fun l => storeAll 0 (sort l) := by
  intro l
  refine ⟨fun w hw => ?_, fun g _ i v hv f => ?_⟩
  · have := (storeAll_below (sort l) 0 w hw).2
    rw [(h l).1.length_eq] at this
    omega
  · have := storeAll_spec (sort l) 0 g i v hv f
    rw [Nat.zero_add] at this
    exact this

/-- The writes of the examples. -/
def demoWrites (l : List (VertexPair ℚ)) : List (Nat × Fin 4 × ℚ) := storeAll 0 (demoSort l)

theorem ok_of_isOk {α : Type} {x : C α} (h : x.isOk = true) : ∃ a, x = .ok a := by
  cases x with
  | error e => cases h
  | ok a => exact ⟨a, rfl⟩

/-- The calls of the examples: the Bluetooth task asks for positions, `loop()` turns the telescope and synchronises two stars. -/
def demoCalls : Race.Task → List (Call ℚ)
  | .bluetooth => [.position, .position]
  | .loop => [.sync ⟨30, 40⟩, .orient ⟨50, 25⟩, .sync ⟨71, 44⟩, .clear]

/-- The hypotheses of `C76_one_writer` are met: a new object, two stars, positions meanwhile. -/
example : Fine demoEnv [10, 50] [20, 25] (demoCalls .loop) (fresh : State ℚ) := by
  have key : ∀ x ∈ [(10 : ℚ), 50], ∀ y ∈ [(20 : ℚ), 25], (syncAtOnce demoEnv fresh ⟨x, y⟩ ⟨30, 40⟩).isOk = true ∧
      ∀ x' ∈ [(10 : ℚ), 50], ∀ y' ∈ [(20 : ℚ), 25],
        (do let s ← syncAtOnce demoEnv fresh ⟨x, y⟩ ⟨30, 40⟩; syncAtOnce demoEnv s ⟨x', y'⟩ ⟨71, 44⟩).isOk = true := by
    decide +kernel
  intro x hx y hy
  obtain ⟨h1, h2⟩ := key x hx y hy
  obtain ⟨s1, e1⟩ := ok_of_isOk h1
  refine ⟨s1, e1, fun x' hx' y' hy' => ?_⟩
  have h2 := h2 x' hx' y' hy'
  rw [e1, bind_ok] at h2
  obtain ⟨s2, e2⟩ := ok_of_isOk h2
  exact ⟨s2, e2, trivial⟩

example : Holds (memOf (fresh : State ℚ) ⟨10, 20⟩ (some 7)) fresh ⟨10, 20⟩ ∧ WellFormed (memOf (fresh : State ℚ) ⟨10, 20⟩ (some 7)) :=
  ⟨memOf_holds _ _ _, memOf_wellFormed .fresh _ _⟩

/-- Every alignment a telescope can have is held by an object. -/
theorem C76_objects {s : State K} (hs : Reached s) (p : Pt K) (heap : K) :
    Holds (memOf s p (some heap)) s p ∧ WellFormed (memOf s p (some heap)) := ⟨memOf_holds _ _ _, memOf_wellFormed hs _ _⟩

/-! ### What the code does not guarantee -/

/-- The readings a task has got. -/
def readingsOf {α : Type} : Prog K α → Option α
  | .ret a => some a
  | _ => none

/-- A position may combine the new azimuth with the old altitude. -/
theorem C76_torn_orientation : ∃ (sched : List Race.Task) (ps : Race.Task → Prog ℚ (List (Reading ℚ))) (m : Mem ℚ),
    par sched (fun t => callsP demoEnv demoWrites 200 (match t with | .loop => [.orient ⟨50, 60⟩] | .bluetooth => [.position]))
      (memOf fresh ⟨10, 20⟩ none) = .ok (ps, m) ∧ ((readingsOf (ps .bluetooth)).map fun rs => rs.map (·.actual)) = some [⟨50, 20⟩] := by
  refine ⟨.loop :: List.replicate 20 .bluetooth, ?_⟩
  have key : (match par (.loop :: List.replicate 20 .bluetooth) (fun t => callsP demoEnv demoWrites 200
      (match t with | .loop => [.orient ⟨50, 60⟩] | .bluetooth => [.position])) (memOf (fresh : State ℚ) ⟨10, 20⟩ none) with
      | .ok r => ((readingsOf (r.1 .bluetooth)).map fun rs => rs.map (·.actual)) == some [⟨50, 20⟩]
      | .error _ => false) = true := by decide +kernel
  split at key
  · rename_i r e
    exact ⟨r.1, r.2, e, by simpa using key⟩
  · cases key

/-- While the first star is synchronised a position is computed with a matrix that was never written. -/
theorem C76_first_sync_uninitialised : ∃ sched : List Race.Task,
    par sched (fun t => callsP demoEnv demoWrites 200 (match t with | .loop => [.sync ⟨30, 40⟩] | .bluetooth => [.position]))
      (memOf (fresh : State ℚ) ⟨10, 20⟩ none) = .error (.ub .uninit) := by
  refine ⟨List.replicate 12 .loop ++ List.replicate 9 .bluetooth, ?_⟩
  have key : (match par (List.replicate 12 .loop ++ List.replicate 9 .bluetooth) (fun t => callsP demoEnv demoWrites 200
      (match t with | .loop => [.sync ⟨30, 40⟩] | .bluetooth => [.position])) (memOf (fresh : State ℚ) ⟨10, 20⟩ none) with
      | .ok _ => false
      | .error e => decide (e = .ub .uninit)) = true := by decide +kernel
  split at key
  · cases key
  · rename_i e he
    rw [he, of_decide_eq_true key]

/-- Synchronising the only star again changes nothing in the end, but a position meanwhile is not calibrated at all. -/
theorem C76_resync_uncalibrated : ∃ (s : State ℚ) (sched : List Race.Task) (ps : Race.Task → Prog ℚ (List (Reading ℚ))) (m : Mem ℚ),
    Reached s ∧ syncAtOnce demoEnv s ⟨10, 20⟩ ⟨30, 40⟩ = .ok s ∧ (∀ q, getTransformationMatrix demoEnv s q ≠ .ok identity) ∧
    par sched (fun t => callsP demoEnv demoWrites 200 (match t with | .loop => [.sync ⟨30, 40⟩] | .bluetooth => [.position]))
      (memOf s ⟨10, 20⟩ none) = .ok (ps, m) ∧ ((readingsOf (ps .bluetooth)).map fun rs => rs.map (·.matrix)) = some [identity] := by
  have key : (match syncAtOnce demoEnv (fresh : State ℚ) ⟨10, 20⟩ ⟨30, 40⟩ with
      | .error _ => false
      | .ok s => (match syncAtOnce demoEnv s ⟨10, 20⟩ ⟨30, 40⟩ with | .ok s' => decide (s' = s) | .error _ => false) &&
        decide (s.triangles = [] ∧ 1 ≤ s.numVertices ∧ s.matrices[0]? ≠ some (some identity)) &&
        match par (List.replicate 57 .loop ++ List.replicate 30 .bluetooth) (fun t => callsP demoEnv demoWrites 200
          (match t with | .loop => [.sync ⟨30, 40⟩] | .bluetooth => [.position])) (memOf s ⟨10, 20⟩ none) with
        | .ok r => ((readingsOf (r.1 .bluetooth)).map fun rs => rs.map (·.matrix)) == some [identity]
        | .error _ => false) = true := by decide +kernel
  split at key
  · cases key
  · rename_i s hs
    simp only [Bool.and_eq_true, decide_eq_true_eq] at key
    obtain ⟨⟨k1, k2, k3, k4⟩, k5⟩ := key
    refine ⟨s, List.replicate 57 .loop ++ List.replicate 30 .bluetooth, ?_⟩
    split at k1
    · rename_i s' hs'
      split at k5
      · rename_i r e
        refine ⟨r.1, r.2, .sync demoSort_isSort .fresh hs, ?_, ?_, e, by simpa using k5⟩
        · rw [hs', of_decide_eq_true k1]
        · intro q hq
          unfold getTransformationMatrix at hq
          rw [k2] at hq
          simp only [k3, if_true] at hq
          exact k4 (matrixAt_get hq)
      · cases k5
    · cases k1

/-- Two tasks that synchronise at the same time: the triangle before the first one is read. -/
theorem C76_two_writers_out_of_bounds : ∃ sched : List Race.Task,
    par sched (fun t => callsP demoEnv demoWrites 200 (match t with | .loop => [.sync ⟨30, 40⟩] | .bluetooth => [.sync ⟨30, 40⟩]))
      (memOf (fresh : State ℚ) ⟨10, 20⟩ none) = .error (.ub .oobRead) := by
  refine ⟨List.replicate 52 .loop ++ List.replicate 200 .bluetooth ++ List.replicate 2 .loop, ?_⟩
  have key : (match par (List.replicate 52 .loop ++ List.replicate 200 .bluetooth ++ List.replicate 2 .loop)
      (fun t => callsP demoEnv demoWrites 200
      (match t with | .loop => [.sync ⟨30, 40⟩] | .bluetooth => [.sync ⟨30, 40⟩])) (memOf (fresh : State ℚ) ⟨10, 20⟩ none) with
      | .ok _ => false
      | .error e => decide (e = .ub .oobRead)) = true := by decide +kernel
  split at key
  · cases key
  · rename_i e he
    rw [he, of_decide_eq_true key]

end Verif.Shared
