import Verif.Props.Telescope64
import Verif.Lemmas.Telescope64Run

/-!
# C79: an evening with four stars, and a direction that is missed

The hypotheses of `Props/Telescope64.lean` are met by the syncs of an evening, with the tests of the triangulation as the code calculates them (`ieeeTest`)
and every accurate C library.
-/

namespace Verif.Telescope64

open Verif Verif.Align Verif.Linalg Verif.Linalg64 Verif.Coord64 Verif.Spec Verif.Align64

/-! ### An evening -/

/-- Square root by Newton's method. -/
def newton (q : ℚ) : ℕ → ℚ → ℚ
  | 0, x => x
  | n + 1, x => newton q n (rnd b64 ((x + q / x) / 2))

def demoSqrt (q : ℚ) : C ℚ := fl b64 (newton q 40 (max q 1))

def demoEnv : Align64.Env (Option (ℚ × ℚ)) :=
  ⟨Align64.ieeeTest demoSqrt (fun _ _ _ _ => (false, false)), some (0, 0), List.insertionSort (fun u v => u.actual.x ≤ v.actual.x), fun _ => 0⟩

/-- Four orientations. -/
def dA : Pt ℚ := ⟨107.96875, 18.640625⟩
def dB : Pt ℚ := ⟨145.734375, 67.65625⟩
def dC : Pt ℚ := ⟨235.359375, 16.734375⟩
def dD : Pt ℚ := ⟨234.078125, 84.765625⟩

/-- Four stars, synced one after the other (latitude 48°, sidereal time 100° to 103°). -/
def kA : Star := ⟨dA, 30, 20, 48, 100⟩
def kB : Star := ⟨dB, 80, 60, 48, 101⟩
def kC : Star := ⟨dC, 150, -10, 48, 102⟩
def kD : Star := ⟨dD, 120, 40, 48, 103⟩

/-- Two calls: point and sync. -/
def visit (M : Libm) (k : Star) : List (Libm × Align64.Env (Option (ℚ × ℚ)) × Op) :=
  [(M, demoEnv, .orient k.at'), (M, demoEnv, .sync k.ra k.dec k.lat k.lst)]

def evening1 (M : Libm) := visit M kA
def evening2 (M : Libm) := evening1 M ++ visit M kB
def evening3 (M : Libm) := evening2 M ++ visit M kC
def evening4 (M : Libm) := evening3 M ++ visit M kD

/-- The calls of a visit. -/
def ops (k : Star) : List Op := [.orient k.at', .sync k.ra k.dec k.lat k.lst]

theorem knows1 (M : Libm) : knows (calls (evening1 M)) = ⟨dA, [kA]⟩ := by
  rw [show calls (evening1 M) = ops kA from rfl]; decide +kernel
theorem knows2 (M : Libm) : knows (calls (evening2 M)) = ⟨dB, [kA, kB]⟩ := by
  rw [show calls (evening2 M) = ops kA ++ ops kB from rfl]; decide +kernel
theorem knows3 (M : Libm) : knows (calls (evening3 M)) = ⟨dC, [kA, kB, kC]⟩ := by
  rw [show calls (evening3 M) = ops kA ++ ops kB ++ ops kC from rfl]; decide +kernel
theorem knows4 (M : Libm) : knows (calls (evening4 M)) = ⟨dD, [kA, kB, kC, kD]⟩ := by
  rw [show calls (evening4 M) = ops kA ++ ops kB ++ ops kC ++ ops kD from rfl]; decide +kernel

theorem rep_of {q : ℚ} (h : rnd b64 q = q) : Representable b64 q := h ▸ representable_rnd (by decide) q

theorem demo_sort : IsSort demoEnv.sort := fun l => ⟨List.perm_insertionSort _ l, List.pairwise_insertionSort _ l⟩

theorem fair_visit {M : Libm} (hM : Accurate M) {k : Star} (h : rnd b64 k.at'.x = k.at'.x ∧ rnd b64 k.at'.y = k.at'.y)
    (h' : |k.at'.x| ≤ 360 ∧ |k.at'.y| ≤ 91 ∧ |k.lst - k.ra| ≤ 360 ∧ |k.dec| ≤ 361 ∧ |k.lat| ≤ 361) : ∀ e ∈ visit M k, Fair e := by
  intro e he
  have st : ∀ i, |demoEnv.stray i| ≤ 1 := fun i => by show |(0 : ℚ)| ≤ 1; norm_num
  simp only [visit, List.mem_cons, List.not_mem_nil, or_false] at he
  rcases he with rfl | rfl
  · exact ⟨hM, demo_sort, st, ⟨rep_of h.1, rep_of h.2⟩, h'.1, h'.2.1⟩
  · exact ⟨hM, demo_sort, st, h'.2.2⟩

theorem fair_append {σ : Type} {l l' : List (Libm × Align64.Env σ × Op)} (h : ∀ e ∈ l, Fair e) (h' : ∀ e ∈ l', Fair e) : ∀ e ∈ l ++ l', Fair e := by
  intro e he
  rcases List.mem_append.1 he with he | he
  · exact h e he
  · exact h' e he

theorem fair1 {M : Libm} (hM : Accurate M) : ∀ e ∈ evening1 M, Fair e := fair_visit hM (by decide +kernel) (by decide +kernel)
theorem fair2 {M : Libm} (hM : Accurate M) : ∀ e ∈ evening2 M, Fair e := fair_append (fair1 hM) (fair_visit hM (by decide +kernel) (by decide +kernel))
theorem fair3 {M : Libm} (hM : Accurate M) : ∀ e ∈ evening3 M, Fair e := fair_append (fair2 hM) (fair_visit hM (by decide +kernel) (by decide +kernel))
theorem fair4 {M : Libm} (hM : Accurate M) : ∀ e ∈ evening4 M, Fair e := fair_append (fair3 hM) (fair_visit hM (by decide +kernel) (by decide +kernel))

theorem run_append {σ : Type} : ∀ (l l' : List (Libm × Align64.Env σ × Op)) (T : Tel), run (l ++ l') T = (run l T >>= run l')
  | [], l', T => rfl
  | (M, env, op) :: l, l', T => by
    simp only [List.cons_append, run]
    cases h : step M env op T with
    | error e => simp only [bind_error]
    | ok T' => simp only [bind_ok]; exact run_append l l' T'

/-- One more star. -/
theorem visit_runs {M : Libm} {hist : List (Libm × Align64.Env (Option (ℚ × ℚ)) × Op)} (hF : ∀ e ∈ hist, Fair e) {T : Tel} (hr : run hist new = .ok T) {k : Star}
    (hk : ∀ e ∈ visit M k, Fair e) (hnew : k.at' ∉ (knows (calls hist)).stars.map Star.at') (hcap : (knows (calls hist)).stars.length < 63)
    (A : List (Pt ℚ)) (hA : A.Perm ((knows (calls hist)).stars.map Star.at' ++ [k.at'])) (hsort : A.Pairwise (fun p q => p.x < q.x)) (ts : List Tri)
    (hts : (Align64.triangulate demoEnv.test demoEnv.init A.length (pad A)).toOption.map Prod.snd = some ts) (hlen : ts.length ≤ 192) :
    ∃ T', run (hist ++ visit M k) new = .ok T' ∧ T'.alignment.triangles = ts := by
  have hR := run_known hF hr
  obtain ⟨m, hm⟩ : ∃ m, Align64.triangulate demoEnv.test demoEnv.init A.length (pad A) = .ok (m, ts) := by
    cases h : Align64.triangulate demoEnv.test demoEnv.init A.length (pad A) with
    | error e => rw [h] at hts; cases hts
    | ok r =>
      rw [h] at hts
      obtain ⟨m, ts'⟩ := r
      cases hts
      exact ⟨m, rfl⟩
  have hs : SaneDirection k.at' := (hk (M, demoEnv, .orient k.at') (by simp [visit])).2.2.2
  obtain ⟨T', h1, h2⟩ := sync_runs (hk (M, demoEnv, .sync k.ra k.dec k.lat k.lst) (by simp [visit])) (hR.turn hs) hnew hcap A hA hsort hm hlen
  refine ⟨T', ?_, h2⟩
  rw [run_append, hr, bind_ok]
  show (step M demoEnv (.sync k.ra k.dec k.lat k.lst) (setOrientation T k.at') >>= fun T => run [] T) = _
  rw [h1, bind_ok]
  rfl

theorem runs1 {M : Libm} (hM : Accurate M) : ∃ T, run (evening1 M) new = .ok T :=
  let ⟨T, h, _⟩ := visit_runs (hist := []) (by simp) rfl (fair1 hM) (by decide +kernel) (by decide +kernel) [dA] (by decide +kernel) (by decide +kernel) []
    (by decide +kernel) (by decide +kernel)
  ⟨T, h⟩

theorem runs2 {M : Libm} (hM : Accurate M) : ∃ T, run (evening2 M) new = .ok T := by
  obtain ⟨T, hT⟩ := runs1 hM
  obtain ⟨T, h, -⟩ := visit_runs (fair1 hM) hT (k := kB) (M := M) (fair_visit hM (by decide +kernel) (by decide +kernel))
    (by rw [knows1]; decide +kernel) (by rw [knows1]; decide +kernel) [dA, dB] (by rw [knows1]; decide +kernel) (by decide +kernel) [] (by decide +kernel) (by decide +kernel)
  exact ⟨T, h⟩

theorem runs3 {M : Libm} (hM : Accurate M) : ∃ T, run (evening3 M) new = .ok T ∧ T.alignment.triangles = [⟨0, 1, 2⟩] := by
  obtain ⟨T, hT⟩ := runs2 hM
  exact visit_runs (fair2 hM) hT (k := kC) (M := M) (fair_visit hM (by decide +kernel) (by decide +kernel))
    (by rw [knows2]; decide +kernel) (by rw [knows2]; decide +kernel) [dA, dB, dC] (by rw [knows2]; decide +kernel) (by decide +kernel) [⟨0, 1, 2⟩] (by decide +kernel)
    (by decide +kernel)

theorem runs4 {M : Libm} (hM : Accurate M) : ∃ T, run (evening4 M) new = .ok T ∧ T.alignment.triangles = [⟨1, 2, 3⟩, ⟨0, 1, 3⟩] := by
  obtain ⟨T, hT, -⟩ := runs3 hM
  exact visit_runs (fair3 hM) hT (k := kD) (M := M) (fair_visit hM (by decide +kernel) (by decide +kernel))
    (by rw [knows3]; decide +kernel) (by rw [knows3]; decide +kernel) [dA, dB, dD, dC] (by rw [knows3]; decide +kernel) (by decide +kernel)
    [⟨1, 2, 3⟩, ⟨0, 1, 3⟩] (by decide +kernel) (by decide +kernel)

/-- One star: the hypotheses of C79_one_star. -/
example : ∃ M, Accurate M ∧ ∃ T, run (evening1 M) new = .ok T ∧ ∃ ra dec, getCalibratedOrientation M (setOrientation T dA) 48 200 = .ok (.point, ra, dec) ∧
    SamePlace (2⁻¹ ^ 40) kA ra dec 200 := by
  obtain ⟨M, hM⟩ := accurate_exists
  obtain ⟨T, hT⟩ := runs1 hM
  obtain ⟨p, -, h⟩ := C79_one_star (evening1 M) (fair1 hM) T hT kA (by rw [knows1])
  obtain ⟨ra, dec, h1, -, -, -, -, h2⟩ := h M hM dA ⟨⟨rep_of (by decide +kernel), rep_of (by decide +kernel)⟩, by decide +kernel, by decide +kernel⟩ 48 200 (by norm_num) (by norm_num)
  exact ⟨M, hM, T, hT, ra, dec, h1, h2 rfl rfl⟩

/-- Two stars, 61 degrees apart: the hypotheses of C79_two_stars. -/
example : ∃ M, Accurate M ∧ ∃ T, run (evening2 M) new = .ok T ∧ ∃ ra dec, getCalibratedOrientation M (setOrientation T dB) 48 200 = .ok (.line, ra, dec) ∧
    SamePlace (1 / (2000 * (61 : ℚ) ^ 2)) kB ra dec 200 := by
  obtain ⟨M, hM⟩ := accurate_exists
  obtain ⟨T, hT⟩ := runs2 hM
  obtain ⟨ra, dec, h1, -, -, -, h2⟩ := C79_two_stars (evening2 M) (fair2 hM) T hT kA kB (by rw [knows2]) 61 (by norm_num) (by decide +kernel) M hM kB (by simp) 200 (by norm_num)
  exact ⟨M, hM, T, hT, ra, dec, h1, h2⟩

/-- Three stars, heights above 40 degrees: the hypotheses of C79_three_stars; the triangulation finds the triangle. -/
example : ∃ M, Accurate M ∧ ∃ T, run (evening3 M) new = .ok T ∧ ∃ ra dec, getCalibratedOrientation M (setOrientation T dC) 48 200 = .ok (.triangleIn, ra, dec) ∧
    SamePlace (1 / (100000 * (40 : ℚ) ^ 2)) kC ra dec 200 := by
  obtain ⟨M, hM⟩ := accurate_exists
  obtain ⟨T, hT, ht⟩ := runs3 hM
  rcases C79_three_stars (evening3 M) (fair3 hM) T hT kA kB kC (by rw [knows3]) 40 (by norm_num) (by unfold Tall; decide +kernel) M hM kC (by simp) 200 (by norm_num)
    with h | ⟨ra, dec, h1, -, -, -, h2⟩
  · exfalso
    have := h dC
    unfold Align64.getTransformationType at this
    rw [ht] at this
    simp only at this
    obtain ⟨r, -, this⟩ := bind_eq_ok.1 this
    cases r <;> cases this
  · exact ⟨M, hM, T, hT, ra, dec, h1, h2⟩

/-! ### Nothing else goes wrong -/

/-- **C79.** Whatever the tests of the triangulation answer, no history of orientations, syncs and resets (sane arguments, an accurate library) makes the
telescope read outside of its arrays, use an indeterminate value or leave the finite numbers while it stores a star; the only thing that can go
wrong is that the triangulation has more triangles or edges than its arrays have elements. -/
theorem C79_total {σ : Type} (hist : List (Libm × Align64.Env σ × Op)) (hF : ∀ e ∈ hist, Fair e ∧ ∀ st p a b c, ∃ r, e.2.1.test st p a b c = .ok r) :
    (∃ T, run hist new = .ok T) ∨ run hist new = .error (.ub .oobWrite) :=
  run_total hist hF new ⟨⟨0, 0⟩, []⟩ Rep.new (fun t ht => by simp [new, Align64.fresh] at ht)

/-- The tests of the code where they have an answer, otherwise `no`. -/
def tolerantEnv : Align64.Env (Option (ℚ × ℚ)) :=
  { demoEnv with test := fun st p a b c => .ok (((demoEnv.test st p a b c).toOption).getD ⟨false, false, st⟩) }

/-- The hypotheses of C79_total, with two stars and a reset. -/
example : ∃ M, ∀ e ∈ [(M, tolerantEnv, Op.orient dA), (M, tolerantEnv, .sync 30 20 48 100), (M, tolerantEnv, .orient dB), (M, tolerantEnv, .sync 80 60 48 101),
    (M, tolerantEnv, .clear)], Fair e ∧ ∀ st p a b c, ∃ r, e.2.1.test st p a b c = .ok r := by
  obtain ⟨M, hM⟩ := accurate_exists
  have st : ∀ i, |tolerantEnv.stray i| ≤ 1 := fun i => by show |(0 : ℚ)| ≤ 1; norm_num
  refine ⟨M, fun e he => ?_⟩
  simp only [List.mem_cons, List.not_mem_nil, or_false] at he
  rcases he with rfl | rfl | rfl | rfl | rfl <;>
    refine ⟨⟨hM, demo_sort, st, ?_⟩, fun _ _ _ _ _ => ⟨_, rfl⟩⟩
  · exact ⟨⟨rep_of (by decide +kernel), rep_of (by decide +kernel)⟩, by decide +kernel, by decide +kernel⟩
  · unfold Sane; norm_num
  · exact ⟨⟨rep_of (by decide +kernel), rep_of (by decide +kernel)⟩, by decide +kernel, by decide +kernel⟩
  · unfold Sane; norm_num
  · trivial

/-! ### A direction that is missed -/

/-- A direction well inside the triangle of the first three stars. -/
def dZ : Pt ℚ := ⟨201.890625, 30.921875⟩

/-- **C79** (defect) The areas are compared as `float`s with a limit of `10^-4` square degrees, which is less than their rounding errors when the triangle has
more than about a thousand square degrees.  In the evening above a direction well inside the triangle of the stars A, B, C (every one of the three
partial triangles has more than 200 square degrees) is in no triangle according to the test, and the reading is that of the triangle of the stars B, D, C,
whose centre is nearer. -/
theorem C79_missed : Inside 0 dZ dA dB dC ∧ 400 < |orient dZ dB dC| ∧ 400 < |orient dA dZ dC| ∧ 400 < |orient dA dB dZ| ∧
    ∀ M, Accurate M → ∃ T, run (evening4 M) new = .ok T ∧ Align64.getTransformationType T.alignment dZ = .ok .triangleOut ∧
      ∃ i t, T.alignment.triangles[i]? = some t ∧ Align64.getTransformationMatrix T.alignment dZ = Align64.matrixAt T.alignment i ∧
        ([t.p1, t.p2, t.p3].map fun j => (T.alignment.vertices[j]?).map VertexPair.actual) = [some dB, some dD, some dC] := by
  refine ⟨by unfold Inside; decide +kernel, by decide +kernel, by decide +kernel, by decide +kernel, ?_⟩
  intro M hM
  obtain ⟨T, hT, ht⟩ := runs4 hM
  refine ⟨T, hT, ?_⟩
  have hR : Rep T (knows (calls (evening4 M))) := run_known (fair4 hM) hT
  rw [knows4] at hR
  have hn : T.alignment.numVertices = 4 := hR.inv.num
  have hused : T.alignment.used.map VertexPair.actual = [dA, dB, dD, dC] := by
    have hp : (T.alignment.used.map VertexPair.actual).Perm [dA, dB, dD, dC] := by
      refine hR.inv.stores.actual.trans ?_
      decide +kernel
    have hs1 : (T.alignment.used.map VertexPair.actual).Pairwise (fun p q => p.x ≤ q.x) := List.pairwise_map.2 hR.inv.sorted
    refine hp.eq_of_pairwise (le := fun p q => p.x ≤ q.x) ?_ hs1 (by decide +kernel)
    intro p q hp' hq hpq hqp
    have hx : p.x = q.x := le_antisymm hpq hqp
    have hpA := hp.subset hp'
    have key : ∀ p ∈ [dA, dB, dD, dC], ∀ q ∈ [dA, dB, dD, dC], p.x = q.x → p = q := by decide +kernel
    exact key p hpA q hq hx
  have hv : ∀ j < 4, (T.alignment.vertices[j]?).map VertexPair.actual = [dA, dB, dD, dC][j]? := by
    intro j hj
    rw [← hused, List.getElem?_map]
    unfold Align64.State.used
    rw [List.getElem?_take, if_pos (by omega)]
  have hvx : ∀ j < 4, ∀ p, [dA, dB, dD, dC][j]? = some p → ∃ v, T.alignment.vertices[j]? = some v ∧ v.actual = p := by
    intro j hj p hp
    have := hv j hj
    rw [hp] at this
    exact Option.map_eq_some_iff.1 this
  obtain ⟨v0, a0, b0⟩ := hvx 0 (by omega) dA rfl
  obtain ⟨v1, a1, b1⟩ := hvx 1 (by omega) dB rfl
  obtain ⟨v2, a2, b2⟩ := hvx 2 (by omega) dD rfl
  obtain ⟨v3, a3, b3⟩ := hvx 3 (by omega) dC rfl
  have t1 : Align64.inTri T.alignment dZ ⟨1, 2, 3⟩ = .ok false := by rw [inTri_ok a1 a2 a3, b1, b2, b3]; decide +kernel
  have t2 : Align64.inTri T.alignment dZ ⟨0, 1, 3⟩ = .ok false := by rw [inTri_ok a0 a1 a3, b0, b1, b3]; decide +kernel
  have fc : Align64.firstContaining T.alignment dZ 0 [⟨1, 2, 3⟩, ⟨0, 1, 3⟩] = .ok none := by
    simp only [Align64.firstContaining, t1, t2, bind_ok]
  have c1 : Align64.centreDistance T.alignment dZ ⟨1, 2, 3⟩ = Align64.centreDistance
      ⟨pad [dA, dB, dD, dC], 4, [], []⟩ dZ ⟨1, 2, 3⟩ := by
    unfold Align64.centreDistance
    simp only [vertex_some a1, vertex_some a2, vertex_some a3, bind_ok, b1, b2, b3]
    rfl
  have c2 : Align64.centreDistance T.alignment dZ ⟨0, 1, 3⟩ = Align64.centreDistance
      ⟨pad [dA, dB, dD, dC], 4, [], []⟩ dZ ⟨0, 1, 3⟩ := by
    unfold Align64.centreDistance
    simp only [vertex_some a0, vertex_some a1, vertex_some a3, bind_ok, b0, b1, b3]
    rfl
  have nt : Align64.nearestTriangle T.alignment dZ = .ok (some 0) := by
    unfold Align64.nearestTriangle
    rw [ht]
    simp only [Align64.nearestLoop, c1, c2]
    decide +kernel
  refine ⟨?_, 0, ⟨1, 2, 3⟩, by rw [ht]; rfl, ?_, ?_⟩
  · unfold Align64.getTransformationType
    rw [ht]
    simp only [fc, bind_ok]
  · unfold Align64.getTransformationMatrix Align64.nearestMatrix
    rw [ht]
    simp only [fc, bind_ok, nt]
  · simp only [List.map_cons, List.map_nil, a1, a2, a3, Option.map_some, b1, b2, b3]

end Verif.Telescope64
