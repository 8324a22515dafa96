import Verif.Props.SharedWords

/-!
# C81, continued: a single access
-/

namespace Verif.Shared

set_option linter.unusedSimpArgs false

open Verif.Align

variable {K : Type}

/-- One task assigns `new` to the member, the other reads it. -/
def tearTask (l : Loc) (new : l.Ty K) : Race.Task → Prog K (l.Ty K)
  | .loop => .put l new (.ret new)
  | .bluetooth => .get l .ret

/-- A task assigns `new` to the member `l` while the other reads it: the numbers the reader can get are exactly the old one, the new one and the two
that consist of one word of each. -/
def Tears (mix : K → K → K) (l : Loc) (both : l.Ty K → l.Ty K → l.Ty K) : Prop :=
  ∀ (m : Words K) (old new : l.Ty K), m.up l = some old → m.low l = some old → ∀ v : l.Ty K,
    (∃ sched ps m', wpar mix sched (fun t => .run (tearTask l new t)) m = .ok (ps, m') ∧
      ps .bluetooth = .run (.ret v)) ↔ v = old ∨ v = new ∨ v = both new old ∨ v = both old new

/-- What can have become of the two tasks. -/
def TearInv (mix : K → K → K) (l : Loc) (old new : l.Ty K) (ps : Race.Task → Pend K (l.Ty K)) (m : Words K) : Prop :=
  (∃ a, (a = old ∨ a = new) ∧ m.up l = some a) ∧ (∃ a, (a = old ∨ a = new) ∧ m.low l = some a) ∧
  (ps .loop = .run (.put l new (.ret new)) ∨ ps .loop = .putUp l new (.ret new) ∨ ps .loop = .putLow l new (.ret new) ∨ ps .loop = .run (.ret new)) ∧
  (ps .bluetooth = .run (.get l .ret) ∨ (∃ a, (a = old ∨ a = new) ∧ (ps .bluetooth = .gotUp l a .ret ∨ ps .bluetooth = .gotLow l a .ret)) ∨
    ∃ a b, (a = old ∨ a = new) ∧ (b = old ∨ b = new) ∧ ps .bluetooth = .run (.ret (l.join mix a b)))

theorem tear_step {mix : K → K → K} {l : Loc} (hw : l.wide = true) (hv : l.valid = true) {old new : l.Ty K} {ps : Race.Task → Pend K (l.Ty K)}
    {m : Words K} (h : TearInv mix l old new ps m) (t : Race.Task × Bool) {r : Pend K (l.Ty K) × Words K} (e : wstep mix t.2 (ps t.1) m = .ok r) :
    TearInv mix l old new (Function.update ps t.1 r.1) r.2 := by
  obtain ⟨⟨a, ha, ua⟩, ⟨b, hb, lb⟩, hl, hr⟩ := h
  obtain ⟨t, f⟩ := t
  cases t
  case bluetooth =>
    rcases hr with hr | ⟨c, hc, hr | hr⟩ | ⟨c, d, hc, hd, hr⟩ <;> simp only [hr, wstep, hv, startGet, hw, if_true, load, ua, lb] at e
    · cases f <;> cases e
      · exact ⟨⟨a, ha, ua⟩, ⟨b, hb, lb⟩, by simpa using hl, Or.inr (Or.inl ⟨b, hb, Or.inr (by simp)⟩)⟩
      · exact ⟨⟨a, ha, ua⟩, ⟨b, hb, lb⟩, by simpa using hl, Or.inr (Or.inl ⟨a, ha, Or.inl (by simp)⟩)⟩
    · cases e
      exact ⟨⟨a, ha, ua⟩, ⟨b, hb, lb⟩, by simpa using hl, Or.inr (Or.inr ⟨c, b, hc, hb, by simp⟩)⟩
    · cases e
      exact ⟨⟨a, ha, ua⟩, ⟨b, hb, lb⟩, by simpa using hl, Or.inr (Or.inr ⟨a, c, ha, hc, by simp⟩)⟩
    · cases e
      exact ⟨⟨a, ha, ua⟩, ⟨b, hb, lb⟩, by simpa using hl, Or.inr (Or.inr ⟨c, d, hc, hd, by simp⟩)⟩
  case loop =>
    rcases hl with hl | hl | hl | hl <;> simp only [hl, wstep, hv, startPut, hw, if_true] at e
    · cases f <;> cases e <;> refine ⟨?_, ?_, ?_, ?_⟩ <;> simp_all [Words.storeUp, Words.storeLow]
    all_goals cases e; refine ⟨?_, ?_, ?_, ?_⟩ <;> simp_all [Words.storeUp, Words.storeLow]

theorem tear_run {mix : K → K → K} {l : Loc} (hw : l.wide = true) (hv : l.valid = true) {old new : l.Ty K} : ∀ (sched : List (Race.Task × Bool))
    {ps ps' : Race.Task → Pend K (l.Ty K)} {m m' : Words K}, TearInv mix l old new ps m → wpar mix sched ps m = .ok (ps', m') →
    TearInv mix l old new ps' m'
  | [], _, _, _, _, h, e => by cases e; exact h
  | t :: sched, ps, _, m, _, h, e => by
    unfold wpar at e
    cases hs : wstep mix t.2 (ps t.1) m with
    | error => rw [hs] at e; cases e
    | ok r => rw [hs] at e; exact tear_run hw hv sched (tear_step hw hv h t hs) e

theorem tears {mix : K → K → K} {l : Loc} (hw : l.wide = true) (hv : l.valid = true) (hj : ∀ v, l.join mix v v = v) : Tears mix l (l.join mix) := by
  intro m old new hu hl v
  constructor
  · rintro ⟨sched, ps, m', e, hr⟩
    have I : TearInv mix l old new (fun t => .run (tearTask l new t)) m :=
      ⟨⟨old, Or.inl rfl, hu⟩, ⟨old, Or.inl rfl, hl⟩, Or.inl rfl, Or.inl rfl⟩
    obtain ⟨-, -, -, h⟩ := tear_run hw hv sched I e
    rw [hr] at h
    rcases h with h | ⟨c, hc, h | h⟩ | ⟨c, d, hc, hd, h⟩
    · cases h
    · cases h
    · cases h
    · simp only [Pend.run.injEq, Prog.ret.injEq] at h
      rcases hc with rfl | rfl <;> rcases hd with rfl | rfl <;> simp [h, hj]
  · intro h
    have run : ∀ sched : List (Race.Task × Bool), ∀ v, (∃ r, wpar mix sched (fun t => .run (tearTask l new t)) m = .ok r ∧
        r.1 .bluetooth = .run (.ret v)) →
        ∃ sched ps m', wpar mix sched (fun t => .run (tearTask l new t)) m = .ok (ps, m') ∧ ps .bluetooth = .run (.ret v) :=
      fun sched v ⟨r, e, h⟩ => ⟨sched, r.1, r.2, e, h⟩
    rcases h with rfl | rfl | rfl | rfl
    · refine run [(.bluetooth, true), (.bluetooth, true)] _ ?_
      simp [wpar, wstep, hv, startGet, hw, load, hu, hl, hj, bind, Except.bind, Function.update, tearTask]
    · refine run [(.loop, true), (.loop, true), (.bluetooth, true), (.bluetooth, true)] _ ?_
      simp [wpar, wstep, hv, startGet, startPut, hw, load, hu, hl, hj, bind, Except.bind, Function.update, tearTask, Words.storeUp, Words.storeLow]
    · refine run [(.loop, true), (.bluetooth, true), (.bluetooth, true)] _ ?_
      simp [wpar, wstep, hv, startGet, startPut, hw, load, hu, hl, hj, bind, Except.bind, Function.update, tearTask, Words.storeUp, Words.storeLow]
    · refine run [(.loop, false), (.bluetooth, true), (.bluetooth, true)] _ ?_
      simp [wpar, wstep, hv, startGet, startPut, hw, load, hu, hl, hj, bind, Except.bind, Function.update, tearTask, Words.storeUp, Words.storeLow]

/-- **C81.** One assignment and one read of the same member at the same time: the coordinates of the stars, the elements of the matrices and the orientation
can be seen with one word of the old and one of the new number - both ways, and nothing else can be seen. -/
theorem C81_tearing (mix : K → K → K) (hmix : ∀ v, mix v v = v) : (∀ i < 67, ∀ f, Tears mix (.vert i f) mix) ∧
    (∀ i < 192, ∀ r c, Tears mix (.mat i r c) mix) ∧ Tears mix .az mix ∧ Tears mix .alt mix :=
  ⟨fun _ hi _ => tears rfl (by simpa [Loc.valid] using hi) hmix, fun _ hi _ _ => tears rfl (by simpa [Loc.valid] using hi) hmix, tears rfl rfl hmix,
    tears rfl rfl hmix⟩

/-- The hypothesis is met by `double`s: the azimuth turns from just below 256 to 256, and the reader gets almost 256 + 2⁻¹². -/
example : Tears mixDouble .az mixDouble ∧ mixDouble 256 below256 = 256 + 1 / 2 ^ 12 - 1 / 2 ^ 44 ∧ mixDouble below256 256 = 256 - 1 / 2 ^ 13 := by
  refine ⟨(C81_tearing mixDouble (fun v => if_pos rfl)).2.2.1, by decide +kernel, by decide +kernel⟩

/-- What can have become of the two tasks if the member is one word. -/
def WholeInv (l : Loc) (old new : l.Ty K) (ps : Race.Task → Pend K (l.Ty K)) (m : Words K) : Prop :=
  (m.up l = some old ∨ m.up l = some new) ∧ (ps .loop = .run (.put l new (.ret new)) ∨ ps .loop = .run (.ret new)) ∧
  (ps .bluetooth = .run (.get l .ret) ∨ ∃ a, (a = old ∨ a = new) ∧ ps .bluetooth = .run (.ret a))

theorem whole_step {mix : K → K → K} {l : Loc} (hw : l.wide = false) (hv : l.valid = true) {old new : l.Ty K} {ps : Race.Task → Pend K (l.Ty K)}
    {m : Words K} (h : WholeInv l old new ps m) (t : Race.Task × Bool) {r : Pend K (l.Ty K) × Words K} (e : wstep mix t.2 (ps t.1) m = .ok r) :
    WholeInv l old new (Function.update ps t.1 r.1) r.2 := by
  obtain ⟨hu, hl, hr⟩ := h
  obtain ⟨t, f⟩ := t
  cases t
  case bluetooth =>
    rcases hr with hr | ⟨c, hc, hr⟩
    · rcases hu with hu | hu <;> simp only [hr, wstep, hv, startGet, hw, if_true, load, hu] at e <;> cases e
      · exact ⟨Or.inl hu, by simpa using hl, Or.inr ⟨old, Or.inl rfl, by simp⟩⟩
      · exact ⟨Or.inr hu, by simpa using hl, Or.inr ⟨new, Or.inr rfl, by simp⟩⟩
    · simp only [hr, wstep] at e
      cases e
      exact ⟨hu, by simpa using hl, Or.inr ⟨c, hc, by simp⟩⟩
  case loop =>
    rcases hl with hl | hl <;> simp only [hl, wstep, hv, startPut, hw, if_true] at e <;> cases e
    · exact ⟨Or.inr (by simp [Words.storeUp, Words.storeLow]), Or.inr (by simp), by simpa using hr⟩
    · exact ⟨hu, Or.inr (by simp), by simpa using hr⟩

theorem whole_run {mix : K → K → K} {l : Loc} (hw : l.wide = false) (hv : l.valid = true) {old new : l.Ty K} : ∀ (sched : List (Race.Task × Bool))
    {ps ps' : Race.Task → Pend K (l.Ty K)} {m m' : Words K}, WholeInv l old new ps m → wpar mix sched ps m = .ok (ps', m') →
    WholeInv l old new ps' m'
  | [], _, _, _, _, h, e => by cases e; exact h
  | t :: sched, ps, _, m, _, h, e => by
    unfold wpar at e
    cases hs : wstep mix t.2 (ps t.1) m with
    | error => rw [hs] at e; cases e
    | ok r => rw [hs] at e; exact whole_run hw hv sched (whole_step hw hv h t hs) e

/-- **C81.** The numbers of stars and triangles and the corners of the triangles, one word each, are seen as they were or as they are assigned. -/
theorem C81_whole (mix : K → K → K) (l : Loc) (hl : l = .numV ∨ l = .numT ∨ ∃ i k, l = .tri i k ∧ 0 ≤ i ∧ i < 192) (m : Words K) (old new v : l.Ty K)
    (hm : m.up l = some old) (sched : List (Race.Task × Bool)) (ps : Race.Task → Pend K (l.Ty K)) (m' : Words K)
    (e : wpar mix sched (fun t => .run (tearTask l new t)) m = .ok (ps, m')) (hr : ps .bluetooth = .run (.ret v)) : v = old ∨ v = new := by
  have hw : l.wide = false := by rcases hl with rfl | rfl | ⟨i, k, rfl, -⟩ <;> rfl
  have hv : l.valid = true := by
    rcases hl with rfl | rfl | ⟨i, k, rfl, h0, h1⟩
    · rfl
    · rfl
    · simpa [Loc.valid] using ⟨h0, h1⟩
  obtain ⟨-, -, h⟩ := whole_run hw hv sched (ps := fun t => .run (tearTask l new t)) (old := old) (new := new) ⟨Or.inl hm, Or.inl rfl, Or.inl rfl⟩ e
  rw [hr] at h
  rcases h with h | ⟨c, hc, h⟩
  · cases h
  · simp only [Pend.run.injEq, Prog.ret.injEq] at h
    rw [h]; exact hc

/-- A schedule for `C81_whole`: the number of stars goes from 3 to 4 and is then read. -/
example : ∃ ps m', wpar mixDouble [(.loop, true), (.bluetooth, false)] (fun t => .run (tearTask .numV (4 : ℕ) t))
    ⟨fun _ => none, fun _ => none⟩ = .ok (ps, m') ∧ ps .bluetooth = .run (.ret (4 : ℕ)) := by
  refine ⟨_, _, rfl, rfl⟩

end Verif.Shared
