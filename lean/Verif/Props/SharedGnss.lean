import Verif.Spec.SharedGnss
import Verif.Lemmas.Strto
import Verif.Props.GnssState

/-!
# C77: GNSS data read by the Bluetooth task while `loop()` parses
-/

namespace Verif.SharedGnss

open Verif.Nmea Verif.NexStar

/-! ### The assignments amount to the parser of `Model/Gnss.lean` -/

/-- Same prefix of a computation on both sides of an equation. -/
theorem bind_map_congr {α β γ : Type} (x : C α) (f : α → C β) (k : α → C γ) (h : γ → β) (e : ∀ a, x = .ok a → f a = (k a).map h) :
    (x >>= f) = (x >>= k).map h := by
  cases x with
  | error e => rfl
  | ok a => rw [bind_ok, bind_ok]; exact e a rfl

/-- The assignment of an angle. -/
theorem angle_bind {α : Type} (valid pos : Bool) (raw : ℚ) (put : ℚ → Put) (old : ℚ) (f : ℚ → C α) (k : List Put → C (List Put))
    (h : List Put → α) (h0 : valid = false → f old = (k []).map h) (h1 : ∀ q, valid = true → f q = (k [put q]).map h) :
    (updateAngle valid pos raw old >>= f) = (anglePut valid pos raw put >>= k).map h := by
  unfold updateAngle anglePut
  cases valid with
  | false => simp only [Bool.false_eq_true, if_false, bind_ok]; exact h0 rfl
  | true =>
    simp only [if_true]
    cases toDegrees raw with
    | error e => rfl
    | ok d => simp only [bind_ok, pure_ok]; exact h1 _ rfl

/-- The assignments of one sentence, made one after the other, are the sentence of `Model/Gnss.lean`. -/
theorem rmc_puts (P : Platform) (g : Gnss) (ptr : Ptr) : rmcBody P g ptr = (rmcPuts P ptr).map fun ps => ps.foldl Put.apply g := by
  unfold rmcBody rmcPuts
  refine bind_map_congr _ _ _ _ fun a _ => ?_
  refine bind_map_congr _ _ _ _ fun t _ => ?_
  refine bind_map_congr _ _ _ _ fun c _ => ?_
  refine bind_map_congr _ _ _ _ fun p2 _ => ?_
  refine bind_map_congr _ _ _ _ fun a2 _ => ?_
  refine bind_map_congr _ _ _ _ fun c2 _ => ?_
  refine angle_bind _ _ _ _ _ _ _ _ (fun hv => ?_) (fun q hv => ?_)
  all_goals
    refine bind_map_congr _ _ _ _ fun p3 _ => ?_
    refine bind_map_congr _ _ _ _ fun a3 _ => ?_
    refine bind_map_congr _ _ _ _ fun c3 _ => ?_
    refine angle_bind _ _ _ _ _ _ _ _ (fun hv' => ?_) (fun q' hv' => ?_)
  all_goals
    refine bind_map_congr _ _ _ _ fun p4 _ => ?_
    refine bind_map_congr _ _ _ _ fun a4 _ => ?_
    refine bind_map_congr _ _ _ _ fun sp _ => ?_
    refine bind_map_congr _ _ _ _ fun a5 _ => ?_
    refine bind_map_congr _ _ _ _ fun a6 _ => ?_
    refine bind_map_congr _ _ _ _ fun d _ => ?_
    rfl

theorem gga_puts (P : Platform) (g : Gnss) (ptr : Ptr) : ggaBody P g ptr = (ggaPuts P ptr).map fun ps => ps.foldl Put.apply g := by
  unfold ggaBody ggaPuts
  refine bind_map_congr _ _ _ _ fun a _ => ?_
  refine bind_map_congr _ _ _ _ fun t _ => ?_
  refine bind_map_congr _ _ _ _ fun a2 _ => ?_
  refine bind_map_congr _ _ _ _ fun c2 _ => ?_
  refine bind_map_congr _ _ _ _ fun p3 _ => ?_
  refine bind_map_congr _ _ _ _ fun a3 _ => ?_
  refine bind_map_congr _ _ _ _ fun c3 _ => ?_
  refine bind_map_congr _ _ _ _ fun p4 _ => ?_
  refine bind_map_congr _ _ _ _ fun a4 _ => ?_
  refine angle_bind _ _ _ _ _ _ _ _ (fun hv => ?_) (fun q hv => ?_)
  all_goals
    refine angle_bind _ _ _ _ _ _ _ _ (fun hv' => ?_) (fun q' hv' => ?_)
  all_goals
    refine bind_map_congr _ _ _ _ fun a5 _ => ?_
    refine bind_map_congr _ _ _ _ fun a6 _ => ?_
    refine bind_map_congr _ _ _ _ fun a7 _ => ?_
    rfl

theorem gsv_puts (P : Platform) (g : Gnss) (ptr : Ptr) : gsvBody P g ptr = (gsvPuts P ptr).map fun ps => ps.foldl Put.apply g := by
  unfold gsvBody gsvPuts
  refine bind_map_congr _ _ _ _ fun a _ => ?_
  refine bind_map_congr _ _ _ _ fun a2 _ => ?_
  refine bind_map_congr _ _ _ _ fun a3 _ => ?_
  rfl

theorem sentence_puts (P : Platform) (g : Gnss) (header : List UInt8) (body : Ptr → C (List Put)) (body' : Gnss → Ptr → C Gnss)
    (h : ∀ ptr, body' g ptr = (body ptr).map fun ps => ps.foldl Put.apply g) (s : List UInt8) :
    (do
      let ok ← verifyChecksum P s
      if ok then
        match findSub header s with
        | none => return (false, g)
        | some pos =>
          let g' ← body' g ((cStr s).drop (pos + 6 + 1))
          return (true, g')
      else return (false, g)) = (sentencePuts P header body s).map fun q => (q.1, q.2.foldl Put.apply g) := by
  unfold sentencePuts
  refine bind_map_congr _ _ _ _ fun ok _ => ?_
  cases ok with
  | false => rfl
  | true =>
    simp only [if_true]
    cases findSub header s with
    | none => rfl
    | some pos =>
      simp only [h]
      cases body ((cStr s).drop (pos + 6 + 1)) <;> rfl

/-- **One piece of the received data.**  Its assignments, made one after the other without interruption, have the effect of `fromNMEA`. -/
theorem C77_piece (P : Platform) (g : Gnss) (s : List UInt8) :
    fromNMEA P g s = (nmeaPuts P s).map fun q => (q.1, q.2.foldl Put.apply g) := by
  unfold fromNMEA nmeaPuts
  split
  · exact sentence_puts P g RMC_HEADER (rmcPuts P) (rmcBody P) (rmc_puts P g) s
  · split
    · exact sentence_puts P g GGA_HEADER (ggaPuts P) (ggaBody P) (gga_puts P g) s
    · split
      · exact sentence_puts P g GSV_HEADER (gsvPuts P) (gsvBody P) (gsv_puts P g) s
      · rfl

theorem settled_cons (g : Gnss) (ps : List Put) (blocks : List (List Put)) (j : Nat) :
    settled g (ps :: blocks) (j + 1) = settled (ps.foldl Put.apply g) blocks j := rfl

theorem bufferLoop_puts (P : Platform) (s : List UInt8) : ∀ (fuel endPos sentences : Nat) (g : Gnss),
    fromBufferLoop P s fuel endPos sentences g =
      (bufferLoopPuts P s fuel endPos sentences).map fun o => o.map fun q => (q.1, settled g q.2 q.2.length) := by
  intro fuel
  induction fuel with
  | zero => intros; rfl
  | succ fuel ih =>
    intro endPos sentences g
    unfold fromBufferLoop bufferLoopPuts
    cases findFrom [36] s endPos with
    | none => rfl
    | some a =>
      cases findFrom [10] s (endPos + 1) with
      | none => rfl
      | some b =>
        simp only [C77_piece P g]
        cases nmeaPuts P (substr s a b) with
        | error e => rfl
        | ok q =>
          obtain ⟨ok, ps⟩ := q
          simp only [Except.map, bind_ok, ih]
          cases bufferLoopPuts P s fuel b (if ok = true then sentences + 1 else sentences) with
          | error e => rfl
          | ok o =>
            cases o with
            | none => rfl
            | some r =>
              simp only [bind_ok, pure_ok, Option.map_some, List.length_cons, settled_cons]

/-- **The whole data.**  The assignments, made one after the other without interruption, have the effect of `fromBuffer`. -/
theorem C77_buffer (P : Platform) (g : Gnss) (buffer : List UInt8) :
    fromBuffer P g buffer = (bufferPuts P buffer).map fun o => o.map fun q => (q.1, settled g q.2 q.2.length) :=
  bufferLoop_puts P buffer _ _ _ _

/-! ### Every member is assigned at most once per sentence -/

/-- The member an assignment is about. -/
def Put.member : Put → Nat
  | .hour _ => 0 | .min _ => 1 | .sec _ => 2 | .mday _ => 3 | .mon _ => 4 | .year _ => 5 | .valid _ => 6 | .satUsed _ => 7 | .satView _ => 8
  | .dilution _ => 9 | .latitude _ => 10 | .longitude _ => 11 | .north _ => 12 | .east _ => 13 | .speed _ => 14 | .course _ => 15
  | .altitude _ => 16

/-- No member is assigned twice. -/
def Once (ps : List Put) : Prop := (ps.map Put.member).Nodup

theorem anglePut_cases {valid pos : Bool} {raw : ℚ} {put : ℚ → Put} {ps : List Put} (h : anglePut valid pos raw put = .ok ps) :
    ps = [] ∨ ∃ q, ps = [put q] := by
  unfold anglePut at h
  split at h
  · obtain ⟨d, -, h⟩ := bind_eq_ok.1 h
    simp only [pure_ok, Except.ok.injEq] at h
    exact Or.inr ⟨_, h.symm⟩
  · simp only [Except.ok.injEq] at h; exact Or.inl h.symm

theorem rmc_once {P : Platform} {ptr : Ptr} {ps : List Put} (h : rmcPuts P ptr = .ok ps) : Once ps := by
  unfold rmcPuts at h
  obtain ⟨a, -, h⟩ := bind_eq_ok.1 h
  obtain ⟨t, -, h⟩ := bind_eq_ok.1 h
  obtain ⟨c, -, h⟩ := bind_eq_ok.1 h
  obtain ⟨p2, -, h⟩ := bind_eq_ok.1 h
  obtain ⟨a2, -, h⟩ := bind_eq_ok.1 h
  obtain ⟨c2, -, h⟩ := bind_eq_ok.1 h
  obtain ⟨lat, hlat, h⟩ := bind_eq_ok.1 h
  obtain ⟨p3, -, h⟩ := bind_eq_ok.1 h
  obtain ⟨a3, -, h⟩ := bind_eq_ok.1 h
  obtain ⟨c3, -, h⟩ := bind_eq_ok.1 h
  obtain ⟨lon, hlon, h⟩ := bind_eq_ok.1 h
  obtain ⟨p4, -, h⟩ := bind_eq_ok.1 h
  obtain ⟨a4, -, h⟩ := bind_eq_ok.1 h
  obtain ⟨sp, -, h⟩ := bind_eq_ok.1 h
  obtain ⟨a5, -, h⟩ := bind_eq_ok.1 h
  obtain ⟨a6, -, h⟩ := bind_eq_ok.1 h
  obtain ⟨d, -, h⟩ := bind_eq_ok.1 h
  simp only [pure_ok, Except.ok.injEq] at h
  subst h
  unfold Once
  rcases anglePut_cases hlat with rfl | ⟨q, rfl⟩ <;> rcases anglePut_cases hlon with rfl | ⟨q', rfl⟩ <;>
    simp [Put.member]

theorem gga_once {P : Platform} {ptr : Ptr} {ps : List Put} (h : ggaPuts P ptr = .ok ps) : Once ps := by
  unfold ggaPuts at h
  obtain ⟨a, -, h⟩ := bind_eq_ok.1 h
  obtain ⟨t, -, h⟩ := bind_eq_ok.1 h
  obtain ⟨a2, -, h⟩ := bind_eq_ok.1 h
  obtain ⟨c2, -, h⟩ := bind_eq_ok.1 h
  obtain ⟨p3, -, h⟩ := bind_eq_ok.1 h
  obtain ⟨a3, -, h⟩ := bind_eq_ok.1 h
  obtain ⟨c3, -, h⟩ := bind_eq_ok.1 h
  obtain ⟨p4, -, h⟩ := bind_eq_ok.1 h
  obtain ⟨a4, -, h⟩ := bind_eq_ok.1 h
  obtain ⟨lat, hlat, h⟩ := bind_eq_ok.1 h
  obtain ⟨lon, hlon, h⟩ := bind_eq_ok.1 h
  obtain ⟨a5, -, h⟩ := bind_eq_ok.1 h
  obtain ⟨a6, -, h⟩ := bind_eq_ok.1 h
  obtain ⟨a7, -, h⟩ := bind_eq_ok.1 h
  simp only [pure_ok, Except.ok.injEq] at h
  subst h
  unfold Once
  rcases anglePut_cases hlat with rfl | ⟨q, rfl⟩ <;> rcases anglePut_cases hlon with rfl | ⟨q', rfl⟩ <;>
    simp [Put.member]

theorem gsv_once {P : Platform} {ptr : Ptr} {ps : List Put} (h : gsvPuts P ptr = .ok ps) : Once ps := by
  unfold gsvPuts at h
  obtain ⟨a, -, h⟩ := bind_eq_ok.1 h
  obtain ⟨a2, -, h⟩ := bind_eq_ok.1 h
  obtain ⟨a3, -, h⟩ := bind_eq_ok.1 h
  simp only [pure_ok, Except.ok.injEq] at h
  subst h
  simp [Once]

theorem sentence_once {P : Platform} {header : List UInt8} {body : Ptr → C (List Put)} (hb : ∀ {ptr ps}, body ptr = .ok ps → Once ps)
    {s : List UInt8} {ok : Bool} {ps : List Put} (h : sentencePuts P header body s = .ok (ok, ps)) : Once ps := by
  unfold sentencePuts at h
  obtain ⟨v, -, h⟩ := bind_eq_ok.1 h
  split at h
  · split at h
    · simp only [pure_ok, Except.ok.injEq, Prod.mk.injEq] at h
      rw [← h.2]; exact List.nodup_nil
    · obtain ⟨q, hq, h⟩ := bind_eq_ok.1 h
      simp only [pure_ok, Except.ok.injEq, Prod.mk.injEq] at h
      rw [← h.2]; exact hb hq
  · simp only [pure_ok, Except.ok.injEq, Prod.mk.injEq] at h
    rw [← h.2]; exact List.nodup_nil

theorem nmea_once {P : Platform} {s : List UInt8} {ok : Bool} {ps : List Put} (h : nmeaPuts P s = .ok (ok, ps)) : Once ps := by
  unfold nmeaPuts at h
  split at h
  · exact sentence_once rmc_once h
  · split at h
    · exact sentence_once gga_once h
    · split at h
      · exact sentence_once gsv_once h
      · simp only [Except.ok.injEq, Prod.mk.injEq] at h
        rw [← h.2]; exact List.nodup_nil

theorem buffer_once {P : Platform} {s : List UInt8} : ∀ {fuel endPos sentences : Nat} {k : Nat} {blocks : List (List Put)},
    bufferLoopPuts P s fuel endPos sentences = .ok (some (k, blocks)) → ∀ ps ∈ blocks, Once ps := by
  intro fuel
  induction fuel with
  | zero => intro _ _ _ _ h; simp [bufferLoopPuts] at h
  | succ fuel ih =>
    intro endPos sentences k blocks h
    unfold bufferLoopPuts at h
    split at h
    · obtain ⟨q, hq, h⟩ := bind_eq_ok.1 h
      obtain ⟨r, hr, h⟩ := bind_eq_ok.1 h
      cases r with
      | none => simp [pure, Except.pure] at h
      | some r =>
        simp only [pure_ok, Option.map_some, Except.ok.injEq, Option.some.injEq, Prod.mk.injEq] at h
        obtain ⟨rfl, rfl⟩ := h
        intro ps hps
        rcases List.mem_cons.1 hps with rfl | hps
        · exact nmea_once hq
        · exact ih hr ps hps
    · simp only [Except.ok.injEq, Option.some.injEq, Prod.mk.injEq] at h
      rw [← h.2]; simp

/-! ### What a read sees -/

/-- A member: assigned by the assignments with number `k` and by no others. -/
structure IsMember {α : Type} (k : Nat) (π : Gnss → α) : Prop where
  other : ∀ (g : Gnss) (p : Put), p.member ≠ k → π (p.apply g) = π g
  same : ∀ (g g' : Gnss) (p : Put), p.member = k → π (p.apply g) = π (p.apply g')

theorem IsMember.untouched {α : Type} {k : Nat} {π : Gnss → α} (h : IsMember k π) : ∀ (ps : List Put) (g : Gnss),
    k ∉ ps.map Put.member → π (ps.foldl Put.apply g) = π g := by
  intro ps
  induction ps with
  | nil => intros; rfl
  | cons p ps ih =>
    intro g hk
    simp only [List.map_cons, List.mem_cons, not_or] at hk
    rw [List.foldl_cons, ih _ hk.2, h.other _ _ (Ne.symm hk.1)]

theorem IsMember.old_or_new {α : Type} {k : Nat} {π : Gnss → α} (h : IsMember k π) (ps : List Put) (hps : Once ps) (g : Gnss) (n : Nat) :
    π (after g ps n) = π g ∨ π (after g ps n) = π (ps.foldl Put.apply g) := by
  unfold after
  by_cases hk : k ∈ (ps.take n).map Put.member
  · right
    conv_rhs => rw [← List.take_append_drop n ps, List.foldl_append]
    refine (h.untouched _ _ ?_).symm
    intro hk'
    unfold Once at hps
    rw [← List.take_append_drop n ps, List.map_append, List.nodup_append] at hps
    exact hps.2.2 k hk k hk' rfl
  · left; exact h.untouched _ _ hk

macro "is_member" : tactic =>
  `(tactic| exact ⟨fun g p h => by cases p <;> first | rfl | exact absurd rfl h, fun g g' p h => by cases p <;> first | rfl | simp [Put.member] at h⟩)

theorem mixed_of_once (ps : List Put) (hps : Once ps) (g : Gnss) (n : Nat) : Mixed g (ps.foldl Put.apply g) (after g ps n) where
  hour := IsMember.old_or_new (k := 0) (π := fun g => g.utc.hour) (by is_member) ps hps g n
  min := IsMember.old_or_new (k := 1) (π := fun g => g.utc.min) (by is_member) ps hps g n
  sec := IsMember.old_or_new (k := 2) (π := fun g => g.utc.sec) (by is_member) ps hps g n
  mday := IsMember.old_or_new (k := 3) (π := fun g => g.utc.mday) (by is_member) ps hps g n
  mon := IsMember.old_or_new (k := 4) (π := fun g => g.utc.mon) (by is_member) ps hps g n
  year := IsMember.old_or_new (k := 5) (π := fun g => g.utc.year) (by is_member) ps hps g n
  valid := IsMember.old_or_new (k := 6) (π := fun g => g.valid) (by is_member) ps hps g n
  satUsed := IsMember.old_or_new (k := 7) (π := fun g => g.satUsed) (by is_member) ps hps g n
  satView := IsMember.old_or_new (k := 8) (π := fun g => g.satView) (by is_member) ps hps g n
  dilution := IsMember.old_or_new (k := 9) (π := fun g => g.dilution) (by is_member) ps hps g n
  latitude := IsMember.old_or_new (k := 10) (π := fun g => g.latitude) (by is_member) ps hps g n
  longitude := IsMember.old_or_new (k := 11) (π := fun g => g.longitude) (by is_member) ps hps g n
  north := IsMember.old_or_new (k := 12) (π := fun g => g.north) (by is_member) ps hps g n
  east := IsMember.old_or_new (k := 13) (π := fun g => g.east) (by is_member) ps hps g n
  speed := IsMember.old_or_new (k := 14) (π := fun g => g.speed) (by is_member) ps hps g n
  course := IsMember.old_or_new (k := 15) (π := fun g => g.course) (by is_member) ps hps g n
  altitude := IsMember.old_or_new (k := 16) (π := fun g => g.altitude) (by is_member) ps hps g n

theorem after_flatten : ∀ (blocks : List (List Put)) (_ : ∀ ps ∈ blocks, Once ps) (g : Gnss) (n : Nat),
    ∃ j, Mixed (settled g blocks j) (settled g blocks (j + 1)) (after g blocks.flatten n) := by
  intro blocks
  induction blocks with
  | nil =>
    intro _ g n
    refine ⟨0, ?_⟩
    have : after g [] n = g := by simp [after]
    rw [List.flatten_nil, this]
    constructor <;> exact Or.inl rfl
  | cons ps blocks ih =>
    intro h g n
    by_cases hn : n ≤ ps.length
    · refine ⟨0, ?_⟩
      have : after g (ps :: blocks).flatten n = after g ps n := by
        unfold after
        rw [List.flatten_cons, List.take_append_of_le_length hn]
      rw [this]
      exact mixed_of_once ps (h ps List.mem_cons_self) g n
    · obtain ⟨j, hj⟩ := ih (fun q hq => h q (List.mem_cons_of_mem _ hq)) (ps.foldl Put.apply g) (n - ps.length)
      refine ⟨j + 1, ?_⟩
      rw [settled_cons, settled_cons]
      have : after g (ps :: blocks).flatten n = after (ps.foldl Put.apply g) blocks.flatten (n - ps.length) := by
        unfold after
        rw [List.flatten_cons, List.take_append, List.take_of_length_le (by omega), List.foldl_append]
      rw [this]
      exact hj

/-- **Any moment.**  Whenever the other task looks, every member has the value from before or from after the sentence being parsed. -/
theorem C77_moment {P : Platform} {buffer : List UInt8} {k : Nat} {blocks : List (List Put)}
    (h : bufferPuts P buffer = .ok (some (k, blocks))) (g : Gnss) (n : Nat) :
    ∃ j, Mixed (settled g blocks j) (settled g blocks (j + 1)) (after g blocks.flatten n) :=
  after_flatten blocks (buffer_once h) g n

section Replies
variable {P : Platform} {buffer : List UInt8} {k : Nat} {blocks : List (List Put)} {g : Gnss} {view : Nat → Gnss}

theorem seen {α : Type} (π : Gnss → α) (hπ : ∀ a b m, Mixed a b m → π m = π a ∨ π m = π b)
    (h : bufferPuts P buffer = .ok (some (k, blocks))) (hv : Sees g blocks view) (i : Nat) : ∃ j, π (view i) = π (settled g blocks j) := by
  obtain ⟨n, e⟩ := hv i
  obtain ⟨j, hj⟩ := C77_moment h g n
  rw [e]
  rcases hπ _ _ _ hj with e | e
  · exact ⟨j, e⟩
  · exact ⟨j + 1, e⟩

/-- **Time reply (`h`).**  If the minute does not change while the data is parsed, the reply is the one for the time of one of the
sentences (or the time before). -/
theorem C77_time (h : bufferPuts P buffer = .ok (some (k, blocks))) (hv : Sees g blocks view)
    (hm : ∀ j, SameMinute (settled g blocks j).utc g.utc) : ∃ j, timeSeen view = timeBytes (settled g blocks j) := by
  obtain ⟨j0, e0⟩ := seen (fun g => g.utc.hour) (fun _ _ _ m => m.hour) h hv 0
  obtain ⟨j1, e1⟩ := seen (fun g => g.utc.min) (fun _ _ _ m => m.min) h hv 1
  obtain ⟨j2, e2⟩ := seen (fun g => g.utc.sec) (fun _ _ _ m => m.sec) h hv 2
  obtain ⟨j3, e3⟩ := seen (fun g => g.utc.mon) (fun _ _ _ m => m.mon) h hv 3
  obtain ⟨j4, e4⟩ := seen (fun g => g.utc.mday) (fun _ _ _ m => m.mday) h hv 4
  obtain ⟨j5, e5⟩ := seen (fun g => g.utc.year) (fun _ _ _ m => m.year) h hv 5
  refine ⟨j2, ?_⟩
  unfold timeSeen timeBytes
  rw [e0, e1, e2, e3, e4, e5, (hm j0).2.1, (hm j1).1, (hm j3).2.2.2.1, (hm j4).2.2.1, (hm j5).2.2.2.2, (hm j2).2.1, (hm j2).1,
    (hm j2).2.2.2.1, (hm j2).2.2.1, (hm j2).2.2.2.2]

/-- In general every number of the reply is that of the time of one of the sentences (or the time before), but not all of the same. -/
theorem C77_time_parts (h : bufferPuts P buffer = .ok (some (k, blocks))) (hv : Sees g blocks view) :
    ∃ s m h d o y : Nat, timeSeen view = timeBytes { g with utc := ⟨(settled g blocks s).utc.sec, (settled g blocks m).utc.min,
      (settled g blocks h).utc.hour, (settled g blocks d).utc.mday, (settled g blocks o).utc.mon, (settled g blocks y).utc.year⟩ } := by
  obtain ⟨j0, e0⟩ := seen (fun g => g.utc.hour) (fun _ _ _ m => m.hour) h hv 0
  obtain ⟨j1, e1⟩ := seen (fun g => g.utc.min) (fun _ _ _ m => m.min) h hv 1
  obtain ⟨j2, e2⟩ := seen (fun g => g.utc.sec) (fun _ _ _ m => m.sec) h hv 2
  obtain ⟨j3, e3⟩ := seen (fun g => g.utc.mon) (fun _ _ _ m => m.mon) h hv 3
  obtain ⟨j4, e4⟩ := seen (fun g => g.utc.mday) (fun _ _ _ m => m.mday) h hv 4
  obtain ⟨j5, e5⟩ := seen (fun g => g.utc.year) (fun _ _ _ m => m.year) h hv 5
  refine ⟨j2, j1, j0, j4, j3, j5, ?_⟩
  unfold timeSeen timeBytes
  rw [e0, e1, e2, e3, e4, e5]

/-- **Location reply (`w`).**  If the position stays within one degree of latitude and longitude while the data is parsed, the reply is
the one for the latitude of one sentence and the longitude of one sentence. -/
theorem C77_location (h : bufferPuts P buffer = .ok (some (k, blocks))) (hv : Sees g blocks view)
    (hc : ∀ j, SameCell (settled g blocks j) g) :
    ∃ i j, locationSeen P view = locationBytes P { settled g blocks i with longitude := (settled g blocks j).longitude } := by
  obtain ⟨j0, e0⟩ := seen (fun g => g.latitude) (fun _ _ _ m => m.latitude) h hv 0
  obtain ⟨j1, e1⟩ := seen (fun g => g.latitude) (fun _ _ _ m => m.latitude) h hv 1
  obtain ⟨j2, e2⟩ := seen (fun g => g.latitude) (fun _ _ _ m => m.latitude) h hv 2
  obtain ⟨j3, e3⟩ := seen (fun g => g.north) (fun _ _ _ m => m.north) h hv 3
  obtain ⟨j4, e4⟩ := seen (fun g => g.longitude) (fun _ _ _ m => m.longitude) h hv 4
  obtain ⟨j5, e5⟩ := seen (fun g => g.longitude) (fun _ _ _ m => m.longitude) h hv 5
  obtain ⟨j6, e6⟩ := seen (fun g => g.longitude) (fun _ _ _ m => m.longitude) h hv 6
  obtain ⟨j7, e7⟩ := seen (fun g => g.east) (fun _ _ _ m => m.east) h hv 7
  refine ⟨j1, j5, ?_⟩
  unfold locationSeen locationBytes degMinSeen degMin
  rw [e0, e1, e2, e3, e4, e5, e6, e7, (hc j0).1, (hc j2).1, (hc j3).2.2.1, (hc j4).2.1, (hc j6).2.1, (hc j7).2.2.2]
  simp only [(hc j1).1, (hc j5).2.1, (hc j1).2.2.1, (hc j1).2.2.2]

/-- **Positions and synchronisations (`e`, `s`).**  If the minute does not change while the data is parsed, the sidereal time and the
latitude used are those for the time of one sentence, the longitude of one and the latitude of one. -/
theorem C77_place {K : Type} [Field K] [LinearOrder K] [FloorRing K] (h : bufferPuts P buffer = .ok (some (k, blocks)))
    (hv : Sees g blocks view) (hm : ∀ j, SameMinute (settled g blocks j).utc g.utc) :
    ∃ i j l, placeSeen view = (do
      let t ← Helper.localSiderealTime (settled g blocks i).utc ((settled g blocks j).longitude : K)
      return (t, (settled g blocks l).latitude)) := by
  obtain ⟨j0, e0⟩ := seen (fun g => g.utc.sec) (fun _ _ _ m => m.sec) h hv 0
  obtain ⟨j1, e1⟩ := seen (fun g => g.utc.min) (fun _ _ _ m => m.min) h hv 1
  obtain ⟨j2, e2⟩ := seen (fun g => g.utc.hour) (fun _ _ _ m => m.hour) h hv 2
  obtain ⟨j3, e3⟩ := seen (fun g => g.utc.mday) (fun _ _ _ m => m.mday) h hv 3
  obtain ⟨j4, e4⟩ := seen (fun g => g.utc.mon) (fun _ _ _ m => m.mon) h hv 4
  obtain ⟨j5, e5⟩ := seen (fun g => g.utc.year) (fun _ _ _ m => m.year) h hv 5
  obtain ⟨j6, e6⟩ := seen (fun g => g.longitude) (fun _ _ _ m => m.longitude) h hv 6
  obtain ⟨j7, e7⟩ := seen (fun g => g.latitude) (fun _ _ _ m => m.latitude) h hv 7
  refine ⟨j0, j6, j7, ?_⟩
  have hu : utcSeen view = (settled g blocks j0).utc := by
    unfold utcSeen
    rw [e0, e1, e2, e3, e4, e5, (hm j1).1, (hm j2).2.1, (hm j3).2.2.1, (hm j4).2.2.2.1, (hm j5).2.2.2.2, ← (hm j0).1, ← (hm j0).2.1,
      ← (hm j0).2.2.1, ← (hm j0).2.2.2.1, ← (hm j0).2.2.2.2]
  unfold placeSeen
  rw [hu, e6, e7]

end Replies

/-! ### Alone -/

/-- If nothing is parsed meanwhile, the replies are those of `Model/NexStar.lean`. -/
theorem C77_quiet {K : Type} [Field K] [LinearOrder K] [IsStrictOrderedRing K] [FloorRing K] (P : Platform) (g : Gnss) :
    timeSeen (fun _ => g) = timeBytes g ∧ locationSeen P (fun _ => g) = locationBytes P g ∧
      (placeSeen (fun _ => g) : C (K × ℚ)) = (NexStar.lst g).map fun t => (t, g.latitude) := by
  refine ⟨rfl, rfl, ?_⟩
  unfold placeSeen NexStar.lst
  have : (utcSeen fun _ => g) = g.utc := rfl
  rw [this]
  cases Helper.localSiderealTime g.utc (g.longitude : K) <;> rfl

/-! ### Concrete data -/

/-- The object after a sentence of 10:59:59 on 7 Aug 2019. -/
def demoBefore : Gnss := { Gnss.init (48.25 : ℚ) 11.5 with utc := ⟨59, 59, 10, 7, 8, 2019⟩, valid := true }

/-- The sentence one second later. -/
def demoData : List UInt8 := ascii "$GPRMC,110000.00,A,4815.0,N,01130.0,E,0,0,070819,,*3F
"

/-- Two sentences within one minute. -/
def demoQuiet : List UInt8 :=
  ascii "$GPRMC,105901.00,A,4815.0,N,01130.0,E,0,0,070819,,*33
$GPGGA,105902.00,4815.0,N,01130.0,E,1,08,1.0,499.6,M,,*30
"

/-- The first sentence of the year 2020. -/
def demoNewYear : List UInt8 := ascii "$GPRMC,000000.00,A,4815.0,N,01130.0,E,0,0,010120,,*3A
"

/-- The sentence one second after 23:59:59. -/
def demoMidnight : List UInt8 := ascii "$GPRMC,000000.00,A,4815.0,N,01130.0,E,0,0,080819,,*30
"

/-- A sentence with latitude 48°. -/
def demoDegree : List UInt8 := ascii "$GPRMC,110000.00,A,4800.0,N,01130.0,E,0,0,070819,,*3B
"

theorem puts_of_check {P : Platform} {b : List UInt8} {k : Nat} {q : List (List Put) → Bool}
    (h : (match bufferPuts P b with | .ok (some (n, bl)) => decide (n = k) && q bl | _ => false) = true) :
    ∃ bl, bufferPuts P b = .ok (some (k, bl)) ∧ q bl = true := by
  split at h
  · rename_i n bl e
    simp only [Bool.and_eq_true, decide_eq_true_eq] at h
    exact ⟨bl, by rw [e, h.1], h.2⟩
  · cases h

/-- The assumptions of the theorems are met: two sentences, and the minute, the degrees and the hemispheres stay the same. -/
example : ∃ blocks, bufferPuts .esp32 demoQuiet = .ok (some (2, blocks)) ∧ (settled demoBefore blocks 2).utc.sec = 2 ∧
    (∀ j, SameMinute (settled demoBefore blocks j).utc demoBefore.utc) ∧ ∀ j, SameCell (settled demoBefore blocks j) demoBefore := by
  obtain ⟨bl, e, h⟩ := puts_of_check (P := .esp32) (b := demoQuiet) (k := 2) (q := fun bl => decide (bl.length = 2) &&
    decide ((settled demoBefore bl 2).utc.sec = 2) &&
    [0, 1, 2].all fun j => decide ((settled demoBefore bl j).utc.min = 59 ∧ (settled demoBefore bl j).utc.hour = 10 ∧
      (settled demoBefore bl j).utc.mday = 7 ∧ (settled demoBefore bl j).utc.mon = 8 ∧ (settled demoBefore bl j).utc.year = 2019) &&
      decide (⌊(settled demoBefore bl j).latitude⌋ = ⌊demoBefore.latitude⌋ ∧ ⌊(settled demoBefore bl j).longitude⌋ = ⌊demoBefore.longitude⌋ ∧
      (settled demoBefore bl j).north = true ∧ (settled demoBefore bl j).east = true)) (by decide +kernel)
  simp only [Bool.and_eq_true, decide_eq_true_eq, List.all_eq_true] at h
  obtain ⟨⟨hl, h2⟩, h⟩ := h
  have hs : ∀ j, ∃ i ∈ [0, 1, 2], settled demoBefore bl j = settled demoBefore bl i := by
    intro j
    by_cases hj : j < 3
    · exact ⟨j, by simp only [List.mem_cons, List.not_mem_nil, or_false]; omega, rfl⟩
    · refine ⟨2, by simp, ?_⟩
      unfold settled
      rw [List.take_of_length_le (by omega), List.take_of_length_le (by omega)]
  refine ⟨bl, e, h2, fun j => ?_, fun j => ?_⟩
  · obtain ⟨i, hi, ei⟩ := hs j
    rw [ei]
    exact (h i hi).1
  · obtain ⟨i, hi, ei⟩ := hs j
    rw [ei]
    exact (h i hi).2

/-! ### What the code does not guarantee -/

/-- The reads happen one after the other, at these moments. -/
def viewAt (g : Gnss) (blocks : List (List Put)) (moments : Nat → Nat) : Nat → Gnss := fun i => after g blocks.flatten (moments i)

theorem sees_viewAt (g : Gnss) (blocks : List (List Put)) (moments : Nat → Nat) : Sees g blocks (viewAt g blocks moments) :=
  fun i => ⟨moments i, rfl⟩

/-- At a full hour the time reply can be wrong by an hour, whichever way the arguments are evaluated: 10:59:59 is followed by 11:00:00, but
10:00:00 is reported if they are evaluated from left to right, and 11:59:59 if from right to left. -/
theorem C77_torn_hour : ∃ blocks, bufferPuts .esp32 demoData = .ok (some (1, blocks)) ∧
    (settled demoBefore blocks 1).utc = ⟨0, 0, 11, 7, 8, 2019⟩ ∧
    (∃ moments, Monotone moments ∧ timeSeen (viewAt demoBefore blocks moments) = [10, 0, 0, 8, 7, 19, 0, 0, 35]) ∧
    ∃ moments, Antitone moments ∧ timeSeen (viewAt demoBefore blocks moments) = [11, 59, 59, 8, 7, 19, 0, 0, 35] := by
  obtain ⟨bl, e, h⟩ := puts_of_check (P := .esp32) (b := demoData) (k := 1) (q := fun bl => decide (
    (settled demoBefore bl 1).utc = ⟨0, 0, 11, 7, 8, 2019⟩ ∧
    timeSeen (viewAt demoBefore bl fun i => if i = 0 then 0 else 3) = [10, 0, 0, 8, 7, 19, 0, 0, 35] ∧
    timeSeen (viewAt demoBefore bl fun i => if i = 0 then 1 else 0) = [11, 59, 59, 8, 7, 19, 0, 0, 35])) (by decide +kernel)
  obtain ⟨h1, h2, h3⟩ := of_decide_eq_true h
  refine ⟨bl, e, h1, ⟨_, ?_, h2⟩, _, ?_, h3⟩
  · intro a b hab
    dsimp only
    split_ifs <;> omega
  · intro a b hab
    dsimp only
    split_ifs <;> omega

/-- The same happens to the sidereal time of a position or a synchronisation: it is more than 15° off, before and after the sentence it
would be right within 0.01° of each other. -/
theorem C77_torn_sidereal : ∃ blocks moments t, bufferPuts .esp32 demoData = .ok (some (1, blocks)) ∧ Monotone moments ∧
    placeSeen (viewAt demoBefore blocks moments) = .ok ((t : ℚ), (48.25 : ℚ)) ∧
    ∃ t0 t1 : ℚ, NexStar.lst demoBefore = .ok t0 ∧ NexStar.lst (settled demoBefore blocks 1) = .ok t1 ∧ |t1 - t0| < 0.01 ∧
      15 < t - t0 ∧ t - t0 < 16 ∧ 15 < t - t1 ∧ t - t1 < 16 := by
  obtain ⟨bl, e, h⟩ := puts_of_check (P := .esp32) (b := demoData) (k := 1) (q := fun bl =>
    match (placeSeen (viewAt demoBefore bl fun i => if i < 2 then 0 else 1) : C (ℚ × ℚ)), (NexStar.lst demoBefore : C ℚ),
      (NexStar.lst (settled demoBefore bl 1) : C ℚ) with
    | .ok (t, l), .ok t0, .ok t1 => decide (l = 48.25 ∧ |t1 - t0| < 0.01 ∧ 15 < t - t0 ∧ t - t0 < 16 ∧ 15 < t - t1 ∧ t - t1 < 16)
    | _, _, _ => false) (by decide +kernel)
  split at h
  · rename_i t l t0 t1 e1 e2 e3
    simp only [decide_eq_true_eq] at h
    obtain ⟨rfl, h⟩ := h
    refine ⟨bl, _, t, e, ?_, e1, t0, t1, e2, e3, h⟩
    intro a b hab
    dsimp only
    split_ifs <;> omega
  · cases h

/-- At midnight there is a moment at which the object itself is a day late: the time is assigned before the date. -/
theorem C77_torn_midnight : ∃ blocks n, bufferPuts .esp32 demoMidnight = .ok (some (1, blocks)) ∧
    (settled { demoBefore with utc := ⟨59, 59, 23, 7, 8, 2019⟩ } blocks 1).utc = ⟨0, 0, 0, 8, 8, 2019⟩ ∧
    (after { demoBefore with utc := ⟨59, 59, 23, 7, 8, 2019⟩ } blocks.flatten n).utc = ⟨0, 0, 0, 7, 8, 2019⟩ := by
  obtain ⟨bl, e, h⟩ := puts_of_check (P := .esp32) (b := demoMidnight) (k := 1) (q := fun bl => decide (
    (settled { demoBefore with utc := ⟨59, 59, 23, 7, 8, 2019⟩ } bl 1).utc = ⟨0, 0, 0, 8, 8, 2019⟩ ∧
    (after { demoBefore with utc := ⟨59, 59, 23, 7, 8, 2019⟩ } bl.flatten 3).utc = ⟨0, 0, 0, 7, 8, 2019⟩)) (by decide +kernel)
  obtain ⟨h1, h2⟩ := of_decide_eq_true h
  exact ⟨bl, 3, e, h1, h2⟩

/-- At the turn of the year the object goes through two more times that never were: the day is assigned first, then the month, then the year, so
that 31 December 2019, 23:59:59, is followed by the first of December and then by the first of January 2019. -/
theorem C77_torn_new_year : ∃ blocks n, bufferPuts .esp32 demoNewYear = .ok (some (1, blocks)) ∧
    (settled { demoBefore with utc := ⟨59, 59, 23, 31, 12, 2019⟩ } blocks 1).utc = ⟨0, 0, 0, 1, 1, 2020⟩ ∧
    (after { demoBefore with utc := ⟨59, 59, 23, 31, 12, 2019⟩ } blocks.flatten n).utc = ⟨0, 0, 0, 1, 12, 2019⟩ ∧
    (after { demoBefore with utc := ⟨59, 59, 23, 31, 12, 2019⟩ } blocks.flatten (n + 1)).utc = ⟨0, 0, 0, 1, 1, 2019⟩ := by
  obtain ⟨bl, e, h⟩ := puts_of_check (P := .esp32) (b := demoNewYear) (k := 1) (q := fun bl => decide (
    (settled { demoBefore with utc := ⟨59, 59, 23, 31, 12, 2019⟩ } bl 1).utc = ⟨0, 0, 0, 1, 1, 2020⟩ ∧
    (after { demoBefore with utc := ⟨59, 59, 23, 31, 12, 2019⟩ } bl.flatten 11).utc = ⟨0, 0, 0, 1, 12, 2019⟩ ∧
    (after { demoBefore with utc := ⟨59, 59, 23, 31, 12, 2019⟩ } bl.flatten 12).utc = ⟨0, 0, 0, 1, 1, 2019⟩)) (by decide +kernel)
  obtain ⟨h1, h2, h3⟩ := of_decide_eq_true h
  exact ⟨bl, 11, e, h1, h2, h3⟩

/-- At a whole degree the location reply can be wrong by a degree: the latitude goes from 47° 59′ to 48° 0′, but 47° 0′ is reported. -/
theorem C77_torn_degree : ∃ blocks moments, bufferPuts .esp32 demoDegree = .ok (some (1, blocks)) ∧ Monotone moments ∧
    locationBytes .esp32 { demoBefore with latitude := 47.9921875 } = .ok [47, 59, 0, 0, 11, 30, 0, 0, 35] ∧
    locationBytes .esp32 (settled { demoBefore with latitude := 47.9921875 } blocks 1) = .ok [48, 0, 0, 0, 11, 30, 0, 0, 35] ∧
    locationSeen .esp32 (viewAt { demoBefore with latitude := 47.9921875 } blocks moments) = .ok [47, 0, 0, 0, 11, 30, 0, 0, 35] := by
  obtain ⟨bl, e, h⟩ := puts_of_check (P := .esp32) (b := demoDegree) (k := 1) (q := fun bl => decide (
    locationBytes .esp32 { demoBefore with latitude := 47.9921875 } = .ok [47, 59, 0, 0, 11, 30, 0, 0, 35] ∧
    locationBytes .esp32 (settled { demoBefore with latitude := 47.9921875 } bl 1) = .ok [48, 0, 0, 0, 11, 30, 0, 0, 35] ∧
    locationSeen .esp32 (viewAt { demoBefore with latitude := 47.9921875 } bl fun i => if i = 0 then 0 else 6) =
      .ok [47, 0, 0, 0, 11, 30, 0, 0, 35])) (by decide +kernel)
  obtain ⟨h1, h2, h3⟩ := of_decide_eq_true h
  refine ⟨bl, _, e, ?_, h1, h2, h3⟩
  intro a b hab
  dsimp only
  split_ifs <;> omega

end Verif.SharedGnss
