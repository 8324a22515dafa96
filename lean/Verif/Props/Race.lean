import Verif.Model.Race
import Verif.Lemmas.MainStep
import Verif.Lemmas.Printf
import Verif.Props.NexStar

/-!
# C74: the shared transmit buffer under concurrency
-/

namespace Verif.Race

open Verif.Main Printf

/-! ### A task on its own does what `Model/Main.lean` says -/

theorem exec_putAll (bs : List UInt8) : ∀ (i : Nat) (k : Prog) (mem : List UInt8),
    exec (putAll i bs k) mem = (storeSeq mem i bs >>= fun m => exec k m) := by
  induction bs with
  | nil => intro i k mem; rfl
  | cons b bs ih =>
    intro i k mem
    simp only [putAll, exec, storeSeq]
    cases h : storeByte mem i b with
    | error e => rfl
    | ok m => simp only [bind_ok]; rw [ih]

theorem exec_getAll (n : Nat) : ∀ (i : Nat) (acc : List UInt8) (k : List UInt8 → Prog) (mem : List UInt8), i + n ≤ mem.length →
    exec (getAll i n acc k) mem = exec (k (acc ++ (mem.drop i).take n)) mem := by
  induction n with
  | zero => intro i acc k mem _; simp [getAll]
  | succ n ih =>
    intro i acc k mem h
    have hi : i < mem.length := by omega
    have hr : readByte mem i = .ok mem[i] := by unfold readByte; rw [List.getElem?_eq_getElem hi]
    simp only [getAll, exec]
    rw [hr, bind_ok, ih _ _ _ _ (by omega)]
    congr 2
    rw [List.append_assoc, List.drop_eq_getElem_cons hi, List.take_succ_cons]
    rfl

theorem exec_getAll_short (n : Nat) : ∀ (i : Nat) (acc : List UInt8) (k : List UInt8 → Prog) (mem : List UInt8), mem.length < i + n →
    i ≤ mem.length → exec (getAll i n acc k) mem = .error (.ub .oobRead) := by
  induction n with
  | zero => intro i acc k mem h h'; omega
  | succ n ih =>
    intro i acc k mem h h'
    simp only [getAll, exec]
    by_cases hi : i < mem.length
    · have hr : readByte mem i = .ok mem[i] := by unfold readByte; rw [List.getElem?_eq_getElem hi]
      rw [hr, bind_ok, ih _ _ _ _ (by omega) (by omega)]
    · have hr : readByte mem i = .error (.ub .oobRead) := by unfold readByte; rw [List.getElem?_eq_none (by omega)]
      rw [hr]; rfl

theorem exec_getStr (n : Nat) : ∀ (i : Nat) (acc : List UInt8) (k : List UInt8 → Prog) (mem : List UInt8), i + n = mem.length →
    exec (getStr i n acc k) mem = (readCString (mem.drop i) >>= fun s => exec (k (acc ++ s)) mem) := by
  induction n with
  | zero =>
    intro i acc k mem h
    have hr : readByte mem i = .error (.ub .oobRead) := by unfold readByte; rw [List.getElem?_eq_none (by omega)]
    simp only [getStr, exec]
    rw [hr, List.drop_of_length_le (by omega)]
    rfl
  | succ n ih =>
    intro i acc k mem h
    have hi : i < mem.length := by omega
    have hr : readByte mem i = .ok mem[i] := by unfold readByte; rw [List.getElem?_eq_getElem hi]
    simp only [getStr, exec]
    rw [hr, bind_ok, List.drop_eq_getElem_cons hi, readCString]
    by_cases h0 : mem[i] = 0
    · rw [if_pos h0, if_pos h0, bind_ok, List.append_nil]
    · rw [if_neg h0, if_neg h0, ih _ _ _ _ (by omega)]
      cases readCString (mem.drop (i + 1)) with
      | error e => rfl
      | ok s => simp only [bind_ok, pure_ok, List.append_assoc, List.singleton_append]

/-- A sequence of actions on its own, in the terms of `Model/Main.lean`. -/
def runActs : List Act → List UInt8 → C (List UInt8 × List Out)
  | [], tx => .ok (tx, [])
  | .store i bs :: r, tx => do
    let tx ← storeSeq tx i bs
    runActs r tx
  | .send n c :: r, tx => do
    let b ← readBytes tx n
    let (tx, o) ← runActs r tx
    return (tx, c.out b :: o)
  | .sendStr c :: r, tx => do
    let b ← readCString tx
    let (tx, o) ← runActs r tx
    return (tx, c.out b :: o)

theorem exec_ofActs (acts : List Act) : ∀ (tx : List UInt8), tx.length = 256 → exec (ofActs acts) tx = runActs acts tx := by
  induction acts with
  | nil => intro tx _; rfl
  | cons a r ih =>
    intro tx htx
    cases a with
    | store i bs =>
      simp only [ofActs, runActs]
      rw [exec_putAll]
      cases h : storeSeq tx i bs with
      | error e => rfl
      | ok m => rw [bind_ok, bind_ok, ih m (by rw [storeSeq_length h, htx])]
    | send n c =>
      simp only [ofActs, runActs]
      by_cases hn : n ≤ tx.length
      · rw [exec_getAll n 0 [] _ tx (by omega), readBytes_eq hn, bind_ok, List.nil_append, List.drop_zero]
        simp only [exec]
        rw [ih tx htx]
      · rw [exec_getAll_short n 0 [] _ tx (by omega) (by omega)]
        unfold readBytes; rw [if_neg hn]; rfl
    | sendStr c =>
      simp only [ofActs, runActs]
      rw [exec_getStr 256 0 [] _ tx (by omega), List.drop_zero]
      cases h : readCString tx with
      | error e => rfl
      | ok s =>
        rw [bind_ok, bind_ok, List.nil_append]
        simp only [exec]
        rw [ih tx htx]

theorem runActs_append (a b : List Act) : ∀ tx, runActs (a ++ b) tx = (do
    let (tx, o) ← runActs a tx
    let (tx, o') ← runActs b tx
    return (tx, o ++ o')) := by
  induction a with
  | nil => intro tx; simp only [List.nil_append, runActs, bind_ok]; cases runActs b tx <;> rfl
  | cons x r ih =>
    intro tx
    cases x with
    | store i bs =>
      simp only [List.cons_append, runActs]
      cases storeSeq tx i bs with
      | error e => rfl
      | ok m => simp only [bind_ok]; rw [ih]
    | send n c =>
      simp only [List.cons_append, runActs]
      cases readBytes tx n with
      | error e => rfl
      | ok m =>
        simp only [bind_ok]; rw [ih]
        cases runActs r tx with
        | error e => rfl
        | ok q => simp only [bind_ok, pure_ok]; cases runActs b q.1 <;> rfl
    | sendStr c =>
      simp only [List.cons_append, runActs]
      cases readCString tx with
      | error e => rfl
      | ok m =>
        simp only [bind_ok]; rw [ih]
        cases runActs r tx with
        | error e => rfl
        | ok q => simp only [bind_ok, pure_ok]; cases runActs b q.1 <;> rfl

/-- All actions of a list of messages. -/
def actsOf (cfg : Config) (ws : List Work) : List Act := ws.flatMap (Work.acts cfg)

theorem actsOf_cons (cfg : Config) (w : Work) (ws : List Work) : actsOf cfg (w :: ws) = w.acts cfg ++ actsOf cfg ws := by
  simp [actsOf]

theorem actsOf_append (cfg : Config) (a b : List Work) : actsOf cfg (a ++ b) = actsOf cfg a ++ actsOf cfg b := by
  simp [actsOf]

theorem run_send (cfg : Config) (topic : String) (len : Nat) (tx : List UInt8) :
    runActs (sendActs cfg topic len) tx = (send cfg topic tx len).map fun o => (tx, o) := by
  unfold sendActs send sendMqtt sendBroker
  cases cfg.mqtt <;> cases cfg.broker <;>
    simp only [Bool.false_eq_true, if_true, if_false, List.nil_append, List.append_nil, List.singleton_append, runActs, bind_ok, pure_ok,
      Except.map]
  · cases readCString tx <;> rfl
  · cases readBytes tx len <;> rfl
  · cases readBytes tx len with
    | error e => rfl
    | ok b => simp only [bind_ok]; cases readCString tx <;> rfl

theorem run_print (out tx : List UInt8) (r : List Act) :
    runActs (printActs out ++ r) tx = (snprintfAt tx 0 256 out >>= fun q => runActs r q.2) := by
  unfold printActs snprintfAt
  rw [if_neg (by decide)]
  simp only [List.singleton_append, runActs]
  cases storeSeq tx 0 (out.take (256 - 1) ++ [0]) <;> rfl

theorem snprintfAt_fst {mem mem' out : List UInt8} {off size n : Nat} (h : snprintfAt mem off size out = .ok (n, mem')) :
    n = out.length := by
  unfold snprintfAt at h
  split at h
  · injection h with h; injection h with h1 h2; exact h1.symm
  · rw [bind_eq_ok] at h
    obtain ⟨m, -, h⟩ := h
    injection h with h; injection h with h1 h2; exact h1.symm

theorem run_publish (cfg : Config) (topic : String) (out tx : List UInt8) :
    runActs (publishActs cfg topic out) tx = publish cfg topic out tx := by
  unfold publishActs publish
  rw [run_print]
  cases h : snprintfAt tx 0 256 out with
  | error e => rfl
  | ok q =>
    obtain ⟨n, m⟩ := q
    rw [snprintfAt_fst h, bind_ok, bind_ok, run_send]
    simp only
    cases send cfg topic m out.length <;> rfl

theorem run_publishAll (cfg : Config) (l : List (String × List UInt8)) : ∀ (tx : List UInt8),
    runActs (actsOf cfg (l.map fun x => .publish x.1 x.2)) tx = publishAll cfg l tx := by
  induction l with
  | nil => intro tx; rfl
  | cons x l ih =>
    intro tx
    obtain ⟨t, out⟩ := x
    rw [List.map_cons, actsOf_cons, runActs_append]
    simp only [Work.acts, run_publish, publishAll]
    cases publish cfg t out tx with
    | error e => rfl
    | ok q => simp only [bind_ok]; rw [ih]

theorem run_texts {K : Type} [Field K] [LinearOrder K] [IsStrictOrderedRing K] [FloorRing K] (ps : List (K × K)) :
    ∀ (len : Nat) (tx : List UInt8) (r : List Act), len + (ps.map vertexText).flatten.length < 256 →
    runActs (textsActs (ps.map vertexText) len ++ r) tx =
      (vertexLoop ps len tx >>= fun q => runActs r q.2) ∧
      ∀ q, vertexLoop ps len tx = .ok q → q.1 = len + (ps.map vertexText).flatten.length := by
  induction ps with
  | nil =>
    intro len tx r _
    refine ⟨rfl, ?_⟩
    intro q hq
    injection hq with hq
    subst hq
    simp
  | cons p ps ih =>
    intro len tx r h
    rw [List.map_cons, List.flatten_cons, List.length_append] at h
    have hm : (2 ^ 32 + 256 - len) % 2 ^ 32 = 256 - len := by omega
    constructor
    · simp only [List.map_cons, textsActs, List.cons_append, runActs, vertexLoop]
      rw [hm]
      unfold snprintfAt
      rw [if_neg (by omega)]
      cases storeSeq tx len ((vertexText p).take (256 - len - 1) ++ [0]) with
      | error e => rfl
      | ok m =>
        simp only [bind_ok, pure_ok]
        exact (ih (len + (vertexText p).length) m r (by omega)).1
    · intro q hq
      simp only [vertexLoop] at hq
      rw [bind_eq_ok] at hq
      obtain ⟨⟨n, m⟩, h1, h2⟩ := hq
      have hn := snprintfAt_fst h1
      subst hn
      have := (ih (len + (vertexText p).length) m [] (by omega)).2 q h2
      rw [this, List.map_cons, List.flatten_cons, List.length_append]
      omega

theorem run_points {K : Type} [Field K] [LinearOrder K] [IsStrictOrderedRing K] [FloorRing K] (cfg : Config) (topic : String)
    (ps : List (K × K)) (tx : List UInt8) (h : (ps.map vertexText).flatten.length < 255) :
    runActs (verticesActs cfg topic (ps.map vertexText)) tx = publishVertices cfg topic ps tx := by
  unfold verticesActs publishVertices
  simp only [List.append_assoc, List.cons_append, List.nil_append, runActs, storeSeq]
  cases storeByte tx 0 91 with
  | error e => rfl
  | ok m =>
    simp only [bind_ok]
    rw [(run_texts ps 1 m _ (by omega)).1]
    cases hv : vertexLoop ps 1 m with
    | error e => rfl
    | ok q =>
      obtain ⟨len, m2⟩ := q
      have hl : len = 1 + (ps.map vertexText).flatten.length := (run_texts ps 1 m [] (by omega)).2 _ hv
      simp only [bind_ok, runActs, storeSeq]
      rw [← hl]
      cases storeByte m2 len 93 with
      | error e => rfl
      | ok m3 =>
        simp only [bind_ok]
        rw [run_send, show 2 + (ps.map vertexText).flatten.length = len + 1 by omega]
        cases send cfg topic m3 (len + 1) <;> rfl

theorem run_gnss (cfg : Config) (out tx : List UInt8) : runActs (gnssActs cfg out) tx = (do
    let (len, tx) ← snprintfAt tx 0 256 out
    let o1 ← sendBroker cfg "home/appliance/telescope/gnss" tx
    let o2 ← sendMqtt cfg "home/appliance/telescope/gnss" tx len
    return (tx, o1 ++ o2)) := by
  unfold gnssActs
  rw [List.append_assoc, run_print]
  cases h : snprintfAt tx 0 256 out with
  | error e => rfl
  | ok q =>
    obtain ⟨n, m⟩ := q
    have hn := snprintfAt_fst h
    subst hn
    simp only [bind_ok]
    unfold sendMqtt sendBroker
    cases cfg.mqtt <;> cases cfg.broker <;>
      simp only [Bool.false_eq_true, if_true, if_false, List.nil_append, List.append_nil, List.singleton_append, runActs, bind_ok, pure_ok,
        Except.map]
    · cases readCString m <;> rfl
    · cases readBytes m out.length <;> rfl
    · cases readCString m with
      | error e => rfl
      | ok b => simp only [bind_ok]; cases readBytes m out.length <;> rfl

theorem run_reply (c : Chan) (out tx : List UInt8) : runActs (printActs out ++ [.send out.length c]) tx = (do
    let (n, r) ← snprintfAt tx 0 256 out
    let b ← readBytes r n
    return (r, [c.out b])) := by
  rw [run_print]
  cases h : snprintfAt tx 0 256 out with
  | error e => rfl
  | ok q =>
    obtain ⟨n, m⟩ := q
    have hn := snprintfAt_fst h
    subst hn
    simp only [bind_ok, runActs]

/-! ### No schedule leads outside the buffer -/

/-- A program that stays in the buffer and leaves the NUL at its end alone, provided it reads that NUL there. -/
inductive Safe : Prog → Prop
  | done : Safe .done
  | put {i b k} : i < 256 → (i = 255 → b = 0) → Safe k → Safe (.put i b k)
  | get {i k} : i < 256 → (∀ b, (i = 255 → b = 0) → Safe (k b)) → Safe (.get i k)
  | emit {o k} : Safe k → Safe (.emit o k)

/-- The buffer: 256 bytes, the last one NUL. -/
def Terminated (mem : List UInt8) : Prop := mem.length = 256 ∧ mem[255]? = some 0

theorem step_safe {p : Prog} (hp : Safe p) {mem : List UInt8} (hm : Terminated mem) :
    ∃ p' mem' evs, step p mem = .ok (p', mem', evs) ∧ Safe p' ∧ Terminated mem' := by
  obtain ⟨h1, h2⟩ := hm
  cases hp with
  | done => exact ⟨_, _, _, rfl, .done, h1, h2⟩
  | @put i b k hi hb hk =>
    refine ⟨k, mem.set i b, [.put i b], ?_, hk, by simpa using h1, ?_⟩
    · simp only [step, storeByte]; rw [if_pos (by omega)]; rfl
    · by_cases h : i = 255
      · subst h; rw [List.getElem?_set_self (by omega), hb rfl]
      · rw [List.getElem?_set_ne h, h2]
  | @get i k hi hk =>
    have hlt : i < mem.length := by omega
    refine ⟨k mem[i], mem, [.get i mem[i]], ?_, hk _ ?_, h1, h2⟩
    · simp only [step, readByte]; rw [List.getElem?_eq_getElem hlt]; rfl
    · rintro rfl; rw [List.getElem?_eq_getElem hlt] at h2; injection h2
  | @emit o k hk => exact ⟨k, mem, _, rfl, hk, h1, h2⟩

theorem par_safe (sched : List Task) : ∀ {ps : Task → Prog} {mem : List UInt8}, (∀ t, Safe (ps t)) → Terminated mem →
    ∃ ps' mem' log, par sched ps mem = .ok (ps', mem', log) ∧ (∀ t, Safe (ps' t)) ∧ Terminated mem' := by
  induction sched with
  | nil => intro ps mem h1 h2; exact ⟨_, _, _, rfl, h1, h2⟩
  | cons t sched ih =>
    intro ps mem h1 h2
    obtain ⟨p, mem1, evs, e1, s1, t1⟩ := step_safe (h1 t) h2
    obtain ⟨ps', mem', log, e2, s2, t2⟩ := ih (ps := Function.update ps t p) (by
      intro u
      by_cases hu : u = t
      · subst hu; rw [Function.update_self]; exact s1
      · rw [Function.update_of_ne hu]; exact h1 u) t1
    refine ⟨ps', mem', evs.map (fun e => (t, e)) ++ log, ?_, s2, t2⟩
    simp only [par]
    rw [e1, bind_ok]
    simp only
    rw [e2, bind_ok]
    rfl

theorem safe_putAll (bs : List UInt8) : ∀ (i : Nat) (k : Prog), i + bs.length ≤ 256 → (∀ b, bs[255 - i]? = some b → b = 0) → Safe k →
    Safe (putAll i bs k) := by
  induction bs with
  | nil => intro i k _ _ hk; exact hk
  | cons b bs ih =>
    intro i k h hb hk
    rw [List.length_cons] at h
    refine .put (by omega) ?_ (ih (i + 1) k (by omega) ?_ hk)
    · rintro rfl; exact hb b rfl
    · intro c hc
      apply hb c
      have : i + 1 < 256 := by
        by_contra hlt
        rw [show bs = [] from List.eq_nil_of_length_eq_zero (by omega)] at hc
        simp at hc
      rw [show 255 - i = (255 - (i + 1)) + 1 by omega, List.getElem?_cons_succ]
      exact hc

theorem safe_getAll (n : Nat) : ∀ (i : Nat) (acc : List UInt8) (k : List UInt8 → Prog), i + n ≤ 256 → (∀ l, Safe (k l)) →
    Safe (getAll i n acc k) := by
  induction n with
  | zero => intro i acc k _ hk; exact hk acc
  | succ n ih => intro i acc k h hk; exact .get (by omega) fun b _ => ih _ _ _ (by omega) hk

theorem safe_getStr (n : Nat) : ∀ (i : Nat) (acc : List UInt8) (k : List UInt8 → Prog), i + (n + 1) = 256 → (∀ l, Safe (k l)) →
    Safe (getStr i (n + 1) acc k) := by
  induction n with
  | zero =>
    intro i acc k h hk
    refine .get (by omega) fun b hb => ?_
    rw [if_pos (hb (by omega))]; exact hk acc
  | succ n ih =>
    intro i acc k h hk
    refine .get (by omega) fun b hb => ?_
    split
    · exact hk acc
    · exact ih _ _ _ (by omega) hk

/-- An action that stays in the buffer and leaves its last byte NUL. -/
def Act.Fits : Act → Prop
  | .store i bs => i + bs.length ≤ 256 ∧ ∀ b, bs[255 - i]? = some b → b = 0
  | .send n _ => n ≤ 256
  | .sendStr _ => True

theorem safe_ofActs (acts : List Act) (h : ∀ a ∈ acts, a.Fits) : Safe (ofActs acts) := by
  induction acts with
  | nil => exact .done
  | cons a r ih =>
    have hr := ih fun x hx => h x (by simp [hx])
    have ha := h a (by simp)
    cases a with
    | store i bs => exact safe_putAll bs i _ ha.1 ha.2 hr
    | send n c => exact safe_getAll n 0 [] _ (by simpa [Act.Fits] using ha) fun l => .emit hr
    | sendStr c => exact safe_getStr 255 0 [] _ rfl fun l => .emit hr

/-- A message that has room in the buffer: replies, packets and reports of up to 255 bytes, lists of points of up to 255 bytes with their
brackets. -/
def Work.Fits : Work → Prop
  | .reply _ o => o.length ≤ 255
  | .reset => True
  | .packet _ b => b.length = 24
  | .publish _ o => o.length ≤ 255
  | .points _ xs => xs.flatten.length ≤ 253
  | .clear => True
  | .gnss o => o.length ≤ 255

theorem fits_print {o : List UInt8} : ∀ a ∈ printActs o, a.Fits := by
  intro a ha
  rw [printActs, List.mem_singleton] at ha
  subst ha
  refine ⟨by simp, ?_⟩
  intro b hb
  by_cases h : o.length < 255
  · rw [List.take_of_length_le (by omega)] at hb
    rw [List.getElem?_append_right (by omega), List.getElem?_singleton] at hb
    split at hb
    · injection hb with hb; exact hb.symm
    · cases hb
  · rw [List.getElem?_append_right (by simp), List.length_take, min_eq_left (by omega)] at hb
    simp at hb; exact hb.symm

theorem fits_texts (xs : List (List UInt8)) : ∀ len, len + xs.flatten.length ≤ 254 → ∀ a ∈ textsActs xs len, a.Fits := by
  induction xs with
  | nil => intro len _ a ha; cases ha
  | cons x xs ih =>
    intro len h a ha
    rw [List.flatten_cons, List.length_append] at h
    rw [textsActs, List.mem_cons] at ha
    rcases ha with rfl | ha
    · rw [List.take_of_length_le (by omega)]
      refine ⟨by rw [List.length_append, List.length_singleton]; omega, ?_⟩
      intro b hb
      rw [List.getElem?_append_right (by omega), List.getElem?_singleton] at hb
      split at hb
      · injection hb with hb; exact hb.symm
      · cases hb
    · exact ih _ (by omega) a ha

theorem fits_send {cfg : Config} {topic : String} {n : Nat} (h : n ≤ 256) : ∀ a ∈ sendActs cfg topic n, a.Fits := by
  intro a ha
  unfold sendActs at ha
  rw [List.mem_append] at ha
  rcases ha with ha | ha <;> split at ha
  · rw [List.mem_singleton] at ha; subst ha; exact h
  · cases ha
  · rw [List.mem_singleton] at ha; subst ha; trivial
  · cases ha

theorem fits_store1 {i : Nat} {b : UInt8} (h : i < 255) : (Act.store i [b]).Fits := by
  refine ⟨by rw [List.length_singleton]; omega, ?_⟩
  intro c hc
  rw [List.getElem?_singleton, if_neg (by omega)] at hc
  cases hc

theorem fits_work {cfg : Config} {w : Work} (h : w.Fits) : ∀ a ∈ w.acts cfg, a.Fits := by
  intro a ha
  cases w with
  | reply c o =>
    simp only [Work.acts, tcpActs, List.mem_append, List.mem_singleton] at ha
    rcases ha with ha | rfl
    · exact fits_print a ha
    · exact (show o.length ≤ 255 from h).trans (by norm_num)
  | reset =>
    simp only [Work.acts, resetActs, List.mem_cons, List.not_mem_nil, or_false] at ha
    rcases ha with rfl | rfl
    · exact fits_store1 (by norm_num)
    · show 1 ≤ 256; norm_num
  | packet c b =>
    have hb : b.length = 24 := h
    simp only [Work.acts, packetActs, List.mem_cons, List.not_mem_nil, or_false] at ha
    rcases ha with rfl | rfl
    · refine ⟨by omega, ?_⟩
      intro x hx
      rw [List.getElem?_eq_none (by omega)] at hx
      cases hx
    · show 24 ≤ 256; norm_num
  | publish t o =>
    simp only [Work.acts, publishActs, List.mem_append] at ha
    rcases ha with ha | ha
    · exact fits_print a ha
    · exact fits_send ((show o.length ≤ 255 from h).trans (by norm_num)) a ha
  | points t xs =>
    have hx : xs.flatten.length ≤ 253 := h
    simp only [Work.acts, verticesActs, List.mem_append, List.mem_singleton] at ha
    rcases ha with ((rfl | ha) | rfl) | ha
    · exact fits_store1 (by norm_num)
    · exact fits_texts xs 1 (by omega) a ha
    · exact fits_store1 (by omega)
    · exact fits_send (by omega) a ha
  | clear =>
    simp only [Work.acts, clearActs, List.mem_cons, List.not_mem_nil, or_false] at ha
    rcases ha with rfl | rfl <;> exact fits_store1 (by norm_num)
  | gnss o =>
    simp only [Work.acts, gnssActs, List.mem_append] at ha
    rcases ha with (ha | ha) | ha
    · exact fits_print a ha
    · split at ha
      · rw [List.mem_singleton] at ha; subst ha; trivial
      · cases ha
    · split at ha
      · rw [List.mem_singleton] at ha; subst ha; exact (show o.length ≤ 255 from h).trans (by norm_num)
      · cases ha

/-- The two tasks of the firmware: any Bluetooth requests with these replies, and `loop()` sending any messages. -/
def tasks (cfg : Config) (replies : List (Option (List UInt8))) (ws : List Work) : Task → Prog
  | .bluetooth => ofActs (replies.flatMap bluetoothActs)
  | .loop => ofActs (actsOf cfg ws)

/-- **C74** However the Bluetooth task and `loop()` are interleaved, byte by byte, and whatever they send, neither of them reads or
writes outside the transmit buffer, and its last byte remains NUL. -/
theorem C74_safe (cfg : Config) (replies : List (Option (List UInt8))) (hr : ∀ o, some o ∈ replies → o.length ≤ 255)
    (ws : List Work) (hw : ∀ w ∈ ws, w.Fits) (mem : List UInt8) (hm : Terminated mem) (sched : List Task) :
    ∃ ps' mem' log, par sched (tasks cfg replies ws) mem = .ok (ps', mem', log) ∧ Terminated mem' := by
  obtain ⟨ps', mem', log, h1, -, h3⟩ := par_safe sched (ps := tasks cfg replies ws) (by
    intro t
    cases t with
    | bluetooth =>
      apply safe_ofActs
      intro a ha
      rw [List.mem_flatMap] at ha
      obtain ⟨r, hr1, ha⟩ := ha
      cases r with
      | none => cases ha
      | some o =>
        simp only [bluetoothActs, List.mem_append, List.mem_singleton] at ha
        rcases ha with ha | rfl
        · exact fits_print a ha
        · exact (hr o hr1).trans (by norm_num)
    | loop =>
      apply safe_ofActs
      intro a ha
      unfold actsOf at ha
      rw [List.mem_flatMap] at ha
      obtain ⟨w, hw1, ha⟩ := ha
      exact fits_work (hw w hw1) a ha) hm
  exact ⟨ps', mem', log, h1, h3⟩

/-! ### What a message can contain -/

theorem par_cons {t : Task} {sched : List Task} {ps ps' : Task → Prog} {mem mem' : List UInt8} {log : List (Task × Ev)}
    (h : par (t :: sched) ps mem = .ok (ps', mem', log)) :
    ∃ p mem1 evs log', step (ps t) mem = .ok (p, mem1, evs) ∧ par sched (Function.update ps t p) mem1 = .ok (ps', mem', log') ∧
      log = evs.map (fun e => (t, e)) ++ log' := by
  simp only [par] at h
  rw [bind_eq_ok] at h
  obtain ⟨⟨p, mem1, evs⟩, h1, h⟩ := h
  rw [bind_eq_ok] at h
  obtain ⟨⟨ps2, mem2, log'⟩, h2, h⟩ := h
  rw [pure_ok] at h
  injection h with h; injection h with e1 h; injection h with e2 e3
  subst e1 e2 e3
  exact ⟨p, mem1, evs, log', h1, h2, rfl⟩

/-- Byte `j` is the one of `bs`, or the other task wrote it. -/
def Own (t : Task) (bs : List UInt8) (pre : List (Task × Ev)) (j : Nat) (v : Option UInt8) : Prop :=
  v = bs[j]? ∨ ∃ b, v = some b ∧ (t.other, Ev.put j b) ∈ pre

theorem Own.mono {t : Task} {bs : List UInt8} {pre : List (Task × Ev)} {j : Nat} {v : Option UInt8} (h : Own t bs pre j v)
    (l : List (Task × Ev)) : Own t bs (pre ++ l) j v := by
  rcases h with h | ⟨b, h, hm⟩
  · exact .inl h
  · exact .inr ⟨b, h, List.mem_append_left _ hm⟩

/-- Where a task is in building and sending a message. -/
inductive Mid (t : Task) (bs : List UInt8) (n : Nat) (c : Chan) (k : Prog) (pre : List (Task × Ev)) (p : Prog) (mem : List UInt8) : Prop
  | putting (i : Nat) : i ≤ bs.length → p = putAll i (bs.drop i) (getAll 0 n [] fun bytes => .emit (c.out bytes) k) →
      (∀ j < i, Own t bs pre j mem[j]?) → Mid t bs n c k pre p mem
  | getting (acc : List UInt8) : acc.length ≤ n → p = getAll acc.length (n - acc.length) acc (fun bytes => .emit (c.out bytes) k) →
      (∀ j < n, Own t bs pre j mem[j]?) → (∀ j < acc.length, Own t bs pre j acc[j]?) → Mid t bs n c k pre p mem

theorem other_ne (t : Task) : t.other ≠ t := by cases t <;> decide

theorem eq_other {t u : Task} (h : u ≠ t) : u = t.other := by cases t <;> cases u <;> first | rfl | exact absurd rfl h

/-- A step of the other task. -/
theorem mid_other {t : Task} {bs : List UInt8} {n : Nat} {c : Chan} {k : Prog} {pre : List (Task × Ev)} {p q q' : Prog}
    {mem mem' : List UInt8} {evs : List Ev} (h : Mid t bs n c k pre p mem) (hs : step q mem = .ok (q', mem', evs)) :
    Mid t bs n c k (pre ++ evs.map fun e => (t.other, e)) p mem' := by
  have key : ∀ j, Own t bs pre j mem[j]? → Own t bs (pre ++ evs.map fun e => (t.other, e)) j mem'[j]? := by
    intro j hj
    cases q with
    | done => simp only [step] at hs; injection hs with hs; injection hs with _ hs; injection hs with e1 e2; subst e1 e2; exact hj.mono _
    | emit o r => simp only [step] at hs; injection hs with hs; injection hs with _ hs; injection hs with e1 e2; subst e1 e2; exact hj.mono _
    | get i r =>
      simp only [step] at hs; rw [bind_eq_ok] at hs
      obtain ⟨b, _, hs⟩ := hs
      injection hs with hs; injection hs with _ hs; injection hs with e1 e2; subst e1 e2; exact hj.mono _
    | put i b r =>
      simp only [step] at hs; rw [bind_eq_ok] at hs
      obtain ⟨m, hm, hs⟩ := hs
      injection hs with hs; injection hs with _ hs; injection hs with e1 e2; subst e1 e2
      unfold storeByte at hm
      split at hm
      · injection hm with hm; subst hm
        by_cases hij : i = j
        · subst hij
          rw [List.getElem?_set_self (by assumption)]
          exact .inr ⟨b, rfl, by simp⟩
        · rw [List.getElem?_set_ne hij]; exact hj.mono _
      · cases hm
  cases h with
  | putting i h1 h2 h3 => exact .putting i h1 h2 fun j hj => key j (h3 j hj)
  | getting acc h1 h2 h3 h4 => exact .getting acc h1 h2 (fun j hj => key j (h3 j hj)) fun j hj => (h4 j hj).mono _

/-- A step of the task itself: it goes on, or sends. -/
theorem mid_self {t : Task} {bs : List UInt8} {n : Nat} (hn : n ≤ bs.length) {c : Chan} {k : Prog} {pre : List (Task × Ev)} {p p' : Prog}
    {mem mem' : List UInt8} {evs : List Ev} (h : Mid t bs n c k pre p mem) (hs : step p mem = .ok (p', mem', evs)) :
    (Mid t bs n c k (pre ++ evs.map fun e => (t, e)) p' mem' ∧ ∀ x, Ev.emit x ∉ evs) ∨
    ∃ bytes, evs = [.emit (c.out bytes)] ∧ p' = k ∧ bytes.length = n ∧ ∀ j < n, Own t bs pre j bytes[j]? := by
  have getting : ∀ acc : List UInt8, acc.length ≤ n → p = getAll acc.length (n - acc.length) acc (fun bytes => .emit (c.out bytes) k) →
      (∀ j < n, Own t bs pre j mem[j]?) → (∀ j < acc.length, Own t bs pre j acc[j]?) →
      (Mid t bs n c k (pre ++ evs.map fun e => (t, e)) p' mem' ∧ ∀ x, Ev.emit x ∉ evs) ∨
      ∃ bytes, evs = [.emit (c.out bytes)] ∧ p' = k ∧ bytes.length = n ∧ ∀ j < n, Own t bs pre j bytes[j]? := by
    intro acc h1 h2 h3 h4
    rcases Nat.lt_or_ge acc.length n with hlt | hge
    · left
      obtain ⟨m, hm⟩ : ∃ m, n - acc.length = m + 1 := ⟨n - acc.length - 1, by omega⟩
      rw [hm, getAll] at h2
      subst h2
      simp only [step] at hs; rw [bind_eq_ok] at hs
      obtain ⟨b, hb, hs⟩ := hs
      injection hs with hs; injection hs with e0 hs; injection hs with e1 e2; subst e0 e1 e2
      have hb' : mem[acc.length]? = some b := by
        unfold readByte at hb
        cases hq : mem[acc.length]? with
        | none => rw [hq] at hb; cases hb
        | some v => rw [hq] at hb; injection hb with hb; rw [hb]
      refine ⟨.getting (acc ++ [b]) (by simp; omega) ?_ (fun j hj => (h3 j hj).mono _) ?_, by simp⟩
      · rw [List.length_append, List.length_singleton, show n - (acc.length + 1) = m by omega]
      · intro j hj
        rw [List.length_append, List.length_singleton] at hj
        rcases Nat.lt_or_ge j acc.length with hj' | hj'
        · rw [List.getElem?_append_left hj']; exact (h4 j hj').mono _
        · have : j = acc.length := by omega
          subst this
          rw [List.getElem?_append_right le_rfl, Nat.sub_self, List.getElem?_cons_zero, ← hb']
          exact (h3 _ hlt).mono _
    · right
      have he : acc.length = n := by omega
      rw [show n - acc.length = 0 by omega, getAll] at h2
      subst h2
      simp only [step] at hs
      injection hs with hs; injection hs with e0 hs; injection hs with e1 e2; subst e0 e1 e2
      exact ⟨acc, rfl, rfl, he, fun j hj => h4 j (by omega)⟩
  cases h with
  | putting i h1 h2 h3 =>
    rcases Nat.lt_or_ge i bs.length with hlt | hge
    · left
      rw [List.drop_eq_getElem_cons hlt, putAll] at h2
      subst h2
      simp only [step] at hs; rw [bind_eq_ok] at hs
      obtain ⟨m, hm, hs⟩ := hs
      injection hs with hs; injection hs with e0 hs; injection hs with e1 e2; subst e0 e1 e2
      unfold storeByte at hm
      split at hm
      · injection hm with hm; subst hm
        refine ⟨.putting (i + 1) (by omega) rfl ?_, by simp⟩
        intro j hj
        by_cases hij : i = j
        · subst hij
          rw [List.getElem?_set_self (by assumption)]
          exact .inl (List.getElem?_eq_getElem hlt).symm
        · rw [List.getElem?_set_ne hij]; exact (h3 j (by omega)).mono _
      · cases hm
    · have he : i = bs.length := by omega
      subst he
      rw [List.drop_length, putAll] at h2
      exact getting [] (by simp) h2 (fun j hj => h3 j (by omega)) (by simp)
  | getting acc h1 h2 h3 h4 => exact getting acc h1 h2 h3 h4

theorem mid_par {t : Task} {bs : List UInt8} {n : Nat} (hn : n ≤ bs.length) {c : Chan} {k : Prog} (sched : List Task) :
    ∀ {pre : List (Task × Ev)} {ps ps' : Task → Prog} {mem mem' : List UInt8} {log : List (Task × Ev)},
    Mid t bs n c k pre (ps t) mem → par sched ps mem = .ok (ps', mem', log) →
    ∀ l1 x l2, log = l1 ++ (t, .emit x) :: l2 → (∀ y, (t, Ev.emit y) ∉ l1) →
    (∃ bytes, x = c.out bytes ∧ bytes.length = n ∧ ∀ j < n, Own t bs (pre ++ l1) j bytes[j]?) ∧
    ∃ sched2 ps2 mem2, ps2 t = k ∧ par sched2 ps2 mem2 = .ok (ps', mem', l2) := by
  induction sched with
  | nil =>
    intro pre ps ps' mem mem' log _ h l1 x l2 hl _
    simp only [par] at h
    injection h with h; injection h with _ h; injection h with _ h
    rw [← h] at hl
    simp at hl
  | cons u sched ih =>
    intro pre ps ps' mem mem' log hmid h l1 x l2 hl hno
    obtain ⟨p, mem1, evs, log', h1, h2, h3⟩ := par_cons h
    have cont : Mid t bs n c k (pre ++ evs.map fun e => (u, e)) ((Function.update ps u p) t) mem1 → (∀ y, u = t → Ev.emit y ∉ evs) →
        (∃ bytes, x = c.out bytes ∧ bytes.length = n ∧ ∀ j < n, Own t bs (pre ++ l1) j bytes[j]?) ∧
        ∃ sched2 ps2 mem2, ps2 t = k ∧ par sched2 ps2 mem2 = .ok (ps', mem', l2) := by
      intro hm hne
      -- the events of this step are at the beginning of `l1`
      have hpre : ∃ l1', l1 = evs.map (fun e => (u, e)) ++ l1' ∧ log' = l1' ++ (t, .emit x) :: l2 := by
        rw [h3] at hl
        rcases List.append_eq_append_iff.1 hl with ⟨a, e1, e2⟩ | ⟨a, e1, e2⟩
        · exact ⟨a, e1, e2⟩
        · cases a with
          | nil => exact ⟨[], by rw [e1]; simp, by rw [List.nil_append] at e2; exact e2.symm⟩
          | cons y a =>
            rw [List.cons_append] at e2
            injection e2 with e2 e3
            have : (t, Ev.emit x) ∈ evs.map (fun e => (u, e)) := by rw [e1, e2]; simp
            rw [List.mem_map] at this
            obtain ⟨e, he, heq⟩ := this
            injection heq with q1 q2
            rw [q2] at he
            exact absurd he (hne x q1)
      obtain ⟨l1', e1, e2⟩ := hpre
      obtain ⟨⟨bytes, g1, g2, g3⟩, g4⟩ := ih hm h2 l1' x l2 e2 (fun y hy => hno y (by rw [e1]; exact List.mem_append_right _ hy))
      refine ⟨⟨bytes, g1, g2, ?_⟩, g4⟩
      rw [e1, ← List.append_assoc]
      exact g3
    by_cases hu : u = t
    · subst hu
      rcases mid_self hn hmid h1 with ⟨hm, hne⟩ | ⟨bytes, e1, e0, e2, e3⟩
      · exact cont (by rw [Function.update_self]; exact hm) fun y _ => hne y
      · rw [h3, e1] at hl
        cases l1 with
        | nil =>
          rw [List.nil_append, List.map_singleton, List.singleton_append] at hl
          injection hl with hl hl2
          injection hl with _ hl
          injection hl with hl
          refine ⟨⟨bytes, hl.symm, e2, fun j hj => (e3 j hj).mono _⟩, sched, _, mem1, ?_, hl2 ▸ h2⟩
          rw [Function.update_self, e0]
        | cons y l1 =>
          rw [List.map_singleton, List.singleton_append, List.cons_append] at hl
          injection hl with hl _
          exact absurd (by rw [← hl]; simp) (hno (c.out bytes))
    · have hu' := eq_other hu
      subst hu'
      exact cont (by rw [Function.update_of_ne (other_ne t).symm]; exact mid_other hmid h1) fun y hy => absurd hy (other_ne t)

/-- **C74** Whichever task builds a message `bs` at the beginning of the buffer and hands its first `n` bytes to a driver, and whatever
the other task does meanwhile, in every schedule: exactly `n` bytes are handed over, each of them the byte of the message or a byte
the other task wrote to that cell since the message was begun (`l1` is what happened in between). -/
theorem C74_bytes (t : Task) (bs : List UInt8) (n : Nat) (hn : n ≤ bs.length) (c : Chan) (rest : List Act) (sched : List Task)
    (ps ps' : Task → Prog) (mem mem' : List UInt8) (log : List (Task × Ev)) (hp : ps t = ofActs (.store 0 bs :: .send n c :: rest))
    (h : par sched ps mem = .ok (ps', mem', log)) (l1 l2 : List (Task × Ev)) (x : Out) (hl : log = l1 ++ (t, .emit x) :: l2)
    (hfirst : ∀ y, (t, Ev.emit y) ∉ l1) :
    ∃ bytes, x = c.out bytes ∧ bytes.length = n ∧
      ∀ j < n, bytes[j]? = bs[j]? ∨ ∃ b, bytes[j]? = some b ∧ (t.other, Ev.put j b) ∈ l1 := by
  have hm : Mid t bs n c (ofActs rest) [] (ps t) mem := .putting 0 (Nat.zero_le _) (by rw [hp]; rfl) (by simp)
  have := (mid_par hn sched hm h l1 x l2 hl hfirst).1
  simpa [Own] using this

/-- **C74** If the other task does not store to the cells of the message meanwhile, the message goes out as it was meant. -/
theorem C74_intact (t : Task) (bs : List UInt8) (n : Nat) (hn : n ≤ bs.length) (c : Chan) (rest : List Act) (sched : List Task)
    (ps ps' : Task → Prog) (mem mem' : List UInt8) (log : List (Task × Ev)) (hp : ps t = ofActs (.store 0 bs :: .send n c :: rest))
    (h : par sched ps mem = .ok (ps', mem', log)) (l1 l2 : List (Task × Ev)) (x : Out) (hl : log = l1 ++ (t, .emit x) :: l2)
    (hfirst : ∀ y, (t, Ev.emit y) ∉ l1) (hquiet : ∀ j < n, ∀ b, (t.other, Ev.put j b) ∉ l1) : x = c.out (bs.take n) := by
  obtain ⟨bytes, h1, h2, h3⟩ := C74_bytes t bs n hn c rest sched ps ps' mem mem' log hp h l1 l2 x hl hfirst
  rw [h1]
  congr 1
  apply List.ext_getElem?
  intro j
  rcases Nat.lt_or_ge j n with hj | hj
  · rw [List.getElem?_take_of_lt hj]
    rcases h3 j hj with h | ⟨b, -, hb⟩
    · exact h
    · exact absurd hb (hquiet j hj b)
  · rw [List.getElem?_eq_none (by omega), List.getElem?_eq_none (by rw [List.length_take]; omega)]

/-- The bytes sent for a message were those of the message, or were written to their cells by the other task in between. -/
def Sent (t : Task) (m : List UInt8) (bytes : List UInt8) (between : List (Task × Ev)) : Prop :=
  bytes.length = m.length ∧ ∀ j < m.length, bytes[j]? = m[j]? ∨ ∃ b, bytes[j]? = some b ∧ (t.other, Ev.put j b) ∈ between

/-- How often a task has sent something. -/
def emits (t : Task) (log : List (Task × Ev)) : Nat := log.countP fun e => match e with
  | (u, .emit _) => decide (u = t)
  | _ => false

/-- Nothing yet, or the task has just sent something. -/
def Boundary (t : Task) (l : List (Task × Ev)) : Prop := l = [] ∨ ∃ l' y, l = l' ++ [(t, .emit y)]

theorem split_first {t : Task} (l : List (Task × Ev)) (y : Out) (h : (t, Ev.emit y) ∈ l) :
    ∃ a z b, l = a ++ (t, .emit z) :: b ∧ ∀ w, (t, Ev.emit w) ∉ a := by
  induction l with
  | nil => cases h
  | cons e l ih =>
    by_cases he : ∃ z, e = (t, .emit z)
    · obtain ⟨z, rfl⟩ := he
      exact ⟨[], z, l, rfl, by simp⟩
    · rw [List.mem_cons] at h
      rcases h with h | h
      · exact absurd ⟨y, h.symm⟩ he
      · obtain ⟨a, z, b, e1, e2⟩ := ih h
        refine ⟨e :: a, z, b, by rw [e1]; rfl, ?_⟩
        intro w hw
        rw [List.mem_cons] at hw
        rcases hw with hw | hw
        · exact he ⟨w, hw.symm⟩
        · exact e2 w hw

theorem emits_zero {t : Task} {l : List (Task × Ev)} (h : ∀ w, (t, Ev.emit w) ∉ l) : emits t l = 0 := by
  unfold emits
  rw [List.countP_eq_zero]
  rintro ⟨u, e⟩ he
  cases e with
  | emit o =>
    simp only [decide_eq_true_eq]
    rintro rfl
    exact h o he
  | _ => simp

/-- The k-th message of a task that builds and sends one message after the other. -/
theorem messages_par (t : Task) (c : Chan) (ms : List (List UInt8)) (hm : ∀ m ∈ ms, m.length ≤ 255) :
    ∀ (sched : List Task) (ps ps' : Task → Prog) (mem mem' : List UInt8) (log : List (Task × Ev)),
    ps t = ofActs (ms.flatMap fun m => printActs m ++ [.send m.length c]) → par sched ps mem = .ok (ps', mem', log) →
    ∀ l0 l1 x l2, log = l0 ++ l1 ++ (t, .emit x) :: l2 → Boundary t l0 → (∀ y, (t, Ev.emit y) ∉ l1) →
    ∃ m bytes, ms[emits t l0]? = some m ∧ x = c.out bytes ∧ Sent t m bytes l1 := by
  induction ms with
  | nil =>
    intro sched
    have key : ∀ (ps ps' : Task → Prog) (mem mem' : List UInt8) (log : List (Task × Ev)), ps t = .done →
        par sched ps mem = .ok (ps', mem', log) → ∀ e, (t, e) ∉ log := by
      induction sched with
      | nil =>
        intro ps ps' mem mem' log _ h e
        simp only [par] at h
        injection h with h; injection h with _ h; injection h with _ h
        rw [← h]; simp
      | cons u sched ih =>
        intro ps ps' mem mem' log hp h e
        obtain ⟨p, mem1, evs, log', h1, h2, h3⟩ := par_cons h
        by_cases hu : u = t
        · subst hu
          rw [hp] at h1
          simp only [step] at h1
          injection h1 with h1; injection h1 with e1 h1; injection h1 with e2 e3
          subst e1 e2 e3
          rw [h3]
          exact ih _ _ _ _ _ (by rw [Function.update_self]) h2 e
        · rw [h3, List.mem_append, not_or]
          refine ⟨?_, ih _ _ _ _ _ (by rw [Function.update_of_ne (Ne.symm hu)]; exact hp) h2 e⟩
          rw [List.mem_map]
          rintro ⟨e', -, heq⟩
          injection heq with q1 q2
          exact hu q1
    intro ps ps' mem mem' log hp h l0 l1 x l2 hl _ _
    exact absurd (by rw [hl]; simp) (key ps ps' mem mem' log (by rw [hp]; rfl) h (.emit x))
  | cons m ms ih =>
    intro sched ps ps' mem mem' log hp h l0 l1 x l2 hl hb hno
    have hm0 := hm m (by simp)
    have hp' : ps t = ofActs (.store 0 (m.take 255 ++ [0]) :: .send m.length c :: ms.flatMap fun m => printActs m ++ [.send m.length c]) := by
      rw [hp]; simp [printActs]
    have hmid : Mid t (m.take 255 ++ [0]) m.length c (ofActs (ms.flatMap fun m => printActs m ++ [.send m.length c])) [] (ps t) mem :=
      .putting 0 (Nat.zero_le _) (by rw [hp']; rfl) (by simp)
    have hn : m.length ≤ (m.take 255 ++ [0]).length := by simp; omega
    rcases hb with rfl | ⟨l', y, rfl⟩
    · obtain ⟨⟨bytes, g1, g2, g3⟩, -⟩ := mid_par hn sched hmid h l1 x l2 (by simpa using hl) hno
      refine ⟨m, bytes, rfl, g1, g2, ?_⟩
      intro j hj
      have := g3 j hj
      simp only [Own, List.nil_append] at this
      rw [List.take_of_length_le hm0, List.getElem?_append_left hj] at this
      exact this
    · obtain ⟨a, z, b, e1, e2⟩ := split_first (t := t) (l' ++ [(t, .emit y)]) y (by simp)
      rw [e1] at hl
      obtain ⟨-, sched2, ps2, mem2, g1, g2⟩ := mid_par hn sched hmid h a z (b ++ l1 ++ (t, .emit x) :: l2) (by
        rw [hl]; simp) e2
      have hbb : Boundary t b := by
        rcases List.eq_nil_or_concat b with rfl | ⟨b', w, rfl⟩
        · exact .inl rfl
        · right
          refine ⟨b', y, ?_⟩
          have e1' : l' ++ [(t, .emit y)] = (a ++ (t, .emit z) :: b') ++ [w] := by rw [e1]; simp
          have := (List.append_inj' e1' rfl).2
          injection this with this
          rw [this]; simp
      obtain ⟨m', bytes, q1, q2, q3⟩ := ih (fun m' hm' => hm m' (by simp [hm'])) sched2 ps2 ps' mem2 mem' _ g1 g2 b l1 x l2 rfl hbb hno
      refine ⟨m', bytes, ?_, q2, q3⟩
      rw [e1]
      have : emits t (a ++ (t, .emit z) :: b) = emits t b + 1 := by
        have h0 := emits_zero e2
        unfold emits at h0 ⊢
        rw [List.countP_append, h0, List.countP_cons]
        simp
      rw [this, List.getElem?_cons_succ]
      exact q1

theorem replies_messages (replies : List (Option (List UInt8))) :
    replies.flatMap bluetoothActs = (replies.filterMap id).flatMap fun m => printActs m ++ [.send m.length .bluetooth] := by
  induction replies with
  | nil => rfl
  | cons r rs ih => cases r <;> simp [bluetoothActs, ih]

/-- **C74** Every message a Bluetooth client gets, in every schedule and whatever `loop()` does: the k-th message has the length of the
reply to the k-th request that has a reply, and each of its bytes is the byte of that reply, or one that `loop()` wrote to the same cell
of the buffer since the previous message was sent. -/
theorem C74_replies (replies : List (Option (List UInt8))) (hr : ∀ o, some o ∈ replies → o.length ≤ 255) (sched : List Task)
    (ps ps' : Task → Prog) (mem mem' : List UInt8) (log : List (Task × Ev)) (hp : ps .bluetooth = ofActs (replies.flatMap bluetoothActs))
    (h : par sched ps mem = .ok (ps', mem', log)) (l0 l1 l2 : List (Task × Ev)) (x : Out)
    (hl : log = l0 ++ l1 ++ (.bluetooth, .emit x) :: l2) (hb : Boundary .bluetooth l0) (hno : ∀ y, (Task.bluetooth, Ev.emit y) ∉ l1) :
    ∃ m bytes, (replies.filterMap id)[emits .bluetooth l0]? = some m ∧ x = .bluetooth bytes ∧ Sent .bluetooth m bytes l1 := by
  rw [replies_messages] at hp
  refine messages_par .bluetooth .bluetooth (replies.filterMap id) ?_ sched ps ps' mem mem' log hp h l0 l1 x l2 hl hb hno
  intro m hm
  rw [List.mem_filterMap] at hm
  obtain ⟨o, ho, rfl⟩ := hm
  exact hr m ho

/-! ### Without the other task -/

/-- What a task sent. -/
def sentBy (t : Task) (log : List (Task × Ev)) : List Out := log.filterMap fun e => match e with
  | (u, .emit o) => if u = t then some o else none
  | _ => none

/-- **C74** As long as the other task stores nothing, a task sends what it sends when it is alone, in every schedule. -/
theorem C74_alone (t : Task) (sched : List Task) : ∀ (ps ps' : Task → Prog) (mem mem' memF : List UInt8) (log : List (Task × Ev))
    (os : List Out), exec (ps t) mem = .ok (memF, os) → par sched ps mem = .ok (ps', mem', log) →
    (∀ j b, (t.other, Ev.put j b) ∉ log) → sentBy t log <+: os ∧ (ps' t = .done → sentBy t log = os ∧ mem' = memF) := by
  induction sched with
  | nil =>
    intro ps ps' mem mem' memF log os he h _
    simp only [par] at h
    injection h with h; injection h with e1 h; injection h with e2 e3
    subst e1 e2 e3
    refine ⟨by simp [sentBy], ?_⟩
    intro hd
    rw [hd] at he
    simp only [exec] at he
    injection he with he; injection he with e1 e2
    exact ⟨by rw [← e2]; rfl, e1⟩
  | cons u sched ih =>
    intro ps ps' mem mem' memF log os he h hq
    obtain ⟨p, mem1, evs, log', h1, h2, h3⟩ := par_cons h
    have hq' : ∀ j b, (t.other, Ev.put j b) ∉ log' := fun j b hm => hq j b (by rw [h3]; exact List.mem_append_right _ hm)
    by_cases hu : u = t
    · subst hu
      have goal : ∀ os', exec p mem1 = .ok (memF, os') → os = sentBy u (evs.map fun e => (u, e)) ++ os' →
          sentBy u log <+: os ∧ (ps' u = .done → sentBy u log = os ∧ mem' = memF) := by
        intro os' ho1 ho2
        obtain ⟨q1, q2⟩ := ih _ ps' mem1 mem' memF log' os' (by rw [Function.update_self]; exact ho1) h2 hq'
        have : sentBy u log = sentBy u (evs.map fun e => (u, e)) ++ sentBy u log' := by rw [h3]; simp [sentBy]
        rw [this, ho2]
        refine ⟨(List.prefix_append_right_inj _).2 q1, ?_⟩
        intro hd
        obtain ⟨q3, q4⟩ := q2 hd
        exact ⟨by rw [q3], q4⟩
      cases hpu : ps u with
      | done =>
        rw [hpu] at h1 he
        simp only [step] at h1
        injection h1 with h1; injection h1 with e1 h1; injection h1 with e2 e3
        subst e1 e2 e3
        exact goal os he rfl
      | put i b k =>
        rw [hpu] at h1 he
        simp only [step] at h1; simp only [exec] at he
        rw [bind_eq_ok] at h1 he
        obtain ⟨m, hm, h1⟩ := h1
        obtain ⟨m', hm', he⟩ := he
        rw [hm] at hm'; injection hm' with hm'; subst hm'
        injection h1 with h1; injection h1 with e1 h1; injection h1 with e2 e3
        subst e1 e2 e3
        exact goal os he rfl
      | get i k =>
        rw [hpu] at h1 he
        simp only [step] at h1; simp only [exec] at he
        rw [bind_eq_ok] at h1 he
        obtain ⟨m, hm, h1⟩ := h1
        obtain ⟨m', hm', he⟩ := he
        rw [hm] at hm'; injection hm' with hm'; subst hm'
        injection h1 with h1; injection h1 with e1 h1; injection h1 with e2 e3
        subst e1 e2 e3
        exact goal os he rfl
      | emit o k =>
        rw [hpu] at h1 he
        simp only [step] at h1; simp only [exec] at he
        rw [bind_eq_ok] at he
        obtain ⟨⟨m', os'⟩, hm', he⟩ := he
        injection he with he; injection he with e1 e2
        injection h1 with h1; injection h1 with e3 h1; injection h1 with e4 e5
        subst e1 e2 e3 e4 e5
        exact goal os' hm' (by simp [sentBy])
    · have hu' := eq_other hu
      subst hu'
      have hmem : mem1 = mem := by
        cases hpu : ps t.other with
        | put i b k =>
          rw [hpu] at h1
          simp only [step] at h1
          rw [bind_eq_ok] at h1
          obtain ⟨m, hm, h1⟩ := h1
          injection h1 with h1; injection h1 with e1 h1; injection h1 with e2 e3
          exact absurd (by rw [h3, ← e3]; simp) (hq i b)
        | get i k =>
          rw [hpu] at h1
          simp only [step] at h1
          rw [bind_eq_ok] at h1
          obtain ⟨m, hm, h1⟩ := h1
          injection h1 with h1; injection h1 with e1 h1; injection h1 with e2 e3
          exact e2.symm
        | done => rw [hpu] at h1; simp only [step] at h1; injection h1 with h1; injection h1 with e1 h1; injection h1 with e2 e3; exact e2.symm
        | emit o k => rw [hpu] at h1; simp only [step] at h1; injection h1 with h1; injection h1 with e1 h1; injection h1 with e2 e3; exact e2.symm
      subst hmem
      obtain ⟨q1, q2⟩ := ih _ ps' mem1 mem' memF log' os (by rw [Function.update_of_ne (other_ne t).symm]; exact he) h2 hq'
      have : sentBy t log = sentBy t log' := by
        rw [h3]
        unfold sentBy
        rw [List.filterMap_append]
        have : List.filterMap (fun e : Task × Ev => match e with
            | (u, .emit o) => if u = t then some o else none
            | _ => none) (evs.map fun e => (t.other, e)) = [] := by
          rw [List.filterMap_eq_nil_iff]
          rintro ⟨u, e⟩ hm
          rw [List.mem_map] at hm
          obtain ⟨e', -, heq⟩ := hm
          injection heq with q1 q2
          subst q1
          cases e <;> simp [other_ne t]
        rw [this, List.nil_append]
      rw [this]
      exact ⟨q1, q2⟩

/-! ### Messages that are torn -/

theorem par_append (s1 s2 : List Task) : ∀ (ps : Task → Prog) (mem : List UInt8), par (s1 ++ s2) ps mem = (do
    let (ps, mem, log) ← par s1 ps mem
    let (ps, mem, log') ← par s2 ps mem
    return (ps, mem, log ++ log')) := by
  induction s1 with
  | nil => intro ps mem; simp only [List.nil_append, par, bind_ok]; cases par s2 ps mem <;> rfl
  | cons t s1 ih =>
    intro ps mem
    simp only [List.cons_append, par]
    cases step (ps t) mem with
    | error e => rfl
    | ok q =>
      simp only [bind_ok]
      rw [ih]
      cases par s1 (Function.update ps t q.1) q.2.1 with
      | error e => rfl
      | ok r =>
        simp only [bind_ok, pure_ok]
        cases par s2 r.1 r.2.1 with
        | error e => rfl
        | ok r' => simp only [bind_ok, List.append_assoc]

theorem par_puts (t : Task) (k : Prog) (bs : List UInt8) : ∀ (i : Nat) (ps : Task → Prog) (mem m : List UInt8), ps t = putAll i bs k →
    storeSeq mem i bs = .ok m → ∃ log, par (List.replicate bs.length t) ps mem = .ok (Function.update ps t k, m, log) := by
  induction bs with
  | nil =>
    intro i ps mem m hp hs
    injection hs with hs
    subst hs
    refine ⟨[], ?_⟩
    simp only [List.length_nil, List.replicate_zero, par]
    rw [show Function.update ps t k = ps from by rw [show k = ps t from hp.symm, Function.update_eq_self]]
  | cons b bs ih =>
    intro i ps mem m hp hs
    simp only [storeSeq] at hs
    rw [bind_eq_ok] at hs
    obtain ⟨m1, h1, hs⟩ := hs
    obtain ⟨log, hl⟩ := ih (i + 1) (Function.update ps t (putAll (i + 1) bs k)) m1 m (by rw [Function.update_self]) hs
    refine ⟨(t, .put i b) :: log, ?_⟩
    rw [List.length_cons, List.replicate_succ]
    simp only [par]
    rw [hp]
    simp only [putAll, step]
    rw [h1, bind_ok, pure_ok, bind_ok]
    simp only
    rw [hl, bind_ok, Function.update_idem]
    rfl

theorem par_gets (t : Task) (kf : List UInt8 → Prog) (n : Nat) : ∀ (i : Nat) (acc : List UInt8) (ps : Task → Prog) (mem : List UInt8),
    ps t = getAll i n acc kf → i + n ≤ mem.length →
    ∃ log, par (List.replicate n t) ps mem = .ok (Function.update ps t (kf (acc ++ (mem.drop i).take n)), mem, log) := by
  induction n with
  | zero =>
    intro i acc ps mem hp _
    refine ⟨[], ?_⟩
    simp only [List.replicate_zero, par, List.take_zero, List.append_nil]
    rw [show Function.update ps t (kf acc) = ps from by rw [show kf acc = ps t from hp.symm, Function.update_eq_self]]
  | succ n ih =>
    intro i acc ps mem hp h
    have hi : i < mem.length := by omega
    have hr : readByte mem i = .ok mem[i] := by unfold readByte; rw [List.getElem?_eq_getElem hi]
    obtain ⟨log, hl⟩ := ih (i + 1) (acc ++ [mem[i]]) (Function.update ps t (getAll (i + 1) n (acc ++ [mem[i]]) kf)) mem
      (by rw [Function.update_self]) (by omega)
    refine ⟨(t, .get i mem[i]) :: log, ?_⟩
    rw [List.replicate_succ]
    simp only [par]
    rw [hp]
    simp only [getAll, step]
    rw [hr, bind_ok, pure_ok, bind_ok]
    simp only
    rw [hl, bind_ok, Function.update_idem, List.append_assoc, List.drop_eq_getElem_cons hi, List.take_succ_cons]
    rfl

theorem par_emit {t : Task} {o : Out} {k : Prog} {ps : Task → Prog} {mem : List UInt8} (hp : ps t = .emit o k) :
    par [t] ps mem = .ok (Function.update ps t k, mem, [(t, .emit o)]) := by
  simp only [par, hp, step, bind_ok, pure_ok, List.map_cons, List.map_nil, List.append_nil]

/-- **C74** There is no lock: whatever message a task builds and whatever the other one begins to build, some schedule makes the
driver send the beginning of the other message, and the rest of its own. -/
theorem C74_torn (t : Task) (bs cs : List UInt8) (n : Nat) (c : Chan) (rest rest' : List Act) (ps : Task → Prog) (mem : List UInt8)
    (hm : mem.length = 256) (hb : bs.length ≤ 256) (hc : cs.length ≤ 256) (hn : n ≤ bs.length)
    (hp : ps t = ofActs (.store 0 bs :: .send n c :: rest)) (hq : ps t.other = ofActs (.store 0 cs :: rest')) :
    ∃ sched ps' mem' log, par sched ps mem = .ok (ps', mem', log) ∧
      (t, .emit (c.out ((cs ++ bs.drop cs.length).take n))) ∈ log := by
  have hs1 := Codec.storeSeq_ok bs mem 0 (by omega)
  obtain ⟨m1, e1⟩ : ∃ m1, storeSeq mem 0 bs = .ok m1 := ⟨_, hs1⟩
  have l1 : m1.length = 256 := by rw [storeSeq_length e1, hm]
  obtain ⟨m2, e2⟩ : ∃ m2, storeSeq m1 0 cs = .ok m2 := ⟨_, Codec.storeSeq_ok cs m1 0 (by omega)⟩
  have l2 : m2.length = 256 := by rw [storeSeq_length e2, l1]
  obtain ⟨log1, h1⟩ := par_puts t _ bs 0 ps mem m1 hp e1
  obtain ⟨log2, h2⟩ := par_puts t.other (ofActs rest') cs 0 (Function.update ps t (ofActs (.send n c :: rest))) m1 m2
    (by rw [Function.update_of_ne (other_ne t)]; exact hq) e2
  obtain ⟨log3, h3⟩ := par_gets t (fun bytes => .emit (c.out bytes) (ofActs rest)) n 0 []
    (Function.update (Function.update ps t (ofActs (.send n c :: rest))) t.other (ofActs rest')) m2
    (by rw [Function.update_of_ne (other_ne t).symm, Function.update_self]; rfl) (by omega)
  have hbytes : [] ++ (m2.drop 0).take n = (cs ++ bs.drop cs.length).take n := by
    have q1 : m1 = bs ++ mem.drop bs.length := by
      rw [hs1] at e1; injection e1 with e1; rw [← e1]; simp
    have q2 : m2 = cs ++ m1.drop cs.length := by
      rw [Codec.storeSeq_ok cs m1 0 (by omega)] at e2; injection e2 with e2; rw [← e2]; simp
    rw [List.nil_append, List.drop_zero, q2, q1, List.drop_append, ← List.append_assoc]
    rcases Nat.lt_or_ge cs.length n with hlt | hge
    · rw [List.take_append_of_le_length (by simp; omega)]
    · rw [List.append_assoc, List.take_append_of_le_length hge, List.take_append_of_le_length hge]
  refine ⟨List.replicate bs.length t ++ (List.replicate cs.length t.other ++ (List.replicate n t ++ [t])), ?_⟩
  rw [hbytes] at h3
  have h4 := par_emit (t := t) (o := c.out ((cs ++ bs.drop cs.length).take n)) (k := ofActs rest) (mem := m2)
    (ps := Function.update (Function.update (Function.update ps t (ofActs (.send n c :: rest))) t.other (ofActs rest')) t
      (.emit (c.out ((cs ++ bs.drop cs.length).take n)) (ofActs rest))) (by rw [Function.update_self])
  rw [par_append, h1, bind_ok]
  simp only
  rw [par_append]
  rw [h2, bind_ok]
  simp only
  rw [par_append, h3, bind_ok]
  simp only
  rw [h4, bind_ok]
  exact ⟨_, _, _, rfl, by simp⟩

/-! ### What the tasks do is what `Model/Main.lean` says -/

section
variable {K : Type} [Field K] [LinearOrder K] [IsStrictOrderedRing K] [FloorRing K] {S : Type}

/-- The output that does not go through the buffer. -/
def isPin : Out → Bool
  | .pin _ => true
  | _ => false

/-- What a task did to the buffer and sent, as actions. -/
def Does (acts : List Act) (tx tx' : List UInt8) (o : List Out) : Prop :=
  tx'.length = 256 ∧ exec (ofActs acts) tx = .ok (tx', o.filter fun x => !isPin x)

theorem Does.nil {tx : List UInt8} (h : tx.length = 256) : Does [] tx tx [] := ⟨h, rfl⟩

theorem Does.append {a b : List Act} {tx tx1 tx2 : List UInt8} {o1 o2 : List Out} (h : tx.length = 256) (h1 : Does a tx tx1 o1)
    (h2 : Does b tx1 tx2 o2) : Does (a ++ b) tx tx2 (o1 ++ o2) := by
  obtain ⟨l1, e1⟩ := h1
  obtain ⟨l2, e2⟩ := h2
  refine ⟨l2, ?_⟩
  rw [exec_ofActs _ _ h] at e1 ⊢
  rw [exec_ofActs _ _ l1] at e2
  rw [runActs_append, e1, bind_ok]
  simp only
  rw [e2, bind_ok, List.filter_append]
  rfl

/-- From a run of the actions. -/
theorem Does.of_run {a : List Act} {tx tx' : List UInt8} {o : List Out} (h : tx.length = 256) (h' : tx'.length = 256)
    (hr : runActs a tx = .ok (tx', o)) (ho : o.filter (fun x => !isPin x) = o) : Does a tx tx' o := by
  refine ⟨h', ?_⟩
  rw [exec_ofActs _ _ h, hr, ho]

theorem out_not_pin (c : Chan) (b : List UInt8) : isPin (c.out b) = false := by cases c <;> rfl

theorem run_outs (a : List Act) : ∀ (tx tx' : List UInt8) (o : List Out), runActs a tx = .ok (tx', o) →
    tx'.length = tx.length ∧ o.filter (fun x => !isPin x) = o := by
  induction a with
  | nil => intro tx tx' o h; injection h with h; injection h with h1 h2; subst h1 h2; exact ⟨rfl, rfl⟩
  | cons x r ih =>
    intro tx tx' o h
    cases x with
    | store i bs =>
      simp only [runActs] at h
      rw [bind_eq_ok] at h
      obtain ⟨m, h1, h⟩ := h
      obtain ⟨q1, q2⟩ := ih _ _ _ h
      exact ⟨by rw [q1, storeSeq_length h1], q2⟩
    | send n c =>
      simp only [runActs] at h
      rw [bind_eq_ok] at h
      obtain ⟨b, h1, h⟩ := h
      rw [bind_eq_ok] at h
      obtain ⟨⟨m, o'⟩, h2, h⟩ := h
      injection h with h; injection h with e1 e2; subst e1 e2
      obtain ⟨q1, q2⟩ := ih _ _ _ h2
      refine ⟨q1, ?_⟩
      rw [List.filter_cons_of_pos (by rw [out_not_pin]; rfl), q2]
    | sendStr c =>
      simp only [runActs] at h
      rw [bind_eq_ok] at h
      obtain ⟨b, h1, h⟩ := h
      rw [bind_eq_ok] at h
      obtain ⟨⟨m, o'⟩, h2, h⟩ := h
      injection h with h; injection h with e1 e2; subst e1 e2
      obtain ⟨q1, q2⟩ := ih _ _ _ h2
      refine ⟨q1, ?_⟩
      rw [List.filter_cons_of_pos (by rw [out_not_pin]; rfl), q2]

theorem Does.run {a : List Act} {tx tx' : List UInt8} {o : List Out} (h : tx.length = 256) (hr : runActs a tx = .ok (tx', o)) :
    Does a tx tx' o := by
  obtain ⟨q1, q2⟩ := run_outs a tx tx' o hr
  exact Does.of_run h (by rw [q1, h]) hr q2

/-- The command handler with the buffer: it answers nothing and leaves the buffer alone, or formats a reply of 1 to 18 bytes. -/
theorem handle_acts {P : Platform} {ops : NexStar.TelOps K S} {g : Nmea.Gnss} {sc sc' : NexStar.Scope S} {request tx tx' : List UInt8}
    {len : Nat} {n : UInt32} (h : NexStar.handleRequest P ops g sc request len tx 256 = .ok (n, tx', sc')) :
    (n = 0 ∧ tx' = tx) ∨ ∃ o, 1 ≤ o.length ∧ o.length ≤ 18 ∧ n.toNat = o.length ∧ snprintfAt tx 0 256 o = .ok (o.length, tx') := by
  unfold NexStar.handleRequest at h
  rw [bind_eq_ok] at h
  obtain ⟨b, -, h⟩ := h
  rw [bind_eq_ok] at h
  obtain ⟨⟨out, sc1⟩, hb, h⟩ := h
  cases out with
  | none => injection h with h; injection h with h1 h; injection h with h2 h; exact .inl ⟨h1.symm, h2.symm⟩
  | some o =>
    right
    obtain ⟨b1, b2, -⟩ := NexStar.body_len hb
    simp only at h
    rw [bind_eq_ok] at h
    obtain ⟨⟨k, r⟩, h1, h⟩ := h
    injection h with h; injection h with e1 h; injection h with e2 h
    subst e1 e2
    unfold NexStar.snprintf at h1
    rw [if_neg (by decide), bind_eq_ok] at h1
    obtain ⟨m, h1, h2⟩ := h1
    injection h2 with h2; injection h2 with e1 e2; subst e1 e2
    refine ⟨o, b1, b2, ?_, ?_⟩
    · rw [UInt32.toNat_ofNat']; exact Nat.mod_eq_of_lt (by omega)
    · unfold snprintfAt
      rw [if_neg (by decide), h1]; rfl

theorem reply_run {c : Chan} {tx tx' o bytes : List UInt8} (h1 : snprintfAt tx 0 256 o = .ok (o.length, tx'))
    (h2 : readBytes tx' o.length = .ok bytes) : runActs (printActs o ++ [.send o.length c]) tx = .ok (tx', [c.out bytes]) := by
  rw [run_reply, h1, bind_ok]
  simp only
  rw [h2]; rfl

/-- A Bluetooth request. -/
theorem bluetooth_acts {cfg : Config} {T : Tel K S} {s s' : Sys K S} {buffer : List UInt8} {o : List Out} (hs : s.tx.length = 256)
    (h : onBluetoothData cfg T s buffer = .ok (s', o)) :
    ∃ r : Option (List UInt8), (∀ m, r = some m → 1 ≤ m.length ∧ m.length ≤ 18) ∧ Does (bluetoothActs r) s.tx s'.tx o := by
  unfold onBluetoothData at h
  rw [bind_eq_ok] at h
  obtain ⟨⟨n, tx, scope⟩, h1, h⟩ := h
  simp only at h
  rcases handle_acts h1 with ⟨rfl, rfl⟩ | ⟨m, m1, m2, m3, m4⟩
  · rw [if_neg (by decide)] at h
    injection h with h; injection h with e1 e2; subst e1 e2
    exact ⟨none, by simp, Does.nil hs⟩
  · rw [if_pos (by rw [gt_iff_lt, UInt32.lt_iff_toNat_lt, m3]; exact m1), bind_eq_ok] at h
    obtain ⟨bytes, h2, h⟩ := h
    injection h with h; injection h with e1 e2; subst e1 e2
    rw [m3] at h2
    refine ⟨some m, ?_, Does.run hs (reply_run m4 h2)⟩
    intro m' hm'
    injection hm' with hm'; subst hm'
    exact ⟨m1, m2⟩

/-- Messages of `loop()`, and what they do. -/
def Works (cfg : Config) (tx tx' : List UInt8) (o : List Out) : Prop := ∃ ws : List Work, Does (actsOf cfg ws) tx tx' o

theorem Works.nil {cfg : Config} {tx : List UInt8} (h : tx.length = 256) : Works cfg tx tx [] := ⟨[], Does.nil h⟩

theorem Works.append {cfg : Config} {tx tx1 tx2 : List UInt8} {o1 o2 : List Out} (h : tx.length = 256) (h1 : Works cfg tx tx1 o1)
    (h2 : Works cfg tx1 tx2 o2) : Works cfg tx tx2 (o1 ++ o2) := by
  obtain ⟨a, h1⟩ := h1
  obtain ⟨b, h2⟩ := h2
  exact ⟨a ++ b, by rw [actsOf_append]; exact Does.append h h1 h2⟩

theorem Works.one {cfg : Config} {tx tx' : List UInt8} {o : List Out} (w : Work) (h : tx.length = 256)
    (hr : runActs (w.acts cfg) tx = .ok (tx', o)) : Works cfg tx tx' o :=
  ⟨[w], by rw [actsOf_cons]; simp only [actsOf, List.flatMap_nil, List.append_nil]; exact Does.run h hr⟩

theorem Works.len {cfg : Config} {tx tx' : List UInt8} {o : List Out} (h : Works cfg tx tx' o) : tx'.length = 256 := by
  obtain ⟨_, h, _⟩ := h; exact h

theorem tcp_acts {cfg : Config} {T : Tel K S} {s s' : Sys K S} {c : Net.Conn} {r : TcpRead} {o : List Out} (hs : s.tx.length = 256)
    (h : tcpInput cfg T s c r = .ok (s', o)) : Works cfg s.tx s'.tx o := by
  unfold tcpInput at h
  rw [bind_eq_ok] at h
  obtain ⟨⟨received, rx⟩, h1, h⟩ := h
  simp only at h
  split at h
  · rw [bind_eq_ok] at h
    obtain ⟨⟨n, tx, scope⟩, h2, h⟩ := h
    simp only at h
    rcases handle_acts h2 with ⟨rfl, rfl⟩ | ⟨m, m1, m2, m3, m4⟩
    · rw [if_neg (by decide), bind_eq_ok] at h
      obtain ⟨s1, h3, h⟩ := h
      injection h with h; injection h with e1 e2; subst e1 e2
      have : s1.tx = s.tx := by
        unfold tcpGoto at h3
        rw [bind_eq_ok] at h3
        obtain ⟨⟨ok, ref⟩, -, h3⟩ := h3
        simp only at h3
        split at h3
        · rw [bind_eq_ok] at h3
          obtain ⟨t, -, h3⟩ := h3
          rw [bind_eq_ok] at h3
          obtain ⟨core, -, h3⟩ := h3
          injection h3 with h3; subst h3; rfl
        · injection h3 with h3; subst h3; rfl
      rw [this]
      exact Works.nil hs
    · rw [if_pos (by rw [gt_iff_lt, UInt32.lt_iff_toNat_lt, m3]; exact m1), bind_eq_ok] at h
      obtain ⟨bytes, h3, h⟩ := h
      injection h with h; injection h with e1 e2; subst e1 e2
      rw [m3] at h3
      exact Works.one (.reply c m) hs (reply_run (c := .tcp c) m4 h3)
  · injection h with h; injection h with e1 e2; subst e1 e2
    exact Works.nil hs

theorem mqttLoop_acts {cfg : Config} {T : Tel K S} (ms : List (List UInt8 × List UInt8)) : ∀ {s s' : Sys K S} {o : List Out},
    s.tx.length = 256 → mqttLoop T ms s = .ok (s', o) → Works cfg s.tx s'.tx o := by
  induction ms with
  | nil => intro s s' o hs h; injection h with h; injection h with e1 e2; subst e1 e2; exact Works.nil hs
  | cons m ms ih =>
    intro s s' o hs h
    obtain ⟨topic, payload⟩ := m
    simp only [mqttLoop] at h
    rw [bind_eq_ok] at h
    obtain ⟨⟨s1, o1⟩, h1, h⟩ := h
    rw [bind_eq_ok] at h
    obtain ⟨⟨s2, o2⟩, h2, h⟩ := h
    injection h with h; injection h with e1 e2; subst e1 e2
    have w1 : Works cfg s.tx s1.tx o1 := by
      unfold mqttCallback at h1
      split at h1
      · injection h1 with h1; injection h1 with e1 e2; subst e1 e2; exact Works.nil hs
      split at h1
      · injection h1 with h1; injection h1 with e1 e2; subst e1 e2; exact Works.nil hs
      rw [bind_eq_ok] at h1
      obtain ⟨p0, -, h1⟩ := h1
      split at h1
      · rw [bind_eq_ok] at h1
        obtain ⟨tx, h3, h1⟩ := h1
        rw [bind_eq_ok] at h1
        obtain ⟨bytes, h4, h1⟩ := h1
        injection h1 with h1; injection h1 with e1 e2; subst e1 e2
        refine Works.one .reset hs ?_
        simp only [Work.acts, resetActs, runActs, storeSeq]
        rw [h3, bind_ok, bind_ok, h4]; rfl
      · injection h1 with h1; injection h1 with e1 e2; subst e1 e2; exact Works.nil hs
    exact Works.append hs w1 (ih w1.len h2)

theorem task100_acts {cfg : Config} {T : Tel K S} {s s' : Sys K S} {i : In K} {o : List Out} (hs : s.tx.length = 256)
    (h : task100 cfg T s i = .ok (s', o)) : Works cfg s.tx s'.tx o := by
  unfold task100 at h
  rw [bind_eq_ok] at h
  obtain ⟨s1, h1, h⟩ := h
  rw [bind_eq_ok] at h
  obtain ⟨⟨s2, o1⟩, h2, h⟩ := h
  rw [bind_eq_ok] at h
  obtain ⟨⟨s3, o2⟩, h3, h⟩ := h
  injection h with h; injection h with e1 e2; subst e2
  have t1 : s1.tx = s.tx := by
    unfold readSensors at h1
    rw [bind_eq_ok] at h1
    obtain ⟨x, -, h1⟩ := h1
    rw [bind_eq_ok] at h1; obtain ⟨y, -, h1⟩ := h1; injection h1 with h1; subst h1; rfl
  have hs1 : s1.tx.length = 256 := by rw [t1, hs]
  have w1 : Works cfg s1.tx s2.tx o1 := by
    unfold tcpTask at h2
    split at h2
    · exact tcp_acts hs1 h2
    · injection h2 with h2; injection h2 with e1 e2; subst e1 e2; exact Works.nil hs1
  have w2 : Works cfg s2.tx s3.tx o2 := by
    unfold mqttTask at h3
    split at h3
    · exact mqttLoop_acts _ w1.len h3
    · injection h3 with h3; injection h3 with e1 e2; subst e1 e2; exact Works.nil w1.len
  have : s'.tx = s3.tx := by
    rw [← e1]; split <;> rfl
  rw [this, ← t1]
  exact Works.append hs1 w1 w2

theorem storeSeq_add (a : List UInt8) : ∀ (b mem : List UInt8) (i : Nat),
    storeSeq mem i (a ++ b) = (storeSeq mem i a >>= fun m => storeSeq m (i + a.length) b) := by
  induction a with
  | nil => intro b mem i; rfl
  | cons x a ih =>
    intro b mem i
    simp only [List.cons_append, storeSeq]
    cases storeByte mem i x with
    | error e => rfl
    | ok m => simp only [bind_ok]; rw [ih, List.length_cons, show i + 1 + a.length = i + (a.length + 1) by omega]

theorem packet_acts {cfg : Config} {s s' : Sys K S} {p : Equatorial K} {o : List Out} (hs : s.tx.length = 256)
    (h : sendPosition cfg s p = .ok (s', o)) : Works cfg s.tx s'.tx o ∧ s'.scope = s.scope ∧ s'.pitch = s.pitch ∧ s'.heading = s.heading ∧
      s'.temperature = s.temperature ∧ s'.gnss = s.gnss := by
  unfold sendPosition at h
  split at h
  · rename_i c hc
    split at h
    · rw [bind_eq_ok] at h
      obtain ⟨⟨n, tx⟩, h1, h⟩ := h
      simp only at h
      unfold Codec.packPosition at h1
      rw [if_neg (by decide)] at h1
      rw [bind_eq_ok] at h1; obtain ⟨b1, f1, h1⟩ := h1
      rw [bind_eq_ok] at h1; obtain ⟨b2, f2, h1⟩ := h1
      rw [bind_eq_ok] at h1; obtain ⟨b3, f3, h1⟩ := h1
      rw [bind_eq_ok] at h1; obtain ⟨ra, -, h1⟩ := h1
      rw [bind_eq_ok] at h1; obtain ⟨b4, f4, h1⟩ := h1
      rw [bind_eq_ok] at h1; obtain ⟨dec, -, h1⟩ := h1
      rw [bind_eq_ok] at h1; obtain ⟨b5, f5, h1⟩ := h1
      rw [bind_eq_ok] at h1; obtain ⟨b6, f6, h1⟩ := h1
      injection h1 with h1; injection h1 with e1 e2; subst e1 e2
      rw [if_pos rfl, bind_eq_ok] at h
      obtain ⟨bytes, h2, h⟩ := h
      injection h with h; injection h with e1 e2; subst e1 e2
      refine ⟨Works.one (.packet c (Codec.bytes16 Codec.MESSAGE_CURRENT_POSITION_LENGTH ++ (Codec.bytes16 Codec.MESSAGE_CURRENT_POSITION_TYPE ++
        (Codec.bytes64 0 ++ (Codec.bytes32 ra ++ (Codec.bytes32 dec ++ [0, 0, 0, 0])))))) hs ?_, rfl, rfl, rfl, rfl, rfl⟩
      simp only [Work.acts, packetActs, runActs]
      rw [storeSeq_add, f1, bind_ok, storeSeq_add]
      have l1 : ∀ v, (Codec.bytes16 v).length = 2 := fun _ => rfl
      have l2 : ∀ v, (Codec.bytes64 v).length = 8 := fun _ => rfl
      have l3 : ∀ v, (Codec.bytes32 v).length = 4 := fun _ => rfl
      rw [l1, Nat.zero_add, f2, bind_ok, storeSeq_add, l1, f3, bind_ok, storeSeq_add, l2, f4, bind_ok, storeSeq_add, l3, f5, bind_ok, l3, f6,
        bind_ok, h2]
      rfl
    · injection h with h; injection h with e1 e2; subst e1 e2; exact ⟨Works.nil hs, rfl, rfl, rfl, rfl, rfl⟩
  · injection h with h; injection h with e1 e2; subst e1 e2; exact ⟨Works.nil hs, rfl, rfl, rfl, rfl, rfl⟩

/-- The lists of points leave room in the buffer. -/
def PointsFit (T : Tel K S) (s : Sys K S) : Prop :=
  (((T.vertices s.scope.core).map (·.1)).map vertexText).flatten.length < 255 ∧
  (((T.vertices s.scope.core).map (·.2)).map vertexText).flatten.length < 255

theorem reportAll_acts {cfg : Config} {T : Tel K S} {s s' : Sys K S} {o : List Out} (hs : s.tx.length = 256) (hv : PointsFit T s)
    (h : reportAll cfg T s = .ok (s', o)) : Works cfg s.tx s'.tx o := by
  unfold reportAll at h
  rw [bind_eq_ok] at h; obtain ⟨lst, -, h⟩ := h
  rw [bind_eq_ok] at h; obtain ⟨⟨ty, position⟩, -, h⟩ := h
  simp only at h
  rw [bind_eq_ok] at h; obtain ⟨⟨s1, o1⟩, h1, h⟩ := h
  simp only at h
  rw [bind_eq_ok] at h; obtain ⟨⟨tx2, o2⟩, h2, h⟩ := h
  simp only at h
  rw [bind_eq_ok] at h; obtain ⟨⟨tx3, o3⟩, h3, h⟩ := h
  simp only at h
  rw [bind_eq_ok] at h; obtain ⟨⟨tx4, o4⟩, h4, h⟩ := h
  simp only at h
  rw [bind_eq_ok] at h; obtain ⟨m, -, h⟩ := h
  rw [bind_eq_ok] at h; obtain ⟨⟨tx5, o5⟩, h5, h⟩ := h
  injection h with h; injection h with e1 e2; subst e1 e2
  obtain ⟨w1, sc, -⟩ := packet_acts hs h1
  unfold PointsFit at hv
  rw [← sc] at hv
  have w2 : Works cfg s1.tx tx2 o2 := ⟨_, Does.run w1.len (by rw [run_publishAll]; exact h2)⟩
  have w3 : Works cfg tx2 tx3 o3 := Works.one (.points _ _) w2.len (by rw [Work.acts, run_points _ _ _ _ hv.1]; exact h3)
  have w4 : Works cfg tx3 tx4 o4 := Works.one (.points _ _) w3.len (by rw [Work.acts, run_points _ _ _ _ hv.2]; exact h4)
  have w5 : Works cfg tx4 tx5 o5 := Works.one (.publish _ _) w4.len (by rw [Work.acts, run_publish]; exact h5)
  exact Works.append hs (Works.append hs (Works.append hs (Works.append hs w1 w2) w3) w4) w5

theorem pollGnss_tx {cfg : Config} {s s' : Sys K S} {serial : List UInt8} (h : pollGnss cfg s serial = .ok s') :
    s'.tx = s.tx ∧ s'.scope = s.scope := by
  unfold pollGnss at h
  simp only at h
  split at h
  · rw [bind_eq_ok] at h; obtain ⟨rx, -, h⟩ := h
    rw [bind_eq_ok] at h; obtain ⟨rx', -, h⟩ := h
    rw [bind_eq_ok] at h; obtain ⟨r, -, h⟩ := h
    cases r with
    | none => cases h
    | some q =>
      obtain ⟨n, g⟩ := q
      simp only at h
      split at h
      · injection h with h; subst h; exact ⟨rfl, rfl⟩
      · injection h with h; subst h; exact ⟨rfl, rfl⟩
  · injection h with h; subst h; exact ⟨rfl, rfl⟩

theorem task500_acts {cfg : Config} {T : Tel K S} {s s' : Sys K S} {i : In K} {o : List Out} (hs : s.tx.length = 256) (hv : PointsFit T s)
    (h : task500 cfg T s i = .ok (s', o)) : Works cfg s.tx s'.tx o := by
  unfold task500 at h
  rw [bind_eq_ok] at h; obtain ⟨s1, h1, h⟩ := h
  obtain ⟨t1, t2⟩ := pollGnss_tx h1
  have hs1 : s1.tx.length = 256 := by rw [t1, hs]
  have hv1 : PointsFit T s1 := by unfold PointsFit; rw [t2]; exact hv
  rw [← t1]
  split at h
  · exact reportAll_acts hs1 hv1 h
  · injection h with h; injection h with e1 e2; subst e1 e2; exact Works.nil hs1

theorem task2s_acts {cfg : Config} {s s' : Sys K S} {i : In K} {o : List Out} (hs : s.tx.length = 256)
    (h : task2s cfg s i = .ok (s', o)) : Works cfg s.tx s'.tx o := by
  unfold task2s at h
  rw [bind_eq_ok] at h; obtain ⟨tx1, h1, h⟩ := h
  rw [bind_eq_ok] at h; obtain ⟨tx2, h2, h⟩ := h
  rw [bind_eq_ok] at h; obtain ⟨rx1, -, h⟩ := h
  rw [bind_eq_ok] at h; obtain ⟨rx2, -, h⟩ := h
  rw [bind_eq_ok] at h; obtain ⟨⟨s1, o1⟩, h3, h⟩ := h
  injection h with h; injection h with e1 e2; subst e1 e2
  have w1 : Works cfg s.tx tx2 [] := Works.one .clear hs (by
    simp only [Work.acts, clearActs, runActs, storeSeq]
    rw [h1, bind_ok, bind_ok, h2]; rfl)
  have w2 : Works cfg tx2 s1.tx o1 := by
    unfold reportGnss at h3
    split at h3
    · rw [bind_eq_ok] at h3; obtain ⟨⟨len, tx⟩, f1, h3⟩ := h3
      simp only at h3 f1
      rw [bind_eq_ok] at h3; obtain ⟨p1, f2, h3⟩ := h3
      rw [bind_eq_ok] at h3; obtain ⟨p2, f3, h3⟩ := h3
      injection h3 with h3; injection h3 with e1 e2; subst e1 e2
      refine Works.one (.gnss (gnssText s.gnss)) w1.len ?_
      rw [Work.acts, run_gnss, f1, bind_ok]
      simp only
      rw [f2, bind_ok, f3]; rfl
    · injection h3 with h3; injection h3 with e1 e2; subst e1 e2; exact Works.nil w1.len
  exact Works.append hs w1 w2

/-- **C74** The programs of the two tasks are those of `Model/Main.lean`: a Bluetooth request is handled by building a reply of at most 18
bytes and sending it, or by nothing; a call of `loop()` builds and sends messages one after the other, of the kinds `Work` lists; and the
buffer afterwards and everything sent are the same. -/
theorem C74_model (cfg : Config) (T : Tel K S) (s s' : Sys K S) (o : List Out) (hs : s.tx.length = 256) (hv : PointsFit T s) :
    (∀ buffer, Main.step cfg T s (.bluetooth buffer) = .ok (s', o) →
      ∃ r : Option (List UInt8), (∀ m, r = some m → 1 ≤ m.length ∧ m.length ≤ 18) ∧
        exec (ofActs (bluetoothActs r)) s.tx = .ok (s'.tx, o.filter fun x => !isPin x)) ∧
    (∀ i, Main.step cfg T s (.loop i) = .ok (s', o) →
      ∃ ws : List Work, exec (ofActs (actsOf cfg ws)) s.tx = .ok (s'.tx, o.filter fun x => !isPin x)) := by
  constructor
  · intro buffer h
    obtain ⟨r, h1, h2⟩ := bluetooth_acts hs h
    exact ⟨r, h1, h2.2⟩
  · intro i h
    have quiet : ∀ {s2 : Sys K S} {o2 : List Out}, s2.tx = s.tx → o2.filter (fun x => !isPin x) = [] →
        ∃ ws : List Work, exec (ofActs (actsOf cfg ws)) s.tx = .ok (s2.tx, o2.filter fun x => !isPin x) := by
      intro s2 o2 q1 q2
      exact ⟨[], by rw [q1, q2]; rfl⟩
    have works : ∀ {s2 : Sys K S} {o2 : List Out}, Works cfg s.tx s2.tx o2 →
        ∃ ws : List Work, exec (ofActs (actsOf cfg ws)) s.tx = .ok (s2.tx, o2.filter fun x => !isPin x) := by
      rintro s2 o2 ⟨ws, hw⟩
      exact ⟨ws, hw.2⟩
    simp only [Main.step, Main.loop] at h
    generalize schedule s.timers i.now = q at h
    obtain ⟨q1, q2⟩ := q
    simp only at h
    split at h
    · unfold taskFilter at h
      split at h
      · rw [bind_eq_ok] at h; obtain ⟨x, -, h⟩ := h
        injection h with h; injection h with e1 e2; subst e1 e2
        exact quiet rfl rfl
      · injection h with h; injection h with e1 e2; subst e1 e2
        exact quiet rfl rfl
    · unfold task25 at h
      injection h with h
      split at h
      · injection h with e1 e2; subst e1 e2; exact quiet rfl rfl
      · injection h with e1 e2; subst e1 e2; exact quiet rfl rfl
    · exact works (task100_acts (s := { s with timers := q2 }) hs h)
    · exact works (task500_acts (s := { s with timers := q2 }) hs hv h)
    · injection h with h; injection h with e1 e2; subst e1 e2; exact quiet rfl rfl
    · exact works (task2s_acts (s := { s with timers := q2 }) hs h)
    · injection h with h; injection h with e1 e2; subst e1 e2; exact quiet rfl rfl
    · injection h with h; injection h with e1 e2; subst e1 e2; exact quiet rfl rfl

end

/-! ### Examples -/

/-- A Bluetooth client asks for the position while `loop()` publishes the altitude: the hypotheses of `C74_safe` hold … -/
example (sched : List Task) : ∃ ps' mem' log,
    par sched (tasks ⟨Platform.esp32, true, true, true, true⟩ [some (ascii "34AB,12CE#"), none, some (ascii "A#")]
      [.publish "home/appliance/telescope/alt" (ascii "41.300"), .clear, .points "home/appliance/telescope/actual" [ascii "[1.00,2.00],"]])
      (List.replicate 256 0) = .ok (ps', mem', log) ∧ Terminated mem' :=
  C74_safe _ _ (by
    intro o ho
    simp only [List.mem_cons, List.not_mem_nil, or_false, Option.some.injEq, reduceCtorEq, false_or] at ho
    rcases ho with rfl | rfl <;> decide +kernel) _ (by
    intro w hw
    simp only [List.mem_cons, List.not_mem_nil, or_false] at hw
    rcases hw with rfl | rfl | rfl
    · show _ ≤ _; decide +kernel
    · trivial
    · show _ ≤ _; decide +kernel) _ ⟨List.length_replicate, by decide +kernel⟩ sched

/-- … and some schedule makes the client receive the altitude, its NUL and the end of the reply. -/
example : ∃ sched ps' mem' log,
    par sched (tasks ⟨Platform.esp32, true, true, true, true⟩ [some (ascii "34AB,12CE#")]
      [.publish "home/appliance/telescope/alt" (ascii "41.300")]) (List.replicate 256 0) = .ok (ps', mem', log) ∧
      (Task.bluetooth, Ev.emit (.bluetooth (ascii "41.300" ++ [0] ++ ascii "CE#"))) ∈ log := by
  obtain ⟨sched, ps', mem', log, h1, h2⟩ := C74_torn .bluetooth ((ascii "34AB,12CE#").take 255 ++ [0]) ((ascii "41.300").take 255 ++ [0])
    (ascii "34AB,12CE#").length .bluetooth [] (sendActs ⟨Platform.esp32, true, true, true, true⟩ "home/appliance/telescope/alt" 6)
    (tasks ⟨Platform.esp32, true, true, true, true⟩ [some (ascii "34AB,12CE#")]
      [.publish "home/appliance/telescope/alt" (ascii "41.300")]) (List.replicate 256 0) List.length_replicate (by decide +kernel) (by decide +kernel)
    (by decide +kernel) rfl rfl
  refine ⟨sched, ps', mem', log, h1, ?_⟩
  have e : (((ascii "41.300").take 255 ++ [(0 : UInt8)]) ++ ((ascii "34AB,12CE#").take 255 ++ [(0 : UInt8)]).drop ((ascii "41.300").take 255 ++ [(0 : UInt8)]).length).take
    (ascii "34AB,12CE#").length = ascii "41.300" ++ [(0 : UInt8)] ++ ascii "CE#" := by decide +kernel
  rw [e] at h2
  exact h2

/-- The other way round, the MQTT broker gets the reply meant for the Bluetooth client. -/
example : ∃ sched ps' mem' log,
    par sched (tasks ⟨Platform.esp32, true, true, false, true⟩ [some (ascii "34AB,12CE#")]
      [.publish "home/appliance/telescope/alt" (ascii "41.300")]) (List.replicate 256 0) = .ok (ps', mem', log) ∧
      (Task.loop, Ev.emit (.mqtt "home/appliance/telescope/alt" (ascii "34AB,1"))) ∈ log := by
  obtain ⟨sched, ps', mem', log, h1, h2⟩ := C74_torn .loop ((ascii "41.300").take 255 ++ [(0 : UInt8)]) ((ascii "34AB,12CE#").take 255 ++ [(0 : UInt8)])
    (ascii "41.300").length (.mqtt "home/appliance/telescope/alt") [] [.send 10 .bluetooth]
    (tasks ⟨Platform.esp32, true, true, false, true⟩ [some (ascii "34AB,12CE#")]
      [.publish "home/appliance/telescope/alt" (ascii "41.300")]) (List.replicate 256 0) List.length_replicate (by decide +kernel) (by decide +kernel)
    (by decide +kernel) rfl rfl
  refine ⟨sched, ps', mem', log, h1, ?_⟩
  have e : (((ascii "34AB,12CE#").take 255 ++ [(0 : UInt8)]) ++ ((ascii "41.300").take 255 ++ [(0 : UInt8)]).drop ((ascii "34AB,12CE#").take 255 ++ [(0 : UInt8)]).length).take
    (ascii "41.300").length = ascii "34AB,1" := by decide +kernel
  rw [e] at h2
  exact h2

/-- The hypotheses of `C74_replies` are met in that schedule: what the client got has the length of the reply. -/
example : ∃ sched ps' mem' log l1 x l2,
    par sched (tasks ⟨Platform.esp32, true, true, true, true⟩ [some (ascii "34AB,12CE#")]
      [.publish "home/appliance/telescope/alt" (ascii "41.300")]) (List.replicate 256 0) = .ok (ps', mem', log) ∧
      log = [] ++ l1 ++ (.bluetooth, .emit x) :: l2 ∧ (∀ y, (Task.bluetooth, Ev.emit y) ∉ l1) ∧
      ∃ bytes, x = .bluetooth bytes ∧ bytes.length = 10 := by
  obtain ⟨sched, ps', mem', log, h1, h2⟩ := C74_torn .bluetooth ((ascii "34AB,12CE#").take 255 ++ [0]) ((ascii "41.300").take 255 ++ [0])
    (ascii "34AB,12CE#").length .bluetooth [] (sendActs ⟨Platform.esp32, true, true, true, true⟩ "home/appliance/telescope/alt" 6)
    (tasks ⟨Platform.esp32, true, true, true, true⟩ [some (ascii "34AB,12CE#")]
      [.publish "home/appliance/telescope/alt" (ascii "41.300")]) (List.replicate 256 0) List.length_replicate (by decide +kernel)
    (by decide +kernel) (by decide +kernel) rfl rfl
  obtain ⟨l1, x, l2, e1, e2⟩ := split_first log _ h2
  obtain ⟨m, bytes, q1, q2, q3, -⟩ := C74_replies [some (ascii "34AB,12CE#")] (by
    intro o ho
    rw [List.mem_singleton] at ho
    injection ho with ho
    rw [ho]; decide +kernel) sched _ ps' _ mem' log rfl h1 [] l1 l2 x (by rw [e1]; rfl) (.inl rfl) e2
  refine ⟨sched, ps', mem', log, l1, x, l2, h1, by rw [e1]; rfl, e2, bytes, q2, ?_⟩
  simp only [emits, List.countP_nil, List.filterMap_cons, id, List.filterMap_nil, List.getElem?_cons_zero] at q1
  injection q1 with q1
  rw [q3, ← q1]; decide +kernel

end Verif.Race
