import Verif.Model.Net
import Mathlib.Data.List.Basic
import Mathlib.Data.List.Nodup
import Mathlib.Data.List.Induction
import Mathlib.Tactic.Tauto

/-!
# C49: a single TCP client
-/

namespace Verif.Net

/-- Connection numbers are never reused. -/
def Fresh (es : List Event) : Prop := (es.filterMap fun e => match e with | .arrive c => some c | _ => none).Nodup

/-- The device after some events since power-up. -/
def run (es : List Event) : Net := es.foldl step .init

/-- The client the device talks to. -/
def Serves (n : Net) (c : Conn) : Prop := n.remote = some c ∧ c ∈ n.open'

theorem serves_connected {n : Net} {c : Conn} (h : Serves n c) : n.connected = true := by
  unfold Net.connected; rw [h.1]; simpa using h.2

theorem connected_serves {n : Net} (h : n.connected = true) : ∃ c, Serves n c := by
  unfold Net.connected at h
  split at h
  · rename_i c hc; exact ⟨c, hc, by simpa using h⟩
  · cases h

theorem mem_drop {n : Net} {o : Option Conn} {c : Conn} : c ∈ (n.drop o).open' ↔ c ∈ n.open' ∧ o ≠ some c := by
  cases o with
  | none => simp [Net.drop]
  | some d => simp only [Net.drop, Net.close, List.mem_filter]; simp; tauto

theorem drop_remote (n : Net) (o : Option Conn) : (n.drop o).remote = n.remote := by cases o <;> rfl
theorem drop_pending (n : Net) (o : Option Conn) : (n.drop o).pending = n.pending := by cases o <;> rfl

/-- What every reachable state looks like: the served client and the pending ones are different connections that did arrive. -/
structure Inv (arrived : List Conn) (n : Net) : Prop where
  pend : ∀ c ∈ n.pending, c ∈ arrived
  rem : ∀ c, n.remote = some c → c ∈ arrived
  nodup : n.pending.Nodup
  sep : ∀ c, n.remote = some c → c ∉ n.pending

/-- The connections that arrived. -/
def arrivals (es : List Event) : List Conn := es.filterMap fun e => match e with | .arrive c => some c | _ => none

theorem inv_check {a : List Conn} {n : Net} (h : Inv a n) : Inv a (checkForConnections n) := by
  obtain ⟨h1, h2, h3, h4⟩ := h
  unfold checkForConnections
  split
  · split
    · simp only [Net.available]
      refine ⟨?_, ?_, ?_, ?_⟩
      · intro c hc; rw [drop_pending] at hc; simp only [drop_pending] at hc
        exact h1 c (List.mem_of_mem_tail (List.mem_of_mem_tail hc))
      · intro c hc; rw [drop_remote] at hc; simp only [drop_remote] at hc; exact h2 c hc
      · rw [drop_pending]; simp only [drop_pending]; exact (h3.tail).tail
      · intro c hc hp
        rw [drop_remote] at hc; simp only [drop_remote] at hc
        rw [drop_pending] at hp; simp only [drop_pending] at hp
        exact h4 c hc (List.mem_of_mem_tail (List.mem_of_mem_tail hp))
    · simp only [Net.available]
      refine ⟨?_, ?_, ?_, ?_⟩
      · intro c hc; rw [drop_pending] at hc; exact h1 c (List.mem_of_mem_tail hc)
      · intro c hc; rw [drop_remote] at hc; exact h1 c (List.mem_of_mem_head? hc)
      · rw [drop_pending]; exact h3.tail
      · intro c hc hp
        rw [drop_remote] at hc; rw [drop_pending] at hp
        cases hpe : n.pending with
        | nil => rw [hpe] at hp; simp at hp
        | cons d ds =>
          rw [hpe] at hc hp h3
          simp only [List.head?_cons, Option.some.injEq, List.tail_cons] at hc hp
          subst hc
          exact (List.nodup_cons.1 h3).1 hp
  · exact ⟨h1, h2, h3, h4⟩

theorem inv_run (es : List Event) (hf : Fresh es) : Inv (arrivals es) (run es) := by
  induction es using List.reverseRecOn with
  | nil => exact ⟨by simp [run, Net.init], by simp [run, Net.init], by simp [run, Net.init], by simp [run, Net.init]⟩
  | append_singleton es e ih =>
    have hf' : Fresh es := by
      unfold Fresh at hf ⊢; rw [List.filterMap_append] at hf; exact (List.nodup_append.1 hf).1
    obtain ⟨h1, h2, h3, h4⟩ := ih hf'
    have hrun : run (es ++ [e]) = step (run es) e := by simp [run]
    have harr : arrivals (es ++ [e]) = arrivals es ++ arrivals [e] := by simp [arrivals, List.filterMap_append]
    rw [hrun, harr]
    cases e with
    | arrive c =>
      have hc : c ∉ arrivals es := by
        unfold Fresh at hf; rw [List.filterMap_append] at hf
        have := (List.nodup_append.1 hf).2.2
        intro hc; exact this c hc c (by simp) rfl
      simp only [step]
      refine ⟨?_, ?_, ?_, ?_⟩
      · intro d hd
        rcases List.mem_append.1 hd with hd | hd
        · exact List.mem_append_left _ (h1 d hd)
        · rw [List.mem_singleton.1 hd]; simp [arrivals]
      · intro d hd; exact List.mem_append_left _ (h2 d hd)
      · rw [List.nodup_append]
        refine ⟨h3, by simp, ?_⟩
        intro x hx y hy; rw [List.mem_singleton.1 hy]; rintro rfl; exact hc (h1 _ hx)
      · intro d hd hp
        rcases List.mem_append.1 hp with hp | hp
        · exact h4 d hd hp
        · rw [List.mem_singleton.1 hp] at hd; exact hc (h2 _ hd)
    | gone c => exact ⟨fun d hd => List.mem_append_left _ (h1 d hd), fun d hd => List.mem_append_left _ (h2 d hd), h3, h4⟩
    | check =>
      have := inv_check (n := run es) ⟨h1, h2, h3, h4⟩
      rw [show arrivals [Event.check] = [] from rfl, List.append_nil]; exact this

/-- A check keeps the served client, as long as it is not itself waiting in the queue (it never is). -/
theorem check_keeps {n : Net} {c : Conn} (h : Serves n c) (hs : c ∉ n.pending) : Serves (checkForConnections n) c := by
  unfold checkForConnections
  split
  · rw [if_pos (serves_connected h)]
    simp only [Net.available]
    refine ⟨by rw [drop_remote]; simp only [drop_remote]; exact h.1, ?_⟩
    rw [mem_drop]
    simp only [drop_pending]
    constructor
    · rw [mem_drop]
      refine ⟨h.2, fun hc => hs (List.mem_of_mem_head? hc)⟩
    · intro hc; exact hs (List.mem_of_mem_tail (List.mem_of_mem_head? hc))
  · exact h

/-- **C49** The client the device talks to is never displaced: whatever happens afterwards, as long as this connection does not go down
it stays the one that is served. -/
theorem C49_never_displaced (es fs : List Event) (hf : Fresh (es ++ fs)) (c : Conn) (h : Serves (run es) c)
    (hg : Event.gone c ∉ fs) : Serves (run (es ++ fs)) c := by
  induction fs using List.reverseRecOn with
  | nil => simpa using h
  | append_singleton fs e ih =>
    have hf' : Fresh (es ++ fs) := by
      unfold Fresh at hf ⊢; rw [← List.append_assoc, List.filterMap_append] at hf; exact (List.nodup_append.1 hf).1
    have hi := ih hf' (fun hm => hg (List.mem_append_left _ hm))
    have hrun : run (es ++ (fs ++ [e])) = step (run (es ++ fs)) e := by simp [run]
    rw [hrun]
    cases e with
    | arrive d => exact ⟨hi.1, List.mem_cons_of_mem _ hi.2⟩
    | gone d =>
      have : d ≠ c := by rintro rfl; exact hg (by simp)
      exact ⟨hi.1, by simp only [step, Net.close, List.mem_filter]; exact ⟨hi.2, by simpa using this.symm⟩⟩
    | check => exact check_keeps hi ((inv_run _ hf').sep c hi.1)

/-- **C49** When nobody is connected, the next check accepts the connection that has been waiting longest, if any; if it is still up it is
then served. -/
theorem C49_accepts (es : List Event) (hf : Fresh es) (hn : ∀ c, ¬ Serves (run es) c) (c : Conn) (rest : List Conn)
    (hp : (run es).pending = c :: rest) :
    (run (es ++ [.check])).remote = some c ∧ (run (es ++ [.check])).pending = rest ∧
      (c ∈ (run es).open' → Serves (run (es ++ [.check])) c) := by
  have hrun : run (es ++ [.check]) = checkForConnections (run es) := by simp [run, step]
  have hnc : (run es).connected = false := by
    rw [← Bool.not_eq_true]; intro h; obtain ⟨d, hd⟩ := connected_serves h; exact hn d hd
  have hsep := (inv_run es hf).sep
  rw [hrun]
  have hh : (run es).hasClient = true := by simp [Net.hasClient, hp]
  unfold checkForConnections
  rw [if_pos hh, if_neg (by rw [hnc]; decide)]
  simp only [Net.available, hp, List.head?_cons, List.tail_cons]
  refine ⟨drop_remote _ _, drop_pending _ _, fun ho => ⟨drop_remote _ _, ?_⟩⟩
  rw [mem_drop]
  refine ⟨ho, fun hc => ?_⟩
  exact hsep c hc (by rw [hp]; simp)

/-- **C49** While a client is served, a check closes the first two waiting connections (the code takes one from the queue only to print its
address and another one to close it); later ones go on waiting. -/
theorem C49_rejects (es : List Event) (c : Conn) (h : Serves (run es) c) :
    (run (es ++ [.check])).pending = (run es).pending.drop 2 ∧
      ∀ d ∈ (run es).pending.take 2, d ∉ (run (es ++ [.check])).open' := by
  have hrun : run (es ++ [.check]) = checkForConnections (run es) := by simp [run, step]
  rw [hrun]
  unfold checkForConnections
  cases hp : (run es).pending with
  | nil => simp [Net.hasClient, hp]
  | cons d ds =>
    rw [if_pos (by simp [Net.hasClient, hp]), if_pos (serves_connected h)]
    simp only [Net.available, hp, List.head?_cons, List.tail_cons]
    constructor
    · rw [drop_pending]; simp only [drop_pending]; simp
    · intro x hx
      rw [mem_drop]
      rintro ⟨h1, h2⟩
      have h1' := (mem_drop.1 h1).2
      simp only [drop_pending] at h2
      cases ds with
      | nil => simp at hx; subst hx; exact h1' rfl
      | cons y ys =>
        simp only [List.take_succ_cons, List.take_zero, List.mem_cons, List.not_mem_nil, or_false] at hx
        rcases hx with rfl | rfl
        · exact h1' rfl
        · exact h2 rfl

/-- A run with three clients: the first one is served throughout, the other two are turned away; after it left the fourth is accepted. -/
example : Fresh [.arrive 1, .check, .arrive 2, .arrive 3, .check, .gone 1, .arrive 4, .check] ∧
    Serves (run [.arrive 1, .check, .arrive 2, .arrive 3, .check]) 1 ∧
    (run [.arrive 1, .check, .arrive 2, .arrive 3, .check]).open' = [1] ∧
    Serves (run [.arrive 1, .check, .arrive 2, .arrive 3, .check, .gone 1, .arrive 4, .check]) 4 := by
  unfold Fresh Serves; decide

end Verif.Net
