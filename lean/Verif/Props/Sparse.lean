import Verif.Model.Sparse
import Verif.Lemmas.Strto
import Mathlib.Data.Finset.Card
import Mathlib.Data.Finset.Image
import Mathlib.Data.Rat.Defs
import Mathlib.Algebra.Field.Rat
import Mathlib.Tactic.Ring
import Mathlib.Tactic.Linarith

/-!
# C75: sparse matrices
-/

namespace Verif.Sparse

variable {K : Type} [Field K] [DecidableEq K]

/-! ### Specification -/

/-- The element of the matrix a history of accesses leaves: the last value written to it, 0 if none was. -/
def value : List (Op K) → (row col : Nat) → K
  | [], _, _ => 0
  | h, row, col => h.foldl (fun v op => match op with
    | .read _ _ => v
    | .write r c x => if r = row ∧ c = col then x else v) 0

/-- The elements a history writes. -/
def written (h : List (Op K)) : List (Nat × Nat) := h.filterMap fun op => match op with
  | .read _ _ => none
  | .write r c _ => some (r, c)

/-- All elements accessed. -/
def touched (h : List (Op K)) : List (Nat × Nat) := h.map fun op => match op with
  | .read r c => (r, c)
  | .write r c _ => (r, c)

/-- All accesses are inside the columns of the matrix. -/
def Inside (cols : Nat) (h : List (Op K)) : Prop := ∀ e ∈ touched h, e.2 < cols

/-- No zero is written. -/
def NoZero (h : List (Op K)) : Prop := ∀ r c, Op.write r c (0 : K) ∉ h

theorem value_snoc (h : List (Op K)) (op : Op K) (row col : Nat) : value (h ++ [op]) row col = match op with
    | .read _ _ => value h row col
    | .write r c x => if r = row ∧ c = col then x else value h row col := by
  cases h with
  | nil => cases op <;> rfl
  | cons o h =>
    show List.foldl _ _ _ = _
    rw [List.foldl_append]
    cases op <;> rfl

theorem run_snoc (cols : Nat) (h : List (Op K)) (op : Op K) (t : Table K) : run cols (h ++ [op]) t = (do
    let t ← run cols h t
    run cols [op] t) := by
  induction h generalizing t with
  | nil => rfl
  | cons o h ih =>
    cases o with
    | read r c =>
      simp only [List.cons_append, run]
      cases read cols t r c with
      | error e => rfl
      | ok q => simp only [bind_ok]; exact ih _
    | write r c v =>
      simp only [List.cons_append, run]
      cases write cols t r c v with
      | error e => rfl
      | ok q => simp only [bind_ok]; exact ih _

/-! ### Probing -/

/-- An item that holds an element other than zero. -/
def Live (t : Table K) (p : Nat) : Prop := t.key p ≠ -1 ∧ ∃ v, t.val p = some v ∧ v ≠ 0

/-- Keys come with values. -/
def Wf (t : Table K) : Prop := ∀ p, t.key p = -1 ∨ ∃ v, t.val p = some v

/-- The i-th place looked at for a key. -/
def slot (n k i : Nat) : Nat := (k + i) % n

/-- The table after an unused item has been taken for a key. -/
def take (t : Table K) (p k : Nat) : Table K :=
  { t with key := Function.update t.key p (k : Int), val := Function.update t.val p (some 0) }

theorem unused_live {t : Table K} (hw : Wf t) (p : Nat) : (Live t p ∧ unused t p = .ok false) ∨ (¬ Live t p ∧ unused t p = .ok true) := by
  unfold unused
  by_cases h : t.key p = -1
  · right
    exact ⟨fun hl => hl.1 h, by rw [if_pos h]⟩
  · obtain ⟨v, hv⟩ := (hw p).resolve_left h
    rw [if_neg h, hv]
    by_cases h0 : v = 0
    · right
      refine ⟨?_, by simp [h0]⟩
      rintro ⟨-, w, hw, hne⟩
      rw [hv] at hw
      injection hw with hw
      exact hne (hw ▸ h0)
    · left
      exact ⟨⟨h, v, hv, h0⟩, by simp [h0]⟩

theorem slot_int {n k i : Nat} (hn : 0 < n) : ((((k : Int).tmod n) + (i : Int)).tmod n) = ((slot n k i : Nat) : Int) := by
  unfold slot
  rw [Int.tmod_eq_emod_of_nonneg (a := (k : Int)) (by positivity), ← Int.natCast_emod, ← Int.natCast_add,
    Int.tmod_eq_emod_of_nonneg (by positivity), ← Int.natCast_emod, Nat.mod_add_mod]

theorem slot_lt {n : Nat} (hn : 0 < n) (k i : Nat) : slot n k i < n := Nat.mod_lt _ hn

theorem probe_spec {t : Table K} (hw : Wf t) (hn : 0 < t.size) (k : Nat) (m : Nat) : ∀ (i : Nat) (last : Option Nat), i + m = t.size →
    (∃ j, i ≤ j ∧ j < t.size ∧ (∀ l, i ≤ l → l < j → Live t (slot t.size k l) ∧ t.key (slot t.size k l) ≠ k) ∧ ¬ Live t (slot t.size k j) ∧
      probe k ((k : Int).tmod t.size) t m i last = .ok (take t (slot t.size k j) k, some (slot t.size k j))) ∨
    (∃ j, i ≤ j ∧ j < t.size ∧ (∀ l, i ≤ l → l < j → Live t (slot t.size k l) ∧ t.key (slot t.size k l) ≠ k) ∧ Live t (slot t.size k j) ∧
      t.key (slot t.size k j) = k ∧ probe k ((k : Int).tmod t.size) t m i last = .ok (t, some (slot t.size k j))) ∨
    ((∀ l, i ≤ l → l < t.size → Live t (slot t.size k l) ∧ t.key (slot t.size k l) ≠ k) ∧
      probe k ((k : Int).tmod t.size) t m i last = .ok (t, if m = 0 then last else some (slot t.size k (t.size - 1)))) := by
  induction m with
  | zero =>
    intro i last h
    right; right
    exact ⟨fun l h1 h2 => by omega, rfl⟩
  | succ m ih =>
    intro i last h
    have hs := slot_int (n := t.size) (k := k) (i := i) hn
    have hlt := slot_lt hn k i
    have hstep : ∀ b, unused t (slot t.size k i) = .ok b → probe k ((k : Int).tmod t.size) t (m + 1) i last =
        if b = true then .ok (take t (slot t.size k i) k, some (slot t.size k i))
        else if t.key (slot t.size k i) = k then .ok (t, some (slot t.size k i))
        else probe k ((k : Int).tmod t.size) t m (i + 1) (some (slot t.size k i)) := by
      intro b hb
      simp only [probe]
      rw [hs, if_pos ⟨by positivity, by exact_mod_cast hlt⟩, Int.toNat_natCast, hb, bind_ok]
      rfl
    rcases unused_live hw (slot t.size k i) with ⟨hl, hu⟩ | ⟨hl, hu⟩
    · have e := hstep _ hu
      rw [if_neg (by simp)] at e
      by_cases hk : t.key (slot t.size k i) = k
      · right; left
        rw [if_pos hk] at e
        exact ⟨i, le_rfl, by omega, fun l h1 h2 => by omega, hl, hk, e⟩
      · rw [if_neg hk] at e
        have here : ∀ j, (∀ l, i + 1 ≤ l → l < j → Live t (slot t.size k l) ∧ t.key (slot t.size k l) ≠ k) →
            ∀ l, i ≤ l → l < j → Live t (slot t.size k l) ∧ t.key (slot t.size k l) ≠ k := by
          intro j hj l h1 h2
          rcases Nat.eq_or_lt_of_le h1 with rfl | h1
          · exact ⟨hl, hk⟩
          · exact hj l h1 h2
        rcases ih (i + 1) (some (slot t.size k i)) (by omega) with ⟨j, h1, h2, h3, h4, h5⟩ | ⟨j, h1, h2, h3, h4, h5, h6⟩ | ⟨h1, h2⟩
        · exact .inl ⟨j, by omega, h2, here j h3, h4, by rw [e, h5]⟩
        · exact .inr (.inl ⟨j, by omega, h2, here j h3, h4, h5, by rw [e, h6]⟩)
        · refine .inr (.inr ⟨here _ h1, ?_⟩)
          rw [e, h2, if_neg (Nat.succ_ne_zero m)]
          split
          · rw [show t.size - 1 = i by omega]
          · rfl
    · have e := hstep _ hu
      rw [if_pos rfl] at e
      exact .inl ⟨i, le_rfl, by omega, fun l h1 h2 => by omega, hl, e⟩

/-- What an access does: it takes the first unused item on its way, or finds the key before one, or finds neither. -/
theorem access_spec {cols : Nat} {t : Table K} (hw : Wf t) (hn : 0 < t.size) (r c k : Nat) (hk : r * cols + c = k) :
    (∃ j < t.size, (∀ l < j, Live t (slot t.size k l) ∧ t.key (slot t.size k l) ≠ k) ∧ ¬ Live t (slot t.size k j) ∧
      access cols t r c = .ok (take t (slot t.size k j) k, .item (slot t.size k j))) ∨
    (∃ j < t.size, (∀ l < j, Live t (slot t.size k l) ∧ t.key (slot t.size k l) ≠ k) ∧ Live t (slot t.size k j) ∧
      t.key (slot t.size k j) = k ∧ access cols t r c = .ok (t, .item (slot t.size k j))) ∨
    ((∀ l < t.size, Live t (slot t.size k l) ∧ t.key (slot t.size k l) ≠ k) ∧ access cols t r c = .ok (t, .oom)) := by
  have hkey : (r : Int) * cols + c = (k : Nat) := by rw [← hk]; push_cast; ring
  unfold access
  simp only
  rw [hkey]
  rcases probe_spec hw hn k t.size 0 none (by omega) with ⟨j, -, h2, h3, h4, h5⟩ | ⟨j, -, h2, h3, h4, h5, h6⟩ | ⟨h1, h2⟩
  · left
    refine ⟨j, h2, fun l hl => h3 l (Nat.zero_le _) hl, h4, ?_⟩
    rw [h5, bind_ok]
    simp only
    rw [if_pos (by simp [take])]
    rfl
  · right; left
    refine ⟨j, h2, fun l hl => h3 l (Nat.zero_le _) hl, h4, h5, ?_⟩
    rw [h6, bind_ok]
    simp only
    rw [if_pos h5]
    rfl
  · right; right
    refine ⟨fun l hl => h1 l (Nat.zero_le _) hl, ?_⟩
    rw [h2, bind_ok, if_neg (by omega)]
    simp only
    rw [if_neg (h1 _ (Nat.zero_le _) (by omega)).2]
    rfl

/-! ### The table represents a matrix -/

/-- The items other than zero are the elements other than zero, each reached by its own key without meeting an unused item. -/
structure Rep (n : Nat) (t : Table K) (f : Nat → K) : Prop where
  size : t.size = n
  wf : Wf t
  key : ∀ p, Live t p → p < n → ∃ k : Nat, t.key p = k ∧ t.val p = some (f k)
  path : ∀ p (k : Nat), Live t p → p < n → t.key p = k → ∃ i < n, slot n k i = p ∧ ∀ j < i, Live t (slot n k j)
  uniq : ∀ p q, Live t p → Live t q → p < n → q < n → t.key p = t.key q → p = q
  found : ∀ k : Nat, f k ≠ 0 → ∃ p < n, Live t p ∧ t.key p = k

theorem live_take {t : Table K} {p k : Nat} (hp : ¬ Live t p) (q : Nat) : Live (take t p k) q ↔ Live t q := by
  unfold Live take
  by_cases h : q = p
  · subst h
    simp only [Function.update_self]
    constructor
    · rintro ⟨-, v, hv, hne⟩
      injection hv with hv
      exact absurd hv.symm hne
    · intro hl; exact absurd hl hp
  · simp only [Function.update_of_ne h]

theorem rep_take {n : Nat} {t : Table K} {f : Nat → K} (h : Rep n t f) {p : Nat} (k : Nat) (hp : ¬ Live t p) : Rep n (take t p k) f := by
  have other : ∀ q, Live t q → (take t p k).key q = t.key q ∧ (take t p k).val q = t.val q := by
    intro q hq
    have : q ≠ p := by rintro rfl; exact hp hq
    exact ⟨Function.update_of_ne this _ _, Function.update_of_ne this _ _⟩
  refine ⟨h.size, ?_, ?_, ?_, ?_, ?_⟩
  · intro q
    by_cases hq : q = p
    · subst hq; right; exact ⟨0, by simp [take]⟩
    · have := h.wf q
      simpa [take, Function.update_of_ne hq] using this
  · intro q hq hn
    rw [live_take hp] at hq
    rw [(other q hq).1, (other q hq).2]
    exact h.key q hq hn
  · intro q k' hq hn hk
    rw [live_take hp] at hq
    rw [(other q hq).1] at hk
    obtain ⟨i, h1, h2, h3⟩ := h.path q k' hq hn hk
    exact ⟨i, h1, h2, fun j hj => (live_take hp _).2 (h3 j hj)⟩
  · intro q q' hq hq' hn hn' hk
    rw [live_take hp] at hq hq'
    rw [(other q hq).1, (other q' hq').1] at hk
    exact h.uniq q q' hq hq' hn hn' hk
  · intro k' hk'
    obtain ⟨q, h1, h2, h3⟩ := h.found k' hk'
    exact ⟨q, h1, (live_take hp q).2 h2, by rw [(other q h2).1, h3]⟩

/-- Where a key ends: at an item with its value, at an item taken for it (its element being zero), or nowhere. -/
theorem rep_access {n cols : Nat} {t : Table K} {f : Nat → K} (h : Rep n t f) (hn : 0 < n) (r c k : Nat) (hk : r * cols + c = k) :
    (∃ p j, p < n ∧ j < n ∧ slot n k j = p ∧ (∀ l < j, Live t (slot n k l)) ∧ f k = 0 ∧ (∀ q, Live t q → q < n → t.key q ≠ k) ∧
      ¬ Live t p ∧ access cols t r c = .ok (take t p k, .item p)) ∨
    (∃ p < n, Live t p ∧ t.key p = k ∧ f k ≠ 0 ∧ t.val p = some (f k) ∧ access cols t r c = .ok (t, .item p)) ∨
    ((∀ p < n, Live t p ∧ t.key p ≠ k) ∧ f k = 0 ∧ access cols t r c = .ok (t, .oom)) := by
  obtain rfl := h.size
  have first : ∀ p, Live t p → p < t.size → t.key p = k → ∀ j < t.size, (∀ l < j, Live t (slot t.size k l) ∧ t.key (slot t.size k l) ≠ k) →
      Live t (slot t.size k j) := by
    intro p hp hpn hpk j hj hl
    obtain ⟨i, h1, h2, h3⟩ := h.path p k hp hpn hpk
    rcases Nat.lt_trichotomy i j with hij | hij | hij
    · exact absurd (by rw [h2]; exact hpk) (hl i hij).2
    · rw [← hij, h2]; exact hp
    · exact h3 j hij
  rcases access_spec h.wf hn r c k hk with ⟨j, h2, h3, h4, h5⟩ | ⟨j, h2, h3, h4, h5, h6⟩ | ⟨h1, h2⟩
  · left
    have none : ∀ q, Live t q → q < t.size → t.key q ≠ k := fun q hq hqn hqk => h4 (first q hq hqn hqk j h2 h3)
    refine ⟨_, j, slot_lt hn k j, h2, rfl, fun l hl => (h3 l hl).1, ?_, none, h4, h5⟩
    by_contra h0
    obtain ⟨q, hq, hl, hqk⟩ := h.found k h0
    exact none q hl hq hqk
  · right; left
    obtain ⟨k', e1, e2⟩ := h.key _ h4 (slot_lt hn k j)
    rw [h5] at e1
    have : k' = k := by exact_mod_cast e1.symm
    subst this
    refine ⟨_, slot_lt hn k' j, h4, h5, ?_, e2, h6⟩
    obtain ⟨-, v, hv, hne⟩ := h4
    rw [e2] at hv
    injection hv with hv
    rw [hv]; exact hne
  · right; right
    have all : ∀ p < t.size, Live t p ∧ t.key p ≠ k := by
      intro p hp
      have : ∃ l < t.size, slot t.size k l = p := by
        refine ⟨(p + (t.size - k % t.size)) % t.size, Nat.mod_lt _ hn, ?_⟩
        unfold slot
        have hk' := Nat.mod_lt k hn
        rw [Nat.add_mod, Nat.mod_mod, ← Nat.add_mod]
        have hdm := Nat.div_add_mod k t.size
        rw [show k + (p + (t.size - k % t.size)) = p + t.size * (k / t.size + 1) by rw [Nat.mul_add]; omega]
        rw [Nat.add_mul_mod_self_left, Nat.mod_eq_of_lt hp]
      obtain ⟨l, hl, rfl⟩ := this
      exact h1 l hl
    refine ⟨all, ?_, h2⟩
    by_contra h0
    obtain ⟨q, hq, -, hqk⟩ := h.found k h0
    exact (all q hq).2 hqk

/-- Storing a value other than zero in an item that is live, or was taken for the key. -/
theorem rep_store {n : Nat} {t : Table K} {f : Nat → K} (h : Rep n t f) {p k : Nat} (hp : p < n) {v : K} (hv : v ≠ 0) (hk : t.key p = k)
    (hpath : ∃ i < n, slot n k i = p ∧ ∀ j < i, Live t (slot n k j)) (huniq : ∀ q, Live t q → q < n → t.key q = k → q = p) :
    Rep n (store t v (.item p)) (Function.update f k v) := by
  have hval : ∀ q, q ≠ p → (store t v (.item p)).val q = t.val q := fun q hq => by simp [store, Function.update_of_ne hq]
  have hvalp : (store t v (.item p)).val p = some v := by simp [store]
  have hkey : ∀ q, (store t v (.item p)).key q = t.key q := fun _ => rfl
  have live : ∀ q, Live (store t v (.item p)) q ↔ Live t q ∨ q = p := by
    intro q
    by_cases hq : q = p
    · subst hq
      refine ⟨fun _ => .inr rfl, fun _ => ⟨?_, v, hvalp, hv⟩⟩
      rw [hkey, hk]; omega
    · unfold Live
      rw [hval q hq, hkey]
      simp [hq]
  refine ⟨h.size, ?_, ?_, ?_, ?_, ?_⟩
  · intro q
    by_cases hq : q = p
    · subst hq; exact .inr ⟨v, hvalp⟩
    · rw [hkey, hval q hq]; exact h.wf q
  · intro q hq hn
    rw [live] at hq
    by_cases hqp : q = p
    · subst hqp
      exact ⟨k, by rw [hkey, hk], by rw [hvalp, Function.update_self]⟩
    · obtain ⟨k', e1, e2⟩ := h.key q (hq.resolve_right hqp) hn
      refine ⟨k', e1, ?_⟩
      rw [hval q hqp, e2, Function.update_of_ne]
      rintro rfl
      exact hqp (huniq q (hq.resolve_right hqp) hn e1)
  · intro q k' hq hn hk'
    rw [hkey] at hk'
    have : ∃ i < n, slot n k' i = q ∧ ∀ j < i, Live t (slot n k' j) := by
      by_cases hqp : q = p
      · subst hqp
        rw [hk] at hk'
        have : k = k' := by exact_mod_cast hk'
        subst this
        exact hpath
      · exact h.path q k' (((live q).1 hq).resolve_right hqp) hn hk'
    obtain ⟨i, h1, h2, h3⟩ := this
    exact ⟨i, h1, h2, fun j hj => (live _).2 (.inl (h3 j hj))⟩
  · intro q q' hq hq' hn hn' hkk
    rw [hkey, hkey] at hkk
    rcases (live q).1 hq with hq1 | hq1 <;> rcases (live q').1 hq' with hq2 | hq2
    · exact h.uniq q q' hq1 hq2 hn hn' hkk
    · rw [hq2] at hkk ⊢; exact huniq q hq1 hn (by rw [hkk, hk])
    · rw [hq1] at hkk ⊢; exact (huniq q' hq2 hn' (by rw [← hkk, hk])).symm
    · rw [hq1, hq2]
  · intro k' hk'
    by_cases hkk : k' = k
    · subst hkk
      exact ⟨p, hp, (live p).2 (.inr rfl), hk⟩
    · rw [Function.update_of_ne hkk] at hk'
      obtain ⟨q, h1, h2, h3⟩ := h.found k' hk'
      exact ⟨q, h1, (live q).2 (.inl h2), h3⟩

theorem rep_oom {n : Nat} {t : Table K} {f : Nat → K} (h : Rep n t f) (v : K) : Rep n { t with oom := v } f :=
  ⟨h.size, h.wf, h.key, h.path, h.uniq, h.found⟩

/-! ### Histories -/

/-- The matrix of a history, by keys. -/
def byKey (cols : Nat) (h : List (Op K)) (k : Nat) : K := value h (k / cols) (k % cols)

theorem key_eq {cols r c k : Nat} (hc : c < cols) : (r = k / cols ∧ c = k % cols) ↔ k = r * cols + c := by
  constructor
  · rintro ⟨rfl, rfl⟩
    rw [Nat.mul_comm]; exact (Nat.div_add_mod k cols).symm
  · rintro rfl
    have : 0 < cols := by omega
    rw [Nat.add_comm, Nat.add_mul_div_right _ _ this, Nat.add_mul_mod_self_right, Nat.div_eq_of_lt hc, Nat.mod_eq_of_lt hc]
    omega

theorem byKey_key {cols r c : Nat} (hc : c < cols) (h : List (Op K)) : byKey cols h (r * cols + c) = value h r c := by
  obtain ⟨h1, h2⟩ := (key_eq (r := r) (c := c) (k := r * cols + c) hc).2 rfl
  unfold byKey
  rw [← h1, ← h2]

theorem byKey_read (cols : Nat) (h : List (Op K)) (r c : Nat) : byKey cols (h ++ [.read r c]) = byKey cols h := by
  funext k
  unfold byKey
  rw [value_snoc]

theorem byKey_write {cols r c : Nat} (hc : c < cols) (h : List (Op K)) (v : K) :
    byKey cols (h ++ [.write r c v]) = Function.update (byKey cols h) (r * cols + c) v := by
  funext k
  unfold byKey
  rw [value_snoc]
  simp only [key_eq hc]
  by_cases hk : k = r * cols + c
  · rw [if_pos hk, hk, Function.update_self]
  · rw [if_neg hk, Function.update_of_ne hk]

theorem written_of_value {h : List (Op K)} : ∀ {r c : Nat}, value h r c ≠ 0 → (r, c) ∈ written h := by
  induction h using List.reverseRecOn with
  | nil => intro r c hv; exact absurd rfl hv
  | append_singleton h op ih =>
    intro r c hv
    rw [value_snoc] at hv
    unfold written at ih ⊢
    rw [List.filterMap_append, List.mem_append]
    cases op with
    | read r' c' => exact .inl (ih hv)
    | write r' c' x =>
      simp only at hv
      split at hv
      · rename_i he
        right
        simp [he.1, he.2]
      · exact .inl (ih hv)

theorem value_of_written {h : List (Op K)} (h0 : NoZero h) : ∀ {r c : Nat}, (r, c) ∈ written h → value h r c ≠ 0 := by
  induction h using List.reverseRecOn with
  | nil => intro r c hv; simp [written] at hv
  | append_singleton h op ih =>
    intro r c hv
    have h0' : NoZero h := fun r c hm => h0 r c (List.mem_append_left _ hm)
    rw [value_snoc]
    unfold written at ih hv
    rw [List.filterMap_append, List.mem_append] at hv
    cases op with
    | read r' c' =>
      rcases hv with hv | hv
      · exact ih h0' hv
      · simp at hv
    | write r' c' x =>
      simp only
      split
      · rintro rfl
        exact h0 r' c' (by simp)
      · rename_i hne
        rcases hv with hv | hv
        · exact ih h0' hv
        · simp only [List.filterMap_cons, List.filterMap_nil, List.mem_singleton, Prod.mk.injEq] at hv
          exact absurd ⟨hv.1.symm, hv.2.symm⟩ hne

/-- A table whose items are all live holds as many elements as it has items. -/
theorem full_card {n cols : Nat} {h : List (Op K)} {t : Table K} (hr : Rep n t (byKey cols h)) (hl : ∀ p < n, Live t p) :
    n ≤ (written h).toFinset.card := by
  have key : ∀ p ∈ Finset.range n, ((t.key p).toNat / cols, (t.key p).toNat % cols) ∈ (written h).toFinset := by
    intro p hp
    rw [Finset.mem_range] at hp
    obtain ⟨k, e1, e2⟩ := hr.key p (hl p hp) hp
    rw [List.mem_toFinset, e1, Int.toNat_natCast]
    apply written_of_value
    obtain ⟨-, v, hv, hne⟩ := hl p hp
    rw [e2] at hv
    injection hv with hv
    show byKey cols h k ≠ 0
    rw [hv]; exact hne
  have := Finset.card_le_card_of_injOn (s := Finset.range n) _ key (by
    intro p hp q hq heq
    rw [Finset.coe_range, Set.mem_Iio] at hp hq
    obtain ⟨k, e1, -⟩ := hr.key p (hl p hp) hp
    obtain ⟨k', e1', -⟩ := hr.key q (hl q hq) hq
    simp only [e1, e1', Int.toNat_natCast, Prod.mk.injEq] at heq
    apply hr.uniq p q (hl p hp) (hl q hq) hp hq
    rw [e1, e1', ← Nat.div_add_mod k cols, ← Nat.div_add_mod k' cols, heq.1, heq.2])
  rwa [Finset.card_range] at this

theorem rep_fresh (n cols : Nat) (oom : K) : Rep n (fresh n oom) (byKey cols ([] : List (Op K))) := by
  have dead : ∀ p, ¬ Live (fresh n oom : Table K) p := fun p h => h.1 rfl
  exact ⟨rfl, fun p => .inl rfl, fun p h => absurd h (dead p), fun p k h => absurd h (dead p), fun p q h => absurd h (dead p),
    fun k h => absurd rfl h⟩

theorem rep_run {n cols : Nat} (hn : 0 < n) (oom : K) {h : List (Op K)} (hi : Inside cols h) (h0 : NoZero h)
    (hc : (written h).toFinset.card ≤ n) : ∃ t, run cols h (fresh n oom) = .ok t ∧ Rep n t (byKey cols h) := by
  induction h using List.reverseRecOn with
  | nil => exact ⟨_, rfl, rep_fresh n cols oom⟩
  | append_singleton h op ih =>
    have hsub : (written h).toFinset ⊆ (written (h ++ [op])).toFinset := by
      intro e he
      rw [List.mem_toFinset] at he ⊢
      unfold written at he ⊢
      rw [List.filterMap_append, List.mem_append]
      exact .inl he
    obtain ⟨t, e1, hr⟩ := ih (fun e he => hi e (by unfold touched at he ⊢; rw [List.map_append, List.mem_append]; exact .inl he))
      (fun r c hm => h0 r c (List.mem_append_left _ hm)) ((Finset.card_le_card hsub).trans hc)
    rw [run_snoc, e1, bind_ok]
    cases op with
    | read r c =>
      rw [byKey_read]
      simp only [run]
      unfold read
      rcases rep_access (cols := cols) hr hn r c _ rfl with ⟨p, j, h1, h2, h3, h4, h5, h6, h7, h8⟩ | ⟨p, h1, h2, h3, h4, h5, h6⟩ | ⟨h1, h2, h3⟩
      · rw [h8, bind_ok]
        simp only [load, take, Function.update_self, bind_ok, pure_ok]
        exact ⟨_, rfl, rep_take hr _ h7⟩
      · rw [h6, bind_ok]
        simp only [load, h5, bind_ok, pure_ok]
        exact ⟨_, rfl, hr⟩
      · rw [h3, bind_ok]
        simp only [load, bind_ok, pure_ok]
        exact ⟨_, rfl, hr⟩
    | write r c v =>
      have hcol : c < cols := hi (r, c) (by simp [touched])
      have hv : v ≠ 0 := by rintro rfl; exact h0 r c (by simp)
      rw [byKey_write hcol]
      simp only [run]
      unfold write
      rcases rep_access (cols := cols) hr hn r c _ rfl with ⟨p, j, h1, h2, h3, h4, h5, h6, h7, h8⟩ | ⟨p, h1, h2, h3, h4, h5, h6⟩ | ⟨h1, h2, h3⟩
      · rw [h8, bind_ok]
        simp only [pure_ok, bind_ok]
        refine ⟨_, rfl, rep_store (rep_take hr _ h7) h1 hv (by simp [take]) ?_ ?_⟩
        · exact ⟨j, h2, h3, fun l hl => (live_take h7 _).2 (h4 l hl)⟩
        · intro q hq hqn hqk
          rw [live_take h7] at hq
          by_contra hqp
          refine h6 q hq hqn ?_
          rw [← hqk]
          simp [take, Function.update_of_ne hqp]
      · rw [h6, bind_ok]
        simp only [pure_ok, bind_ok]
        refine ⟨_, rfl, rep_store hr h1 hv h3 (hr.path p _ h2 h1 h3) ?_⟩
        intro q hq hqn hqk
        exact hr.uniq q p hq h2 hqn h1 (by rw [hqk, h3])
      · exfalso
        have h4 := full_card hr fun p hp => (h1 p hp).1
        rw [byKey_key hcol] at h2
        have : (r, c) ∉ written h := fun hm => value_of_written (fun r c hm => h0 r c (List.mem_append_left _ hm)) hm h2
        have hlt : (written h).toFinset.card < (written (h ++ [.write r c v])).toFinset.card := by
          apply Finset.card_lt_card
          refine ⟨hsub, fun hs => this ?_⟩
          rw [← List.mem_toFinset]
          apply hs
          rw [List.mem_toFinset]
          simp [written]
        omega

/-- **C75** Every history of accesses to a sparse matrix in which no zero is written: as long as the elements written, and the one read, are
not more than the table has items, reading an element gives the value last written to it, or zero; whatever keys collide and in whatever
order. -/
theorem C75_elements (n cols : Nat) (hn : 0 < n) (oom : K) (h : List (Op K)) (hi : Inside cols h) (h0 : NoZero h) (r c : Nat)
    (hc : c < cols) (hroom : ((r, c) :: written h).toFinset.card ≤ n) :
    ∃ t t', run cols h (fresh n oom) = .ok t ∧ read cols t r c = .ok (t', value h r c) := by
  have hle : (written h).toFinset.card ≤ n := (Finset.card_le_card (by
    intro e he
    rw [List.mem_toFinset] at he ⊢
    exact List.mem_cons_of_mem _ he)).trans hroom
  obtain ⟨t, e1, hr⟩ := rep_run (cols := cols) hn oom hi h0 hle
  refine ⟨t, ?_⟩
  rw [← byKey_key hc h]
  unfold read
  rcases rep_access (cols := cols) hr hn r c _ rfl with ⟨p, j, h1, h2, h3, h4, h5, h6, h7, h8⟩ | ⟨p, h1, h2, h3, h4, h5, h6⟩ | ⟨h1, h2, h3⟩
  · refine ⟨take t p (r * cols + c), e1, ?_⟩
    rw [h8, bind_ok]
    simp only [load, take, Function.update_self, bind_ok, pure_ok]
    rw [h5]
  · refine ⟨t, e1, ?_⟩
    rw [h6, bind_ok]
    simp only [load, h5, bind_ok, pure_ok]
  · exfalso
    have h4 := full_card hr fun p hp => (h1 p hp).1
    rw [byKey_key hc] at h2
    have : (r, c) ∉ written h := fun hm => value_of_written h0 hm h2
    rw [List.toFinset_cons, Finset.card_insert_of_notMem (by rw [List.mem_toFinset]; exact this)] at hroom
    omega

/-- **C75** When the table is full every further element is the same variable: reading one gives what was last written to any of them. -/
theorem C75_full (n cols : Nat) (hn : 0 < n) (oom : K) (h : List (Op K)) (hi : Inside cols h) (h0 : NoZero h) (r c : Nat)
    (hc : c < cols) (hnew : (r, c) ∉ written h) (hfull : (written h).toFinset.card = n) :
    ∃ t, run cols h (fresh n oom) = .ok t ∧ read cols t r c = .ok (t, t.oom) ∧ ∀ v, write cols t r c v = .ok { t with oom := v } := by
  obtain ⟨t, e1, hr⟩ := rep_run (cols := cols) hn oom hi h0 hfull.le
  have hf : byKey cols h (r * cols + c) = 0 := by
    rw [byKey_key hc]
    by_contra hne
    exact hnew (written_of_value hne)
  -- every item is live: the written elements are in different items
  have hall : ∀ p < n, Live t p := by
    have hfind : ∀ e ∈ (written h).toFinset, ∃ p < n, Live t p ∧ t.key p = ((e.1 * cols + e.2 : Nat) : Int) := by
      intro e he
      rw [List.mem_toFinset] at he
      apply hr.found
      have hcol : e.2 < cols := by
        apply hi e
        unfold written at he
        unfold touched
        rw [List.mem_filterMap] at he
        rw [List.mem_map]
        obtain ⟨op, ho, heq⟩ := he
        refine ⟨op, ho, ?_⟩
        cases op with
        | read => simp at heq
        | write r' c' x => simpa using heq
      rw [byKey_key hcol]
      exact value_of_written h0 he
    classical
    choose! g hg1 hg2 hg3 using hfind
    have hinj : Set.InjOn g (written h).toFinset := by
      intro e he e' he' heq
      have h1 := hg3 e he
      have h2 := hg3 e' he'
      rw [heq, h2] at h1
      have hk : e'.1 * cols + e'.2 = e.1 * cols + e.2 := by exact_mod_cast h1
      have hcol : ∀ e ∈ (written h).toFinset, e.2 < cols := by
        intro e he
        rw [List.mem_toFinset] at he
        apply hi e
        unfold written at he
        unfold touched
        rw [List.mem_filterMap] at he
        rw [List.mem_map]
        obtain ⟨op, ho, heq⟩ := he
        refine ⟨op, ho, ?_⟩
        cases op with
        | read => simp at heq
        | write r' c' x => simpa using heq
      obtain ⟨q1, q2⟩ := (key_eq (hcol e he)).2 (rfl : e.1 * cols + e.2 = _)
      obtain ⟨q3, q4⟩ := (key_eq (hcol e' he')).2 hk.symm
      exact Prod.ext (q1.trans q3.symm) (q2.trans q4.symm)
    have himg : (written h).toFinset.image g = Finset.range n := by
      apply Finset.eq_of_subset_of_card_le
      · intro p hp
        rw [Finset.mem_image] at hp
        obtain ⟨e, he, rfl⟩ := hp
        rw [Finset.mem_range]; exact hg1 e he
      · rw [Finset.card_range, Finset.card_image_of_injOn hinj, hfull]
    intro p hp
    have : p ∈ (written h).toFinset.image g := by rw [himg, Finset.mem_range]; exact hp
    rw [Finset.mem_image] at this
    obtain ⟨e, he, rfl⟩ := this
    exact hg2 e he
  refine ⟨t, e1, ?_⟩
  rcases rep_access (cols := cols) hr hn r c _ rfl with ⟨p, j, h1, h2, h3, h4, h5, h6, h7, h8⟩ | ⟨p, h1, h2, h3, h4, h5, h6⟩ | ⟨h1, h2, h3⟩
  · exact absurd (hall p h1) h7
  · exact absurd hf h4
  · unfold read write
    rw [h3]
    exact ⟨rfl, fun v => rfl⟩

/-! ### Zeros -/

/-- Each item holds the element whose key is congruent to its index. -/
structure Direct (n : Nat) (t : Table K) (f : Nat → K) (S : Nat → Prop) : Prop where
  size : t.size = n
  item : ∀ p, t.key p = -1 ∨ ∃ k : Nat, t.key p = k ∧ S k ∧ k % n = p ∧ t.val p = some (f k)
  found : ∀ k : Nat, f k ≠ 0 → t.key (k % n) = k

theorem direct_access {n cols : Nat} {t : Table K} {f : Nat → K} {S : Nat → Prop} (h : Direct n t f S) (hn : 0 < n)
    (hS : ∀ k k', S k → S k' → k % n = k' % n → k = k') (r c k : Nat) (hk : r * cols + c = k) (hkS : S k) :
    ∃ t', access cols t r c = .ok (t', .item (k % n)) ∧ Direct n t' f S ∧ t'.key (k % n) = k ∧ t'.val (k % n) = some (f k) := by
  obtain rfl := h.size
  have hw : Wf t := by
    intro p
    rcases h.item p with h1 | ⟨k', -, -, -, h1⟩
    · exact .inl h1
    · exact .inr ⟨_, h1⟩
  have hkey : ∀ k' : Nat, t.key (k % t.size) = k' → k' = k := by
    intro k' hk'
    rcases h.item (k % t.size) with h1 | ⟨k'', h1, h2, h3, -⟩
    · omega
    · have : k' = k'' := by rw [h1] at hk'; exact_mod_cast hk'.symm
      subst this
      exact hS k' k h2 hkS h3
  have h0 : slot t.size k 0 = k % t.size := rfl
  have hit : Live t (slot t.size k 0) → t.key (slot t.size k 0) = k := by
    rintro ⟨hne, -⟩
    rw [h0] at hne ⊢
    rcases h.item (k % t.size) with h1 | ⟨k'', h1, -⟩
    · exact absurd h1 hne
    · rw [h1, hkey k'' h1]
  rcases access_spec hw hn r c k hk with ⟨j, h2, h3, h4, h5⟩ | ⟨j, h2, h3, h4, h5, h6⟩ | ⟨h1, h2⟩
  · have hj : j = 0 := by
      by_contra hj
      have := h3 0 (by omega)
      exact this.2 (hit this.1)
    subst hj
    rw [h0] at h4 h5
    have hf : f k = 0 := by
      by_contra hne
      have hk' := h.found k hne
      rcases h.item (k % t.size) with h1 | ⟨k'', h1, h2, h3, h6⟩
      · omega
      · have := hkey k'' h1
        subst this
        exact h4 ⟨by omega, f k'', h6, hne⟩
    refine ⟨_, h5, ⟨rfl, ?_, ?_⟩, by simp [take], by simp [take, hf]⟩
    · intro p
      by_cases hp : p = k % t.size
      · subst hp
        exact .inr ⟨k, by simp [take], hkS, rfl, by simp [take, hf]⟩
      · simpa [take, Function.update_of_ne hp] using h.item p
    · intro k' hk'
      have := h.found k' hk'
      by_cases hp : k' % t.size = k % t.size
      · rw [hp] at this
        have := hkey k' this
        subst this
        exact absurd hf hk'
      · simpa [take, Function.update_of_ne hp] using this
  · have hj : j = 0 := by
      by_contra hj
      have := h3 0 (by omega)
      exact this.2 (hit this.1)
    subst hj
    rw [h0] at h4 h5 h6
    refine ⟨t, h6, h, h5, ?_⟩
    rcases h.item (k % t.size) with h1 | ⟨k'', h1, -, -, h7⟩
    · omega
    · rw [h7, hkey k'' h1]
  · have := h1 0 hn
    exact absurd (hit this.1) this.2

theorem direct_store {n : Nat} {t : Table K} {f : Nat → K} {S : Nat → Prop} (h : Direct n t f S)
    (hS : ∀ k k', S k → S k' → k % n = k' % n → k = k') {k : Nat} (hkS : S k) (hk : t.key (k % n) = k) (v : K) :
    Direct n (store t v (.item (k % n))) (Function.update f k v) S := by
  refine ⟨h.size, ?_, ?_⟩
  · intro p
    by_cases hp : p = k % n
    · subst hp
      exact .inr ⟨k, hk, hkS, rfl, by simp [store]⟩
    · rcases h.item p with h1 | ⟨k', h1, h2, h3, h4⟩
      · exact .inl h1
      · refine .inr ⟨k', h1, h2, h3, ?_⟩
        have : k' ≠ k := by rintro rfl; exact hp h3.symm
        simp [store, Function.update_of_ne hp, Function.update_of_ne this, h4]
  · intro k' hk'
    by_cases hkk : k' = k
    · subst hkk; exact hk
    · rw [Function.update_of_ne hkk] at hk'
      exact h.found k' hk'

/-- No two of these elements have the same place in the table. -/
def Apart (n cols : Nat) (es : List (Nat × Nat)) : Prop :=
  ∀ e ∈ es, ∀ e' ∈ es, (e.1 * cols + e.2) % n = (e'.1 * cols + e'.2) % n → e = e'

/-- **C75** If no two of the elements accessed have the same place in the table - for instance if the table has as many items as the
matrix has elements -, reading gives what was last written for every history, zeros included. -/
theorem C75_apart (n cols : Nat) (hn : 0 < n) (oom : K) (h : List (Op K)) (hi : Inside cols h) (r c : Nat) (hc : c < cols)
    (ha : Apart n cols ((r, c) :: touched h)) :
    ∃ t t', run cols h (fresh n oom) = .ok t ∧ read cols t r c = .ok (t', value h r c) := by
  let S : Nat → Prop := fun k => ∃ e ∈ (r, c) :: touched h, k = e.1 * cols + e.2
  have hS : ∀ k k', S k → S k' → k % n = k' % n → k = k' := by
    rintro k k' ⟨e, he, rfl⟩ ⟨e', he', rfl⟩ heq
    rw [ha e he e' he' heq]
  have main : ∀ h' : List (Op K), Inside cols h' → (∀ e ∈ touched h', e ∈ touched h) →
      ∃ t, run cols h' (fresh n oom) = .ok t ∧ Direct n t (byKey cols h') S := by
    intro h'
    induction h' using List.reverseRecOn with
    | nil => intro _ _; exact ⟨_, rfl, rfl, fun p => .inl rfl, fun k hk => absurd rfl hk⟩
    | append_singleton h' op ih =>
      intro hi' hsub
      have hst : ∀ e ∈ touched h', e ∈ touched (h' ++ [op]) := by
        intro e he
        unfold touched at he ⊢
        rw [List.map_append, List.mem_append]
        exact .inl he
      obtain ⟨t, e1, hd⟩ := ih (fun e he => hi' e (hst e he)) (fun e he => hsub e (hst e he))
      rw [run_snoc, e1, bind_ok]
      cases op with
      | read r' c' =>
        have hm : (r', c') ∈ touched (h' ++ [.read r' c']) := by simp [touched]
        obtain ⟨t', h1, h2, h3, h4⟩ := direct_access (cols := cols) hd hn hS r' c' _ rfl ⟨_, List.mem_cons_of_mem _ (hsub _ hm), rfl⟩
        rw [byKey_read]
        simp only [run]
        unfold read
        rw [h1, bind_ok]
        simp only [load, h4, bind_ok, pure_ok]
        exact ⟨_, rfl, h2⟩
      | write r' c' v =>
        have hm : (r', c') ∈ touched (h' ++ [.write r' c' v]) := by simp [touched]
        have hkS : S (r' * cols + c') := ⟨_, List.mem_cons_of_mem _ (hsub _ hm), rfl⟩
        obtain ⟨t', h1, h2, h3, h4⟩ := direct_access (cols := cols) hd hn hS r' c' _ rfl hkS
        rw [byKey_write (hi' _ hm)]
        simp only [run]
        unfold write
        rw [h1, bind_ok]
        simp only [pure_ok, bind_ok]
        exact ⟨_, rfl, direct_store h2 hS hkS h3 v⟩
  obtain ⟨t, e1, hd⟩ := main h hi fun e he => he
  obtain ⟨t', h1, -, -, h4⟩ := direct_access (cols := cols) hd hn hS r c _ rfl ⟨_, List.mem_cons_self, rfl⟩
  refine ⟨t, t', e1, ?_⟩
  unfold read
  rw [h1, bind_ok]
  simp only [load, h4, bind_ok, pure_ok]
  rw [byKey_key hc]

/-- A table as large as the matrix keeps the elements apart. -/
theorem apart_large {rows cols n : Nat} (hn : rows * cols ≤ n) {es : List (Nat × Nat)} (h : ∀ e ∈ es, e.1 < rows ∧ e.2 < cols) :
    Apart n cols es := by
  intro e he e' he' heq
  have lt : ∀ e ∈ es, e.1 * cols + e.2 < n := by
    intro e he
    obtain ⟨h1, h2⟩ := h e he
    have : (e.1 + 1) * cols ≤ rows * cols := Nat.mul_le_mul_right _ h1
    rw [Nat.add_mul] at this
    omega
  rw [Nat.mod_eq_of_lt (lt e he), Nat.mod_eq_of_lt (lt e' he')] at heq
  obtain ⟨q1, q2⟩ := (key_eq (h e he).2).2 (rfl : e.1 * cols + e.2 = _)
  obtain ⟨q3, q4⟩ := (key_eq (h e' he').2).2 heq
  exact Prod.ext (q1.trans q3.symm) (q2.trans q4.symm)

/-- **C75** A sparse matrix whose table has room for all elements is a matrix. -/
theorem C75_large (rows cols n : Nat) (hn : 0 < n) (hlarge : rows * cols ≤ n) (oom : K) (h : List (Op K))
    (hi : ∀ e ∈ touched h, e.1 < rows ∧ e.2 < cols) (r c : Nat) (hr : r < rows) (hc : c < cols) :
    ∃ t t', run cols h (fresh n oom) = .ok t ∧ read cols t r c = .ok (t', value h r c) :=
  C75_apart n cols hn oom h (fun e he => (hi e he).2) r c hc (apart_large hlarge (by
    intro e he
    rw [List.mem_cons] at he
    rcases he with rfl | he
    · exact ⟨hr, hc⟩
    · exact hi e he))

/-- **C75** Without these conditions a zero loses another element: in every table of two or more items, two elements with the same place,
the first set to zero after the second was written: the second one reads as zero. -/
theorem C75_lost (n : Nat) (hn : 2 ≤ n) (oom x y : K) (hx : x ≠ 0) (hy : y ≠ 0) :
    ∃ t t', run 1 [.write 0 0 x, .write n 0 y, .write 0 0 0] (fresh n oom) = .ok t ∧ read 1 t n 0 = .ok (t', 0) ∧
      value [.write 0 0 x, .write n 0 y, .write 0 0 0] n 0 = y := by
  obtain ⟨m, rfl⟩ : ∃ m, n = m + 2 := ⟨n - 2, by omega⟩
  have hpos : (0 : Int) < ((m + 2 : Nat) : Int) := by positivity
  have e1 : ((0 : Int) + 1).tmod ((m + 2 : Nat) : Int) = 1 := by
    rw [Int.tmod_eq_emod_of_nonneg (by norm_num)]
    exact Int.emod_eq_of_lt (by norm_num) (by push_cast; omega)
  simp only [Nat.cast_add, Nat.cast_ofNat, zero_add] at e1 hpos
  have e2 : (1 : Int) < (m : Int) + 2 := by omega
  have e3 : ¬ (0 : Int) = (m : Int) + 2 := by omega
  refine ⟨⟨m + 2, Function.update (Function.update (fun _ => -1) 0 0) 1 ((m : Int) + 2),
    Function.update (Function.update (Function.update (Function.update (Function.update (fun _ => none) 0 (some 0)) 0 (some x)) 1
      (some 0)) 1 (some y)) 0 (some 0), oom⟩, ⟨m + 2, Function.update (Function.update (Function.update (fun _ => -1) 0 0) 1 ((m : Int) + 2)) 0
      ((m : Int) + 2), Function.update (Function.update (Function.update (Function.update (Function.update (Function.update (fun _ => none) 0
        (some 0)) 0 (some x)) 1 (some 0)) 1 (some y)) 0 (some 0)) 0 (some 0), oom⟩, ?_, ?_, ?_⟩
  · simp [run, write, access, probe, unused, fresh, store, hx, e1, e2, e3, hpos, bind_ok, pure_ok]
  · simp [read, access, probe, unused, load, hy, e1, e2, e3, hpos, bind_ok, pure_ok]
  · simp [value]

/-! ### Examples -/

/-- Three colliding elements of a matrix with 4 columns in a table of 3 items; the hypotheses of `C75_elements` hold. -/
example : ∃ t t', run 4 [.write 0 0 5, .write 0 3 6, .read 2 2, .write 1 2 7, .write 0 0 8] (fresh 3 (0 : ℚ)) = .ok t ∧
    read 4 t 1 2 = .ok (t', 7) :=
  C75_elements 3 4 (by decide) 0 _ (by intro e he; simp [touched] at he; rcases he with rfl | rfl | rfl | rfl | rfl <;> decide)
    (by intro r c hm; simp at hm) 1 2 (by decide) (by decide)

/-- The table is full, so `C75_full` applies to a fourth element. -/
example : ∃ t, run 4 [.write 0 0 5, .write 0 3 6, .write 1 2 7] (fresh 3 (0 : ℚ)) = .ok t ∧ read 4 t 2 2 = .ok (t, t.oom) ∧
    ∀ v, write 4 t 2 2 v = .ok { t with oom := v } :=
  C75_full 3 4 (by decide) 0 _ (by intro e he; simp [touched] at he; rcases he with rfl | rfl | rfl <;> decide)
    (by intro r c hm; simp at hm) 2 2 (by decide) (by decide) (by decide)

/-- A 2×2 matrix with four items and a zero in its history (`C75_large`). -/
example : ∃ t t', run 2 [.write 0 0 5, .write 1 1 6, .write 0 0 0, .read 0 1] (fresh 4 (0 : ℚ)) = .ok t ∧ read 2 t 1 1 = .ok (t', 6) :=
  C75_large 2 2 4 (by decide) (by decide) 0 _ (by intro e he; simp [touched] at he; rcases he with rfl | rfl | rfl | rfl <;> decide) 1 1
    (by decide) (by decide)

end Verif.Sparse
