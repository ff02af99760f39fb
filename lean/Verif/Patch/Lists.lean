import Verif.Patch.Model
import Mathlib.Tactic.Ring
import Mathlib.Tactic.Linarith
import Mathlib.Algebra.BigOperators.Group.List.Basic

/-! # List facts for the packing proofs -/

set_option autoImplicit false

namespace Forcepho.Patch

lemma cumsumFrom_length (a : Nat) (l : List Nat) : (cumsumFrom a l).length = l.length := by
  induction l generalizing a with
  | nil => rfl
  | cons n ns ih => simp [cumsumFrom, ih]

lemma cumsumFrom_getElem? (a : Nat) (l : List Nat) (e : Nat) (h : e < l.length) :
    (cumsumFrom a l)[e]? = some (a + (l.take (e + 1)).sum) := by
  induction l generalizing a e with
  | nil => simp at h
  | cons n ns ih =>
    cases e with
    | zero => simp [cumsumFrom]
    | succ e =>
      simp only [cumsumFrom, List.getElem?_cons_succ, List.take_succ_cons, List.sum_cons]
      rw [ih _ _ (by simpa using h)]
      congr 1
      omega

lemma cumsumFrom_dropLast (a : Nat) (l : List Nat) :
    (cumsumFrom a l).dropLast = cumsumFrom a l.dropLast := by
  induction l generalizing a with
  | nil => rfl
  | cons n ns ih =>
    cases ns with
    | nil => rfl
    | cons m ms =>
      have := ih (a + n)
      simp only [cumsumFrom, List.dropLast_cons_cons] at this ⊢
      rw [this]

/-- The prefix sums, one for each entry. -/
def starts (a : Nat) (l : List Nat) : List Nat := a :: (cumsumFrom a l).dropLast

lemma starts_getElem? (l : List Nat) (e : Nat) (h : e < l.length) :
    (starts 0 l)[e]? = some (l.take e).sum := by
  cases e with
  | zero => simp [starts]
  | succ e =>
    simp only [starts, List.getElem?_cons_succ]
    rw [cumsumFrom_dropLast, cumsumFrom_getElem? _ _ _ (by simp; omega)]
    congr 1
    rw [Nat.zero_add, List.dropLast_eq_take, List.take_take]
    congr 2
    omega

lemma starts_length (l : List Nat) (h : l ≠ []) : (starts 0 l).length = l.length := by
  have := List.length_pos_iff.2 h
  simp [starts, cumsumFrom_length]
  omega

/-- `np.split` at the cumulative lengths inverts concatenation. -/
lemma splitFrom_flatten {α : Type} (pre : List α) (ls : List (List α)) (h : ls ≠ []) :
    splitFrom (pre ++ ls.flatten) pre.length
      (cumsumFrom pre.length (ls.map List.length).dropLast) = ls := by
  induction ls generalizing pre with
  | nil => exact absurd rfl h
  | cons x xs ih =>
    cases xs with
    | nil => simp [cumsumFrom, splitFrom]
    | cons y ys =>
      simp only [List.map_cons, List.dropLast_cons_cons, cumsumFrom, splitFrom]
      have h1 : List.drop pre.length
          (List.take (pre.length + x.length) (pre ++ (x :: y :: ys).flatten)) = x := by
        rw [List.flatten_cons, ← List.append_assoc, List.take_left' (by simp)]
        simp
      rw [h1]
      congr 1
      have := ih (pre ++ x) (by simp)
      rw [List.length_append, List.append_assoc] at this
      exact this

lemma npSplit_flatten {α : Type} (ls : List (List α)) (h : ls ≠ []) :
    npSplit ls.flatten (cumsum (ls.map List.length).dropLast) = ls := by
  have := splitFrom_flatten [] ls h
  simpa [npSplit, cumsum] using this

/-- An index into a concatenation falls into one block. -/
lemma flatten_index {α : Type} (ls : List (List α)) (e : Nat) (h : e < ls.flatten.length) :
    ∃ (b : Nat) (l : List α), ls[b]? = some l ∧ ((ls.take b).map List.length).sum ≤ e ∧
      e < ((ls.take b).map List.length).sum + l.length ∧
      ls.flatten[e]? = l[e - ((ls.take b).map List.length).sum]? := by
  induction ls generalizing e with
  | nil => simp at h
  | cons x xs ih =>
    by_cases hx : e < x.length
    · exact ⟨0, x, by simp, by simp, by simpa using hx, by
        simp [List.getElem?_append_left hx]⟩
    · rw [List.flatten_cons, List.length_append] at h
      obtain ⟨b, l, h1, h2, h3, h4⟩ := ih (e - x.length) (by omega)
      refine ⟨b + 1, l, by simpa using h1, ?_, ?_, ?_⟩
      · simp only [List.take_succ_cons, List.map_cons, List.sum_cons]; omega
      · simp only [List.take_succ_cons, List.map_cons, List.sum_cons]; omega
      · rw [List.flatten_cons, List.getElem?_append_right (by omega), h4]
        simp only [List.take_succ_cons, List.map_cons, List.sum_cons]
        congr 1
        omega

/-- Conversely, an index in a block's range reads that block. -/
lemma flatten_block {α : Type} (ls : List (List α)) (b : Nat) (l : List α) (j : Nat)
    (hb : ls[b]? = some l) (hj : j < l.length) :
    ls.flatten[((ls.take b).map List.length).sum + j]? = l[j]? := by
  induction ls generalizing b with
  | nil => simp at hb
  | cons x xs ih =>
    cases b with
    | zero =>
      simp at hb
      subst hb
      simp [List.getElem?_append_left hj]
    | succ b =>
      simp only [List.take_succ_cons, List.map_cons, List.sum_cons, List.flatten_cons]
      rw [List.getElem?_append_right (by omega)]
      rw [← ih b (by simpa using hb)]
      congr 1
      omega

lemma flatten_slice {α : Type} (ls : List (List α)) (b : Nat) (l : List α)
    (hb : ls[b]? = some l) :
    (ls.flatten.drop ((ls.take b).map List.length).sum).take l.length = l := by
  induction ls generalizing b with
  | nil => simp at hb
  | cons x xs ih =>
    cases b with
    | zero =>
      simp at hb
      subst hb
      simp
    | succ b =>
      simp only [List.take_succ_cons, List.map_cons, List.sum_cons, List.flatten_cons]
      rw [← List.drop_drop, List.drop_left]
      exact ih b (by simpa using hb)

/-- Sorting by a key: the entries with the least key come first. -/
lemma filter_cons_sorted {α : Type} (key : α → Nat) (v : Nat) (us : List Nat)
    (hv : ∀ u ∈ us, v < u) (l : List α) (hl : l.Pairwise fun a b => key a ≤ key b) :
    l.filter (fun a => decide (key a ∈ v :: us)) =
      l.filter (fun a => decide (key a = v)) ++ l.filter (fun a => decide (key a ∈ us)) := by
  induction l with
  | nil => rfl
  | cons a l ih =>
    rw [List.pairwise_cons] at hl
    specialize ih hl.2
    by_cases h1 : key a = v
    · have h2 : key a ∉ us := fun h => absurd (hv _ h) (by omega)
      rw [List.filter_cons_of_pos (by simp [h1]), List.filter_cons_of_pos (by simp [h1]),
        List.filter_cons_of_neg (by simp [h2]), ih]
      rfl
    · by_cases h2 : key a ∈ us
      · have h3 : ∀ b ∈ l, ¬ key b = v := by
          intro b hb
          have := hl.1 b hb
          have := hv _ h2
          omega
        have h4 : l.filter (fun a => decide (key a = v)) = [] := by
          rw [List.filter_eq_nil_iff]
          intro b hb
          simpa using h3 b hb
        rw [List.filter_cons_of_pos (by simp [h2]), List.filter_cons_of_neg (by simp [h1]),
          List.filter_cons_of_pos (by simp [h2]), ih, h4]
        rfl
      · rw [List.filter_cons_of_neg (by simp [h1, h2]), List.filter_cons_of_neg (by simp [h1]),
          List.filter_cons_of_neg (by simp [h2]), ih]

/-- A list sorted by a key is the concatenation of its groups in key order. -/
lemma groups_flatten {α : Type} (key : α → Nat) (us : List Nat) (hu : us.Pairwise (· < ·))
    (l : List α) (hl : l.Pairwise fun a b => key a ≤ key b) :
    l.filter (fun a => decide (key a ∈ us)) =
      (us.map fun v => l.filter fun a => decide (key a = v)).flatten := by
  induction us with
  | nil => simp
  | cons v us ih =>
    rw [List.pairwise_cons] at hu
    rw [filter_cons_sorted key v us hu.1 l hl, ih hu.2]
    rfl

lemma nonDecreasing_iff (l : List Nat) : nonDecreasing l = true ↔ l.Pairwise (· ≤ ·) := by
  induction l with
  | nil => simp [nonDecreasing]
  | cons a l ih =>
    cases l with
    | nil => simp [nonDecreasing]
    | cons b l =>
      simp only [nonDecreasing, Bool.and_eq_true, decide_eq_true_eq, ih]
      rw [List.pairwise_cons (a := a)]
      constructor
      · rintro ⟨h1, h2⟩
        refine ⟨?_, h2⟩
        intro c hc
        rw [List.pairwise_cons] at h2
        rcases List.mem_cons.1 hc with rfl | hc
        · exact h1
        · exact le_trans h1 (h2.1 c hc)
      · rintro ⟨h1, h2⟩
        exact ⟨h1 b (by simp), h2⟩

lemma uniq_sorted (n : Nat) (ids : List Nat) : (uniq n ids).Pairwise (· < ·) :=
  List.Pairwise.filter _ List.pairwise_lt_range

lemma mem_uniq {n : Nat} {ids : List Nat} (h : ∀ i ∈ ids, i < n) (i : Nat) :
    i ∈ uniq n ids ↔ i ∈ ids := by
  simp only [uniq, List.mem_filter, List.mem_range, decide_eq_true_eq]
  exact ⟨fun h => h.2, fun hi => ⟨h i hi, hi⟩⟩

lemma diff_getElem? (l : List Nat) (k a b : Nat) (ha : l[k]? = some a) (hb : l[k + 1]? = some b) :
    (diff l)[k]? = some (b - a) := by
  induction l generalizing k with
  | nil => simp at ha
  | cons x xs ih =>
    cases xs with
    | nil => simp at hb
    | cons y ys =>
      cases k with
      | zero =>
        simp at ha hb
        simp [diff, ha, hb]
      | succ k =>
        simp only [diff, List.getElem?_cons_succ]
        exact ih k (by simpa using ha) (by simpa using hb)

lemma diff_length (l : List Nat) : (diff l).length = l.length - 1 := by
  induction l with
  | nil => rfl
  | cons x xs ih =>
    cases xs with
    | nil => rfl
    | cons y ys => simp only [diff, List.length_cons, ih]; simp

end Forcepho.Patch
