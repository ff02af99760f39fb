import Verif.Weights.Model
import Mathlib.Tactic.Linarith
import Mathlib.Tactic.Positivity
import Mathlib.Tactic.FieldSimp
import Mathlib.Tactic.NormNum
import Mathlib.Algebra.Order.BigOperators.Group.List
import Mathlib.Algebra.BigOperators.Ring.List

/-! # Property C13: seed weights -/

set_option autoImplicit false

namespace Forcepho.Weights

open Forcepho.SuperScene

variable {K : Type}

theorem notFlag_eq (b : Bool) : notFlag b = if b then -2 else -1 := by
  cases b <;> norm_num [notFlag]

theorem notFlag_neg (b : Bool) : notFlag b < 0 := by
  rw [notFlag_eq]; cases b <;> norm_num

theorem sum_neg_of_neg (l : List ℝ) (hne : l ≠ []) (h : ∀ x ∈ l, x < 0) : l.sum < 0 := by
  induction l with
  | nil => exact absurd rfl hne
  | cons a t ih =>
    rw [List.sum_cons]
    have ha := h a (by simp)
    by_cases ht : t = []
    · subst ht; simpa using ha
    · have := ih ht (fun x hx => h x (by simp [hx])); linarith

theorem normalise_sum (l : List ℝ) (h : l.sum ≠ 0) : (normalise l).sum = 1 := by
  have : ∀ (c : ℝ) (l : List ℝ), (l.map (· / c)).sum = l.sum / c := by
    intro c l
    induction l with
    | nil => simp
    | cons a t ih => rw [List.map_cons, List.sum_cons, ih, List.sum_cons]; ring
  rw [normalise, this, div_self h]

/-- All weights of a normalised list of negative entries are positive. -/
theorem normalise_pos (l : List ℝ) (hne : l ≠ []) (h : ∀ x ∈ l, x < 0) :
    ∀ x ∈ normalise l, 0 < x := by
  intro x hx
  obtain ⟨a, ha, rfl⟩ := List.mem_map.1 hx
  exact div_pos_of_neg_of_neg (h a ha) (sum_neg_of_neg l hne h)

theorem expRaw_neg (m : ℝ) (r : Row K) : expRaw m r < 0 :=
  mul_neg_of_neg_of_pos (notFlag_neg _) (Real.exp_pos _)

theorem sigRaw_neg (t : ℝ) (r : Row K) : sigRaw t r < 0 :=
  mul_neg_of_neg_of_pos (notFlag_neg _) (by positivity)

theorem raw_neg_list (f : Row K → ℝ) (hf : ∀ r, f r < 0) (rows : List (Row K)) :
    ∀ x ∈ rows.map f, x < 0 := by
  intro x hx
  obtain ⟨r, _, rfl⟩ := List.mem_map.1 hx
  exact hf r

theorem getElem?_normalise_map (f : Row K → ℝ) (rows : List (Row K)) (i : Nat) (r : Row K)
    (h : rows[i]? = some r) :
    (normalise (rows.map f))[i]? = some (f r / (rows.map f).sum) := by
  simp [normalise, h]

/-- C13, first clause: the default seed weights of a non-empty catalog are a probability
distribution (one non-negative entry per source, sum one). -/
theorem C13_distribution_partial (rows : List (Row K)) (hne : rows ≠ []) :
    (expWeight rows).length = rows.length ∧ (∀ w ∈ expWeight rows, 0 ≤ w) ∧
    (expWeight rows).sum = 1 := by
  have hneg := raw_neg_list (expRaw (meanAbsIter rows)) (expRaw_neg _) rows
  have hne' : rows.map (expRaw (meanAbsIter rows)) ≠ [] := by simpa using hne
  refine ⟨by simp [expWeight, normalise], fun w hw => (normalise_pos _ hne' hneg w hw).le, ?_⟩
  exact normalise_sum _ (sum_neg_of_neg _ hne' hneg).ne

/-- C13, second clause: of two sources with the same validity flag the one with more iterations
never weighs more, and weighs strictly less if it has strictly more. -/
theorem C13_monotone (rows : List (Row K)) (i j : Nat) (ri rj : Row K)
    (hi : rows[i]? = some ri) (hj : rows[j]? = some rj) (hv : ri.isValid = rj.isValid) :
    ∃ wi wj, (expWeight rows)[i]? = some wi ∧ (expWeight rows)[j]? = some wj ∧
      (|ri.nIter| ≤ |rj.nIter| → wj ≤ wi) ∧ (|ri.nIter| < |rj.nIter| → wj < wi) := by
  have hneg := raw_neg_list (expRaw (meanAbsIter rows)) (expRaw_neg _) rows
  have hne : rows.map (expRaw (meanAbsIter rows)) ≠ [] := by
    intro h; simp at h; subst h; simp at hi
  have hsum := sum_neg_of_neg _ hne hneg
  refine ⟨_, _, getElem?_normalise_map _ rows i ri hi, getElem?_normalise_map _ rows j rj hj,
    ?_, ?_⟩
  · intro h
    rw [div_le_div_right_of_neg hsum]
    unfold expRaw
    rw [hv]
    apply mul_le_mul_of_nonpos_left _ (notFlag_neg _).le
    apply Real.exp_le_exp.2
    have : |(ri.nIter : ℝ)| ≤ |(rj.nIter : ℝ)| := by exact_mod_cast h
    linarith
  · intro h
    rw [div_lt_div_right_of_neg hsum]
    unfold expRaw
    rw [hv]
    apply mul_lt_mul_of_neg_left _ (notFlag_neg _)
    apply Real.exp_lt_exp.2
    have : |(ri.nIter : ℝ)| < |(rj.nIter : ℝ)| := by exact_mod_cast h
    linarith

/-- C13, how fast: of two sources with the same validity flag, the ratio of the weights is the
exponential of the difference of their iteration counts in units of 20. -/
theorem C13_ratio (rows : List (Row K)) (i j : Nat) (ri rj : Row K)
    (hi : rows[i]? = some ri) (hj : rows[j]? = some rj) (hv : ri.isValid = rj.isValid) :
    ∃ wi wj, (expWeight rows)[i]? = some wi ∧ (expWeight rows)[j]? = some wj ∧
      wi = wj * Real.exp ((|(rj.nIter : ℝ)| - |(ri.nIter : ℝ)|) / 20) := by
  refine ⟨_, _, getElem?_normalise_map _ rows i ri hi, getElem?_normalise_map _ rows j rj hj, ?_⟩
  have : Real.exp ((meanAbsIter rows - |(ri.nIter : ℝ)|) / 20) =
      Real.exp ((meanAbsIter rows - |(rj.nIter : ℝ)|) / 20) *
        Real.exp ((|(rj.nIter : ℝ)| - |(ri.nIter : ℝ)|) / 20) := by
    rw [← Real.exp_add]; congr 1; ring
  simp only [expRaw, hv, this]
  ring

/-- C13, third clause is false, for every catalog state: *every* source, in particular every
checked-out one, has strictly positive weight. -/
theorem C13_refuted_positive (rows : List (Row K)) (i : Nat) (r : Row K)
    (h : rows[i]? = some r) : ∃ w, (expWeight rows)[i]? = some w ∧ 0 < w := by
  have hneg := raw_neg_list (expRaw (meanAbsIter rows)) (expRaw_neg _) rows
  have hne : rows.map (expRaw (meanAbsIter rows)) ≠ [] := by
    intro h'; simp at h'; subst h'; simp at h
  exact ⟨_, getElem?_normalise_map _ rows i r h,
    div_pos_of_neg_of_neg (expRaw_neg _ _) (sum_neg_of_neg _ hne hneg)⟩

/-- How the shipped weights treat the flag: a valid source is exactly twice as likely as an
invalid one with the same number of iterations. -/
theorem C13_valid_twice_invalid (rows : List (Row K)) (i j : Nat) (ri rj : Row K)
    (hi : rows[i]? = some ri) (hj : rows[j]? = some rj) (hvi : ri.isValid = true)
    (hvj : rj.isValid = false) (hn : |ri.nIter| = |rj.nIter|) :
    ∃ wi wj, (expWeight rows)[i]? = some wi ∧ (expWeight rows)[j]? = some wj ∧ wi = 2 * wj := by
  refine ⟨_, _, getElem?_normalise_map _ rows i ri hi, getElem?_normalise_map _ rows j rj hj, ?_⟩
  have : |(ri.nIter : ℝ)| = |(rj.nIter : ℝ)| := by exact_mod_cast hn
  simp only [expRaw, notFlag_eq, hvi, hvj, this]
  simp only [Bool.false_eq_true, if_true, if_false]
  ring

/-- The alternative `sigmoid_weight` is a distribution too, but an active source is exactly
*twice as likely* as an inactive one with the same number of iterations. -/
theorem C13_sigmoid_refuted (target : ℝ) (rows : List (Row K)) (hne : rows ≠ []) :
    (∀ w ∈ sigmoidWeight target rows, 0 < w) ∧ (sigmoidWeight target rows).sum = 1 ∧
    ∀ (i j : Nat) (ri rj : Row K), rows[i]? = some ri → rows[j]? = some rj →
      ri.isActive = true → rj.isActive = false → ri.nIter = rj.nIter →
      ∃ wi wj, (sigmoidWeight target rows)[i]? = some wi ∧
        (sigmoidWeight target rows)[j]? = some wj ∧ wi = 2 * wj := by
  have hneg := raw_neg_list (sigRaw target) (sigRaw_neg _) rows
  have hne' : rows.map (sigRaw target) ≠ [] := by simpa using hne
  refine ⟨normalise_pos _ hne' hneg, normalise_sum _ (sum_neg_of_neg _ hne' hneg).ne, ?_⟩
  intro i j ri rj hi hj hvi hvj hn
  refine ⟨_, _, getElem?_normalise_map _ rows i ri hi, getElem?_normalise_map _ rows j rj hj, ?_⟩
  simp only [sigRaw, notFlag_eq, hvi, hvj, hn]
  simp only [Bool.false_eq_true, if_true, if_false]
  ring

/-- Sources more visited than others of the same activity weigh no more under
`sigmoid_weight` (positive target). -/
theorem C13_sigmoid_monotone (target : ℝ) (ht : 0 < target) (rows : List (Row K)) (i j : Nat)
    (ri rj : Row K) (hi : rows[i]? = some ri) (hj : rows[j]? = some rj)
    (hv : ri.isActive = rj.isActive) (hn : ri.nIter ≤ rj.nIter) :
    ∃ wi wj, (sigmoidWeight target rows)[i]? = some wi ∧
      (sigmoidWeight target rows)[j]? = some wj ∧ wj ≤ wi := by
  have hneg := raw_neg_list (sigRaw target) (sigRaw_neg _) rows
  have hne : rows.map (sigRaw target) ≠ [] := by
    intro h; simp at h; subst h; simp at hi
  refine ⟨_, _, getElem?_normalise_map _ rows i ri hi, getElem?_normalise_map _ rows j rj hj, ?_⟩
  rw [div_le_div_right_of_neg (sum_neg_of_neg _ hne hneg)]
  unfold sigRaw
  rw [hv]
  apply mul_le_mul_of_nonpos_left _ (notFlag_neg _).le
  apply one_div_le_one_div_of_le (by positivity)
  have h1 : (ri.nIter : ℝ) ≤ rj.nIter := by exact_mod_cast hn
  have h2 : (ri.nIter : ℝ) / target ≤ rj.nIter / target := by gcongr
  have := Real.exp_le_exp.2 (show -(20 * (1 - (ri.nIter : ℝ) / target) + -1) ≤
    -(20 * (1 - (rj.nIter : ℝ) / target) + -1) by linarith)
  linarith

/-- Two rows, one of them checked out: the hypotheses above are met. -/
example : ∃ rows : List (Row Int), rows ≠ [] ∧ ∃ ri rj, rows[0]? = some ri ∧ rows[1]? = some rj ∧
    ri.isValid = true ∧ rj.isValid = false ∧ ri.isActive = false ∧ rj.isActive = true ∧
    |ri.nIter| = |rj.nIter| :=
  let p : Params Int := { flux := [], ra := 0, dec := 0, q := 0, pa := 0, sersic := 0, rhalf := 0 }
  ⟨[⟨0, 0, false, true, 3, 1, p⟩, ⟨1, 1, true, false, -3, 1, p⟩], by simp, _, _, rfl, rfl,
    rfl, rfl, rfl, rfl, rfl⟩

end Forcepho.Weights
