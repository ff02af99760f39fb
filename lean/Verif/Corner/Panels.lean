import Mathlib.Algebra.Order.Field.Basic
import Mathlib.Algebra.BigOperators.Group.List.Basic
import Mathlib.Algebra.BigOperators.Ring.List
import Mathlib.Tactic.Lemma
import Mathlib.Tactic.Linarith
import Mathlib.Tactic.Ring
import Mathlib.Tactic.NormNum
import Mathlib.Tactic.Positivity
import Mathlib.Tactic.FieldSimp
import Mathlib.Tactic.Tauto

/-! # The panels of a corner plot (forcepho/utils/corner.py)

Which parameters are drawn, labelled and marked in which panel of the square of axes by `corner`,
`scatter`, `prettify_axes` and `show_extras`, and the height of a marginal histogram.  The drawing
itself, ticks and styles are not modelled; the contours are C150, the quantiles C93. -/

set_option autoImplicit false

namespace Forcepho.Corner

/-- What is put into a panel.  Parameters are numbered; `V` are values on an axis. -/
inductive Draw (V : Type) where
  /-- The histogram of a parameter. -/
  | marginal (k : Nat)
  /-- The density of two parameters, the first one along x. -/
  | joint (kx ky : Nat)
  /-- Points, the first parameter along x. -/
  | points (kx ky : Nat)
  /-- The label of the x axis: the name of a parameter. -/
  | xlabel (k : Nat)
  /-- The label of the y axis. -/
  | ylabel (k : Nat)
  /-- Frame and ticks are removed. -/
  | hidden
  /-- Lines at the quantiles of a parameter. -/
  | quantiles (k : Nat)
  /-- A title with the median of a parameter. -/
  | title (k : Nat)
  /-- A vertical line. -/
  | vline (v : V)
  /-- A horizontal line. -/
  | hline (v : V)
  deriving DecidableEq

/-- Something put into the panel in row `row` and column `col`. -/
structure Put (V : Type) where
  row : Nat
  col : Nat
  draw : Draw V
  deriving DecidableEq

variable {V : Type}

/-- The loops of `corner` (corner.py:318-339). -/
def corner (n : Nat) (upper : Bool) : List (Put V) :=
  (List.range n).flatMap fun i =>
    Put.mk i i (.marginal i) :: (List.range n).flatMap fun j =>
      if decide (j ≥ i) && !upper then []
      else if decide (j ≤ i) && upper then []
      else [Put.mk i j (.joint j i)]

/-- The loops of `scatter` (corner.py:541-548). -/
def scatter (n : Nat) (upper : Bool) : List (Put V) :=
  (List.range n).flatMap fun i => (List.range n).flatMap fun j =>
    if (decide (j ≥ i) && !upper) || (decide (j ≤ i) && upper) then []
    else [Put.mk i j (.points j i)]

/-- The loops of `prettify_axes` (corner.py:202-256): which panels are hidden and which labelled.
Without labels the first one asked for raises. -/
def prettify (n : Nat) (upper : Bool) (labels : Bool) : Option (List (Put V)) :=
  let puts := (List.range n).flatMap fun i => (List.range n).flatMap fun j =>
    if (decide (j < i) && upper) || (decide (j > i) && !upper) then [Put.mk i j .hidden]
    else
      (if (decide (j = i) && upper) || (decide (i = n - 1) && !upper) then [Put.mk i j (.xlabel j)]
        else []) ++
      (if (decide (j = n - 1) && decide (i < n - 1) && upper) ||
          (decide (j = 0) && decide (i > 0) && !upper) then [Put.mk i j (.ylabel i)]
        else [])
  if labels || puts.all (fun p => p.draw matches .hidden) then some puts else none

/-- The loops of `show_extras` (corner.py:126-170).  `truths k` are the true values given for a
parameter (a single number is a list of one).  `ax` is set once per row of the loop and is the panel
on the diagonal throughout. -/
def extras (n : Nat) (quantiles titles : Bool) (truths : Nat → Option (List V)) : List (Put V) :=
  (List.range n).flatMap fun i =>
    (if quantiles then [Put.mk i i (.quantiles i)] else []) ++
    ((truths i).getD []).map (fun t => Put.mk i i (.vline t)) ++
    (if titles then [Put.mk i i (.title i)] else []) ++
    (List.range i).flatMap fun j =>
      ((truths j).getD []).map (fun t => Put.mk i i (.vline t)) ++
      ((truths i).getD []).map (fun t => Put.mk i i (.hline t))

/-- What is put into one panel. -/
def at' (l : List (Put V)) (i j : Nat) : List (Draw V) :=
  (l.filter fun p => decide (p.row = i) && decide (p.col = j)).map Put.draw

/-! ## Panels -/

lemma mem_at' (l : List (Put V)) (i j : Nat) (d : Draw V) : d ∈ at' l i j ↔ Put.mk i j d ∈ l := by
  unfold at'
  simp only [List.mem_map, List.mem_filter, Bool.and_eq_true, decide_eq_true_eq]
  constructor
  · rintro ⟨⟨a, b, c⟩, ⟨h, h1, h2⟩, rfl⟩
    simp only at h1 h2
    subst h1; subst h2
    exact h
  · intro h
    exact ⟨_, ⟨h, rfl, rfl⟩, rfl⟩

lemma at'_append (l m : List (Put V)) (i j : Nat) : at' (l ++ m) i j = at' l i j ++ at' m i j := by
  simp [at']

lemma at'_other {α : Type} (l : List α) (g : α → List (Put V)) (i j : Nat)
    (h : ∀ a ∈ l, at' (g a) i j = []) : at' (l.flatMap g) i j = [] := by
  induction l with
  | nil => rfl
  | cons a l ih =>
    rw [List.flatMap_cons, at'_append, h a (by simp), ih fun b hb => h b (by simp [hb])]
    rfl

lemma at'_range (n : Nat) (g : Nat → List (Put V)) (i j k : Nat) (hk : k < n)
    (h : ∀ a < n, a ≠ k → at' (g a) i j = []) :
    at' ((List.range n).flatMap g) i j = at' (g k) i j := by
  induction n with
  | zero => omega
  | succ n ih =>
    rw [List.range_succ, List.flatMap_append, at'_append, List.flatMap_cons, List.flatMap_nil,
      List.append_nil]
    by_cases hkn : k = n
    · subst hkn
      rw [at'_other _ _ _ _ fun a ha => h a (by have := List.mem_range.mp ha; omega)
        (by have := List.mem_range.mp ha; omega), List.nil_append]
    · rw [ih (by omega) fun a ha => h a (by omega), h n (by omega) (by omega), List.append_nil]

lemma at'_row (l : List (Put V)) (i j a : Nat) (h : ∀ p ∈ l, p.row = a) (ha : a ≠ i) :
    at' l i j = [] := by
  unfold at'
  rw [List.filter_eq_nil_iff.mpr]
  · rfl
  · intro p hp
    have := h p hp
    simp only [Bool.and_eq_true, decide_eq_true_eq]
    omega

lemma at'_col (l : List (Put V)) (i j a : Nat) (h : ∀ p ∈ l, p.col = a) (ha : a ≠ j) :
    at' l i j = [] := by
  unfold at'
  rw [List.filter_eq_nil_iff.mpr]
  · rfl
  · intro p hp
    have := h p hp
    simp only [Bool.and_eq_true, decide_eq_true_eq]
    omega

/-- C152 (panels). For every number of parameters and both layouts: the panel in row `i` and column
`j` holds the histogram of parameter `i` on the diagonal, the density with `j` along x and `i` along y
on the chosen side of it, and nothing on the other side. -/
theorem C152_panels (n i j : Nat) (hi : i < n) (hj : j < n) :
    at' (corner (V := V) n false) i j =
      (if j = i then [.marginal i] else if j < i then [.joint j i] else []) ∧
    at' (corner (V := V) n true) i j =
      (if j = i then [.marginal i] else if i < j then [.joint j i] else []) := by
  have key : ∀ upper : Bool, at' (corner (V := V) n upper) i j =
      at' [Put.mk i i (.marginal i)] i j ++ at' (if decide (j ≥ i) && !upper then []
      else if decide (j ≤ i) && upper then [] else [Put.mk i j (.joint j i)]) i j := by
    intro upper
    unfold corner
    rw [at'_range n _ i j i hi]
    · rw [← List.singleton_append, at'_append, at'_range n _ i j j hj]
      intro a ha hne
      apply at'_col _ _ _ a _ hne
      intro p hp
      split_ifs at hp <;> simp_all
    · intro a ha hne
      apply at'_row _ _ _ a _ hne
      intro p hp
      rcases List.mem_cons.mp hp with rfl | hp
      · rfl
      · obtain ⟨b, hb, hp⟩ := List.mem_flatMap.mp hp
        split_ifs at hp <;> simp_all
  constructor
  · rw [key]
    rcases Nat.lt_trichotomy j i with h | h | h
    · simp [at', show ¬ i ≤ j by omega, show j ≠ i by omega, show i ≠ j by omega, h]
    · subst h; simp [at']
    · simp [at', show i ≤ j by omega, show j ≠ i by omega, show i ≠ j by omega, show ¬ j < i by omega]
  · rw [key]
    rcases Nat.lt_trichotomy j i with h | h | h
    · simp [at', show j ≤ i by omega, show j ≠ i by omega, show i ≠ j by omega, show ¬ i < j by omega]
    · subst h; simp [at']
    · simp [at', show ¬ j ≤ i by omega, show j ≠ i by omega, show i ≠ j by omega, h]

/-- C152 (points). Points are put where the densities are, with the same axes. -/
theorem C152_points (n i j : Nat) (hi : i < n) (hj : j < n) :
    at' (scatter (V := V) n false) i j = (if j < i then [.points j i] else []) ∧
    at' (scatter (V := V) n true) i j = (if i < j then [.points j i] else []) := by
  have key : ∀ upper : Bool, at' (scatter (V := V) n upper) i j =
      at' (if (decide (j ≥ i) && !upper) || (decide (j ≤ i) && upper) then []
        else [Put.mk i j (.points j i)]) i j := by
    intro upper
    unfold scatter
    rw [at'_range n _ i j i hi, at'_range n _ i j j hj]
    · intro a ha hne
      apply at'_col _ _ _ a _ hne
      intro p hp
      split_ifs at hp <;> simp_all
    · intro a ha hne
      apply at'_row _ _ _ a _ hne
      intro p hp
      obtain ⟨b, hb, hp⟩ := List.mem_flatMap.mp hp
      split_ifs at hp <;> simp_all
  constructor
  · rw [key]
    by_cases h : j < i
    · simp [at', show ¬ i ≤ j by omega, h]
    · simp [at', show i ≤ j by omega, h]
  · rw [key]
    by_cases h : i < j
    · simp [at', show ¬ j ≤ i by omega, h]
    · simp [at', show j ≤ i by omega, h]

/-! ## Labels -/

/-- C152 (labels). With labels for at least one parameter: the panels hidden are those in which
nothing is drawn; the label of x below a column is that of the parameter along x in all its panels
and stands in its lowest shown panel, the label of y of a row is that of the parameter along y in its
densities and stands in its outermost shown panel, for all rows that have densities; there are no
other labels. -/
theorem C152_labels (n i j : Nat) (hi : i < n) (hj : j < n) :
    (∃ l, prettify (V := V) n false true = some l ∧
      (Draw.hidden ∈ at' l i j ↔ at' (corner (V := V) n false) i j = []) ∧
      (∀ k, Draw.xlabel k ∈ at' l i j ↔ i = n - 1 ∧ k = j) ∧
      (∀ k, Draw.ylabel k ∈ at' l i j ↔ j = 0 ∧ 0 < i ∧ k = i)) ∧
    (∃ l, prettify (V := V) n true true = some l ∧
      (Draw.hidden ∈ at' l i j ↔ at' (corner (V := V) n true) i j = []) ∧
      (∀ k, Draw.xlabel k ∈ at' l i j ↔ i = j ∧ k = j) ∧
      (∀ k, Draw.ylabel k ∈ at' l i j ↔ j = n - 1 ∧ i < n - 1 ∧ k = i)) := by
  obtain ⟨p1, p2⟩ := C152_panels (V := V) n i j hi hj
  rw [p1, p2]
  have mem : ∀ (upper : Bool) (d : Draw V), d ∈ at' ((List.range n).flatMap fun i =>
      (List.range n).flatMap fun j =>
      if (decide (j < i) && upper) || (decide (j > i) && !upper) then [Put.mk i j .hidden]
      else
        (if (decide (j = i) && upper) || (decide (i = n - 1) && !upper) then
          [Put.mk i j (.xlabel j)] else []) ++
        (if (decide (j = n - 1) && decide (i < n - 1) && upper) ||
            (decide (j = 0) && decide (i > 0) && !upper) then [Put.mk i j (.ylabel i)]
          else [])) i j ↔
      d ∈ (if (decide (j < i) && upper) || (decide (j > i) && !upper) then [.hidden]
      else
        (if (decide (j = i) && upper) || (decide (i = n - 1) && !upper) then [.xlabel j] else []) ++
        (if (decide (j = n - 1) && decide (i < n - 1) && upper) ||
            (decide (j = 0) && decide (i > 0) && !upper) then [.ylabel i] else [])) := by
    intro upper d
    rw [mem_at']
    simp only [List.mem_flatMap, List.mem_range]
    constructor
    · rintro ⟨a, ha, b, hb, h⟩
      have hab : a = i ∧ b = j := by
        split_ifs at h <;> simp at h <;> omega
      obtain ⟨rfl, rfl⟩ := hab
      split_ifs at h ⊢ <;> simp_all
    · intro h
      refine ⟨i, hi, j, hj, ?_⟩
      split_ifs at h ⊢ <;> simp_all
  have nh : ∀ (P Q : Prop) [Decidable P] [Decidable Q] (a b : Nat), (Draw.hidden : Draw V) ∉
      (if P then [Draw.xlabel a] else []) ++ (if Q then [Draw.ylabel b] else []) := by
    intro P Q _ _ a b
    split_ifs <;> simp
  constructor
  · refine ⟨_, by unfold prettify; exact if_pos (Bool.true_or _), ?_, ?_, ?_⟩
    · rw [mem]
      rcases Nat.lt_trichotomy j i with h | h | h
      · rw [if_neg (by simp; omega)]
        simp only [nh, false_iff]
        simp [show j ≠ i by omega, h]
      · rw [if_neg (by simp; omega)]
        simp only [nh, false_iff]
        simp [h]
      · rw [if_pos (by simp; omega)]
        simp [show j ≠ i by omega, show ¬ j < i by omega]
    · intro k
      rw [mem]
      clear mem nh p1 p2
      by_cases h : i < j
      · simp [h]; omega
      · by_cases h2 : i = n - 1 <;> by_cases h3 : j = 0 <;> by_cases h4 : 0 < i <;>
          simp [h, h2, h3, h4] <;> (try split_ifs) <;> simp_all <;> try omega
    · intro k
      rw [mem]
      clear mem nh p1 p2
      by_cases h : i < j
      · simp [h]; omega
      · by_cases h2 : i = n - 1 <;> by_cases h3 : j = 0 <;> by_cases h4 : 0 < i <;>
          simp [h, h2, h3, h4] <;> (try split_ifs) <;> simp_all <;> try omega
  · refine ⟨_, by unfold prettify; exact if_pos (Bool.true_or _), ?_, ?_, ?_⟩
    · rw [mem]
      rcases Nat.lt_trichotomy j i with h | h | h
      · rw [if_pos (by simp; omega)]
        simp [show j ≠ i by omega, show ¬ i < j by omega]
      · rw [if_neg (by simp; omega)]
        simp only [nh, false_iff]
        simp [h]
      · rw [if_neg (by simp; omega)]
        simp only [nh, false_iff]
        simp [show j ≠ i by omega, h]
    · intro k
      rw [mem]
      clear mem nh p1 p2
      by_cases h : j < i
      · simp [h]; omega
      · by_cases h2 : j = i <;> by_cases h3 : j = n - 1 <;> by_cases h4 : i < n - 1 <;>
          simp [h, h2, h3, h4] <;> (try split_ifs) <;> simp_all <;> try omega
    · intro k
      rw [mem]
      clear mem nh p1 p2
      by_cases h : j < i
      · simp [h]; omega
      · by_cases h2 : j = i <;> by_cases h3 : j = n - 1 <;> by_cases h4 : i < n - 1 <;>
          simp [h, h2, h3, h4] <;> (try split_ifs) <;> simp_all <;> try omega

/-- C152, the way the code fails: without labels, which are documented as optional, it raises. -/
theorem C152_labels_refuted (n : Nat) (hn : 0 < n) (upper : Bool) :
    prettify (V := V) n upper false = none := by
  unfold prettify
  simp only [Bool.false_or]
  rw [if_neg]
  intro h
  rw [List.all_eq_true] at h
  have := h (Put.mk (n - 1) (n - 1) (.xlabel (n - 1))) (by
    refine List.mem_flatMap.mpr ⟨n - 1, List.mem_range.mpr (by omega), List.mem_flatMap.mpr
      ⟨n - 1, List.mem_range.mpr (by omega), ?_⟩⟩
    cases upper <;> simp)
  simp at this

/-! ## True values -/

/-- C152 (marks). Quantiles and titles are those of the parameter of the panel; vertical lines stand
in the panel of parameter `i` for the true values of all parameters up to `i`, horizontal lines there
for the true values of `i` unless it is the first; nothing is marked in a panel off the diagonal. -/
theorem C152_marks (n : Nat) (q t : Bool) (truths : Nat → Option (List V)) (i j : Nat) (hi : i < n) :
    (∀ k, Draw.quantiles k ∈ at' (extras n q t truths) i j ↔ j = i ∧ q = true ∧ k = i) ∧
    (∀ k, Draw.title k ∈ at' (extras n q t truths) i j ↔ j = i ∧ t = true ∧ k = i) ∧
    (∀ v, Draw.vline v ∈ at' (extras n q t truths) i j ↔
      j = i ∧ ∃ k ≤ i, ∃ vs, truths k = some vs ∧ v ∈ vs) ∧
    (∀ v, Draw.hline v ∈ at' (extras n q t truths) i j ↔
      j = i ∧ 0 < i ∧ ∃ vs, truths i = some vs ∧ v ∈ vs) ∧
    (j ≠ i → at' (extras n q t truths) i j = []) := by
  have getD_mem : ∀ (k : Nat) (v : V), v ∈ (truths k).getD [] ↔ ∃ vs, truths k = some vs ∧ v ∈ vs := by
    intro k v
    cases truths k <;> simp
  have mem : ∀ d : Draw V, d ∈ at' (extras n q t truths) i j ↔ j = i ∧
      ((q = true ∧ d = .quantiles i) ∨ (∃ v ∈ (truths i).getD [], d = .vline v) ∨
       (t = true ∧ d = .title i) ∨ ∃ k < i, (∃ v ∈ (truths k).getD [], d = .vline v) ∨
        ∃ v ∈ (truths i).getD [], d = .hline v) := by
    intro d
    rw [mem_at']
    unfold extras
    simp only [List.mem_flatMap, List.mem_range, List.mem_append, List.mem_map]
    constructor
    · rintro ⟨a, ha, ((h | ⟨v, hv, h⟩) | h) | ⟨k, hk, ⟨v, hv, h⟩ | ⟨v, hv, h⟩⟩⟩
      · cases q <;> simp at h
        obtain ⟨rfl, rfl, rfl⟩ := h
        exact ⟨rfl, Or.inl ⟨rfl, rfl⟩⟩
      · simp only [Put.mk.injEq] at h
        obtain ⟨rfl, rfl, rfl⟩ := h
        exact ⟨rfl, Or.inr (Or.inl ⟨v, hv, rfl⟩)⟩
      · cases t <;> simp at h
        obtain ⟨rfl, rfl, rfl⟩ := h
        exact ⟨rfl, Or.inr (Or.inr (Or.inl ⟨rfl, rfl⟩))⟩
      · simp only [Put.mk.injEq] at h
        obtain ⟨rfl, rfl, rfl⟩ := h
        exact ⟨rfl, Or.inr (Or.inr (Or.inr ⟨k, hk, Or.inl ⟨v, hv, rfl⟩⟩))⟩
      · simp only [Put.mk.injEq] at h
        obtain ⟨rfl, rfl, rfl⟩ := h
        exact ⟨rfl, Or.inr (Or.inr (Or.inr ⟨k, hk, Or.inr ⟨v, hv, rfl⟩⟩))⟩
    · rintro ⟨rfl, ⟨rfl, rfl⟩ | ⟨v, hv, rfl⟩ | ⟨rfl, rfl⟩ | ⟨k, hk, ⟨v, hv, rfl⟩ | ⟨v, hv, rfl⟩⟩⟩
      · exact ⟨j, hi, by simp⟩
      · exact ⟨j, hi, Or.inl (Or.inl (Or.inr ⟨v, hv, rfl⟩))⟩
      · exact ⟨j, hi, by simp⟩
      · exact ⟨j, hi, Or.inr ⟨k, hk, Or.inl ⟨v, hv, rfl⟩⟩⟩
      · exact ⟨j, hi, Or.inr ⟨k, hk, Or.inr ⟨v, hv, rfl⟩⟩⟩
  refine ⟨?_, ?_, ?_, ?_, ?_⟩
  · intro k
    rw [mem]
    simp
  · intro k
    rw [mem]
    simp
  · intro v
    rw [mem]
    simp only [reduceCtorEq, and_false, false_or, Draw.vline.injEq, exists_eq_right', or_false,
      exists_false]
    refine and_congr_right fun _ => ?_
    constructor
    · rintro (h | ⟨k, hk, h⟩)
      · exact ⟨i, le_refl _, (getD_mem i v).mp h⟩
      · exact ⟨k, le_of_lt hk, (getD_mem k v).mp h⟩
    · rintro ⟨k, hk, h⟩
      rcases Nat.lt_or_eq_of_le hk with h' | rfl
      · exact Or.inr ⟨k, h', (getD_mem k v).mpr h⟩
      · exact Or.inl ((getD_mem k v).mpr h)
  · intro v
    rw [mem]
    simp only [reduceCtorEq, and_false, false_or, Draw.hline.injEq, exists_eq_right', exists_false]
    refine and_congr_right fun _ => ?_
    constructor
    · rintro ⟨k, hk, h⟩
      exact ⟨by omega, (getD_mem i v).mp h⟩
    · rintro ⟨h0, h⟩
      exact ⟨0, h0, (getD_mem i v).mpr h⟩
  · intro hne
    rw [List.eq_nil_iff_forall_not_mem]
    intro d hd
    exact hne ((mem d).mp hd).1

/-- C152, the way the code fails: whenever two parameters have true values, that of the first is drawn
over the histogram of the second, and the panel that shows both has no mark. -/
theorem C152_truths_refuted (n : Nat) (q t : Bool) (truths : Nat → Option (List V)) (i j : Nat)
    (hj : j < i) (hi : i < n) (v : V) (vs : List V) (hv : truths j = some vs) (hm : v ∈ vs) :
    at' (corner (V := V) n false) i i = [.marginal i] ∧
    Draw.vline v ∈ at' (extras n q t truths) i i ∧
    at' (corner (V := V) n false) i j = [.joint j i] ∧ at' (extras n q t truths) i j = [] := by
  refine ⟨?_, ?_, ?_, ?_⟩
  · rw [(C152_panels n i i hi hi).1]; simp
  · rw [(C152_marks n q t truths i i hi).2.2.1 v]
    exact ⟨rfl, j, le_of_lt hj, vs, hv, hm⟩
  · rw [(C152_panels n i j hi (by omega)).1]; simp [show j ≠ i by omega, hj]
  · exact (C152_marks n q t truths i j hi).2.2.2.2 (by omega)

/-- C152 (no other panels). Nothing is put outside the square of axes given. -/
theorem C152_inside (n : Nat) (upper q t : Bool) (truths : Nat → Option (List V)) (p : Put V)
    (hp : p ∈ corner n upper ∨ p ∈ scatter n upper ∨ (∃ l, prettify n upper true = some l ∧ p ∈ l) ∨
      p ∈ extras n q t truths) : p.row < n ∧ p.col < n := by
  rcases hp with h | h | ⟨l, hl, h⟩ | h
  · obtain ⟨i, hi, h⟩ := List.mem_flatMap.mp h
    rw [List.mem_range] at hi
    rcases List.mem_cons.mp h with rfl | h
    · exact ⟨hi, hi⟩
    · obtain ⟨j, hj, h⟩ := List.mem_flatMap.mp h
      rw [List.mem_range] at hj
      split_ifs at h <;> simp at h
      subst h
      exact ⟨hi, hj⟩
  · obtain ⟨i, hi, h⟩ := List.mem_flatMap.mp h
    obtain ⟨j, hj, h⟩ := List.mem_flatMap.mp h
    rw [List.mem_range] at hi hj
    split_ifs at h <;> simp at h
    subst h
    exact ⟨hi, hj⟩
  · unfold prettify at hl
    have hl' := (if_pos (Bool.true_or _)).symm.trans hl
    rw [Option.some.injEq] at hl'
    rw [← hl'] at h
    obtain ⟨i, hi, h⟩ := List.mem_flatMap.mp h
    obtain ⟨j, hj, h⟩ := List.mem_flatMap.mp h
    rw [List.mem_range] at hi hj
    have : p.row = i ∧ p.col = j := by
      split_ifs at h <;> simp at h <;> first
        | (subst h; exact ⟨rfl, rfl⟩)
        | (rcases h with h | h <;> subst h <;> exact ⟨rfl, rfl⟩)
    omega
  · obtain ⟨i, hi, h⟩ := List.mem_flatMap.mp h
    rw [List.mem_range] at hi
    have : p.row = i ∧ p.col = i := by
      simp only [List.mem_append, List.mem_map, List.mem_flatMap] at h
      rcases h with ((h | ⟨v, hv, rfl⟩) | h) | ⟨k, hk, ⟨v, hv, rfl⟩ | ⟨v, hv, rfl⟩⟩
      · split_ifs at h <;> simp at h
        subst h; exact ⟨rfl, rfl⟩
      · exact ⟨rfl, rfl⟩
      · split_ifs at h <;> simp at h
        subst h; exact ⟨rfl, rfl⟩
      · exact ⟨rfl, rfl⟩
      · exact ⟨rfl, rfl⟩
    omega

/-- Three parameters, the true values of the first two given. -/
example : at' (extras (V := Int) 3 true false fun k => if k < 2 then some [10 * k] else none) 1 1 =
    [.quantiles 1, .vline 10, .vline 0, .hline 10] := by decide

/-! ## Height of a marginal -/

section height
variable {K : Type} [Field K] [LinearOrder K] [IsStrictOrderedRing K]

/-- `np.histogram` with weights: the sum of the weights of the samples in each bin; `bin` gives the
bin of a sample, if it is in the range. -/
def histogram {α : Type} (bins : Nat) (bin : α → Option Nat) (samples : List (α × K)) : List K :=
  (List.range bins).map fun b => ((samples.filter fun s => bin s.1 == some b).map Prod.snd).sum

/-- The largest entry, `n.max()`, at least zero. -/
def largest (l : List K) : K := l.foldr max 0

/-- The end of `marginal` (corner.py:524-530): the weights are rescaled for a given peak and the
histogram is drawn.  `none` when there are no weights (`wght` is `None`) and a peak is asked for,
which raises `TypeError`; without weights every sample counts one. -/
def marginalHeights {α : Type} (bins : Nat) (bin : α → Option Nat) (xs : List α)
    (weights : Option (List K)) (peak : Option K) : Option (List K) :=
  match peak, weights with
  | none, none => some (histogram bins bin (xs.map fun x => (x, 1)))
  | none, some w => some (histogram bins bin (xs.zip w))
  | some _, none => none
  | some p, some w =>
    let n := histogram bins bin (xs.zip w)
    some (histogram bins bin (xs.zip (w.map fun a => a * p / largest n)))

lemma histogram_scale {α : Type} (bins : Nat) (bin : α → Option Nat) (xs : List α) (w : List K)
    (c : K) : histogram bins bin (xs.zip (w.map fun a => a * c)) =
      (histogram bins bin (xs.zip w)).map fun a => a * c := by
  unfold histogram
  rw [List.map_map]
  apply List.map_congr_left
  intro b _
  simp only [Function.comp_apply]
  induction xs generalizing w with
  | nil => simp
  | cons x xs ih =>
    cases w with
    | nil => simp
    | cons a w =>
      simp only [List.map_cons, List.zip_cons_cons, List.filter_cons]
      split_ifs
      · simp only [List.map_cons, List.sum_cons, ih w]; ring
      · exact ih w

lemma largest_scale (l : List K) (c : K) (hc : 0 ≤ c) : largest (l.map fun a => a * c) = largest l * c := by
  induction l with
  | nil => simp [largest]
  | cons a l ih =>
    show max (a * c) (largest (l.map fun a => a * c)) = max a (largest l) * c
    rw [ih, max_mul_of_nonneg _ _ hc]

/-- C152 (peak). With weights and some of them in the range, the highest bar of a marginal drawn with
a peak is the peak, and the bars keep their ratios; without weights it raises. -/
theorem C152_peak {α : Type} (bins : Nat) (bin : α → Option Nat) (xs : List α) (w : List K) (p : K)
    (hp : 0 < p) (hn : ∃ h ∈ histogram bins bin (xs.zip w), 0 < h) :
    ∃ hs c, marginalHeights bins bin xs (some w) (some p) = some hs ∧ 0 < c ∧
      hs = (histogram bins bin (xs.zip w)).map (fun a => a * c) ∧ (∀ h ∈ hs, h ≤ p) ∧ p ∈ hs := by
  have le_largest : ∀ (l : List K), ∀ h ∈ l, h ≤ largest l := by
    intro l
    induction l with
    | nil => simp
    | cons a l ih =>
      intro h hh
      show h ≤ max a (largest l)
      rcases List.mem_cons.mp hh with rfl | hh
      · exact le_max_left _ _
      · exact le_trans (ih h hh) (le_max_right _ _)
  have largest_mem : ∀ (l : List K), 0 < largest l → largest l ∈ l := by
    intro l
    induction l with
    | nil => simp [largest]
    | cons a l ih =>
      intro h
      change 0 < max a (largest l) at h
      show max a (largest l) ∈ a :: l
      rcases le_total a (largest l) with h' | h'
      · rw [max_eq_right h'] at h ⊢
        exact List.mem_cons_of_mem _ (ih h)
      · rw [max_eq_left h']; simp
  obtain ⟨h0, hm, hpos⟩ := hn
  have hl : 0 < largest (histogram bins bin (xs.zip w)) := lt_of_lt_of_le hpos (le_largest _ h0 hm)
  generalize hg : histogram bins bin (xs.zip w) = n at *
  have hc : 0 < p / largest n := by positivity
  have e : histogram bins bin (xs.zip (w.map fun a => a * p / largest n)) =
      n.map fun a => a * (p / largest n) := by
    rw [← hg, ← histogram_scale, hg]
    simp only [mul_div_assoc]
  refine ⟨_, p / largest n, by simp only [marginalHeights, hg], hc, e, ?_, ?_⟩
  · intro h hh
    rw [e] at hh
    obtain ⟨a, ha, rfl⟩ := List.mem_map.mp hh
    have := le_largest n a ha
    calc a * (p / largest n) ≤ largest n * (p / largest n) := by
          exact mul_le_mul_of_nonneg_right this (le_of_lt hc)
      _ = p := by field_simp
  · rw [e]
    exact List.mem_map.mpr ⟨_, largest_mem n hl, by field_simp⟩

/-- C152, the way the code fails: a peak without weights (a histogram that is not smoothed) raises;
without a peak every sample counts one. -/
theorem C152_peak_refuted {α : Type} (bins : Nat) (bin : α → Option Nat) (xs : List α) (p : K) :
    marginalHeights bins bin xs none (some p) = none ∧
    marginalHeights bins bin xs (none : Option (List K)) none =
      some ((List.range bins).map fun b => ((xs.countP fun x => bin x == some b : Nat) : K)) ∧
    ∀ w : List K, marginalHeights bins bin xs (some w) none = some (histogram bins bin (xs.zip w)) := by
  refine ⟨rfl, ?_, fun _ => rfl⟩
  unfold marginalHeights histogram
  simp only [Option.some.injEq]
  apply List.map_congr_left
  intro b _
  induction xs with
  | nil => simp
  | cons x xs ih =>
    simp only [List.map_cons, List.filter_cons, List.countP_cons]
    split_ifs
    · rw [List.map_cons, List.sum_cons, ih]; push_cast; ring
    · rw [ih]; simp

end height

/-- Weights 1, 2, 1 in two bins, drawn with peak 6. -/
example : marginalHeights (K := ℚ) 2 (fun (x : Nat) => if x < 10 then some (x / 5) else none)
    [1, 6, 7, 12] (some [1, 2, 1, 5]) (some 6) = some [2, 6] := by
  norm_num [marginalHeights, histogram, largest, List.range_succ]

end Forcepho.Corner
