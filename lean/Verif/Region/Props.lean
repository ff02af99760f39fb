import Verif.Region.Model
import Mathlib.Analysis.LocallyConvex.Separation
import Mathlib.Analysis.Convex.Combination
import Mathlib.Analysis.Convex.Topology
import Mathlib.Analysis.Normed.Module.Convex
import Mathlib.Tactic.Linarith
import Mathlib.Tactic.Positivity
import Mathlib.Tactic.FieldSimp
import Mathlib.Tactic.NormNum
import Mathlib.Tactic.LinearCombination

/-! # Properties C55 and C56 -/

set_option autoImplicit false
set_option linter.unusedSectionVars false

namespace Forcepho.Region

/-! ## Lists -/

lemma foldl_min_le {K : Type} [Field K] [LinearOrder K] (xs : List K) : ∀ x : K, xs.foldl min x ≤ x ∧ ∀ y ∈ xs, xs.foldl min x ≤ y := by
  induction xs with
  | nil => intro x; simp
  | cons z zs ih =>
    intro x
    rw [List.foldl_cons]
    obtain ⟨h1, h2⟩ := ih (min x z)
    refine ⟨h1.trans (min_le_left _ _), ?_⟩
    intro y hy
    rcases List.mem_cons.mp hy with rfl | hy
    · exact h1.trans (min_le_right _ _)
    · exact h2 y hy

lemma foldl_min_mem {K : Type} [Field K] [LinearOrder K] (xs : List K) : ∀ x : K, xs.foldl min x ∈ x :: xs := by
  induction xs with
  | nil => intro x; simp
  | cons z zs ih =>
    intro x
    rw [List.foldl_cons]
    have := ih (min x z)
    rcases List.mem_cons.mp this with h | h
    · rw [h]
      rcases min_choice x z with hc | hc
      · rw [hc]; simp
      · rw [hc]; simp
    · simp [h]

lemma foldl_max_le {K : Type} [Field K] [LinearOrder K] (xs : List K) : ∀ x : K, x ≤ xs.foldl max x ∧ ∀ y ∈ xs, y ≤ xs.foldl max x := by
  induction xs with
  | nil => intro x; simp
  | cons z zs ih =>
    intro x
    rw [List.foldl_cons]
    obtain ⟨h1, h2⟩ := ih (max x z)
    refine ⟨(le_max_left _ _).trans h1, ?_⟩
    intro y hy
    rcases List.mem_cons.mp hy with rfl | hy
    · exact (le_max_right _ _).trans h1
    · exact h2 y hy

lemma foldl_max_mem {K : Type} [Field K] [LinearOrder K] (xs : List K) : ∀ x : K, xs.foldl max x ∈ x :: xs := by
  induction xs with
  | nil => intro x; simp
  | cons z zs ih =>
    intro x
    rw [List.foldl_cons]
    have := ih (max x z)
    rcases List.mem_cons.mp this with h | h
    · rw [h]
      rcases max_choice x z with hc | hc
      · rw [hc]; simp
      · rw [hc]; simp
    · simp [h]

lemma lo_le {K : Type} [Field K] [LinearOrder K] {l : List K} {y : K} (hy : y ∈ l) : lo l ≤ y := by
  cases l with
  | nil => cases hy
  | cons x xs =>
    rcases List.mem_cons.mp hy with rfl | hy
    · exact (foldl_min_le xs y).1
    · exact (foldl_min_le xs x).2 y hy

lemma lo_mem {K : Type} [Field K] [LinearOrder K] {l : List K} (hl : l ≠ []) : lo l ∈ l := by
  cases l with
  | nil => exact absurd rfl hl
  | cons x xs => exact foldl_min_mem xs x

lemma le_hi {K : Type} [Field K] [LinearOrder K] {l : List K} {y : K} (hy : y ∈ l) : y ≤ hi l := by
  cases l with
  | nil => cases hy
  | cons x xs =>
    rcases List.mem_cons.mp hy with rfl | hy
    · exact (foldl_max_le xs y).1
    · exact (foldl_max_le xs x).2 y hy

lemma hi_mem {K : Type} [Field K] [LinearOrder K] {l : List K} (hl : l ≠ []) : hi l ∈ l := by
  cases l with
  | nil => exact absurd rfl hl
  | cons x xs => exact foldl_max_mem xs x

/-- The dot product used for projections. -/
def dot (n p : ℝ × ℝ) : ℝ := n.1 * p.1 + n.2 * p.2

lemma hi_lt_lo {n : ℝ × ℝ} {a b : List (ℝ × ℝ)} (ha : a ≠ []) (hb : b ≠ []) :
    hi (proj n a) < lo (proj n b) ↔ ∀ p ∈ a, ∀ q ∈ b, dot n p < dot n q := by
  constructor
  · intro h p hp q hq
    have h1 : dot n p ≤ hi (proj n a) := le_hi (List.mem_map_of_mem (f := fun p => n.1 * p.1 + n.2 * p.2) hp)
    have h2 : lo (proj n b) ≤ dot n q := lo_le (List.mem_map_of_mem (f := fun p => n.1 * p.1 + n.2 * p.2) hq)
    linarith
  · intro h
    obtain ⟨p, hp, hp2⟩ := List.mem_map.mp (hi_mem (l := proj n a) (by simpa [proj] using ha))
    obtain ⟨q, hq, hq2⟩ := List.mem_map.mp (lo_mem (l := proj n b) (by simpa [proj] using hb))
    rw [← hp2, ← hq2]
    exact h p hp q hq

lemma apart_iff {n : ℝ × ℝ} {a b : List (ℝ × ℝ)} (ha : a ≠ []) (hb : b ≠ []) :
    apart n a b = true ↔ (∀ p ∈ a, ∀ q ∈ b, dot n p < dot n q) ∨ ∀ p ∈ a, ∀ q ∈ b, dot n q < dot n p := by
  unfold apart
  rw [Bool.or_eq_true, decide_eq_true_iff, decide_eq_true_iff, hi_lt_lo ha hb, hi_lt_lo hb ha]
  constructor
  · rintro (h | h)
    · exact Or.inl h
    · exact Or.inr fun p hp q hq => h q hq p hp
  · rintro (h | h)
    · exact Or.inl h
    · exact Or.inr fun q hq p hp => h p hp q hq

/-- What the overlap test decides. -/
lemma overlap_false_iff {a b : List (ℝ × ℝ)} (ha : a ≠ []) (hb : b ≠ []) :
    polygonsOverlap a b = some false ↔ ∃ e ∈ edges a ++ edges b,
      (∀ p ∈ a, ∀ q ∈ b, dot (normal e) p < dot (normal e) q) ∨
        ∀ p ∈ a, ∀ q ∈ b, dot (normal e) q < dot (normal e) p := by
  unfold polygonsOverlap
  rw [if_neg (by simp [ha, hb])]
  simp only [← apart_iff ha hb]
  constructor
  · intro h
    split at h
    · rename_i h1
      obtain ⟨e, he, h1⟩ := List.any_eq_true.mp h1
      exact ⟨e, List.mem_append_left _ he, h1⟩
    · split at h
      · rename_i h1
        obtain ⟨e, he, h1⟩ := List.any_eq_true.mp h1
        exact ⟨e, List.mem_append_right _ he, h1⟩
      · cases h
  · rintro ⟨e, he, h⟩
    rcases List.mem_append.mp he with he | he
    · rw [if_pos (List.any_eq_true.mpr ⟨e, he, h⟩)]
    · split
      · rfl
      · rw [if_pos (List.any_eq_true.mpr ⟨e, he, h⟩)]

lemma overlap_total (a b : List (ℝ × ℝ)) (ha : a ≠ []) (hb : b ≠ []) :
    polygonsOverlap a b = some true ∨ polygonsOverlap a b = some false := by
  unfold polygonsOverlap
  rw [if_neg (by simp [ha, hb])]
  split
  · exact Or.inr rfl
  · split
    · exact Or.inr rfl
    · exact Or.inl rfl

/-! ## C55 -/

/-- The filled polygon. -/
def filled (a : List (ℝ × ℝ)) : Set (ℝ × ℝ) := convexHull ℝ {p | p ∈ a}

lemma filled_half {a : List (ℝ × ℝ)} {n : ℝ × ℝ} {c : ℝ} (h : ∀ p ∈ a, dot n p < c) :
    ∀ p ∈ filled a, dot n p < c := by
  have hconv : Convex ℝ {p : ℝ × ℝ | dot n p < c} := by
    apply convex_halfSpace_lt
    exact ⟨fun x y => by simp [dot]; ring, fun k x => by simp [dot]; ring⟩
  intro p hp
  exact convexHull_min (s := {p | p ∈ a}) (fun p hp => h p hp) hconv hp

lemma separated_disjoint {a b : List (ℝ × ℝ)} {n : ℝ × ℝ} (hb : b ≠ [])
    (h : ∀ p ∈ a, ∀ q ∈ b, dot n p < dot n q) : Disjoint (filled a) (filled b) := by
  rw [Set.disjoint_left]
  intro x hxa hxb
  have h1 : dot n x < lo (proj n b) := by
    apply filled_half (c := lo (proj n b)) _ x hxa
    intro p hp
    obtain ⟨q, hq, hq2⟩ := List.mem_map.mp (lo_mem (l := proj n b) (by simpa [proj] using hb))
    rw [← hq2]
    exact h p hp q hq
  have hn : ∀ p, dot (-n.1, -n.2) p = -dot n p := by intro p; simp [dot]; ring
  have h2 : ¬ dot n x < lo (proj n b) := by
    by_contra hc
    have hk : ∀ p ∈ filled b, dot (-n.1, -n.2) p < -dot n x := by
      apply filled_half
      intro p hp
      rw [hn]
      have : lo (proj n b) ≤ dot n p :=
        lo_le (List.mem_map_of_mem (f := fun p => n.1 * p.1 + n.2 * p.2) hp)
      linarith
    have := hk x hxb
    rw [hn] at this
    linarith
  exact h2 h1

/-- C55 (soundness). Whatever the two polygons, if the test answers no then no point lies in both
filled polygons. -/
theorem C55_sound (a b : List (ℝ × ℝ)) (h : polygonsOverlap a b = some false) :
    Disjoint (filled a) (filled b) := by
  have ha : a ≠ [] := by rintro rfl; simp [polygonsOverlap] at h
  have hb : b ≠ [] := by rintro rfl; simp [polygonsOverlap] at h
  obtain ⟨e, _, h1 | h1⟩ := (overlap_false_iff ha hb).mp h
  · exact separated_disjoint hb h1
  · exact (separated_disjoint ha fun q hq p hp => h1 p hp q hq).symm

lemma mem_edges_rect {r1 r2 d1 d2 : ℝ} (e : (ℝ × ℝ) × (ℝ × ℝ)) :
    e ∈ edges (rectBox r1 r2 d1 d2) ↔ e = ((r1, d1), (r2, d1)) ∨ e = ((r2, d1), (r2, d2)) ∨
      e = ((r2, d2), (r1, d2)) ∨ e = ((r1, d2), (r1, d1)) := by
  simp [edges, rectBox]

/-- C55 (rectangles). For rectangles aligned with the axes, of which at least one is extended in
each direction, the test answers yes exactly when the closed rectangles share a point. -/
theorem C55_rectangles (a1 a2 c1 c2 b1 b2 d1 d2 : ℝ) (ha : a1 ≤ a2) (hc : c1 ≤ c2) (hb : b1 ≤ b2)
    (hd : d1 ≤ d2) (hx : a1 < a2 ∨ b1 < b2) (hy : c1 < c2 ∨ d1 < d2) :
    polygonsOverlap (rectBox a1 a2 c1 c2) (rectBox b1 b2 d1 d2) = some true ↔
      ((Set.Icc a1 a2 ×ˢ Set.Icc c1 c2) ∩ (Set.Icc b1 b2 ×ˢ Set.Icc d1 d2)).Nonempty := by
  have na : rectBox a1 a2 c1 c2 ≠ [] := by simp [rectBox]
  have nb : rectBox b1 b2 d1 d2 ≠ [] := by simp [rectBox]
  have key : polygonsOverlap (rectBox a1 a2 c1 c2) (rectBox b1 b2 d1 d2) = some false ↔
      a2 < b1 ∨ b2 < a1 ∨ c2 < d1 ∨ d2 < c1 := by
    rw [overlap_false_iff na nb]
    constructor
    · rintro ⟨e, he, h⟩
      by_contra hcon
      push Not at hcon
      obtain ⟨k1, k2, k3, k4⟩ := hcon
      rw [List.mem_append, mem_edges_rect, mem_edges_rect] at he
      -- a common corner of the two rectangles' overlap, bounded by vertices
      have hall : ∀ n : ℝ × ℝ, (n.1 = 0 ∨ n.2 = 0) →
          ¬ ((∀ p ∈ rectBox a1 a2 c1 c2, ∀ q ∈ rectBox b1 b2 d1 d2, dot n p < dot n q) ∨
            ∀ p ∈ rectBox a1 a2 c1 c2, ∀ q ∈ rectBox b1 b2 d1 d2, dot n q < dot n p) := by
        intro n hn hh
        simp only [rectBox, List.mem_cons, List.not_mem_nil, or_false, forall_eq_or_imp, forall_eq,
          dot] at hh
        rcases hn with hn | hn
        · rw [hn] at hh
          rcases le_total 0 n.2 with hs | hs <;> rcases hh with hh | hh <;>
            nlinarith [hh.1.1, hh.1.2.2.1, hh.2.2.1.1, hh.2.2.1.2.2.1]
        · rw [hn] at hh
          rcases le_total 0 n.1 with hs | hs <;> rcases hh with hh | hh <;>
            nlinarith [hh.1.1, hh.1.2.1, hh.2.1.1, hh.2.1.2.1]
      apply hall (normal e) _ h
      rcases he with (rfl | rfl | rfl | rfl) | (rfl | rfl | rfl | rfl) <;> simp [normal]
    · intro h
      have hex : ∀ e, e ∈ edges (rectBox a1 a2 c1 c2) ∨ e ∈ edges (rectBox b1 b2 d1 d2) →
          ((∀ p ∈ rectBox a1 a2 c1 c2, ∀ q ∈ rectBox b1 b2 d1 d2, dot (normal e) p < dot (normal e) q) ∨
          ∀ p ∈ rectBox a1 a2 c1 c2, ∀ q ∈ rectBox b1 b2 d1 d2, dot (normal e) q < dot (normal e) p) →
          ∃ e ∈ edges (rectBox a1 a2 c1 c2) ++ edges (rectBox b1 b2 d1 d2),
            (∀ p ∈ rectBox a1 a2 c1 c2, ∀ q ∈ rectBox b1 b2 d1 d2, dot (normal e) p < dot (normal e) q) ∨
            ∀ p ∈ rectBox a1 a2 c1 c2, ∀ q ∈ rectBox b1 b2 d1 d2, dot (normal e) q < dot (normal e) p :=
        fun e he h => ⟨e, List.mem_append.mpr he, h⟩
      simp only [rectBox, List.mem_cons, List.not_mem_nil, or_false, forall_eq_or_imp, forall_eq] at hex
      -- the edge running along y separates in x and vice versa
      have hX : ∀ s1 s2 r : ℝ, s1 < s2 → (a2 < b1 ∨ b2 < a1) →
          (((r, s1), (r, s2)) ∈ edges (rectBox a1 a2 c1 c2) ∨
           ((r, s1), (r, s2)) ∈ edges (rectBox b1 b2 d1 d2)) →
          ∃ e ∈ edges (rectBox a1 a2 c1 c2) ++ edges (rectBox b1 b2 d1 d2),
            (∀ p ∈ rectBox a1 a2 c1 c2, ∀ q ∈ rectBox b1 b2 d1 d2, dot (normal e) p < dot (normal e) q) ∨
            ∀ p ∈ rectBox a1 a2 c1 c2, ∀ q ∈ rectBox b1 b2 d1 d2, dot (normal e) q < dot (normal e) p := by
        intro s1 s2 r hs hh he
        refine ⟨_, List.mem_append.mpr he, ?_⟩
        have hpos : 0 < s2 - s1 := by linarith
        simp only [rectBox, List.mem_cons, List.not_mem_nil, or_false, forall_eq_or_imp, forall_eq, dot,
          normal, sub_self, zero_mul, add_zero]
        rcases hh with hh | hh
        · left
          refine ⟨⟨?_, ?_, ?_, ?_⟩, ⟨?_, ?_, ?_, ?_⟩, ⟨?_, ?_, ?_, ?_⟩, ⟨?_, ?_, ?_, ?_⟩⟩ <;>
            apply mul_lt_mul_of_pos_left _ hpos <;> linarith
        · right
          refine ⟨⟨?_, ?_, ?_, ?_⟩, ⟨?_, ?_, ?_, ?_⟩, ⟨?_, ?_, ?_, ?_⟩, ⟨?_, ?_, ?_, ?_⟩⟩ <;>
            apply mul_lt_mul_of_pos_left _ hpos <;> linarith
      have hY : ∀ s1 s2 r : ℝ, s1 < s2 → (c2 < d1 ∨ d2 < c1) →
          (((s2, r), (s1, r)) ∈ edges (rectBox a1 a2 c1 c2) ∨
           ((s2, r), (s1, r)) ∈ edges (rectBox b1 b2 d1 d2)) →
          ∃ e ∈ edges (rectBox a1 a2 c1 c2) ++ edges (rectBox b1 b2 d1 d2),
            (∀ p ∈ rectBox a1 a2 c1 c2, ∀ q ∈ rectBox b1 b2 d1 d2, dot (normal e) p < dot (normal e) q) ∨
            ∀ p ∈ rectBox a1 a2 c1 c2, ∀ q ∈ rectBox b1 b2 d1 d2, dot (normal e) q < dot (normal e) p := by
        intro s1 s2 r hs hh he
        refine ⟨_, List.mem_append.mpr he, ?_⟩
        have hpos : 0 < s2 - s1 := by linarith
        simp only [rectBox, List.mem_cons, List.not_mem_nil, or_false, forall_eq_or_imp, forall_eq, dot,
          normal, sub_self, zero_mul, zero_add]
        rcases hh with hh | hh
        · left
          refine ⟨⟨?_, ?_, ?_, ?_⟩, ⟨?_, ?_, ?_, ?_⟩, ⟨?_, ?_, ?_, ?_⟩, ⟨?_, ?_, ?_, ?_⟩⟩ <;>
            apply mul_lt_mul_of_pos_left _ hpos <;> linarith
        · right
          refine ⟨⟨?_, ?_, ?_, ?_⟩, ⟨?_, ?_, ?_, ?_⟩, ⟨?_, ?_, ?_, ?_⟩, ⟨?_, ?_, ?_, ?_⟩⟩ <;>
            apply mul_lt_mul_of_pos_left _ hpos <;> linarith
      have hXX : (a2 < b1 ∨ b2 < a1) → _ := fun hh =>
        hy.elim (fun h1 => hX c1 c2 a2 h1 hh (Or.inl ((mem_edges_rect _).mpr (by simp))))
          (fun h1 => hX d1 d2 b2 h1 hh (Or.inr ((mem_edges_rect _).mpr (by simp))))
      have hYY : (c2 < d1 ∨ d2 < c1) → _ := fun hh =>
        hx.elim (fun h1 => hY a1 a2 c2 h1 hh (Or.inl ((mem_edges_rect _).mpr (by simp))))
          (fun h1 => hY b1 b2 d2 h1 hh (Or.inr ((mem_edges_rect _).mpr (by simp))))
      rcases h with h | h | h | h
      · exact hXX (Or.inl h)
      · exact hXX (Or.inr h)
      · exact hYY (Or.inl h)
      · exact hYY (Or.inr h)
  have hne : ((Set.Icc a1 a2 ×ˢ Set.Icc c1 c2) ∩ (Set.Icc b1 b2 ×ˢ Set.Icc d1 d2)).Nonempty ↔
      ¬ (a2 < b1 ∨ b2 < a1 ∨ c2 < d1 ∨ d2 < c1) := by
    constructor
    · rintro ⟨⟨x, y⟩, ⟨⟨h1, h2⟩, h3, h4⟩, ⟨h5, h6⟩, h7, h8⟩
      simp only at *
      push Not
      exact ⟨by linarith, by linarith, by linarith, by linarith⟩
    · intro h
      push Not at h
      obtain ⟨h1, h2, h3, h4⟩ := h
      refine ⟨(max a1 b1, max c1 d1), ⟨⟨?_, ?_⟩, ?_, ?_⟩, ⟨?_, ?_⟩, ?_, ?_⟩ <;> simp <;> constructor <;>
        linarith
  rw [hne, ← key]
  rcases overlap_total _ _ na nb with h | h <;> simp [h]

/-- Without that restriction the answer can be wrong: two collinear segments far apart are said to
overlap. -/
theorem C55_degenerate :
    polygonsOverlap (rectBox (0 : ℝ) 0 0 1) (rectBox 0 0 5 6) = some true ∧
    ¬ ((Set.Icc (0 : ℝ) 0 ×ˢ Set.Icc (0 : ℝ) 1) ∩ (Set.Icc (0 : ℝ) 0 ×ˢ Set.Icc (5 : ℝ) 6)).Nonempty := by
  constructor
  · rcases overlap_total (rectBox (0 : ℝ) 0 0 1) (rectBox 0 0 5 6) (by simp [rectBox]) (by simp [rectBox])
      with h | h
    · exact h
    · obtain ⟨e, he, hh⟩ := (overlap_false_iff (by simp [rectBox]) (by simp [rectBox])).mp h
      rw [List.mem_append, mem_edges_rect, mem_edges_rect] at he
      exfalso
      simp only [rectBox, List.mem_cons, List.not_mem_nil, or_false, forall_eq_or_imp, forall_eq, dot] at hh
      rcases he with (rfl | rfl | rfl | rfl) | (rfl | rfl | rfl | rfl) <;> simp [normal] at hh
  · rintro ⟨⟨x, y⟩, ⟨_, h3, h4⟩, _, h7, h8⟩
    simp only at h4 h7
    linarith

/-! ## C56 -/

lemma exists_succ {α : Type} (poly : List α) (v : α) (hv : v ∈ poly) :
    ∃ w ∈ poly, (v, w) ∈ poly.zip (poly.drop 1 ++ poly.take 1) := by
  obtain ⟨i, hi, rfl⟩ := List.mem_iff_getElem.mp hv
  have hlen : (poly.drop 1 ++ poly.take 1).length = poly.length := by
    simp; omega
  have hi2 : i < (poly.drop 1 ++ poly.take 1).length := by omega
  refine ⟨(poly.drop 1 ++ poly.take 1)[i], ?_, ?_⟩
  · have := List.getElem_mem hi2
    rcases List.mem_append.mp this with h | h
    · exact List.mem_of_mem_drop h
    · exact List.mem_of_mem_take h
  · have hz : i < (poly.zip (poly.drop 1 ++ poly.take 1)).length := by simp; omega
    have : (poly.zip (poly.drop 1 ++ poly.take 1))[i] = (poly[i], (poly.drop 1 ++ poly.take 1)[i]) :=
      List.getElem_zip
    rw [← this]
    exact List.getElem_mem hz

lemma edge_mem {poly : List (ℝ × ℝ)} {e : (ℝ × ℝ) × (ℝ × ℝ)} (he : e ∈ edges poly) :
    e.1 ∈ poly ∧ e.2 ∈ poly := by
  obtain ⟨a, b⟩ := e
  have := List.of_mem_zip he
  refine ⟨this.1, ?_⟩
  rcases List.mem_append.mp this.2 with h | h
  · exact List.mem_of_mem_drop h
  · exact List.mem_of_mem_take h

lemma filled_closed (a : List (ℝ × ℝ)) : IsClosed (filled a) := by
  have : Set.Finite {p | p ∈ a} := a.finite_toSet
  exact this.isClosed_convexHull ℝ

/-- A point strictly to one side of every edge is in the filled polygon. -/
lemma strict_mem (poly : List (ℝ × ℝ)) (hne : poly ≠ []) (pt : ℝ × ℝ) (σ : ℝ)
    (h : ∀ e ∈ edges poly, 0 < σ * side pt e) : pt ∈ filled poly := by
  by_contra hn
  obtain ⟨f, u, hu, hf⟩ := geometric_hahn_banach_point_closed (convex_convexHull ℝ _) (filled_closed poly) hn
  have hlin : ∀ p : ℝ × ℝ, f p = p.1 * f (1, 0) + p.2 * f (0, 1) := by
    intro p
    have : p = p.1 • ((1 : ℝ), (0 : ℝ)) + p.2 • ((0 : ℝ), (1 : ℝ)) := by simp
    conv_lhs => rw [this]
    rw [map_add, map_smul, map_smul, smul_eq_mul, smul_eq_mul]
  obtain ⟨α, hα⟩ : ∃ α, α = f (1, 0) := ⟨_, rfl⟩
  obtain ⟨β, hβ⟩ : ∃ β, β = f (0, 1) := ⟨_, rfl⟩
  -- height above the separating line and position along it
  have hy : ∀ v ∈ poly, 0 < (v.1 - pt.1) * α + (v.2 - pt.2) * β := by
    intro v hv
    have h1 := hf v (subset_convexHull ℝ _ hv)
    rw [hlin, ← hα, ← hβ] at h1
    rw [hlin, ← hα, ← hβ] at hu
    linarith
  have hpos : 0 < α ^ 2 + β ^ 2 := by
    obtain ⟨v, hv⟩ := List.exists_mem_of_ne_nil poly hne
    by_contra hc
    have ha0 : α = 0 := by nlinarith [sq_nonneg α, sq_nonneg β]
    have hb0 : β = 0 := by nlinarith [sq_nonneg α, sq_nonneg β]
    have := hy v hv
    rw [ha0, hb0] at this
    simp at this
  obtain ⟨Y, hY⟩ : ∃ Y : ℝ × ℝ → ℝ, Y = fun v => (v.1 - pt.1) * α + (v.2 - pt.2) * β := ⟨_, rfl⟩
  obtain ⟨X, hX⟩ : ∃ X : ℝ × ℝ → ℝ, X = fun v => (v.1 - pt.1) * β - (v.2 - pt.2) * α := ⟨_, rfl⟩
  have hside : ∀ e, X e.1 * Y e.2 - X e.2 * Y e.1 = (α ^ 2 + β ^ 2) * side pt e := by
    intro e; rw [hX, hY]; simp only [side]; ring
  have hYp : ∀ v ∈ poly, 0 < Y v := by intro v hv; rw [hY]; exact hy v hv
  -- the vertex of least slope has a successor of smaller slope
  obtain ⟨v, hv, hmin⟩ := Set.exists_min_image {p | p ∈ poly} (fun v => σ * (X v / Y v)) poly.finite_toSet
    (List.exists_mem_of_ne_nil poly hne)
  obtain ⟨w, hw, he⟩ := exists_succ poly v hv
  have h1 := h (v, w) he
  have h2 := hmin w hw
  have h3 := hside (v, w)
  have pv := hYp v hv
  have pw := hYp w hw
  simp only at h2 h3
  have h4 : σ * (X v / Y v) - σ * (X w / Y w) = (α ^ 2 + β ^ 2) * (σ * side pt (v, w)) / (Y v * Y w) := by
    rw [show (α ^ 2 + β ^ 2) * (σ * side pt (v, w)) = σ * (X v * Y w - X w * Y v) by rw [h3]; ring]
    field_simp
  have h5 : 0 < (α ^ 2 + β ^ 2) * (σ * side pt (v, w)) / (Y v * Y w) := by positivity
  linarith

lemma side_affine (p q : ℝ × ℝ) (t : ℝ) (e : (ℝ × ℝ) × (ℝ × ℝ)) :
    side (p + t • (q - p)) e = side p e + t * (side q e - side p e) := by
  simp [side]; ring

lemma continuous_side (e : (ℝ × ℝ) × (ℝ × ℝ)) : Continuous fun p : ℝ × ℝ => side p e := by
  unfold side; fun_prop

/-- A point strictly to one side of every edge is an interior point. -/
lemma strict_interior (poly : List (ℝ × ℝ)) (hne : poly ≠ []) (pt : ℝ × ℝ) (σ : ℝ)
    (h : ∀ e ∈ edges poly, 0 < σ * side pt e) : pt ∈ interior (filled poly) := by
  rw [mem_interior]
  refine ⟨{p | ∀ e ∈ edges poly, 0 < σ * side p e}, fun p hp => strict_mem poly hne p σ hp, ?_, h⟩
  have : {p : ℝ × ℝ | ∀ e ∈ edges poly, 0 < σ * side p e} =
      ⋂ e ∈ {e | e ∈ edges poly}, {p | 0 < σ * side p e} := by ext p; simp
  rw [this]
  apply Set.Finite.isOpen_biInter (edges poly).finite_toSet
  intro e _
  exact isOpen_lt continuous_const (continuous_const.mul (continuous_side e))

/-- A convex polygon in one orientation or the other: every vertex is on the same closed side of
every edge, edges have length, and it is not flat. -/
structure ConvexPolygon (poly : List (ℝ × ℝ)) : Prop where
  sides : (∀ e ∈ edges poly, ∀ v ∈ poly, 0 ≤ side v e) ∨ ∀ e ∈ edges poly, ∀ v ∈ poly, side v e ≤ 0
  length : ∀ e ∈ edges poly, e.1 ≠ e.2
  solid : (interior (filled poly)).Nonempty

lemma filled_side {poly : List (ℝ × ℝ)} {e : (ℝ × ℝ) × (ℝ × ℝ)} {σ : ℝ}
    (h : ∀ v ∈ poly, 0 ≤ σ * side v e) : ∀ p ∈ filled poly, 0 ≤ σ * side p e := by
  have hconv : Convex ℝ {p : ℝ × ℝ | 0 ≤ σ * side p e} := by
    intro p hp q hq a b ha hb hab
    simp only [Set.mem_setOf_eq] at *
    have : side (a • p + b • q) e = a * side p e + b * side q e := by
      have hb' : b = 1 - a := by linarith
      subst hb'
      simp [side]; ring
    rw [this]
    nlinarith [mul_nonneg ha hp, mul_nonneg hb hq]
  intro p hp
  exact convexHull_min (s := {p | p ∈ poly}) (fun p hp => h p hp) hconv hp

lemma interior_strict {poly : List (ℝ × ℝ)} {σ : ℝ} (hσ : σ ≠ 0)
    (hs : ∀ e ∈ edges poly, ∀ v ∈ poly, 0 ≤ σ * side v e) (hl : ∀ e ∈ edges poly, e.1 ≠ e.2)
    {pt : ℝ × ℝ} (hpt : pt ∈ interior (filled poly)) : ∀ e ∈ edges poly, 0 < σ * side pt e := by
  intro e he
  have hle := filled_side (hs e he) pt (interior_subset hpt)
  rcases hle.lt_or_eq with h | h
  · exact h
  · exfalso
    -- step off the line through the edge, to the wrong side
    have hd : ((e.2.1 - e.1.1) ^ 2 + (e.2.2 - e.1.2) ^ 2) ≠ 0 := by
      intro hc
      apply hl e he
      have a1 : e.2.1 - e.1.1 = 0 := by nlinarith [sq_nonneg (e.2.1 - e.1.1), sq_nonneg (e.2.2 - e.1.2)]
      have a2 : e.2.2 - e.1.2 = 0 := by nlinarith [sq_nonneg (e.2.1 - e.1.1), sq_nonneg (e.2.2 - e.1.2)]
      apply Prod.ext <;> linarith
    obtain ⟨g, hg⟩ : ∃ g : ℝ → ℝ × ℝ, g = fun t => (pt.1 + t * (σ * (e.2.2 - e.1.2)),
      pt.2 - t * (σ * (e.2.1 - e.1.1))) := ⟨_, rfl⟩
    have hgc : Continuous g := by rw [hg]; fun_prop
    have hg0 : g 0 = pt := by rw [hg]; simp
    have hnear : ∀ᶠ t in nhds (0 : ℝ), g t ∈ filled poly := by
      apply hgc.continuousAt.eventually
      rw [hg0]
      exact mem_interior_iff_mem_nhds.mp hpt
    obtain ⟨ε, hε, hball⟩ := Metric.eventually_nhds_iff.mp hnear
    have hmem := hball (y := ε / 2) (by rw [Real.dist_eq, sub_zero, abs_of_pos] <;> linarith)
    have h2 := filled_side (hs e he) _ hmem
    have h3 : σ * side (g (ε / 2)) e = σ * side pt e -
        ε / 2 * σ ^ 2 * ((e.2.1 - e.1.1) ^ 2 + (e.2.2 - e.1.2) ^ 2) := by
      rw [hg]; simp only [side]; ring
    rw [h3, ← h] at h2
    have h4 : 0 < ε / 2 * σ ^ 2 * ((e.2.1 - e.1.1) ^ 2 + (e.2.2 - e.1.2) ^ 2) := by
      have : 0 < (e.2.1 - e.1.1) ^ 2 + (e.2.2 - e.1.2) ^ 2 := lt_of_le_of_ne (by positivity) (Ne.symm hd)
      positivity
    linarith

lemma edges_ne_nil {poly : List (ℝ × ℝ)} (h : poly ≠ []) : edges poly ≠ [] := by
  cases poly with
  | nil => exact absurd rfl h
  | cons a t =>
    obtain ⟨w, _, he⟩ := exists_succ (a :: t) a List.mem_cons_self
    exact List.ne_nil_of_mem he

lemma contains_iff {poly : List (ℝ × ℝ)} (h : poly ≠ []) (pt : ℝ × ℝ) :
    polygonContains poly pt = some true ↔ (∀ e ∈ edges poly, 0 < side pt e) ∨
      (∀ e ∈ edges poly, side pt e < 0) ∨ ∀ e ∈ edges poly, side pt e = 0 := by
  have hne := edges_ne_nil h
  unfold polygonContains
  cases hed : edges poly with
  | nil => exact absurd hed hne
  | cons e0 rest =>
    simp only [List.map_cons]
    rw [Option.some_inj, List.all_eq_true]
    have hall : (∀ x ∈ SignType.sign (side pt e0) :: rest.map (fun e => SignType.sign (side pt e)),
        decide (x = SignType.sign (side pt e0)) = true) ↔
        ∀ e ∈ e0 :: rest, SignType.sign (side pt e) = SignType.sign (side pt e0) := by
      rw [List.forall_mem_cons, List.forall_mem_map, List.forall_mem_cons]
      simp only [decide_eq_true_iff]
    rw [hall]
    constructor
    · intro hh
      rcases lt_trichotomy (side pt e0) 0 with h0 | h0 | h0
      · right; left
        intro e he
        rw [← sign_eq_neg_one_iff, hh e he, sign_eq_neg_one_iff]; exact h0
      · right; right
        intro e he
        rw [← sign_eq_zero_iff, hh e he, sign_eq_zero_iff]; exact h0
      · left
        intro e he
        rw [← sign_eq_one_iff, hh e he, sign_eq_one_iff]; exact h0
    · rintro (hh | hh | hh) e he
      · rw [sign_eq_one_iff.mpr (hh e he), sign_eq_one_iff.mpr (hh e0 List.mem_cons_self)]
      · rw [sign_eq_neg_one_iff.mpr (hh e he), sign_eq_neg_one_iff.mpr (hh e0 List.mem_cons_self)]
      · rw [sign_eq_zero_iff.mpr (hh e he), sign_eq_zero_iff.mpr (hh e0 List.mem_cons_self)]

/-- C56. For every convex polygon, in either orientation, the test accepts exactly the interior
points: points of the boundary and outside are rejected. -/
theorem C56_interior (poly : List (ℝ × ℝ)) (h : ConvexPolygon poly) (pt : ℝ × ℝ) :
    polygonContains poly pt = some true ↔ pt ∈ interior (filled poly) := by
  have hne : poly ≠ [] := by
    rintro rfl
    obtain ⟨x, hx⟩ := h.solid
    have := interior_subset hx
    simp [filled] at this
  obtain ⟨σ, hσ, hs⟩ : ∃ σ : ℝ, (σ = 1 ∨ σ = -1) ∧ ∀ e ∈ edges poly, ∀ v ∈ poly, 0 ≤ σ * side v e := by
    rcases h.sides with h1 | h1
    · exact ⟨1, Or.inl rfl, fun e he v hv => by rw [one_mul]; exact h1 e he v hv⟩
    · exact ⟨-1, Or.inr rfl, fun e he v hv => by have := h1 e he v hv; linarith⟩
  have hσ0 : σ ≠ 0 := by rcases hσ with rfl | rfl <;> norm_num
  rw [contains_iff hne]
  constructor
  · rintro (hh | hh | hh)
    · exact strict_interior poly hne pt 1 fun e he => by rw [one_mul]; exact hh e he
    · exact strict_interior poly hne pt (-1) fun e he => by have := hh e he; linarith
    · -- on all edge lines: then a whole ray would lie in the polygon
      exfalso
      obtain ⟨w, hw⟩ := h.solid
      have hpos := interior_strict hσ0 hs h.length hw
      have hray : ∀ t : ℝ, 0 < t → pt + t • (w - pt) ∈ filled poly := by
        intro t ht
        apply strict_mem poly hne _ σ
        intro e he
        rw [side_affine, hh e he]
        have := hpos e he
        nlinarith
      have hwp : w ≠ pt := by
        rintro rfl
        obtain ⟨e, he⟩ := List.exists_mem_of_ne_nil _ (edges_ne_nil hne)
        have h1 := hpos e he
        rw [hh e he] at h1
        simp at h1
      have hbdd : Bornology.IsBounded (filled poly) := by
        have : Set.Finite {p | p ∈ poly} := poly.finite_toSet
        exact (isBounded_convexHull).mpr this.isBounded
      obtain ⟨R, hR⟩ := hbdd.exists_norm_le
      have hn : 0 < ‖w - pt‖ := norm_pos_iff.mpr (sub_ne_zero.mpr hwp)
      obtain ⟨t, ht⟩ : ∃ t : ℝ, t = (|R| + ‖pt‖ + 1) / ‖w - pt‖ := ⟨_, rfl⟩
      have htp : 0 < t := by rw [ht]; positivity
      have h1 := hR _ (hray t htp)
      have h2 : ‖t • (w - pt)‖ = |R| + ‖pt‖ + 1 := by
        rw [norm_smul, Real.norm_of_nonneg htp.le, ht]; field_simp
      have h3 : ‖t • (w - pt)‖ ≤ ‖pt + t • (w - pt)‖ + ‖pt‖ := by
        have := norm_sub_le (pt + t • (w - pt)) pt
        simpa using this
      have := le_abs_self R
      linarith
  · intro hp
    have := interior_strict hσ0 hs h.length hp
    rcases hσ with rfl | rfl
    · left; intro e he; have := this e he; linarith
    · right; left; intro e he; have := this e he; linarith

/-- Even for polygons that are not convex, an accepted point that is not on all edge lines is an
interior point of the convex hull. -/
theorem C56_accepted (poly : List (ℝ × ℝ)) (pt : ℝ × ℝ) (h : polygonContains poly pt = some true) :
    pt ∈ interior (filled poly) ∨ ∀ e ∈ edges poly, side pt e = 0 := by
  have hne : poly ≠ [] := by rintro rfl; simp [polygonContains, edges] at h
  rcases (contains_iff hne pt).mp h with hh | hh | hh
  · exact Or.inl (strict_interior poly hne pt 1 fun e he => by rw [one_mul]; exact hh e he)
  · exact Or.inl (strict_interior poly hne pt (-1) fun e he => by have := hh e he; linarith)
  · exact Or.inr hh

/-- A flat polygon accepts every point of its line, however far away. -/
theorem C56_flat : polygonContains [(0, 0), (1, 0), (2, 0), (1, 0)] ((100 : ℝ), (0 : ℝ)) = some true := by
  rw [contains_iff (by simp)]
  right; right
  intro e he
  simp [edges] at he
  rcases he with rfl | rfl | rfl | rfl <;> simp [side]

/-- Rectangles are convex polygons, so `C56_interior` is not vacuous. -/
lemma rect_convex {a1 a2 c1 c2 : ℝ} (ha : a1 < a2) (hc : c1 < c2) :
    ConvexPolygon (rectBox a1 a2 c1 c2) where
  sides := by
    left
    intro e he v hv
    rw [mem_edges_rect] at he
    simp only [rectBox, List.mem_cons, List.not_mem_nil, or_false] at hv
    rcases he with rfl | rfl | rfl | rfl <;> rcases hv with rfl | rfl | rfl | rfl <;> simp [side] <;>
      nlinarith
  length := by
    intro e he
    rw [mem_edges_rect] at he
    rcases he with rfl | rfl | rfl | rfl <;> simp [Prod.ext_iff] <;> intros <;> linarith
  solid := by
    refine ⟨((a1 + a2) / 2, (c1 + c2) / 2), strict_interior _ (by simp [rectBox]) _ 1 ?_⟩
    intro e he
    rw [mem_edges_rect] at he
    rcases he with rfl | rfl | rfl | rfl <;> simp only [side] <;> nlinarith

end Forcepho.Region
