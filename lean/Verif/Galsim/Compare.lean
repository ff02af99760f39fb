import Verif.Quantile.Props
import Mathlib.Data.Rat.Floor
import Mathlib.Data.List.Dedup
import Mathlib.Tactic.NormNum
import Mathlib.Tactic.Linarith

/-! # C168: figures that compare fitted with true parameters
(tests/galsim_tests/test_plot.py `compare_parameters`; demo/demo_psf/psf_grid_plot.py has the same text)

A catalog row has its samples and their log-probabilities; a row that `make_catalog` could not fill has `id = -1` and zeros.  A
figure is a list of panels, each a list of points with their error bars.  Colours and labels are not modelled. -/

set_option autoImplicit false

namespace Forcepho.Galsim.Compare

open Forcepho.Quantile (percentile)

/-- A row of the two catalogs: the true value of the parameter, the value by which panels are split, `id`, samples and
log-probabilities. -/
structure Row where
  truth : ℚ
  split : ℚ
  id : Int
  samples : List ℚ
  lnp : List ℚ

/-- A point: the coordinates and the lengths of the error bar downwards and upwards. -/
structure Pt where
  x : ℚ
  y : ℚ
  down : ℚ
  up : ℚ
deriving DecidableEq

/-- Why there is no figure. -/
inductive FigErr
  | empty | index | negativeBar
deriving DecidableEq

/-- `np.argmax` (test_plot.py:167): the first place of the largest value. -/
def argmax : List ℚ → Nat
  | [] => 0
  | [_] => 0
  | a :: l => if l.all (· ≤ a) then 0 else argmax l + 1

/-- The three values of a row (test_plot.py:164-171). -/
def values (map delta : Bool) (r : Row) : Except FigErr (ℚ × ℚ × ℚ) :=
  match percentile r.samples 16, percentile r.samples 50, percentile r.samples 84 with
  | some a, some b, some c =>
    match (if map then r.samples[argmax r.lnp]? else some b) with
    | none => .error .index
    | some b => .ok (if delta then (a - r.truth, b - r.truth, c - r.truth) else (a, b, c))
  | _, _, _ => .error .empty

/-- `np.unique` (test_plot.py:142). -/
def unique (l : List ℚ) : List ℚ := l.dedup.insertionSort (· ≤ ·)

/-- The panels (test_plot.py:141-148). -/
def panels (onlymax : Bool) (rows : List Row) : List ℚ :=
  if onlymax then ((unique (rows.map (·.split))).getLast?).toList else unique (rows.map (·.split))

/-- All rows or the first error. -/
def allOk {A B : Type} (f : A → Except FigErr B) : List A → Except FigErr (List B)
  | [] => .ok []
  | a :: l =>
    match f a with
    | .error e => .error e
    | .ok b =>
      match allOk f l with
      | .error e => .error e
      | .ok bs => .ok (b :: bs)

/-- The points of one panel (test_plot.py:186-191); matplotlib refuses error bars that are negative. -/
def panel (x : Row → ℚ) (vals : List (Row × (ℚ × ℚ × ℚ))) (s : ℚ) : Except FigErr (List Pt) :=
  allOk (fun e => if e.2.2.1 < e.2.1 ∨ e.2.2.2 < e.2.2.1 then .error .negativeBar
    else .ok ⟨x e.1, e.2.2.1, e.2.2.1 - e.2.1, e.2.2.2 - e.2.2.1⟩)
    (vals.filter fun e => decide (0 ≤ e.1.id) && e.1.split == s)

/-- `compare_parameters` (test_plot.py:136-203): the panels with their values of the split and their points. `x` is the abscissa of a row,
the truth with or without jitter. -/
def compare (x : Row → ℚ) (map delta onlymax : Bool) (rows : List Row) : Except FigErr (List (ℚ × List Pt)) :=
  match allOk (fun r => match values map delta r with
      | .error e => .error e
      | .ok v => .ok (r, v)) rows with
  | .error e => .error e
  | .ok vals =>
    allOk (fun s => match panel x vals s with
      | .error e => .error e
      | .ok ps => .ok (s, ps)) (panels onlymax rows)

theorem allOk_of {A B : Type} (f : A → Except FigErr B) (g : A → B) (l : List A) (h : ∀ a ∈ l, f a = .ok (g a)) :
    allOk f l = .ok (l.map g) := by
  induction l with
  | nil => rfl
  | cons a l ih =>
    simp only [allOk, h a (by simp), ih fun b hb => h b (List.mem_cons_of_mem _ hb), List.map_cons]

theorem mem_unique (l : List ℚ) (s : ℚ) : s ∈ unique l ↔ s ∈ l := by
  unfold unique
  rw [List.mem_insertionSort, List.mem_dedup]

theorem unique_strict (l : List ℚ) : (unique l).Pairwise (· < ·) := by
  have h1 : (unique l).Pairwise (· ≤ ·) := List.pairwise_insertionSort (· ≤ ·) _
  have h2 : (unique l).Nodup := (List.perm_insertionSort (· ≤ ·) _).nodup_iff.2 (List.nodup_dedup l)
  exact (h1.and h2).imp fun h => lt_of_le_of_ne h.1 h.2

/-- What a figure of medians should have in a panel: for each filled row of that split, in order, a point at its abscissa with the
median, and a bar from the 16th to the 84th percentile; less the truth if differences are asked for. -/
def RightPoint (x : Row → ℚ) (delta : Bool) (r : Row) (p : Pt) : Prop :=
  p.x = x r ∧ percentile r.samples 50 = some (p.y + if delta then r.truth else 0) ∧
  percentile r.samples 16 = some (p.y - p.down + if delta then r.truth else 0) ∧
  percentile r.samples 84 = some (p.y + p.up + if delta then r.truth else 0) ∧ 0 ≤ p.down ∧ 0 ≤ p.up

/-- C168, points. With medians, the figure is made for any catalog with samples. Its panels are the values of the split in increasing order,
or only the largest; each has one right point for each filled row with that value, in order, and no other. -/
theorem C168_points (x : Row → ℚ) (delta onlymax : Bool) (rows : List Row) (hs : ∀ r ∈ rows, r.samples ≠ []) :
    ∃ fig, compare x false delta onlymax rows = .ok fig ∧ (fig.map (·.1)).Pairwise (· < ·) ∧
      (∀ s, s ∈ fig.map (·.1) ↔ (∃ r ∈ rows, r.split = s) ∧ (onlymax = true → ∀ r ∈ rows, r.split ≤ s)) ∧
      ∀ p ∈ fig, List.Forall₂ (RightPoint x delta) (rows.filter fun r => decide (0 ≤ r.id) && decide (r.split = p.1)) p.2 := by
  have hv : ∀ r : Row, ∃ v : ℚ × ℚ × ℚ, r.samples ≠ [] →
      values false delta r = .ok v ∧ v.1 ≤ v.2.1 ∧ v.2.1 ≤ v.2.2 ∧
      percentile r.samples 16 = some (v.1 + if delta then r.truth else 0) ∧
      percentile r.samples 50 = some (v.2.1 + if delta then r.truth else 0) ∧
      percentile r.samples 84 = some (v.2.2 + if delta then r.truth else 0) := by
    intro r
    by_cases hr : r.samples = []
    · exact ⟨(0, 0, 0), fun h => absurd hr h⟩
    obtain ⟨h1, h2, -, -, -⟩ := Forcepho.Quantile.C92_range r.samples hr
    obtain ⟨a, ha, -⟩ := h1 16 (by norm_num) (by norm_num)
    obtain ⟨b, hb, -⟩ := h1 50 (by norm_num) (by norm_num)
    obtain ⟨c, hc, -⟩ := h1 84 (by norm_num) (by norm_num)
    have hab := h2 16 50 a b (by norm_num) ha hb
    have hbc := h2 50 84 b c (by norm_num) hb hc
    cases delta with
    | false =>
      refine ⟨(a, b, c), fun _ => ⟨?_, hab, hbc, ?_, ?_, ?_⟩⟩
      · simp only [values, ha, hb, hc, Bool.false_eq_true, if_false]
      · simpa using ha
      · simpa using hb
      · simpa using hc
    | true =>
      refine ⟨(a - r.truth, b - r.truth, c - r.truth), fun _ => ⟨?_, by simpa using hab, by simpa using hbc, ?_, ?_, ?_⟩⟩
      · simp only [values, ha, hb, hc, Bool.false_eq_true, if_false, if_true]
      · simpa using ha
      · simpa using hb
      · simpa using hc
  choose v hv using hv
  have e1 : allOk (fun r => match values false delta r with
      | .error e => Except.error e
      | .ok v => .ok (r, v)) rows = .ok (rows.map fun r => (r, v r)) := by
    apply allOk_of
    intro r hr
    simp only [(hv r (hs r hr)).1]
  have e2 : ∀ s, panel x (rows.map fun r => (r, v r)) s =
      .ok ((rows.filter fun r => decide (0 ≤ r.id) && r.split == s).map fun r =>
        ⟨x r, (v r).2.1, (v r).2.1 - (v r).1, (v r).2.2 - (v r).2.1⟩) := by
    intro s
    unfold panel
    rw [List.filter_map, allOk_of _ (fun e : Row × (ℚ × ℚ × ℚ) =>
      (⟨x e.1, e.2.2.1, e.2.2.1 - e.2.1, e.2.2.2 - e.2.2.1⟩ : Pt))]
    · rw [List.map_map]; rfl
    · intro e he
      obtain ⟨r, hr, rfl⟩ := List.mem_map.1 he
      have hh := hv r (hs r (List.mem_of_mem_filter hr))
      rw [if_neg]
      simp only [not_or, not_lt]
      exact ⟨hh.2.1, hh.2.2.1⟩
  have e3 : compare x false delta onlymax rows = .ok ((panels onlymax rows).map fun s =>
      (s, (rows.filter fun r => decide (0 ≤ r.id) && r.split == s).map fun r =>
        (⟨x r, (v r).2.1, (v r).2.1 - (v r).1, (v r).2.2 - (v r).2.1⟩ : Pt))) := by
    simp only [compare, e1]
    apply allOk_of
    intro s _
    simp only [e2]
  refine ⟨_, e3, ?_, ?_, ?_⟩
  · rw [List.map_map]
    show ((panels onlymax rows).map id).Pairwise (· < ·)
    rw [List.map_id]
    unfold panels
    split
    · cases (unique (rows.map (·.split))).getLast? <;> simp
    · exact unique_strict _
  · intro s
    rw [List.map_map]
    show s ∈ (panels onlymax rows).map id ↔ _
    rw [List.map_id]
    unfold panels
    have hm : ∀ t, t ∈ unique (rows.map (·.split)) ↔ ∃ r ∈ rows, r.split = t := by
      intro t; rw [mem_unique, List.mem_map]
    cases onlymax with
    | false =>
      simp only [Bool.false_eq_true, if_false, false_implies, and_true]
      exact hm s
    | true =>
      simp only [if_true, true_implies]
      constructor
      · intro h
        have hl : (unique (rows.map (·.split))).getLast? = some s := by
          simpa [Option.mem_toList] using h
        refine ⟨(hm s).1 (List.mem_of_getLast? hl), ?_⟩
        intro r hr
        obtain ⟨ys, hys⟩ := List.getLast?_eq_some_iff.1 hl
        have h1 := unique_strict (rows.map (·.split))
        have h2 : r.split ∈ unique (rows.map (·.split)) := (hm _).2 ⟨r, hr, rfl⟩
        rw [hys] at h1 h2
        rcases List.mem_append.1 h2 with h2 | h2
        · exact le_of_lt ((List.pairwise_append.1 h1).2.2 _ h2 s (by simp))
        · rw [List.mem_singleton] at h2; exact le_of_eq h2
      · rintro ⟨h1, h2⟩
        have h3 := (hm s).2 h1
        cases hl : (unique (rows.map (·.split))).getLast? with
        | none =>
          rw [List.getLast?_eq_none_iff] at hl
          rw [hl] at h3
          cases h3
        | some t =>
          obtain ⟨ys, hys⟩ := List.getLast?_eq_some_iff.1 hl
          have h4 := unique_strict (rows.map (·.split))
          obtain ⟨r, hr, hrt⟩ := (hm t).1 (List.mem_of_getLast? hl)
          have h5 := h2 r hr
          rw [hrt] at h5
          rw [hys] at h3 h4
          rcases List.mem_append.1 h3 with h3 | h3
          · have := (List.pairwise_append.1 h4).2.2 _ h3 t (by simp)
            exact absurd this (not_lt.2 h5)
          · rw [List.mem_singleton] at h3
            simp [h3]
  · intro p hp
    obtain ⟨s, -, rfl⟩ := List.mem_map.1 hp
    simp only
    have hfe : (rows.filter fun r => decide (0 ≤ r.id) && decide (r.split = s)) =
        rows.filter fun r => decide (0 ≤ r.id) && r.split == s := by
      congr 1
    rw [hfe, List.forall₂_map_right_iff, List.forall₂_same]
    intro r hr
    obtain ⟨-, g1, g2, g3, g4, g5⟩ := hv r (hs r (List.mem_of_mem_filter hr))
    refine ⟨rfl, g4, ?_, ?_, sub_nonneg.2 g1, sub_nonneg.2 g2⟩
    · rw [g3]; simp
    · rw [g5]; simp

/-- The hypotheses are met: one filled row and one that is not. -/
example : ∀ r ∈ [(⟨2, 10, 0, [1, 2, 3], [0, 0, 0]⟩ : Row), ⟨2, 10, -1, [0, 0, 0], [0, 0, 0]⟩], r.samples ≠ [] := by simp

/-- C168, refuted (most probable sample). With `point_type="map"` there is no figure if the most probable sample of any shown row is outside
its 16th to 84th percentile: matplotlib refuses the bar. Here the largest of three. -/
theorem C168_map_refuted (x : Row → ℚ) (delta onlymax : Bool) :
    compare x true delta onlymax [⟨2, 10, 0, [1, 2, 3], [0, 0, 1]⟩] = .error .negativeBar := by
  have h1 : percentile ([1, 2, 3] : List ℚ) 16 = some (33 / 25) := by
    have := (Forcepho.Quantile.C92_value ([1, 2, 3] : List ℚ) [1, 2, 3] (List.Perm.refl _) (by norm_num)).1 0 1 2 (8 / 25) rfl rfl
      (by norm_num) (by norm_num)
    norm_num at this ⊢
    exact this
  have h2 : percentile ([1, 2, 3] : List ℚ) 50 = some 2 := by
    have := (Forcepho.Quantile.C92_value ([1, 2, 3] : List ℚ) [1, 2, 3] (List.Perm.refl _) (by norm_num)).1 0 1 2 1 rfl rfl
      (by norm_num) (by norm_num)
    norm_num at this ⊢
    exact this
  have h3 : percentile ([1, 2, 3] : List ℚ) 84 = some (67 / 25) := by
    have := (Forcepho.Quantile.C92_value ([1, 2, 3] : List ℚ) [1, 2, 3] (List.Perm.refl _) (by norm_num)).1 1 2 3 (17 / 25) rfl rfl
      (by norm_num) (by norm_num)
    norm_num at this ⊢
    exact this
  have ha : argmax [0, 0, 1] = 2 := by decide +kernel
  have hp : panels onlymax [⟨2, 10, 0, [1, 2, 3], [0, 0, 1]⟩] = [10] := by cases onlymax <;> decide +kernel
  cases delta <;> simp [compare, allOk, values, h1, h2, h3, ha, hp, panel] <;> norm_num

theorem argmax_spec (l : List ℚ) (hl : l ≠ []) :
    ∃ b, l[argmax l]? = some b ∧ (∀ w ∈ l, w ≤ b) ∧ ∀ i < argmax l, ∀ w, l[i]? = some w → w < b := by
  induction l with
  | nil => exact absurd rfl hl
  | cons a l ih =>
    cases l with
    | nil => exact ⟨a, rfl, by simp, fun i hi => absurd hi (Nat.not_lt_zero i)⟩
    | cons c l =>
      obtain ⟨b, h1, h2, h3⟩ := ih (by simp)
      by_cases ht : (c :: l).all (· ≤ a) = true
      · have e : argmax (a :: c :: l) = 0 := by rw [argmax, if_pos ht]; simp
        rw [e]
        refine ⟨a, rfl, ?_, fun i hi => absurd hi (Nat.not_lt_zero i)⟩
        intro w hw
        rcases List.mem_cons.1 hw with rfl | hw
        · exact le_refl _
        · exact of_decide_eq_true (List.all_eq_true.1 ht w hw)
      · have e : argmax (a :: c :: l) = argmax (c :: l) + 1 := by rw [argmax, if_neg ht]; simp
        rw [e]
        have hab : a < b := by
          by_contra hab
          apply ht
          rw [List.all_eq_true]
          intro w hw
          exact decide_eq_true ((h2 w hw).trans (not_lt.1 hab))
        refine ⟨b, by simpa using h1, ?_, ?_⟩
        · intro w hw
          rcases List.mem_cons.1 hw with rfl | hw
          · exact hab.le
          · exact h2 w hw
        · intro i hi w hw
          cases i with
          | zero =>
            simp only [List.getElem?_cons_zero, Option.some.injEq] at hw
            exact hw ▸ hab
          | succ i => exact h3 i (by omega) w (by simpa using hw)

/-- C168, the most probable sample. If it is asked for, the value of a row is the sample of the first draw of largest probability, its ends
are those of medians. -/
theorem C168_map (delta : Bool) (r : Row) (hs : r.samples ≠ []) (hl : r.lnp.length = r.samples.length) :
    ∃ (v : ℚ × ℚ × ℚ) (k : Nat) (b : ℚ), values true delta r = .ok v ∧
      r.samples[k]? = some (v.2.1 + if delta then r.truth else 0) ∧
      percentile r.samples 16 = some (v.1 + if delta then r.truth else 0) ∧
      percentile r.samples 84 = some (v.2.2 + if delta then r.truth else 0) ∧
      r.lnp[k]? = some b ∧ (∀ w ∈ r.lnp, w ≤ b) ∧ ∀ i < k, ∀ w, r.lnp[i]? = some w → w < b := by
  obtain ⟨h1, -, -, -, -⟩ := Forcepho.Quantile.C92_range r.samples hs
  obtain ⟨a, ha, -⟩ := h1 16 (by norm_num) (by norm_num)
  obtain ⟨m, hm, -⟩ := h1 50 (by norm_num) (by norm_num)
  obtain ⟨c, hc, -⟩ := h1 84 (by norm_num) (by norm_num)
  have hne : r.lnp ≠ [] := by
    intro h
    rw [h] at hl
    exact hs (List.eq_nil_of_length_eq_zero hl.symm)
  obtain ⟨b, g1, g2, g3⟩ := argmax_spec r.lnp hne
  have hlt : argmax r.lnp < r.samples.length := by
    rw [← hl]
    exact (List.getElem?_eq_some_iff.1 g1).1
  have hk := List.getElem?_eq_getElem hlt
  cases delta with
  | false =>
    refine ⟨(a, r.samples[argmax r.lnp], c), argmax r.lnp, b, ?_, by simpa using hk, by simpa using ha, by simpa using hc, g1, g2, g3⟩
    unfold values
    simp only [ha, hm, hc, if_true, hk]
    simp
  | true =>
    refine ⟨(a - r.truth, r.samples[argmax r.lnp] - r.truth, c - r.truth), argmax r.lnp, b, ?_, by simpa using hk, by simpa using ha,
      by simpa using hc, g1, g2, g3⟩
    unfold values
    simp only [ha, hm, hc, if_true, hk]

/-- C168, refuted (panels). By default only the rows with the largest value of the split are shown; a bad fit at a smaller one is not in the
figure. -/
theorem C168_onlymax_refuted (x : Row → ℚ) (r big : Row) (hr : r.samples ≠ []) (hb : big.samples ≠ []) (hlt : r.split < big.split)
    (fig : List (ℚ × List Pt)) (hfig : compare x false false true [r, big] = .ok fig) :
    ∃ p, fig = [p] ∧ p.1 = big.split ∧ p.2.length ≤ 1 := by
  obtain ⟨fig', h0, h1, h2, h3⟩ := C168_points x false true [r, big] (by simp [hr, hb])
  rw [hfig] at h0
  injection h0 with h0
  subst h0
  have hall : ∀ s ∈ fig.map (·.1), s = big.split := by
    intro s hs
    obtain ⟨⟨q, hq, rfl⟩, h⟩ := (h2 s).1 hs
    have := h rfl big (by simp)
    simp only [List.mem_cons, List.not_mem_nil, or_false] at hq
    rcases hq with rfl | rfl
    · exact absurd hlt (not_lt.2 this)
    · rfl
  have hmem : big.split ∈ fig.map (·.1) := (h2 _).2 ⟨⟨big, by simp, rfl⟩, fun _ q hq => by
    simp only [List.mem_cons, List.not_mem_nil, or_false] at hq
    rcases hq with rfl | rfl
    · exact le_of_lt hlt
    · exact le_refl _⟩
  match fig, h1, hall, hmem, h3 with
  | [], _, _, hmem, _ => exact absurd hmem (by simp)
  | [p], _, hall, _, h3 =>
    refine ⟨p, rfl, hall p.1 (by simp), ?_⟩
    have h4 := (h3 p (by simp)).length_eq
    rw [← h4]
    have h5 : p.1 = big.split := hall p.1 (by simp)
    rw [List.filter_cons_of_neg (by rw [h5]; simp [ne_of_lt hlt])]
    exact (List.length_filter_le _ _)
  | p :: q :: l, h1, hall, _, _ =>
    exfalso
    rw [List.map_cons, List.map_cons, List.pairwise_cons] at h1
    have h4 := h1.1 q.1 (by simp)
    rw [hall p.1 (by simp), hall q.1 (by simp)] at h4
    exact lt_irrefl _ h4

/-! ## Jitter -/

/-- The abscissa with jitter (test_plot.py:151-160): `u` is the random number, uniform between minus and plus a fiftieth of the range. -/
def jittered (truth lo hi u : ℚ) : ℚ := truth + u * ((hi - lo) * (2 / 100))

/-- C168, jitter. For a random number between -1 and 1 the point is at most a fiftieth of the range of true values away from the truth;
different true values keep their order if they are more than a twenty-fifth of the range apart. -/
theorem C168_jitter (truth truth' lo hi u u' : ℚ) (h1 : lo ≤ hi) (hu : |u| ≤ 1) (hu' : |u'| ≤ 1) :
    |jittered truth lo hi u - truth| ≤ (hi - lo) / 50 ∧
    (truth + (hi - lo) / 25 < truth' → jittered truth lo hi u < jittered truth' lo hi u') := by
  have hw : 0 ≤ hi - lo := sub_nonneg.2 h1
  obtain ⟨a1, a2⟩ := abs_le.1 hu
  obtain ⟨b1, b2⟩ := abs_le.1 hu'
  have m : ∀ w : ℚ, |w| ≤ 1 → |w * ((hi - lo) * (2 / 100))| ≤ (hi - lo) / 50 := by
    intro w hw1
    rw [abs_mul, abs_of_nonneg (show (0 : ℚ) ≤ (hi - lo) * (2 / 100) by linarith)]
    calc |w| * ((hi - lo) * (2 / 100)) ≤ 1 * ((hi - lo) * (2 / 100)) :=
          mul_le_mul_of_nonneg_right hw1 (by linarith)
      _ = (hi - lo) / 50 := by ring
  unfold jittered
  refine ⟨by rw [add_sub_cancel_left]; exact m u hu, ?_⟩
  intro h
  obtain ⟨-, c2⟩ := abs_le.1 (m u hu)
  obtain ⟨d1, -⟩ := abs_le.1 (m u' hu')
  linarith

example : |jittered 3 1 6 (1 / 2) - 3| ≤ (6 - 1 : ℚ) / 50 := (C168_jitter 3 5 1 6 (1 / 2) 0 (by norm_num) (by norm_num [abs_le]) (by norm_num)).1

end Forcepho.Galsim.Compare
