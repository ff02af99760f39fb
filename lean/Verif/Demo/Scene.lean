import Verif.Bounds.Props

/-! # C170: the demonstration of the scene
(demo/demo_scene/scene_plot.py) -/

set_option autoImplicit false

namespace Forcepho.Demo.Scene

open Forcepho.Bounds

variable {K : Type} [Field K] [LinearOrder K] [IsStrictOrderedRing K]

/-- The columns of the 3D-HST catalog that are read (scene_plot.py:18-36). -/
structure HstRow (K : Type) where
  ra : K
  dec : K
  a : K
  b : K
  theta : K
  fluxRadius : K
  kron : K
  flux : List K

/-- The columns that are written (scene_plot.py:24-36). -/
structure SceneRow (K : Type) where
  ra : K
  dec : K
  q : K
  pa : K
  sersic : K
  rhalf : K
  roi : K
  flux : List K

/-- The selection (scene_plot.py:16-22). -/
def inWindow (r : HstRow K) : Bool :=
  decide (5313 / 100 - 1 / 100 < r.ra) && decide (r.ra < 5313 / 100 + 1 / 100) &&
  decide (-2784 / 100 - 1 / 100 < r.dec) && decide (r.dec < -2784 / 100 + 1 / 100)

/-- `convert_3dhst` (scene_plot.py:15-42). The square root and pi are parameters; `sourcecat_dtype` and the file are not modelled, nor
entries that are not numbers. -/
def convert (sqrt : K → K) (pi : K) (cat : List (HstRow K)) : List (SceneRow K) :=
  let cat := cat.filter inWindow
  let pa := convertPa pi true false true 4 (cat.map (·.theta))
  List.zipWith (fun r p =>
    { ra := r.ra, dec := r.dec, q := sqrt (r.b / r.a), pa := p, sersic := 2, rhalf := r.fluxRadius * (6 / 100)
      roi := r.kron * 3 * (6 / 100), flux := r.flux.map fun f => max f (1 / 100000) }) cat pa

theorem convertPa_scene {pi : K} (hpi : 0 < pi) (xs : List K) (h : ∀ x ∈ xs, -90 ≤ x ∧ x ≤ 90) :
    convertPa pi true false true 4 xs = xs.map fun x => if x = -90 then -(pi / 2) else -(x * pi / 180) := by
  have e : convertPa pi true false true 4 xs =
      (convertPa pi false false false (2 * 2) (xs.map fun x => x * pi / 180)).map (· * (-1)) := by
    simp [convertPa]
  rw [e, (C36_in_range_partial hpi 2 (by norm_num) _ ?_).1, List.map_map, List.map_map]
  · apply List.map_congr_left
    intro x _
    simp only [Function.comp]
    by_cases hx : x = -90
    · subst hx
      rw [if_pos (by ring), if_pos rfl]
      ring
    · rw [if_neg, if_neg hx]
      · ring
      · intro h'
        apply hx
        have : pi * (x + 90) = 0 := by linear_combination 180 * h'
        rcases mul_eq_zero.1 this with h0 | h0
        · exact absurd h0 hpi.ne'
        · linarith
  · intro y hy
    obtain ⟨x, hx, rfl⟩ := List.mem_map.1 hy
    obtain ⟨h1, h2⟩ := h x hx
    have e1 := mul_le_mul_of_nonneg_right h1 hpi.le
    have e2 := mul_le_mul_of_nonneg_right h2 hpi.le
    constructor <;> linarith

/-- C170, catalog. The example catalog has one row for each row of the input strictly within a hundredth of a degree of the field in both
coordinates, in order: at its position, with the square root of the axis ratio, the position angle from the other side, the half-light
radius and the radius of influence in arcsec, and each flux that is at least 1e-5. -/
theorem C170_catalog (sqrt : K → K) (hsqrt : ∀ x : K, 0 ≤ x → 0 ≤ sqrt x ∧ sqrt x * sqrt x = x) {pi : K} (hpi : 0 < pi)
    (cat : List (HstRow K)) (hab : ∀ r ∈ cat, 0 < r.a ∧ 0 ≤ r.b) (hth : ∀ r ∈ cat, -90 ≤ r.theta ∧ r.theta ≤ 90) :
    List.Forall₂ (fun r s => s.ra = r.ra ∧ s.dec = r.dec ∧ 0 ≤ s.q ∧ s.q ^ 2 * r.a = r.b ∧
      (s.pa = -(r.theta * pi / 180) ∨ (r.theta = -90 ∧ s.pa = -(pi / 2))) ∧ s.sersic = 2 ∧ s.rhalf = r.fluxRadius * 6 / 100 ∧
      s.roi = r.kron * 18 / 100 ∧
      List.Forall₂ (fun f g => (1 / 100000 ≤ f → g = f) ∧ (f < 1 / 100000 → g = 1 / 100000)) r.flux s.flux)
      (cat.filter fun r => decide (|r.ra - 5313 / 100| < 1 / 100) && decide (|r.dec + 2784 / 100| < 1 / 100)) (convert sqrt pi cat) := by
  have hwin : ∀ r : HstRow K, inWindow r = (decide (|r.ra - 5313 / 100| < 1 / 100) && decide (|r.dec + 2784 / 100| < 1 / 100)) := by
    intro r
    rw [Bool.eq_iff_iff]
    simp only [inWindow, Bool.and_eq_true, decide_eq_true_eq, abs_lt]
    constructor
    · rintro ⟨⟨⟨h1, h2⟩, h3⟩, h4⟩
      refine ⟨⟨?_, ?_⟩, ?_, ?_⟩ <;> linarith
    · rintro ⟨⟨h1, h2⟩, h3, h4⟩
      refine ⟨⟨⟨?_, ?_⟩, ?_⟩, ?_⟩ <;> linarith
  rw [← List.filter_congr (fun r _ => hwin r)]
  simp only [convert]
  rw [convertPa_scene hpi _ (by
    intro x hx
    obtain ⟨r, hr, rfl⟩ := List.mem_map.1 hx
    exact hth r (List.mem_filter.1 hr).1), List.map_map]
  have hz : ∀ (l : List (HstRow K)) (f : HstRow K → K) (g : HstRow K → K → SceneRow K),
      List.zipWith g l (l.map f) = l.map fun r => g r (f r) := by
    intro l f g
    induction l with
    | nil => rfl
    | cons r l ih => simp [ih]
  rw [hz, List.forall₂_map_right_iff, List.forall₂_same]
  intro r hr
  have hr' := (List.mem_filter.1 hr).1
  obtain ⟨ha, hb⟩ := hab r hr'
  obtain ⟨s1, s2⟩ := hsqrt (r.b / r.a) (div_nonneg hb ha.le)
  refine ⟨rfl, rfl, s1, ?_, ?_, rfl, by ring, by ring, ?_⟩
  · rw [pow_two, s2, div_mul_cancel₀ _ ha.ne']
  · simp only [Function.comp]
    by_cases h : r.theta = -90
    · right
      exact ⟨h, by rw [if_pos h]⟩
    · left
      rw [if_neg h]
  · rw [List.forall₂_map_right_iff, List.forall₂_same]
    intro f _
    exact ⟨fun h => max_eq_left h, fun h => max_eq_right h.le⟩

/-- The hypotheses are met. -/
example : inWindow (⟨5313 / 100, -2784 / 100, 2, 1, 30, 4, 3, [1, -99]⟩ : HstRow ℚ) = true ∧
    inWindow (⟨5314 / 100, -2784 / 100, 2, 1, 30, 4, 3, [1, -99]⟩ : HstRow ℚ) = false := by
  constructor <;> decide +kernel

/-- C170, refuted (missing fluxes). A flux that was not measured, -99 in the input, is a measured flux of 1e-5 in the example catalog: it
cannot be told from one of 1e-5 or below. -/
theorem C170_flux_refuted (sqrt : K → K) (pi : K) (r : HstRow K) (hr : inWindow r = true) (fs : List K) (hf : ∀ f ∈ fs, f ≤ 1 / 100000) :
    ∃ p, convert sqrt pi [{ r with flux := fs }] =
      [{ ra := r.ra, dec := r.dec, q := sqrt (r.b / r.a), pa := p, sersic := 2, rhalf := r.fluxRadius * (6 / 100)
         roi := r.kron * 3 * (6 / 100), flux := List.replicate fs.length (1 / 100000) }] := by
  have hlen : ∀ (n : Nat) (xs : List K), (paLoop pi n xs).length = xs.length := by
    intro n
    induction n with
    | zero => intro xs; rfl
    | succ n ih =>
      intro xs
      simp only [paLoop]
      split
      · rfl
      · rw [ih, List.length_map]
  have h1 : (convertPa pi true false true 4 [r.theta]).length = 1 := by
    simp [convertPa, hlen]
  obtain ⟨p, hp⟩ := List.length_eq_one_iff.1 h1
  refine ⟨p, ?_⟩
  have hw : inWindow { r with flux := fs } = true := hr
  have hm : fs.map (fun f => max f (1 / 100000)) = List.replicate fs.length (1 / 100000) := by
    rw [List.eq_replicate_iff]
    refine ⟨by simp, ?_⟩
    intro g hg
    obtain ⟨f, h2, rfl⟩ := List.mem_map.1 hg
    exact max_eq_right (hf f h2)
  simp only [convert, List.filter_cons, hw, if_true, List.filter_nil, List.map_cons, List.map_nil, hp, List.zipWith_cons_cons,
    List.zipWith_nil_left, hm]

/-- `show_reg` (scene_plot.py:45-53): is a position inside the drawn ellipse, whose width and height are twice the radius in degrees, on axes
of right ascension and declination? -/
def inDrawn (ra0 dec0 radius ra dec : K) : Prop :=
  ((ra - ra0) / (radius * 2 / 2)) ^ 2 + ((dec - dec0) / (radius * 2 / 2)) ^ 2 ≤ 1

/-- C170, circle, partial. The drawn circle contains only sources that are in the region on the sky: with the right ascension scaled by the
cosine `c` of the declination, their distance is at most the radius. Missing: the converse, refuted below. -/
theorem C170_circle_partial (c ra0 dec0 radius ra dec : K) (hc0 : 0 ≤ c) (hc1 : c ≤ 1) (hr : 0 < radius)
    (h : inDrawn ra0 dec0 radius ra dec) : (c * (ra - ra0)) ^ 2 + (dec - dec0) ^ 2 ≤ radius ^ 2 := by
  have hr2 : 0 < radius ^ 2 := pow_pos hr 2
  have h' : (ra - ra0) ^ 2 + (dec - dec0) ^ 2 ≤ radius ^ 2 := by
    unfold inDrawn at h
    rw [mul_div_assoc, div_self two_ne_zero, mul_one, div_pow, div_pow, ← add_div, div_le_one hr2] at h
    exact h
  have hcc : c ^ 2 ≤ 1 := pow_le_one₀ hc0 hc1
  have := mul_le_mul_of_nonneg_right hcc (sq_nonneg (ra - ra0))
  rw [mul_pow]
  linarith

example : inDrawn (53 : ℚ) (-27) (1 / 100) (53 + 1 / 200) (-27) := by
  unfold inDrawn; norm_num

/-- C170, refuted (circle). Off the equator a source that the region surely holds can be outside the circle drawn for it: if it lies due
east at `x` degrees on the sky, and the radius is `x` plus a margin (its radius of influence and the buffer) with `margin * c < x * (1 - c)`,
it is not in the drawn circle. -/
theorem C170_circle_refuted (c ra0 dec0 x margin : K) (hc0 : 0 < c) (hx : 0 < x) (hm : 0 ≤ margin)
    (hfar : margin * c < x * (1 - c)) :
    (c * (ra0 + x / c - ra0)) ^ 2 + (dec0 - dec0) ^ 2 ≤ (x + margin) ^ 2 ∧ ¬ inDrawn ra0 dec0 (x + margin) (ra0 + x / c) dec0 := by
  have hr : 0 < x + margin := by linarith
  constructor
  · have : c * (ra0 + x / c - ra0) = x := by field_simp; ring
    rw [this, sub_self]
    nlinarith [mul_nonneg hx.le hm, mul_nonneg hm hm]
  · intro h
    unfold inDrawn at h
    rw [mul_div_assoc, div_self two_ne_zero, mul_one, sub_self, zero_div, zero_pow two_ne_zero, add_zero, add_sub_cancel_left] at h
    have h1 : 1 < x / c / (x + margin) := by
      rw [lt_div_iff₀ hr, one_mul, lt_div_iff₀ hc0]
      linarith
    nlinarith

/-- The hypotheses are met by the demonstration: at declination -27.84 the cosine is below 0.885, the buffer is 0.5 arcsec; a source at 5
arcsec with a radius of influence of 0.1. -/
example : (6 / 10 / 3600 : ℚ) * (885 / 1000) < 5 / 3600 * (1 - 885 / 1000) := by norm_num

/-! ## colours and numbers -/

/-- The colours in which sources are drawn (scene_plot.py:78, 84-87 and 92, 96, 101-104). -/
inductive Colour
  | grey | red | blue | orange
  deriving DecidableEq

/-- A region that is checked out: its active and fixed sources. -/
structure Held where
  active : List Nat
  fixed : List Nat

/-- The points of a panel in the order in which they are drawn (scene_plot.py:78, 84-87 and 92, 96, 101-104). -/
def layers (all : List Nat) (sampled : Option (List Nat)) (held : List Held) : List (Colour × List Nat) :=
  [(.grey, all)] ++ (match sampled with | some s => [(.orange, s)] | none => []) ++
    held.flatMap fun p => [(.red, p.active), (.blue, p.fixed)]

/-- The colour in which a source is seen: that of the last layer with it. -/
def seen (ls : List (Colour × List Nat)) (s : Nat) : Option Colour :=
  (ls.reverse.find? fun l => l.2.contains s).map (·.1)

theorem seen_append (ls ms : List (Colour × List Nat)) (s : Nat) :
    seen (ls ++ ms) s = (seen ms s).or (seen ls s) := by
  unfold seen
  rw [List.reverse_append, List.find?_append]
  cases List.find? (fun l => l.2.contains s) ms.reverse <;> simp

theorem seen_held (held : List Held) (s : Nat) (hd : ∀ p ∈ held, ∀ q ∈ held, s ∈ p.active → s ∉ q.fixed) :
    seen (held.flatMap fun p => [(Colour.red, p.active), (Colour.blue, p.fixed)]) s =
      if ∃ p ∈ held, s ∈ p.active then some .red else if ∃ p ∈ held, s ∈ p.fixed then some .blue else none := by
  induction held with
  | nil => simp [seen]
  | cons p held ih =>
    rw [List.flatMap_cons, seen_append, ih (fun p hp q hq => hd p (by simp [hp]) q (by simp [hq]))]
    by_cases h1 : ∃ q ∈ held, s ∈ q.active
    · obtain ⟨q, hq, hs⟩ := h1
      rw [if_pos ⟨q, hq, hs⟩, if_pos ⟨q, by simp [hq], hs⟩]
      rfl
    · rw [if_neg h1]
      by_cases h2 : ∃ q ∈ held, s ∈ q.fixed
      · obtain ⟨q, hq, hs⟩ := h2
        rw [if_pos ⟨q, hq, hs⟩, if_neg, if_pos ⟨q, by simp [hq], hs⟩]
        · rfl
        · rintro ⟨r, hr, hrs⟩
          exact hd r hr q (by simp [hq]) hrs hs
      · rw [if_neg h2]
        by_cases h3 : s ∈ p.active
        · have h4 : s ∉ p.fixed := hd p (by simp) p (by simp) h3
          rw [if_pos ⟨p, by simp, h3⟩]
          simp [seen, h3, h4]
        · rw [if_neg (by
            rintro ⟨r, hr, hrs⟩
            rcases List.mem_cons.1 hr with rfl | hr
            · exact h3 hrs
            · exact h1 ⟨r, hr, hrs⟩)]
          by_cases h4 : s ∈ p.fixed
          · rw [if_pos ⟨p, by simp, h4⟩]
            simp [seen, h4]
          · rw [if_neg (by
              rintro ⟨r, hr, hrs⟩
              rcases List.mem_cons.1 hr with rfl | hr
              · exact h4 hrs
              · exact h2 ⟨r, hr, hrs⟩)]
            simp [seen, h3, h4]

/-- C170, colours. If no active source of a region held is fixed in one, each source of the scene is seen in the colour that the legend gives
its state: active (red) if a region holds it as active, fixed (blue) if as fixed, sampled (orange) if it was checked in and no region
holds it, else available (grey). -/
theorem C170_colours (all : List Nat) (sampled : Option (List Nat)) (held : List Held) (s : Nat) (hs : s ∈ all)
    (hd : ∀ p ∈ held, ∀ q ∈ held, s ∈ p.active → s ∉ q.fixed) :
    (seen (layers all sampled held) s = some .red ↔ ∃ p ∈ held, s ∈ p.active) ∧
    (seen (layers all sampled held) s = some .blue ↔ ∃ p ∈ held, s ∈ p.fixed) ∧
    (seen (layers all sampled held) s = some .orange ↔ (∃ l, sampled = some l ∧ s ∈ l) ∧ ∀ p ∈ held, s ∉ p.active ∧ s ∉ p.fixed) ∧
    (seen (layers all sampled held) s = some .grey ↔ (∀ l, sampled = some l → s ∉ l) ∧ ∀ p ∈ held, s ∉ p.active ∧ s ∉ p.fixed) := by
  have e : seen (layers all sampled held) s =
      if ∃ p ∈ held, s ∈ p.active then some .red else if ∃ p ∈ held, s ∈ p.fixed then some .blue else
        if ∃ l, sampled = some l ∧ s ∈ l then some .orange else some .grey := by
    unfold layers
    rw [seen_append, seen_held held s hd, seen_append]
    have h0 : seen [(Colour.grey, all)] s = some .grey := by simp [seen, hs]
    rw [h0]
    split
    · rfl
    · split
      · rfl
      · cases sampled with
        | none => simp [seen]
        | some l => by_cases hl : s ∈ l <;> simp [seen, hl]
  rw [e]
  by_cases h1 : ∃ p ∈ held, s ∈ p.active
  · obtain ⟨p, hp, hps⟩ := h1
    rw [if_pos ⟨p, hp, hps⟩]
    refine ⟨⟨fun _ => ⟨p, hp, hps⟩, fun _ => rfl⟩, ⟨fun h => by simp at h, ?_⟩, ⟨fun h => by simp at h, ?_⟩, ⟨fun h => by simp at h, ?_⟩⟩
    · rintro ⟨q, hq, hqs⟩; exact absurd hqs (hd p hp q hq hps)
    · rintro ⟨_, h⟩; exact absurd hps (h p hp).1
    · rintro ⟨_, h⟩; exact absurd hps (h p hp).1
  · rw [if_neg h1]
    by_cases h2 : ∃ p ∈ held, s ∈ p.fixed
    · obtain ⟨p, hp, hps⟩ := h2
      rw [if_pos ⟨p, hp, hps⟩]
      refine ⟨⟨fun h => by simp at h, fun h => absurd h h1⟩, ⟨fun _ => ⟨p, hp, hps⟩, fun _ => rfl⟩, ⟨fun h => by simp at h, ?_⟩,
        ⟨fun h => by simp at h, ?_⟩⟩
      · rintro ⟨_, h⟩; exact absurd hps (h p hp).2
      · rintro ⟨_, h⟩; exact absurd hps (h p hp).2
    · rw [if_neg h2]
      have hn : ∀ p ∈ held, s ∉ p.active ∧ s ∉ p.fixed := fun p hp => ⟨fun h => h1 ⟨p, hp, h⟩, fun h => h2 ⟨p, hp, h⟩⟩
      by_cases h3 : ∃ l, sampled = some l ∧ s ∈ l
      · rw [if_pos h3]
        refine ⟨⟨fun h => by simp at h, fun h => absurd h h1⟩, ⟨fun h => by simp at h, fun h => absurd h h2⟩, ⟨fun _ => ⟨h3, hn⟩, fun _ => rfl⟩,
          ⟨fun h => by simp at h, ?_⟩⟩
        rintro ⟨h, _⟩
        obtain ⟨l, hl, hsl⟩ := h3
        exact absurd hsl (h l hl)
      · rw [if_neg h3]
        refine ⟨⟨fun h => by simp at h, fun h => absurd h h1⟩, ⟨fun h => by simp at h, fun h => absurd h h2⟩,
          ⟨fun h => by simp at h, fun h => absurd h.1 h3⟩, ⟨fun _ => ⟨fun l hl hsl => h3 ⟨l, hl, hsl⟩, hn⟩, fun _ => rfl⟩⟩

example : seen (layers [0, 1, 2, 3] (some [0, 1]) [⟨[2], [3]⟩, ⟨[1], [0]⟩]) 1 = some .red := by decide

/-- The numbers of the regions in the second and third panel (scene_plot.py:84-88 and 94-105): the first region is handed back, the others
keep their order and a new one comes last. -/
def numbers {R : Type} (first : List R) (new : R) : List (R × Nat) × List (R × Nat) :=
  (first.zipIdx.map fun e => (e.1, e.2 + 1), ((first.drop 1 ++ [new]).zipIdx).map fun e => (e.1, e.2 + 2))

/-- C170, numbers. Each region that stays checked out has the same number in both panels, the new one has the next. -/
theorem C170_numbers {R : Type} (p : R) (rest : List R) (new : R) :
    numbers (p :: rest) new = ((p, 1) :: (rest.zipIdx.map fun e => (e.1, e.2 + 2)),
      (rest.zipIdx.map fun e => (e.1, e.2 + 2)) ++ [(new, rest.length + 2)]) := by
  simp only [numbers, List.zipIdx_cons, List.map_cons, Nat.zero_add, List.drop_succ_cons, List.drop_zero, List.zipIdx_append,
    List.map_append, List.zipIdx_nil, List.map_nil, Prod.mk.injEq, List.cons.injEq, true_and, and_true]
  rw [List.zipIdx_succ]
  simp

end Forcepho.Demo.Scene
