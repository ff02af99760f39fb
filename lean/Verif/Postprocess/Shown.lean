import Verif.Postprocess.WriteImages
import Mathlib.Data.Real.Sqrt
import Mathlib.Tactic.Ring
import Mathlib.Tactic.NormNum
import Mathlib.Tactic.FieldSimp
import Mathlib.Tactic.Positivity
import Mathlib.Tactic.Push

/-! # C165: figures of pixel values
(forcepho/postprocess.py `show_exp`; forcepho/mixtures/utils_hmc.py `show_exp`, `display`, `radial_plot`)

What matplotlib's `imshow` does with an array and its extent is modelled as the value that is shown at a point of the
plot.  Colours, labels and legends are not modelled. -/

set_option autoImplicit false

namespace Forcepho.Postprocess.Shown

open Forcepho.Postprocess

variable {V : Type}

/-- The exceptions that occur: those while the image is filled, `None.imshow`, and a local variable without value. -/
inductive ShowErr
  | filling (e : Err) | attribute | unbound
  deriving DecidableEq

/-- `imshow(a, origin="lower", extent=(l, r, b, t))`: the value shown at the point `(x, y)` of the plot; nothing is shown
outside the extent. The rows of `a` are along y (forcepho/postprocess.py:573-575). -/
def imshow (a : Image V) (l r b t x y : ℚ) : Option V :=
  if l ≤ x ∧ x < r ∧ b ≤ y ∧ y < t then
    some (a.pix ⌊(y - b) / (t - b) * a.nx⌋.toNat ⌊(x - l) / (r - l) * a.ny⌋.toNat)
  else none

/-- `show_exp` (forcepho/postprocess.py:564-576): the image returned and what the axes show. -/
def showExp (nan : V) (axes : Bool) (pixels : List ((ℚ × ℚ) × V)) : Except ShowErr (Image V × (ℚ → ℚ → Option V)) :=
  match populateImage nan pixels with
  | .error e => .error (.filling e)
  | .ok (im, lo, hi) =>
    if axes then .ok (im, imshow (transpose im) lo.1 hi.1 lo.2 hi.2) else .error .attribute

/-- The image that `show_exp` of the mixtures makes (forcepho/mixtures/utils_hmc.py:91-99). -/
def hmcImage (nan : V) (pixels : List ((ℚ × ℚ) × V)) : Except Err (Image V × (ℚ × ℚ) × (ℚ × ℚ)) :=
  match minmax (pixels.map (·.1.1)), minmax (pixels.map (·.1.2)) with
  | some (x0, x1), some (y0, y1) =>
    let lo := (x0 - 1 / 2, y0 - 1 / 2)
    let hi := (x1 + 1 / 2, y1 + 1 / 2)
    let im := blank nan ((trunc (hi.1 - lo.1)).toNat, (trunc (hi.2 - lo.2)).toNat)
    match assign im (pixels.map fun p => (trunc (p.1.1 - lo.1), trunc (p.1.2 - lo.2))) (pixels.map (·.2)) with
    | .ok im => .ok (im, lo, hi)
    | .error x => .error x
  | _, _ => .error .value

/-- `show_exp` of the mixtures (forcepho/mixtures/utils_hmc.py:84-106). -/
def hmcShow (nan : V) (axes : Bool) (pixels : List ((ℚ × ℚ) × V)) : Except ShowErr (Image V × (ℚ → ℚ → Option V)) :=
  match hmcImage nan pixels with
  | .error e => .error (.filling e)
  | .ok (im, lo, hi) =>
    if axes then .ok (im, imshow (transpose im) lo.1 hi.1 lo.2 hi.2) else .error .unbound

/-- The third panel of `display` (forcepho/mixtures/utils_hmc.py:140-144): the values and the limits of the colour scale; `none` for
empty arrays. -/
def percentOfPeak (model data : List ℚ) : Option (List ℚ × ℚ × ℚ) :=
  match data with
  | [] => none
  | d :: ds =>
    let chi := List.zipWith (fun m x => (m - x) / ((d :: ds).foldl max d * (1 / 100))) model data
    match chi with
    | [] => none
    | c :: cs => let mm := (cs.map abs).foldl max |c|
      some (chi, -mm, mm)

/-- A point of the lower panel of `radial_plot` (forcepho/mixtures/utils_hmc.py:151, 165-173). -/
noncomputable def radialPoint (timesR : Bool) (cx cy x y data model : ℝ) : ℝ × ℝ :=
  let r := √((x - cx) ^ 2 + (y - cy) ^ 2)
  (r, (if timesR then r else 1) * (model - data))

/-- The limits of the upper panel (forcepho/mixtures/utils_hmc.py:160), from the smallest values of the model and the data and
the largest of the data. -/
noncomputable def radialLimits (modelMin dataMin dataMax : ℝ) : ℝ × ℝ := (max modelMin dataMin * (1 / 10), dataMax * 2)

/-! ## Lemmas -/

theorem floor_pixel (x0 n a : Nat) (hn : 0 < n) (ha : x0 ≤ a) (x : ℚ) (h1 : (a : ℚ) - 1 / 2 ≤ x) (h2 : x < a + 1 / 2) :
    ⌊(x - ((x0 : ℚ) - 1 / 2)) / ((x0 : ℚ) + n - 1 / 2 - ((x0 : ℚ) - 1 / 2)) * n⌋.toNat = a - x0 := by
  have hn' : (n : ℚ) ≠ 0 := by exact_mod_cast hn.ne'
  have : (x - ((x0 : ℚ) - 1 / 2)) / ((x0 : ℚ) + n - 1 / 2 - ((x0 : ℚ) - 1 / 2)) * n = x - x0 + 1 / 2 := by
    have h3 : (x0 : ℚ) + n - 1 / 2 - ((x0 : ℚ) - 1 / 2) = n := by ring
    rw [h3, div_mul_cancel₀ _ hn']; ring
  rw [this]
  have h4 : ⌊x - x0 + 1 / 2⌋ = ((a - x0 : Nat) : Int) := by
    rw [Int.floor_eq_iff]
    push_cast [Nat.cast_sub ha]
    constructor <;> linarith
  rw [h4]
  rfl

theorem imshow_cutout (im : Image V) (x0 y0 : Nat) (hnx : 0 < im.nx) (hny : 0 < im.ny) (a b : Nat) (x y : ℚ)
    (hx1 : (a : ℚ) - 1 / 2 ≤ x) (hx2 : x < a + 1 / 2) (hy1 : (b : ℚ) - 1 / 2 ≤ y) (hy2 : y < b + 1 / 2) :
    ((x0 ≤ a ∧ a < x0 + im.nx ∧ y0 ≤ b ∧ b < y0 + im.ny) →
      imshow (transpose im) ((x0 : ℚ) - 1 / 2) ((x0 : ℚ) + im.nx - 1 / 2) ((y0 : ℚ) - 1 / 2) ((y0 : ℚ) + im.ny - 1 / 2) x y =
        some (im.pix (a - x0) (b - y0))) ∧
    (¬ (x0 ≤ a ∧ a < x0 + im.nx ∧ y0 ≤ b ∧ b < y0 + im.ny) →
      imshow (transpose im) ((x0 : ℚ) - 1 / 2) ((x0 : ℚ) + im.nx - 1 / 2) ((y0 : ℚ) - 1 / 2) ((y0 : ℚ) + im.ny - 1 / 2) x y =
        none) := by
  constructor
  · rintro ⟨h1, h2, h3, h4⟩
    unfold imshow
    have k1 : (x0 : ℚ) ≤ a := by exact_mod_cast h1
    have k2 : (a : ℚ) + 1 ≤ x0 + im.nx := by exact_mod_cast h2
    have k3 : (y0 : ℚ) ≤ b := by exact_mod_cast h3
    have k4 : (b : ℚ) + 1 ≤ y0 + im.ny := by exact_mod_cast h4
    rw [if_pos ⟨by linarith, by linarith, by linarith, by linarith⟩]
    simp only [transpose]
    rw [floor_pixel x0 im.nx a hnx h1 x hx1 hx2, floor_pixel y0 im.ny b hny h3 y hy1 hy2]
  · intro h
    unfold imshow
    rw [if_neg]
    rintro ⟨k1, k2, k3, k4⟩
    apply h
    have e : ∀ u v : Nat, (u : ℚ) < v + 1 → u ≤ v := fun u v huv => by
      have : u < v + 1 := by exact_mod_cast huv
      omega
    refine ⟨e _ _ (by linarith), ?_, e _ _ (by linarith), ?_⟩
    · have : (a : ℚ) < ((x0 + im.nx : Nat) : ℚ) := by push_cast; linarith
      exact_mod_cast this
    · have : (b : ℚ) < ((y0 + im.ny : Nat) : ℚ) := by push_cast; linarith
      exact_mod_cast this

theorem hmcImage_eq (nan : V) (pixels : List ((ℚ × ℚ) × V)) (hk : ∀ t ∈ pixels, Kept t) :
    hmcImage nan pixels = populateImage nan pixels := by
  have : (pixels.filter fun p => 0 ≤ p.1.1 ∧ 0 ≤ p.1.2) = pixels := by
    rw [List.filter_eq_self]
    intro t ht
    simpa [Kept] using hk t ht
  unfold hmcImage populateImage
  simp only [this]
  rfl

theorem shown_of_populate (nan : V) (pixels : List ((ℚ × ℚ) × V))
    (hn : ∀ t ∈ pixels, Kept t → ∃ a b : Nat, t.1 = ((a : ℚ), (b : ℚ))) (hne : ∃ t ∈ pixels, Kept t) :
    ∃ im lo hi, populateImage nan pixels = .ok (im, lo, hi) ∧ ∀ (a b : Nat) (x y : ℚ),
      (a : ℚ) - 1 / 2 ≤ x → x < a + 1 / 2 → (b : ℚ) - 1 / 2 ≤ y → y < b + 1 / 2 →
      (∀ t ∈ pixels, t.1 = ((a : ℚ), (b : ℚ)) → ∃ v, imshow (transpose im) lo.1 hi.1 lo.2 hi.2 x y = some v) ∧
      ∀ v, imshow (transpose im) lo.1 hi.1 lo.2 hi.2 x y = some v →
        PixelValue (At a b) (pixels.map (·.1)) (pixels.map (·.2)) nan v := by
  obtain ⟨im, x0, y0, hnx, hny, hpop, hbox, -, -, -, -, hval⟩ := (C65_cutout nan pixels hn).1 hne
  refine ⟨im, _, _, hpop, ?_⟩
  intro a b x y hx1 hx2 hy1 hy2
  obtain ⟨hin, hout⟩ := imshow_cutout im x0 y0 hnx hny a b x y hx1 hx2 hy1 hy2
  constructor
  · intro t ht hab
    have hk : Kept t := by unfold Kept; rw [hab]; exact ⟨by positivity, by positivity⟩
    obtain ⟨k1, k2, k3, k4⟩ := hbox t ht hk
    rw [hab] at k1 k2 k3 k4
    dsimp only at k1 k2 k3 k4
    refine ⟨_, hin ⟨?_, ?_, ?_, ?_⟩⟩
    · exact_mod_cast k1
    · have : ((a + 1 : Nat) : ℚ) ≤ ((x0 + im.nx : Nat) : ℚ) := by push_cast; exact k2
      have : a + 1 ≤ x0 + im.nx := by exact_mod_cast this
      omega
    · exact_mod_cast k3
    · have : ((b + 1 : Nat) : ℚ) ≤ ((y0 + im.ny : Nat) : ℚ) := by push_cast; exact k4
      have : b + 1 ≤ y0 + im.ny := by exact_mod_cast this
      omega
  · intro v hv
    by_cases hc : x0 ≤ a ∧ a < x0 + im.nx ∧ y0 ≤ b ∧ b < y0 + im.ny
    · rw [hin hc] at hv
      injection hv with hv
      have := hval (a - x0) (b - y0) (by omega) (by omega)
      rw [hv, show x0 + (a - x0) = a by omega, show y0 + (b - y0) = b by omega] at this
      exact this
    · rw [hout hc] at hv
      cases hv

/-! ## C165 -/

/-- What a figure should show: something within half a pixel of each pixel with integer coordinates, and within half a pixel of
`(a, b)` the value given last for `(a, b)`, or not-a-number if none was; x along the x axis, y upwards. -/
def Shows (nan : V) (pixels : List ((ℚ × ℚ) × V)) (pic : ℚ → ℚ → Option V) : Prop :=
  ∀ (a b : Nat) (x y : ℚ), (a : ℚ) - 1 / 2 ≤ x → x < a + 1 / 2 → (b : ℚ) - 1 / 2 ≤ y → y < b + 1 / 2 →
    (∀ t ∈ pixels, t.1 = ((a : ℚ), (b : ℚ)) → ∃ v, pic x y = some v) ∧
    ∀ v, pic x y = some v →
      (∃ (k : Nat) (w : (ℚ × ℚ) × V), pixels[k]? = some w ∧ w.1 = ((a : ℚ), (b : ℚ)) ∧ w.2 = v ∧
        ∀ (k' : Nat) (w' : (ℚ × ℚ) × V), k < k' → pixels[k']? = some w' → w'.1 ≠ ((a : ℚ), (b : ℚ))) ∨
      ((∀ t ∈ pixels, t.1 ≠ ((a : ℚ), (b : ℚ))) ∧ v = nan)

theorem shows_of (nan : V) (pixels : List ((ℚ × ℚ) × V))
    (hn : ∀ t ∈ pixels, 0 ≤ t.1.1 ∧ 0 ≤ t.1.2 → ∃ a b : Nat, t.1 = ((a : ℚ), (b : ℚ)))
    (hne : ∃ t ∈ pixels, 0 ≤ t.1.1 ∧ 0 ≤ t.1.2) :
    ∃ im lo hi, populateImage nan pixels = .ok (im, lo, hi) ∧
      Shows nan pixels (imshow (transpose im) lo.1 hi.1 lo.2 hi.2) := by
  obtain ⟨im, lo, hi, h, hs⟩ := shown_of_populate nan pixels hn hne
  refine ⟨im, lo, hi, h, ?_⟩
  intro a b x y h1 h2 h3 h4
  obtain ⟨k1, k2⟩ := hs a b x y h1 h2 h3 h4
  refine ⟨k1, ?_⟩
  intro v hv
  rcases k2 v hv with ⟨k, w, ⟨⟨p, hp, hab⟩, hlast⟩, hw, rfl⟩ | ⟨h5, rfl⟩
  · left
    rw [List.getElem?_map, Option.map_eq_some_iff] at hp hw
    obtain ⟨t, ht, rfl⟩ := hp
    obtain ⟨t', ht', rfl⟩ := hw
    rw [ht] at ht'
    injection ht' with ht'
    rw [← ht']
    refine ⟨k, t, ht, hab, rfl, ?_⟩
    intro k' w' hk' hw' he
    exact hlast k' w'.1 hk' (by rw [List.getElem?_map, hw']; rfl) he
  · right
    refine ⟨?_, rfl⟩
    intro t ht hab
    exact h5 t.1 (List.mem_map_of_mem ht) hab

/-- C165, partial (exposures). Let the pixels that are not padding have integer coordinates. Then on given axes each value is
shown at its pixel. Missing: without axes, which is the default, and coordinates that are not integers; both refuted below. -/
theorem C165_exposure_partial (nan : V) (pixels : List ((ℚ × ℚ) × V))
    (hn : ∀ t ∈ pixels, 0 ≤ t.1.1 ∧ 0 ≤ t.1.2 → ∃ a b : Nat, t.1 = ((a : ℚ), (b : ℚ)))
    (hne : ∃ t ∈ pixels, 0 ≤ t.1.1 ∧ 0 ≤ t.1.2) :
    ∃ im pic, showExp nan true pixels = .ok (im, pic) ∧ Shows nan pixels pic := by
  obtain ⟨im, lo, hi, h, hs⟩ := shows_of nan pixels hn hne
  exact ⟨im, _, by simp only [showExp, h, if_true], hs⟩

/-- C165, partial (mixtures). For pixels with integer coordinates, none negative, each value is shown at its pixel. Missing: as
above. -/
theorem C165_mixture_partial (nan : V) (pixels : List ((ℚ × ℚ) × V))
    (hn : ∀ t ∈ pixels, ∃ a b : Nat, t.1 = ((a : ℚ), (b : ℚ))) (hne : pixels ≠ []) :
    ∃ im pic, hmcShow nan true pixels = .ok (im, pic) ∧ Shows nan pixels pic := by
  have hk : ∀ t ∈ pixels, Kept t := by
    intro t ht
    obtain ⟨a, b, h⟩ := hn t ht
    unfold Kept
    rw [h]
    exact ⟨by positivity, by positivity⟩
  obtain ⟨t, ht⟩ := List.exists_mem_of_ne_nil pixels hne
  obtain ⟨im, lo, hi, h, hs⟩ := shows_of nan pixels (fun t ht _ => hn t ht) ⟨t, ht, hk t ht⟩
  exact ⟨im, _, by simp only [hmcShow, hmcImage_eq nan pixels hk, h, if_true], hs⟩

/-- The hypotheses are met: two pixels. -/
example : ∃ im pic, hmcShow (0 : Int) true [((3, 4), 7), ((5, 4), 8)] = .ok (im, pic) ∧
    Shows (0 : Int) [((3, 4), 7), ((5, 4), 8)] pic := by
  refine C165_mixture_partial 0 _ ?_ (by simp)
  intro t ht
  rcases List.mem_cons.mp ht with rfl | ht
  · exact ⟨3, 4, by norm_num⟩
  · obtain rfl : t = ((5, 4), 8) := by simpa using ht
    exact ⟨5, 4, by norm_num⟩

/-- C165, refuted (no axes). Called as their signatures allow, without axes, the two functions never return: one asks `None` to
draw, the other returns a variable that it has not set. -/
theorem C165_axes_refuted (nan : V) (pixels : List ((ℚ × ℚ) × V)) (r : Image V × (ℚ → ℚ → Option V)) :
    showExp nan false pixels ≠ .ok r ∧ hmcShow nan false pixels ≠ .ok r ∧
    showExp nan false [((0, 0), nan)] = .error .attribute ∧ hmcShow nan false [((0, 0), nan)] = .error .unbound := by
  have hn : ∀ t ∈ [(((0 : ℚ), (0 : ℚ)), nan)], ∃ a b : Nat, t.1 = ((a : ℚ), (b : ℚ)) := by
    intro t ht
    rw [List.mem_singleton.1 ht]
    exact ⟨0, 0, by norm_num⟩
  obtain ⟨im, lo, hi, h, -⟩ := shows_of nan [(((0 : ℚ), (0 : ℚ)), nan)] (fun t ht _ => hn t ht)
    ⟨_, List.mem_singleton.2 rfl, le_refl _, le_refl _⟩
  refine ⟨?_, ?_, ?_, ?_⟩
  · unfold showExp
    split
    · simp
    · simp
  · unfold hmcShow
    split
    · simp
    · simp
  · simp only [showExp, h]; rfl
  · have hk : ∀ t ∈ [(((0 : ℚ), (0 : ℚ)), nan)], Kept t := by
      intro t ht
      rw [List.mem_singleton.1 ht]
      exact ⟨le_refl _, le_refl _⟩
    simp only [hmcShow, hmcImage_eq nan _ hk, h]; rfl

/-- C165, refuted (fractions). With coordinates that are not integers a pixel may fall outside the image made for it: two pixels
six tenths apart get one column and the second index is out of bounds. -/
theorem C165_fraction_refuted (nan v w : V) :
    showExp nan true [((0, 0), v), ((3 / 5, 0), w)] = .error (.filling .index) ∧
    hmcShow nan true [((0, 0), v), ((3 / 5, 0), w)] = .error (.filling .index) := by
  have hk : ∀ t ∈ [(((0 : ℚ), (0 : ℚ)), v), ((3 / 5, 0), w)], Kept t := by
    intro t ht
    unfold Kept
    rcases List.mem_cons.mp ht with rfl | ht
    · norm_num
    · rw [List.mem_singleton.1 ht]; norm_num
  have h : hmcImage nan [(((0 : ℚ), (0 : ℚ)), v), ((3 / 5, 0), w)] = .error .index := by
    have f1 : ⌊(3 / 5 : ℚ) + 1 / 2 - (0 - 1 / 2)⌋ = 1 := by rw [Int.floor_eq_iff]; norm_num
    have f2 : ⌊(0 : ℚ) + 1 / 2 - (0 - 1 / 2)⌋ = 1 := by rw [Int.floor_eq_iff]; norm_num
    have f3 : ⌊(3 / 5 : ℚ) - (0 - 1 / 2)⌋ = 1 := by rw [Int.floor_eq_iff]; norm_num
    have f4 : ⌊(0 : ℚ) - (0 - 1 / 2)⌋ = 0 := by rw [Int.floor_eq_iff]; norm_num
    have t1 : trunc ((3 / 5 : ℚ) + 1 / 2 - (0 - 1 / 2)) = 1 := by unfold trunc; rw [if_pos (by norm_num), f1]
    have t2 : trunc ((0 : ℚ) + 1 / 2 - (0 - 1 / 2)) = 1 := by unfold trunc; rw [if_pos (by norm_num), f2]
    have t3 : trunc ((3 / 5 : ℚ) - (0 - 1 / 2)) = 1 := by unfold trunc; rw [if_pos (by norm_num), f3]
    have t4 : trunc ((0 : ℚ) - (0 - 1 / 2)) = 0 := by unfold trunc; rw [if_pos (by norm_num), f4]
    have m1 : minmax [(0 : ℚ), 3 / 5] = some (0, 3 / 5) := by norm_num [minmax]
    have m2 : minmax [(0 : ℚ), 0] = some (0, 0) := by norm_num [minmax]
    unfold hmcImage
    simp only [List.map_cons, List.map_nil, m1, m2, t1, t2, t3, t4]
    rfl
  constructor
  · simp only [showExp, ← hmcImage_eq nan _ hk, h]
  · simp only [hmcShow, h]

theorem foldl_max (xs : List ℚ) (x : ℚ) :
    (∀ y ∈ x :: xs, y ≤ xs.foldl max x) ∧ xs.foldl max x ∈ x :: xs := by
  induction xs generalizing x with
  | nil => simp
  | cons z xs ih =>
    obtain ⟨h1, h2⟩ := ih (max x z)
    rw [List.foldl_cons]
    constructor
    · intro y hy
      have hm : max x z ≤ xs.foldl max (max x z) := h1 _ (by simp)
      rcases List.mem_cons.1 hy with rfl | hy
      · exact le_trans (le_max_left _ _) hm
      · rcases List.mem_cons.1 hy with rfl | hy
        · exact le_trans (le_max_right _ _) hm
        · exact h1 y (by simp [hy])
    · rcases List.mem_cons.1 h2 with h | h
      · rw [h]
        rcases max_choice x z with h' | h' <;> rw [h'] <;> simp
      · simp [h]

/-- C165, residuals of a mixture. The third panel shows at each pixel how many percent of the brightest pixel the model is above
the data, and its colour scale is symmetric and just wide enough: every value is within it and one is at an end. -/
theorem C165_percent (model data : List ℚ) (hl : model.length = data.length) (hne : data ≠ []) (peak : ℚ)
    (hp : peak ∈ data) (hmax : ∀ d ∈ data, d ≤ peak) (h0 : peak ≠ 0) :
    ∃ chi lo hi, percentOfPeak model data = some (chi, lo, hi) ∧ chi.length = data.length ∧
      (∀ (k : Nat) (m d : ℚ), model[k]? = some m → data[k]? = some d → ∃ c, chi[k]? = some c ∧ m = d + c / 100 * peak) ∧
      lo = -hi ∧ (∀ c ∈ chi, -hi ≤ c ∧ c ≤ hi) ∧ ∃ c ∈ chi, c = hi ∨ c = lo := by
  cases data with
  | nil => exact absurd rfl hne
  | cons d ds =>
    cases model with
    | nil => cases hl
    | cons m ms =>
      obtain ⟨hm1, hm2⟩ := foldl_max ds d
      have hpk : (d :: ds).foldl max d = peak := by
        rw [List.foldl_cons, max_self]
        exact le_antisymm (hmax _ hm2) (hm1 peak hp)
      set f : ℚ → ℚ → ℚ := fun m x => (m - x) / (peak * (1 / 100)) with hf
      obtain ⟨ha1, ha2⟩ := foldl_max ((List.zipWith f ms ds).map abs) |f m d|
      refine ⟨List.zipWith f (m :: ms) (d :: ds), _, ((List.zipWith f ms ds).map abs).foldl max |f m d|, ?_, ?_, ?_, rfl, ?_, ?_⟩
      · simp only [percentOfPeak, hpk, List.zipWith_cons_cons]
        rfl
      · rw [List.length_zipWith, hl, min_self]
      · intro k x y hx hy
        refine ⟨f x y, ?_, ?_⟩
        · rw [List.getElem?_zipWith, hx, hy]
        · simp only [hf]; field_simp; ring
      · intro c hc
        have : |c| ≤ ((List.zipWith f ms ds).map abs).foldl max |f m d| := by
          apply ha1
          rw [List.zipWith_cons_cons] at hc
          rcases List.mem_cons.1 hc with rfl | hc
          · simp
          · exact List.mem_cons_of_mem _ (List.mem_map_of_mem hc)
        exact abs_le.1 this
      · have : ∃ c ∈ List.zipWith f (m :: ms) (d :: ds), |c| = ((List.zipWith f ms ds).map abs).foldl max |f m d| := by
          rw [List.zipWith_cons_cons]
          rcases List.mem_cons.1 ha2 with h | h
          · exact ⟨f m d, by simp, h.symm⟩
          · obtain ⟨c, hc, he⟩ := List.mem_map.1 h
            exact ⟨c, List.mem_cons_of_mem _ hc, he⟩
        obtain ⟨c, hc, he⟩ := this
        refine ⟨c, hc, ?_⟩
        rw [← he]
        rcases abs_choice c with h | h
        · exact Or.inl h.symm
        · right; rw [h]; ring

example : percentOfPeak [1, 3] [2, 4] = some ([-25, -25], -25, 25) := by norm_num [percentOfPeak]

/-- C165, partial (radii). The lower panel of the radial plot shows each pixel at its distance from the centre; not multiplied by
the radius, a point is between the two lines, at zero and at one percent of the brightest pixel, just if the model is above the data by no more
than that. Missing: multiplied by the radius, which is the default, refuted below. -/
theorem C165_radial_partial (cx cy x y data model peak : ℝ) :
    0 ≤ (radialPoint false cx cy x y data model).1 ∧
    (radialPoint false cx cy x y data model).1 ^ 2 = (x - cx) ^ 2 + (y - cy) ^ 2 ∧
    (radialPoint true cx cy x y data model).1 = (radialPoint false cx cy x y data model).1 ∧
    (radialPoint true cx cy x y data model).2 =
      (radialPoint true cx cy x y data model).1 * (radialPoint false cx cy x y data model).2 ∧
    ((0 ≤ (radialPoint false cx cy x y data model).2 ∧ (radialPoint false cx cy x y data model).2 ≤ peak * (1 / 100)) ↔
      data ≤ model ∧ model ≤ data + peak / 100) := by
  simp only [radialPoint, if_true, Bool.false_eq_true, if_false, one_mul]
  refine ⟨Real.sqrt_nonneg _, Real.sq_sqrt (by positivity), trivial, trivial, ?_⟩
  constructor
  · rintro ⟨h1, h2⟩; constructor <;> linarith
  · rintro ⟨h1, h2⟩; constructor <;> linarith

/-- C165, refuted (radii). Multiplied by the radius, a point ten pixels out is above the line "1% of max pixel" although the model is
off by half a percent, and one at a hundredth of a pixel is below it although the model is off by a half. -/
theorem C165_radial_refuted :
    ((radialPoint true 0 0 10 0 0 (1 / 200)).2 > 1 * (1 / 100) ∧ (1 / 200 : ℝ) < 1 * (1 / 100)) ∧
    ((radialPoint true 0 0 (1 / 100) 0 0 (1 / 2)).2 < 1 * (1 / 100) ∧ (1 / 2 : ℝ) > 1 * (1 / 100)) := by
  have h1 : √(((10 : ℝ) - 0) ^ 2 + (0 - 0) ^ 2) = 10 := by
    rw [show ((10 : ℝ) - 0) ^ 2 + (0 - 0) ^ 2 = 10 ^ 2 by norm_num]
    exact Real.sqrt_sq (by norm_num)
  have h2 : √(((1 / 100 : ℝ) - 0) ^ 2 + (0 - 0) ^ 2) = 1 / 100 := by
    rw [show ((1 / 100 : ℝ) - 0) ^ 2 + (0 - 0) ^ 2 = (1 / 100) ^ 2 by norm_num]
    exact Real.sqrt_sq (by norm_num)
  simp only [radialPoint, if_true, h1, h2]
  norm_num

/-- C165, partial (limits). The upper panel shows all of the data and the model above a tenth of the larger of their minima, up to
twice the brightest pixel; so all of both if the minima are within a factor of ten of each other and the model's values no more than
twice the brightest pixel. -/
theorem C165_limits_partial (modelMin dataMin dataMax v : ℝ) (hm : 0 < modelMin) (hd : 0 < dataMin)
    (h1 : modelMin ≤ 10 * dataMin) (h2 : dataMin ≤ 10 * modelMin) (hv : min modelMin dataMin ≤ v) (hv2 : v ≤ 2 * dataMax) :
    0 < (radialLimits modelMin dataMin dataMax).1 ∧ (radialLimits modelMin dataMin dataMax).1 ≤ v ∧
      v ≤ (radialLimits modelMin dataMin dataMax).2 ∧ modelMin ≤ 10 * (radialLimits modelMin dataMin dataMax).1 ∧
      dataMin ≤ 10 * (radialLimits modelMin dataMin dataMax).1 ∧ (radialLimits modelMin dataMin dataMax).2 = 2 * dataMax := by
  simp only [radialLimits]
  have h3 : 0 < max modelMin dataMin := lt_max_of_lt_left hm
  have h4 := le_max_left modelMin dataMin
  have h5 := le_max_right modelMin dataMin
  refine ⟨by positivity, ?_, by linarith, by linarith, by linarith, by ring⟩
  rcases le_total modelMin dataMin with h | h
  · rw [min_eq_left h] at hv; rw [max_eq_right h]; linarith
  · rw [min_eq_right h] at hv; rw [max_eq_left h]; linarith

/-- C165, refuted (limits). A positive value of the data is cut off at the bottom of the panel if the model is never that faint. -/
theorem C165_limits_refuted : (radialLimits 1 (1 / 100) 10).1 > 1 / 100 ∧ (0 : ℝ) < 1 / 100 := by
  simp only [radialLimits]
  rw [max_eq_left (by norm_num)]
  norm_num

end Forcepho.Postprocess.Shown
