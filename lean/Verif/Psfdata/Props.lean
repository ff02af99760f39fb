import Verif.Psfdata.Model
import Mathlib.Data.List.Sort
import Mathlib.Algebra.BigOperators.Group.List.Basic
import Mathlib.Algebra.BigOperators.Ring.List

/-!
# C97: PSF data made from a fitted mixture describe the fitted image
-/

set_option autoImplicit false
set_option linter.unusedSectionVars false

namespace Forcepho.Psfdata

open Classical Em

/-- A gaussian with positive widths and correlation strictly between -1 and 1.  The weight may have
either sign. -/
structure Shaped (g : HG) : Prop where
  sx : 0 < g.sx
  q : 0 < g.q
  rho : g.rho ^ 2 < 1

/-- The density of one forcepho gaussian at science-image position `(X, Y)` relative to the PSF
centre: amplitude times the normal density of its covariance matrix. -/
noncomputable def rowDensity (p : Row) (X Y : ℝ) : ℝ :=
  p.amp * normalDensity p.cxx p.cyy p.cxy (X - p.xcr) (Y - p.ycr)

/-- One gaussian of the prediction is a weighted normal density. -/
theorem gaussAt_density {g : HG} (h : Shaped g) (xp yp a : ℝ) :
    gaussAt xp yp a g = a * g.weight * normalDensity (g.sx ^ 2) ((g.q * g.sx) ^ 2)
      (g.rho * g.sx * (g.q * g.sx)) (xp - g.x) (yp - g.y) := by
  have hu : Usable ⟨1, g.x, g.y, g.sx, g.q * g.sx, g.rho⟩ :=
    ⟨one_pos, h.sx, mul_pos h.q h.sx, h.rho⟩
  have e := C94_density hu xp yp
  simp only [one_mul] at e
  rw [← e]
  unfold gaussAt mvnPdf
  dsimp only
  ring

/-- Stretching a covariance matrix by `f` in each direction. -/
theorem normalDensity_scale {a b c dx dy f : ℝ} (hf : 0 < f) (hd : 0 < a * b - c * c) :
    normalDensity (f ^ 2 * a) (f ^ 2 * b) (f ^ 2 * c) (f * dx) (f * dy)
      = normalDensity a b c dx dy / f ^ 2 := by
  unfold normalDensity
  have e : f ^ 2 * a * (f ^ 2 * b) - f ^ 2 * c * (f ^ 2 * c) = (f ^ 2) ^ 2 * (a * b - c * c) := by
    ring
  have es : Real.sqrt ((f ^ 2) ^ 2 * (a * b - c * c)) = f ^ 2 * Real.sqrt (a * b - c * c) := by
    rw [Real.sqrt_mul (sq_nonneg _), Real.sqrt_sq (sq_nonneg _)]
  rw [e, es]
  have hs := Real.sqrt_pos.mpr hd
  have ee : (f ^ 2 * b * (f * dx) * (f * dx) - 2 * (f ^ 2 * c) * (f * dx) * (f * dy)
        + f ^ 2 * a * (f * dy) * (f * dy)) / ((f ^ 2) ^ 2 * (a * b - c * c))
      = (b * dx * dx - 2 * c * dx * dy + a * dy * dy) / (a * b - c * c) := by
    generalize a * b - c * c = D at hd
    field_simp
  rw [ee]
  have := Real.pi_pos
  generalize Real.sqrt (a * b - c * c) = S at hs
  field_simp

/-- The density of a converted gaussian at the science position of a PSF-image pixel is `os²` times
the value predicted in PSF-image pixels. -/
theorem convertOne_density {g : HG} (h : Shaped g) (a cx cy : ℝ) {os : ℝ} (ho : 0 < os) (r : ℕ)
    (xp yp : ℝ) :
    rowDensity (convertOne a cx cy os r g) ((xp - cx) / os) ((yp - cy) / os)
      = os ^ 2 * gaussAt xp yp a g := by
  rw [gaussAt_density h]
  have hf : 0 < 1 / os := by positivity
  have hd : 0 < g.sx ^ 2 * (g.q * g.sx) ^ 2 - g.rho * g.sx * (g.q * g.sx)
      * (g.rho * g.sx * (g.q * g.sx)) := by
    have : g.sx ^ 2 * (g.q * g.sx) ^ 2 - g.rho * g.sx * (g.q * g.sx)
      * (g.rho * g.sx * (g.q * g.sx)) = (g.q * g.sx ^ 2) ^ 2 * (1 - g.rho ^ 2) := by ring
    rw [this]
    have h1 := h.sx
    have h2 := h.q
    have h3 : 0 < 1 - g.rho ^ 2 := by linarith [h.rho]
    positivity
  have s := normalDensity_scale (dx := xp - g.x) (dy := yp - g.y) hf hd
  unfold rowDensity convertOne
  dsimp only
  have e1 : (g.sx * (1 / os)) ^ 2 = (1 / os) ^ 2 * g.sx ^ 2 := by ring
  have e2 : (g.sx * (1 / os) * g.q) ^ 2 = (1 / os) ^ 2 * (g.q * g.sx) ^ 2 := by ring
  have e3 : g.sx * (1 / os) * (g.sx * (1 / os) * g.q) * g.rho
      = (1 / os) ^ 2 * (g.rho * g.sx * (g.q * g.sx)) := by ring
  have e4 : (xp - cx) / os - (g.x - cx) * (1 / os) = 1 / os * (xp - g.x) := by ring
  have e5 : (yp - cy) / os - (g.y - cy) * (1 / os) = 1 / os * (yp - g.y) := by ring
  rw [e1, e2, e3, e4, e5, s]
  field_simp

theorem byWeight_perm (gs : List HG) : (byWeight gs).Perm gs :=
  (List.reverse_perm _).trans (List.mergeSort_perm _ _)

/-- Largest weight first. -/
theorem byWeight_sorted (gs : List HG) :
    (byWeight gs).Pairwise fun g h => h.weight ≤ g.weight := by
  unfold byWeight
  rw [List.pairwise_reverse]
  have := List.pairwise_mergeSort (le := fun g h : HG => decide (g.weight ≤ h.weight))
    (by intro a b c h1 h2; simp only [decide_eq_true_eq] at *; exact le_trans h1 h2)
    (by intro a b; simp only [Bool.or_eq_true, decide_eq_true_eq]; exact le_total _ _) gs
  exact this.imp fun h => by simpa using h

/-- **C97, the model image.**  The dictionary returned by `rectify` has no negative part left and
predicts exactly the returned model image: positive mixture minus negative mixture plus
background. -/
theorem C97_rectify (b : Best) (xp yp : ℝ) :
    (rectify b).1.neg = [] ∧
    (rectify b).2 xp yp
      = prediction xp yp (rectify b).1.a (rectify b).1.bg (rectify b).1.pos ∧
    (rectify b).2 xp yp
      = (b.pos.map fun g => b.a * gaussAt xp yp 1 g).sum + b.bg
        - (b.neg.map fun g => gaussAt xp yp 1 g).sum := by
  have lin : ∀ (a : ℝ) (g : HG), gaussAt xp yp a g = a * gaussAt xp yp 1 g := by
    intro a g; unfold gaussAt; dsimp only; ring
  have wl : ∀ (w a : ℝ) (g : HG), gaussAt xp yp a { g with weight := g.weight * w }
      = a * w * gaussAt xp yp 1 g := by
    intro w a g; unfold gaussAt; dsimp only; ring
  unfold rectify
  dsimp only
  by_cases hn : b.neg = []
  · rw [if_pos hn]
    refine ⟨hn, rfl, ?_⟩
    simp only [prediction, hn, List.map_nil, List.sum_nil, sub_zero]
    rw [List.map_congr_left fun g _ => lin b.a g]
  · rw [if_neg hn]
    have e2 : ((b.pos.map fun g => { g with weight := g.weight * b.a }).map (gaussAt xp yp 1)).sum
        = (b.pos.map fun g => b.a * gaussAt xp yp 1 g).sum := by
      rw [List.map_map]
      congr 1
      apply List.map_congr_left
      intro g _
      simp only [Function.comp_apply]
      rw [wl, one_mul]
    have e3 : ((b.neg.map fun g => { g with weight := g.weight * (-1) }).map (gaussAt xp yp 1)).sum
        = - (b.neg.map fun g => gaussAt xp yp 1 g).sum := by
      rw [List.map_map, neg_eq_neg_one_mul (List.sum _), ← List.sum_map_mul_left]
      congr 1
      apply List.map_congr_left
      intro g _
      simp only [Function.comp_apply]
      rw [wl]
      ring
    refine ⟨rfl, ?_, ?_⟩
    · simp only [prediction, List.map_append, List.sum_append]
      rw [e2, e3, List.map_congr_left fun g _ => lin b.a g]
      ring
    · simp only [prediction]
      rw [List.map_congr_left fun g _ => lin b.a g]
      ring

/-- **C97, the converted PSF.**  For every location and radius the converted gaussians, evaluated at
the position of a PSF-image pixel in science pixels from the centre, add up to `oversample²` times
the model image without its background: surface brightness per science pixel. -/
theorem C97_convert (b : Best) (cx cy : ℝ) {os : ℝ} (ho : 0 < os) (nloc nradii : ℕ)
    (hs : ∀ g ∈ b.pos, Shaped g) {loc : List (List Row)}
    (hl : loc ∈ convert b cx cy os nloc nradii) {rows : List Row} (hr : rows ∈ loc) (xp yp : ℝ) :
    (rows.map fun p => rowDensity p ((xp - cx) / os) ((yp - cy) / os)).sum
      = os ^ 2 * (prediction xp yp b.a b.bg b.pos - b.bg) := by
  unfold convert at hl
  have := (List.mem_replicate.mp hl).2
  subst this
  obtain ⟨r, _, rfl⟩ := List.mem_map.mp hr
  rw [List.map_map]
  have e : ((byWeight b.pos).map ((fun p => rowDensity p ((xp - cx) / os) ((yp - cy) / os))
      ∘ convertOne b.a cx cy os r)) = (byWeight b.pos).map fun g => os ^ 2 * gaussAt xp yp b.a g := by
    apply List.map_congr_left
    intro g hg
    exact convertOne_density (hs g ((byWeight_perm b.pos).mem_iff.mp hg)) b.a cx cy ho r xp yp
  rw [e, List.sum_map_mul_left, ((byWeight_perm b.pos).map (gaussAt xp yp b.a)).sum_eq]
  simp [prediction]

/-- **C97, the layout.**  The array has `nloc` locations, each with `nradii` copies of the same
`ngauss` gaussians; row `r * ngauss + i` of a location in the written dataset is gaussian `i` of
radius `r` and carries `sersic_bin = r`; each location has `n_psf_per_source` rows; amplitudes sum
to the total amplitude times the summed weights, and within a radius are largest first for a
positive total amplitude. -/
theorem C97_layout (b : Best) (cx cy os : ℝ) (nloc nradii : ℕ) :
    let d := dataset (convert b cx cy os nloc nradii)
    d.length = nloc ∧
    ∀ row ∈ d, row.length = nPsfPerSource nradii b.pos.length ∧
      ∀ r i, r < nradii → ∀ g, (byWeight b.pos)[i]? = some g →
        ∃ p : Row, row[r * b.pos.length + i]? = some p ∧ p.sersicBin = r ∧
          p.amp = g.weight * b.a ∧ p = convertOne b.a cx cy os r g := by
  intro d
  have hlen : (byWeight b.pos).length = b.pos.length := (byWeight_perm b.pos).length_eq
  refine ⟨by simp [d, dataset, convert], fun row hrow => ?_⟩
  obtain ⟨loc, hl, rfl⟩ := List.mem_map.mp hrow
  have := (List.mem_replicate.mp hl).2
  subst this
  have flat : ∀ n : ℕ, (((List.range n).map fun r =>
      (byWeight b.pos).map (convertOne b.a cx cy os r)).flatten).length = n * b.pos.length := by
    intro n
    induction n with
    | zero => simp
    | succ n ih =>
      rw [List.range_succ, List.map_append, List.flatten_append, List.length_append, ih]
      simp [hlen, Nat.succ_mul]
  refine ⟨flat nradii, fun r i hr g hg => ⟨convertOne b.a cx cy os r g, ?_, rfl, rfl, rfl⟩⟩
  have hi : i < b.pos.length := by
    have := List.getElem?_eq_some_iff.mp hg
    rw [← hlen]; exact this.1
  have get : ∀ n : ℕ, r < n → (((List.range n).map fun r =>
      (byWeight b.pos).map (convertOne b.a cx cy os r)).flatten)[r * b.pos.length + i]?
      = some (convertOne b.a cx cy os r g) := by
    intro n hn
    induction n with
    | zero => exact absurd hn (Nat.not_lt_zero r)
    | succ n ih =>
      rw [List.range_succ, List.map_append, List.flatten_append]
      rcases Nat.lt_succ_iff_lt_or_eq.mp hn with l | e
      · rw [List.getElem?_append_left]
        · exact ih l
        · rw [flat]
          calc r * b.pos.length + i < r * b.pos.length + b.pos.length := by omega
            _ = (r + 1) * b.pos.length := by ring
            _ ≤ n * b.pos.length := Nat.mul_le_mul_right _ l
      · subst e
        rw [List.getElem?_append_right (by rw [flat]; omega), flat]
        simp [hg]
  exact get nradii hr

theorem C97_sorted (b : Best) (ha : 0 ≤ b.a) (cx cy os : ℝ) (r : ℕ) :
    ((byWeight b.pos).map (convertOne b.a cx cy os r)).Pairwise (fun p p' => p'.amp ≤ p.amp) ∧
    (((byWeight b.pos).map (convertOne b.a cx cy os r)).map Row.amp).sum
      = b.a * (b.pos.map HG.weight).sum := by
  constructor
  · rw [List.pairwise_map]
    exact (byWeight_sorted b.pos).imp fun h => mul_le_mul_of_nonneg_right h ha
  · rw [List.map_map]
    have : (Row.amp ∘ convertOne b.a cx cy os r) = fun g : HG => b.a * g.weight := by
      funext g; simp [convertOne, mul_comm]
    rw [this, List.sum_map_mul_left, ((byWeight_perm b.pos).map HG.weight).sum_eq]

/-- **C97, the way back.**  `scale_psf_data` with the centre and scale factor of the conversion
recovers the parameters of a converted gaussian. -/
theorem C97_roundtrip {g : HG} (h : Shaped g) (a cx cy : ℝ) {os : ℝ} (ho : 0 < os) (r : ℕ) :
    scaleBack cx cy (1 / os) (convertOne a cx cy os r g)
      = ⟨g.weight * a, g.x, g.y, g.sx, g.q * g.sx, g.rho⟩ := by
  have h1 := h.sx
  have h2 := h.q
  have s1 : Real.sqrt ((g.sx * (1 / os)) ^ 2) = g.sx * (1 / os) := Real.sqrt_sq (by positivity)
  have s2 : Real.sqrt ((g.sx * (1 / os) * g.q) ^ 2) = g.sx * (1 / os) * g.q :=
    Real.sqrt_sq (by positivity)
  unfold scaleBack convertOne
  dsimp only
  rw [s1, s2]
  congr 1 <;> field_simp <;> ring

/-- **C97, blurring.**  Blurring keeps flux, centre, correlation term and bin, adds the variance of
the kernel in both directions, keeps the covariance matrix positive definite, does nothing for width
zero, and blurring twice is blurring once with the widths added in quadrature. -/
theorem C97_blur (p : Row) (s t : ℝ) :
    (blur s p).amp = p.amp ∧ (blur s p).xcr = p.xcr ∧ (blur s p).ycr = p.ycr ∧
    (blur s p).cxy = p.cxy ∧ (blur s p).sersicBin = p.sersicBin ∧
    (blur s p).cxx = p.cxx + s * s ∧ (blur s p).cyy = p.cyy + s * s ∧
    blur 0 p = p ∧ blur t (blur s p) = blur (Real.sqrt (s ^ 2 + t ^ 2)) p ∧
    (0 < p.cxx → p.cxy ^ 2 < p.cxx * p.cyy →
      0 < (blur s p).cxx ∧ (blur s p).cxy ^ 2 < (blur s p).cxx * (blur s p).cyy) := by
  refine ⟨rfl, rfl, rfl, rfl, rfl, by simp [blur, sq], by simp [blur, sq], by simp [blur], ?_, ?_⟩
  · unfold blur
    dsimp only
    rw [Real.sq_sqrt (by positivity)]
    congr 1 <;> ring
  · intro h1 h2
    have h3 : 0 < p.cyy := by
      by_contra hn
      nlinarith [sq_nonneg p.cxy, not_lt.mp hn]
    unfold blur
    dsimp only
    refine ⟨by positivity, ?_⟩
    nlinarith [sq_nonneg s, mul_nonneg (sq_nonneg s) h1.le, mul_nonneg (sq_nonneg s) h3.le,
      mul_nonneg (sq_nonneg s) (sq_nonneg s)]

/-! ## A concrete case: one positive and one negative gaussian, oversampled twice -/

/-- A fitted dictionary with total amplitude 2. -/
noncomputable def sample : Best :=
  { pos := [⟨1 / 4, 10, 11, 2, 1, 0⟩, ⟨3 / 4, 10, 10, 1, 2, 1 / 2⟩], a := 2, bg := 1
    neg := [⟨1 / 10, 9, 9, 3, 1, 0⟩] }

example : (rectify sample).1.pos.map HG.weight = [1 / 2, 3 / 2, -1 / 10] := by
  unfold rectify sample
  norm_num

example : ∀ g ∈ (rectify sample).1.pos, Shaped g := by
  unfold rectify sample
  norm_num
  refine ⟨⟨?_, ?_, ?_⟩, ⟨?_, ?_, ?_⟩, ⟨?_, ?_, ?_⟩⟩ <;> norm_num

end Forcepho.Psfdata
