import Verif.Em.Moments

/-!
# C94, C95: one pass of EM and the likelihood

C94: an EM pass turns usable gaussians into usable gaussians whose amplitudes sum to one, whose
centres lie inside the image, and whose combined flux, centroid and second moments are those of the
image.

C95: the log likelihood never decreases from one pass to the next once the amplitudes sum to one.
-/

set_option autoImplicit false
set_option linter.unusedSectionVars false

namespace Forcepho.Em

open Finset

variable {nx ny K : ℕ}

/-- Images EM is used on: no negative pixel, and three positive pixels not on a line. -/
structure GoodImage (im : Pix nx ny → ℝ) : Prop where
  nonneg : ∀ p, 0 ≤ im p
  spread : ∃ p q r : Pix nx ny, 0 < im p ∧ 0 < im q ∧ 0 < im r ∧
    ((q.1.val : ℝ) - p.1.val) * ((r.2.val : ℝ) - p.2.val)
      - ((r.1.val : ℝ) - p.1.val) * ((q.2.val : ℝ) - p.2.val) ≠ 0

/-- The bivariate normal density of covariance `((a, c), (c, b))` at offset `(dx, dy)`: the
textbook formula with the inverse of the matrix written out. -/
noncomputable def normalDensity (a b c dx dy : ℝ) : ℝ :=
  1 / (2 * Real.pi * Real.sqrt (a * b - c * c))
    * Real.exp (-(1 / 2) * ((b * dx * dx - 2 * c * dx * dy + a * dy * dy) / (a * b - c * c)))

/-- The sampled gaussian is the amplitude times the normal density of the covariance matrix with
variances `sx²`, `sy²` and correlation `rho`. -/
theorem C94_density {c : Comp} (h : Usable c) (x y : ℝ) :
    mvnPdf x y c = c.amp * normalDensity (c.sx ^ 2) (c.sy ^ 2) (c.rho * c.sx * c.sy)
      (x - c.mux) (y - c.muy) := by
  have hr : 0 < 1 - c.rho ^ 2 := by linarith [h.rho]
  have h2 := h.sx
  have h3 := h.sy
  have ed : c.sx ^ 2 * c.sy ^ 2 - c.rho * c.sx * c.sy * (c.rho * c.sx * c.sy)
      = (c.sx * c.sy) ^ 2 * (1 - c.rho ^ 2) := by ring
  have es : Real.sqrt ((c.sx * c.sy) ^ 2 * (1 - c.rho ^ 2))
      = c.sx * c.sy * Real.sqrt (1 - c.rho ^ 2) := by
    rw [Real.sqrt_mul (sq_nonneg _), Real.sqrt_sq (mul_pos h2 h3).le]
  unfold mvnPdf normalDensity
  dsimp only
  rw [ed, es]
  have ee : (-0.5 : ℝ) / (1 - c.rho ^ 2) * (((x - c.mux) / c.sx) ^ 2 + ((y - c.muy) / c.sy) ^ 2
        - 2 * c.rho * ((x - c.mux) / c.sx) * ((y - c.muy) / c.sy))
      = -(1 / 2) * ((c.sy ^ 2 * (x - c.mux) * (x - c.mux)
          - 2 * (c.rho * c.sx * c.sy) * (x - c.mux) * (y - c.muy)
          + c.sx ^ 2 * (y - c.muy) * (y - c.muy)) / ((c.sx * c.sy) ^ 2 * (1 - c.rho ^ 2))) := by
    have : (-0.5 : ℝ) = -(1 / 2) := by norm_num
    rw [this]
    field_simp
    ring
  rw [ee]
  have hs := (Real.sqrt_pos.mpr hr)
  have := Real.pi_pos
  field_simp

/-! ## Weights -/

theorem weights_eq {ps : Fin K → Comp} (hu : ∀ k, Usable (ps k)) (p : Pix nx ny) (k : Fin K) :
    weights ps p k = mvnPdf2d (ps k) p / mixImage ps p := by
  have hpos : ∀ j, 0 < mvnPdf2d (ps j) p := fun j => mvnPdf_pos (hu j) _ _
  have hsum : ∑ j, |mvnPdf2d (ps j) p| = mixImage ps p :=
    sum_congr rfl fun j _ => abs_of_pos (hpos j)
  have hne : mixImage ps p ≠ 0 := by
    have : 0 < mixImage ps p := sum_pos (fun j _ => hpos j) ⟨k, mem_univ k⟩
    exact this.ne'
  unfold weights normalized
  dsimp only
  rw [hsum, if_neg hne]

theorem mix_pos {ps : Fin K → Comp} (hK : 0 < K) (hu : ∀ k, Usable (ps k)) (p : Pix nx ny) :
    0 < mixImage ps p :=
  sum_pos (fun j _ => mvnPdf_pos (hu j) _ _) ⟨⟨0, hK⟩, mem_univ _⟩

theorem weights_pos {ps : Fin K → Comp} (hu : ∀ k, Usable (ps k)) (p : Pix nx ny) (k : Fin K) :
    0 < weights ps p k := by
  rw [weights_eq hu]
  exact div_pos (mvnPdf_pos (hu k) _ _) (mix_pos (Nat.zero_lt_of_lt k.isLt) hu p)

theorem weights_sum {ps : Fin K → Comp} (hK : 0 < K) (hu : ∀ k, Usable (ps k)) (p : Pix nx ny) :
    ∑ k, weights ps p k = 1 := by
  have : ∀ k, weights ps p k = mvnPdf2d (ps k) p / mixImage ps p := fun k => weights_eq hu p k
  rw [sum_congr rfl fun k _ => this k, ← sum_div]
  exact div_self (mix_pos hK hu p).ne'

/-- The share of the image given to component `k`. -/
theorem share_nonneg {im : Pix nx ny → ℝ} (hi : GoodImage im) {ps : Fin K → Comp}
    (hu : ∀ k, Usable (ps k)) (k : Fin K) (p : Pix nx ny) : 0 ≤ im p * weights ps p k :=
  mul_nonneg (hi.nonneg p) (weights_pos hu p k).le

theorem share_spread {im : Pix nx ny → ℝ} (hi : GoodImage im) {ps : Fin K → Comp}
    (hu : ∀ k, Usable (ps k)) (k : Fin K) :
    Spread (fun p => im p * weights ps p k) locX locY := by
  obtain ⟨p, q, r, hp, hq, hr, hd⟩ := hi.spread
  exact ⟨p, q, r, mul_pos hp (weights_pos hu p k), mul_pos hq (weights_pos hu q k),
    mul_pos hr (weights_pos hu r k), hd⟩

theorem nk_pos {im : Pix nx ny → ℝ} (hi : GoodImage im) {ps : Fin K → Comp}
    (hu : ∀ k, Usable (ps k)) (k : Fin K) : 0 < nk im ps k := by
  obtain ⟨p, _, _, hp, _⟩ := hi.spread
  exact sum_pos' (fun q _ => share_nonneg hi hu k q) ⟨p, mem_univ p, mul_pos hp (weights_pos hu p k)⟩

theorem nk_sum {im : Pix nx ny → ℝ} {ps : Fin K → Comp} (hK : 0 < K)
    (hu : ∀ k, Usable (ps k)) (f : Pix nx ny → ℝ) :
    ∑ k, ∑ p, im p * weights ps p k * f p = ∑ p, im p * f p := by
  rw [sum_comm]
  refine sum_congr rfl fun p _ => ?_
  have : ∀ k, im p * weights ps p k * f p = im p * f p * weights ps p k := fun k => by ring
  rw [sum_congr rfl fun k _ => this k, ← mul_sum, weights_sum hK hu p, mul_one]

theorem nk_total {im : Pix nx ny → ℝ} {ps : Fin K → Comp} (hK : 0 < K)
    (hu : ∀ k, Usable (ps k)) : ∑ k, nk im ps k = ∑ p, im p := by
  have := nk_sum (im := im) hK hu (fun _ => 1)
  simpa [nk] using this

theorem im_total_pos {im : Pix nx ny → ℝ} (hi : GoodImage im) : 0 < ∑ p, im p := by
  obtain ⟨p, _, _, hp, _⟩ := hi.spread
  exact sum_pos' (fun q _ => hi.nonneg q) ⟨p, mem_univ p, hp⟩

/-! ## The moments of the new component -/

theorem step_mux {im : Pix nx ny → ℝ} (hi : GoodImage im) {ps : Fin K → Comp}
    (hu : ∀ k, Usable (ps k)) (k : Fin K) :
    ∑ p, im p * weights ps p k * locX p = nk im ps k * (emStep im ps k).mux := by
  have := (nk_pos hi hu k).ne'
  simp only [emStep]
  field_simp

theorem step_muy {im : Pix nx ny → ℝ} (hi : GoodImage im) {ps : Fin K → Comp}
    (hu : ∀ k, Usable (ps k)) (k : Fin K) :
    ∑ p, im p * weights ps p k * locY p = nk im ps k * (emStep im ps k).muy := by
  have := (nk_pos hi hu k).ne'
  simp only [emStep]
  field_simp

theorem step_sx_pos {im : Pix nx ny → ℝ} (hi : GoodImage im) {ps : Fin K → Comp}
    (hu : ∀ k, Usable (ps k)) (k : Fin K) : 0 < (emStep im ps k).sx := by
  simp only [emStep]
  exact Real.sqrt_pos.mpr (div_pos
    (var_pos (share_nonneg hi hu k) (share_spread hi hu k) _) (nk_pos hi hu k))

theorem step_sy_pos {im : Pix nx ny → ℝ} (hi : GoodImage im) {ps : Fin K → Comp}
    (hu : ∀ k, Usable (ps k)) (k : Fin K) : 0 < (emStep im ps k).sy := by
  simp only [emStep]
  exact Real.sqrt_pos.mpr (div_pos
    (var_pos' (share_nonneg hi hu k) (share_spread hi hu k) _) (nk_pos hi hu k))

theorem step_sx_sq {im : Pix nx ny → ℝ} (hi : GoodImage im) {ps : Fin K → Comp}
    (hu : ∀ k, Usable (ps k)) (k : Fin K) :
    ∑ p, im p * weights ps p k * (locX p - (emStep im ps k).mux) ^ 2
      = nk im ps k * (emStep im ps k).sx ^ 2 := by
  have hN := nk_pos hi hu k
  have hv := var_pos (share_nonneg hi hu k) (share_spread hi hu k) (emStep im ps k).mux
  have e : (emStep im ps k).sx ^ 2
      = (∑ p, im p * weights ps p k * (locX p - (emStep im ps k).mux) ^ 2) / nk im ps k :=
    Real.sq_sqrt (div_pos hv hN).le
  rw [e, mul_div_cancel₀ _ hN.ne']

theorem step_sy_sq {im : Pix nx ny → ℝ} (hi : GoodImage im) {ps : Fin K → Comp}
    (hu : ∀ k, Usable (ps k)) (k : Fin K) :
    ∑ p, im p * weights ps p k * (locY p - (emStep im ps k).muy) ^ 2
      = nk im ps k * (emStep im ps k).sy ^ 2 := by
  have hN := nk_pos hi hu k
  have hv := var_pos' (share_nonneg hi hu k) (share_spread hi hu k) (emStep im ps k).muy
  have e : (emStep im ps k).sy ^ 2
      = (∑ p, im p * weights ps p k * (locY p - (emStep im ps k).muy) ^ 2) / nk im ps k :=
    Real.sq_sqrt (div_pos hv hN).le
  rw [e, mul_div_cancel₀ _ hN.ne']

theorem step_cross {im : Pix nx ny → ℝ} (hi : GoodImage im) {ps : Fin K → Comp}
    (hu : ∀ k, Usable (ps k)) (k : Fin K) :
    ∑ p, im p * weights ps p k * (locX p - (emStep im ps k).mux) * (locY p - (emStep im ps k).muy)
      = nk im ps k * ((emStep im ps k).rho * (emStep im ps k).sx * (emStep im ps k).sy) := by
  have hN := (nk_pos hi hu k).ne'
  have h1 := (step_sx_pos hi hu k).ne'
  have h2 := (step_sy_pos hi hu k).ne'
  have e : (emStep im ps k).rho
      = (∑ p, im p * weights ps p k * (locX p - (emStep im ps k).mux)
          * (locY p - (emStep im ps k).muy))
        / (nk im ps k * (emStep im ps k).sx * (emStep im ps k).sy) := rfl
  rw [e]
  field_simp

theorem step_amp {im : Pix nx ny → ℝ} {ps : Fin K → Comp} (hu : ∀ k, Usable (ps k)) (k : Fin K) :
    (emStep im ps k).amp = nk im ps k / ∑ p, im p := by
  rw [← nk_total (im := im) (Nat.zero_lt_of_lt k.isLt) hu]
  rfl

/-- **C94.**  One EM pass on a good image with usable gaussians gives usable gaussians (no division
by zero happens on the way), with amplitudes that sum to one and centres inside the pixel grid. -/
theorem C94_step {im : Pix nx ny → ℝ} (hi : GoodImage im) {ps : Fin K → Comp} (hK : 0 < K)
    (hu : ∀ k, Usable (ps k)) :
    (∀ k, Usable (emStep im ps k)) ∧
    ∑ k, (emStep im ps k).amp = 1 ∧
    ∀ k, 0 ≤ (emStep im ps k).mux ∧ (emStep im ps k).mux ≤ (nx : ℝ) - 1
      ∧ 0 ≤ (emStep im ps k).muy ∧ (emStep im ps k).muy ≤ (ny : ℝ) - 1 := by
  refine ⟨fun k => ⟨?_, step_sx_pos hi hu k, step_sy_pos hi hu k, ?_⟩, ?_, fun k => ?_⟩
  · rw [step_amp hu]
    exact div_pos (nk_pos hi hu k) (im_total_pos hi)
  · have h := cross_lt (share_nonneg hi hu k) (share_spread hi hu k) (emStep im ps k).mux
      (emStep im ps k).muy
    rw [step_sx_sq hi hu k, step_sy_sq hi hu k, step_cross hi hu k] at h
    have hN := nk_pos hi hu k
    have h1 := step_sx_pos hi hu k
    have h2 := step_sy_pos hi hu k
    have hp : 0 < (nk im ps k * (emStep im ps k).sx * (emStep im ps k).sy) ^ 2 := by positivity
    have : (emStep im ps k).rho ^ 2
        * (nk im ps k * (emStep im ps k).sx * (emStep im ps k).sy) ^ 2
        < 1 * (nk im ps k * (emStep im ps k).sx * (emStep im ps k).sy) ^ 2 := by
      calc _ = (nk im ps k * ((emStep im ps k).rho * (emStep im ps k).sx * (emStep im ps k).sy)) ^ 2
            := by ring
        _ < _ := h
        _ = _ := by ring
    exact lt_of_mul_lt_mul_right this hp.le
  · rw [sum_congr rfl fun k _ => step_amp hu k, ← sum_div, nk_total hK hu]
    exact div_self (im_total_pos hi).ne'
  · have hN := nk_pos hi hu k
    have hx := step_mux hi hu k
    have hy := step_muy hi hu k
    have bound : ∀ f : Pix nx ny → ℝ, ∀ b m : ℝ, (∀ p, 0 ≤ f p ∧ f p ≤ b) →
        ∑ p, im p * weights ps p k * f p = nk im ps k * m → 0 ≤ m ∧ m ≤ b := by
      intro f b m hf hm
      constructor
      · have : 0 ≤ nk im ps k * m := by
          rw [← hm]
          exact sum_nonneg fun p _ => mul_nonneg (share_nonneg hi hu k p) (hf p).1
        exact nonneg_of_mul_nonneg_right this hN
      · have : nk im ps k * m ≤ nk im ps k * b := by
          rw [← hm, nk, sum_mul]
          exact sum_le_sum fun p _ => mul_le_mul_of_nonneg_left (hf p).2 (share_nonneg hi hu k p)
        exact le_of_mul_le_mul_left this hN
    have bx : ∀ p : Pix nx ny, 0 ≤ locX p ∧ locX p ≤ (nx : ℝ) - 1 := by
      intro p
      refine ⟨Nat.cast_nonneg _, ?_⟩
      have : ((p.1.val + 1 : ℕ) : ℝ) ≤ (nx : ℝ) := by exact_mod_cast p.1.isLt
      push_cast at this
      unfold locX
      linarith
    have bY : ∀ p : Pix nx ny, 0 ≤ locY p ∧ locY p ≤ (ny : ℝ) - 1 := by
      intro p
      refine ⟨Nat.cast_nonneg _, ?_⟩
      have : ((p.2.val + 1 : ℕ) : ℝ) ≤ (ny : ℝ) := by exact_mod_cast p.2.isLt
      push_cast at this
      unfold locY
      linarith
    exact ⟨(bound _ _ _ bx hx).1, (bound _ _ _ bx hx).2, (bound _ _ _ bY hy).1,
      (bound _ _ _ bY hy).2⟩

/-- C94 along the loop: every iterate stays usable, and from the first pass on the amplitudes sum
to one. -/
theorem C94_iterates {im : Pix nx ny → ℝ} (hi : GoodImage im) {ps : Fin K → Comp} (hK : 0 < K)
    (hu : ∀ k, Usable (ps k)) (n : ℕ) :
    (∀ k, Usable ((emStep im)^[n] ps k)) ∧
    (0 < n → ∑ k, ((emStep im)^[n] ps k).amp = 1) := by
  induction n with
  | zero => exact ⟨hu, fun h => absurd h (lt_irrefl _)⟩
  | succ n ih =>
    rw [Function.iterate_succ_apply']
    have := C94_step hi hK ih.1
    exact ⟨this.1, fun _ => this.2.1⟩

/-- **C94, moments.**  After one EM pass the mixture as a whole has the centroid and the second
moments of the image: weighting the components by their amplitudes, the mean of the centres is the
mean of the image, and variances plus squared centres (and the mixed term) are the raw second
moments of the image. -/
theorem C94_moments {im : Pix nx ny → ℝ} (hi : GoodImage im) {ps : Fin K → Comp} (hK : 0 < K)
    (hu : ∀ k, Usable (ps k)) :
    let S := ∑ p, im p
    let q := emStep im ps
    ∑ k, (q k).amp * (q k).mux = (∑ p : Pix nx ny, im p * (p.1.val : ℝ)) / S ∧
    ∑ k, (q k).amp * (q k).muy = (∑ p : Pix nx ny, im p * (p.2.val : ℝ)) / S ∧
    ∑ k, (q k).amp * ((q k).sx ^ 2 + (q k).mux ^ 2)
      = (∑ p : Pix nx ny, im p * (p.1.val : ℝ) ^ 2) / S ∧
    ∑ k, (q k).amp * ((q k).sy ^ 2 + (q k).muy ^ 2)
      = (∑ p : Pix nx ny, im p * (p.2.val : ℝ) ^ 2) / S ∧
    ∑ k, (q k).amp * ((q k).rho * (q k).sx * (q k).sy + (q k).mux * (q k).muy)
      = (∑ p : Pix nx ny, im p * ((p.1.val : ℝ) * (p.2.val : ℝ))) / S := by
  intro S q
  have hS : 0 < S := im_total_pos hi
  have lift : ∀ (f : Pix nx ny → ℝ) (g : Fin K → ℝ),
      (∀ k, ∑ p, im p * weights ps p k * f p = nk im ps k * g k) →
      ∑ k, (q k).amp * g k = (∑ p, im p * f p) / S := by
    intro f g h
    rw [← nk_sum hK hu f, sum_div]
    refine sum_congr rfl fun k _ => ?_
    rw [h k, show (q k).amp = nk im ps k / S from step_amp hu k]
    ring
  refine ⟨lift _ _ fun k => step_mux hi hu k, lift _ _ fun k => step_muy hi hu k,
    lift (fun p => locX p ^ 2) _ fun k => ?_, lift (fun p => locY p ^ 2) _ fun k => ?_,
    lift (fun p => locX p * locY p) _ fun k => ?_⟩
  · have := sum_sq_shift (v := fun p => im p * weights ps p k) (X := locX) (N := nk im ps k) rfl
      (step_mux hi hu k) 0
    simp only [sub_zero] at this
    rw [this, step_sx_sq hi hu k]
    ring
  · have := sum_sq_shift (v := fun p => im p * weights ps p k) (X := locY) (N := nk im ps k) rfl
      (step_muy hi hu k) 0
    simp only [sub_zero] at this
    rw [this, step_sy_sq hi hu k]
    ring
  · have := sum_cross_shift (v := fun p => im p * weights ps p k) (X := locX) (Y := locY)
      (N := nk im ps k) rfl (step_mux hi hu k) (step_muy hi hu k) 0 0
    simp only [sub_zero] at this
    have e : ∀ p : Pix nx ny, im p * weights ps p k * (locX p * locY p)
        = im p * weights ps p k * locX p * locY p := fun p => by ring
    rw [sum_congr rfl fun p _ => e p, this, step_cross hi hu k]
    ring

/-! ## One component: the moments of the image -/

/-- With one component a single EM pass gives the gaussian of `easy_init` (the moments of the
image), whatever usable gaussian it starts from, except that the amplitude is one and not the total
flux. -/
theorem C94_single {im : Pix nx ny → ℝ} (hi : GoodImage im) {ps : Fin 1 → Comp}
    (hu : ∀ k, Usable (ps k)) :
    emStep im ps 0 = { easyInit im with amp := 1 } := by
  have hw : ∀ p : Pix nx ny, weights ps p 0 = 1 := by
    intro p
    have := weights_sum (nx := nx) (ny := ny) (by norm_num : 0 < 1) hu p
    simpa using this
  have hn : nk im ps 0 = ∑ p, im p := by simp [nk, hw]
  have hS := im_total_pos hi
  have hx : meanParams im = ((∑ p, im p * locX p) / ∑ p, im p, (∑ p, im p * locY p) / ∑ p, im p) := by
    simp [meanParams, noncentralMoment]
  simp only [emStep, easyInit, covParams, hx, hw, hn, mul_one]
  congr 1
  · simp [hn, hS.ne']
  · rw [← sum_div, div_div, mul_assoc]

/-- The moments reported for an image: the mean is the flux-weighted mean of the pixel indices, the
first central moments vanish, and widths and correlation are those of the second central moments. -/
theorem C94_image_moments {im : Pix nx ny → ℝ} (hi : GoodImage im) :
    let c := easyInit im
    let S := ∑ p, im p
    c.amp = S ∧
    c.mux * S = ∑ p : Pix nx ny, im p * (p.1.val : ℝ) ∧
    c.muy * S = ∑ p : Pix nx ny, im p * (p.2.val : ℝ) ∧
    centralMoment im 1 0 = 0 ∧ centralMoment im 0 1 = 0 ∧
    c.sx ^ 2 * S = centralMoment im 2 0 ∧ c.sy ^ 2 * S = centralMoment im 0 2 ∧
    c.rho * c.sx * c.sy * S = centralMoment im 1 1 ∧
    centralMoment im 2 0 = ∑ p : Pix nx ny, im p * ((p.1.val : ℝ) - c.mux) ^ 2 ∧
    centralMoment im 0 2 = ∑ p : Pix nx ny, im p * ((p.2.val : ℝ) - c.muy) ^ 2 ∧
    centralMoment im 1 1
      = ∑ p : Pix nx ny, im p * (((p.1.val : ℝ) - c.mux) * ((p.2.val : ℝ) - c.muy)) ∧
    Usable c := by
  intro c S
  have hS : 0 < S := im_total_pos hi
  have hx : c.mux = (∑ p, im p * locX p) / S := by
    simp [c, S, easyInit, meanParams, noncentralMoment]
  have hy : c.muy = (∑ p, im p * locY p) / S := by
    simp [c, S, easyInit, meanParams, noncentralMoment]
  have ex : ∑ p, im p * locX p = S * c.mux := by rw [hx]; field_simp
  have ey : ∑ p, im p * locY p = S * c.muy := by rw [hy]; field_simp
  have cm : ∀ a b, centralMoment im a b
      = ∑ p, im p * (locX p - c.mux) ^ a * (locY p - c.muy) ^ b := by
    intro a b; rw [hx, hy]; rfl
  have sp : Spread im locX locY := hi.spread
  have vx := var_pos hi.nonneg sp c.mux
  have vy := var_pos' hi.nonneg sp c.muy
  have sx : c.sx = Real.sqrt ((∑ p, im p * (locX p - c.mux) ^ 2) / S) := rfl
  have sy : c.sy = Real.sqrt ((∑ p, im p * (locY p - c.muy) ^ 2) / S) := rfl
  have sx2 : c.sx ^ 2 * S = ∑ p, im p * (locX p - c.mux) ^ 2 := by
    rw [sx, Real.sq_sqrt (div_pos vx hS).le]; field_simp
  have sy2 : c.sy ^ 2 * S = ∑ p, im p * (locY p - c.muy) ^ 2 := by
    rw [sy, Real.sq_sqrt (div_pos vy hS).le]; field_simp
  have px : 0 < c.sx := by rw [sx]; exact Real.sqrt_pos.mpr (div_pos vx hS)
  have py : 0 < c.sy := by rw [sy]; exact Real.sqrt_pos.mpr (div_pos vy hS)
  have hr : c.rho * c.sx * c.sy * S = ∑ p, im p * (locX p - c.mux) * (locY p - c.muy) := by
    have : c.rho = (∑ p, im p * (locX p - c.mux) * (locY p - c.muy) / S) / (c.sx * c.sy) := rfl
    rw [this, ← sum_div]
    field_simp
  refine ⟨rfl, by rw [mul_comm]; exact ex.symm, by rw [mul_comm]; exact ey.symm, ?_, ?_, ?_, ?_, ?_,
    ?_, ?_, ?_, ⟨hS, px, py, ?_⟩⟩
  · rw [cm]
    have : ∀ p : Pix nx ny, im p * (locX p - c.mux) ^ 1 * (locY p - c.muy) ^ 0
        = im p * locX p - c.mux * im p := fun p => by ring
    rw [sum_congr rfl fun p _ => this p, sum_sub_distrib, ← mul_sum, ex]
    ring
  · rw [cm]
    have : ∀ p : Pix nx ny, im p * (locX p - c.mux) ^ 0 * (locY p - c.muy) ^ 1
        = im p * locY p - c.muy * im p := fun p => by ring
    rw [sum_congr rfl fun p _ => this p, sum_sub_distrib, ← mul_sum, ey]
    ring
  · rw [cm, sx2]; simp
  · rw [cm, sy2]; simp
  · rw [cm, hr]; simp
  · rw [cm]; simp [locX]
  · rw [cm]; simp [locY]
  · rw [cm]; refine sum_congr rfl fun p _ => ?_; simp only [locX, locY]; ring
  · have h := cross_lt hi.nonneg sp c.mux c.muy
    rw [← sx2, ← sy2, ← hr] at h
    have hp : 0 < (S * c.sx * c.sy) ^ 2 := by positivity
    have : c.rho ^ 2 * (S * c.sx * c.sy) ^ 2 < 1 * (S * c.sx * c.sy) ^ 2 := by
      calc _ = (c.rho * c.sx * c.sy * S) ^ 2 := by ring
        _ < _ := h
        _ = _ := by ring
    exact lt_of_mul_lt_mul_right this hp.le

/-! ## C95: the likelihood -/

/-- The likelihood being climbed, written without the helpers of the model: the sum over pixels of
the pixel value times the logarithm of the sum of the weighted normal densities. -/
noncomputable def likelihoodSpec (im : Pix nx ny → ℝ) (ps : Fin K → Comp) : ℝ :=
  ∑ p : Pix nx ny, im p * Real.log (∑ k, (ps k).amp
    * normalDensity ((ps k).sx ^ 2) ((ps k).sy ^ 2) ((ps k).rho * (ps k).sx * (ps k).sy)
        ((p.1.val : ℝ) - (ps k).mux) ((p.2.val : ℝ) - (ps k).muy))

theorem C95_likelihood (im : Pix nx ny → ℝ) {ps : Fin K → Comp} (hu : ∀ k, Usable (ps k)) :
    logLikelihood im ps = likelihoodSpec im ps := by
  unfold logLikelihood likelihoodSpec mixImage mvnPdf2d
  refine sum_congr rfl fun p _ => ?_
  congr 2
  exact sum_congr rfl fun k _ => C94_density (hu k) _ _

/-- **C95.**  If the amplitudes sum to one, an EM pass does not decrease the log likelihood. -/
theorem C95_step {im : Pix nx ny → ℝ} (hi : GoodImage im) {ps : Fin K → Comp} (hK : 0 < K)
    (hu : ∀ k, Usable (ps k)) (hone : ∑ k, (ps k).amp = 1) :
    likelihoodSpec im ps ≤ likelihoodSpec im (emStep im ps) := by
  have hstep := C94_step hi hK hu
  rw [← C95_likelihood im hu, ← C95_likelihood im hstep.1]
  have hS := im_total_pos hi
  set q := emStep im ps with hq
  have hu' := hstep.1
  -- pixelwise Jensen
  have pw : ∀ p : Pix nx ny,
      ∑ k, weights ps p k * (Real.log (mvnPdf2d (q k) p) - Real.log (mvnPdf2d (ps k) p))
        ≤ Real.log (mixImage q p) - Real.log (mixImage ps p) := by
    intro p
    have hpos : ∀ k, 0 < mvnPdf2d (ps k) p := fun k => mvnPdf_pos (hu k) _ _
    have hpos' : ∀ k, 0 < mvnPdf2d (q k) p := fun k => mvnPdf_pos (hu' k) _ _
    have j := log_jensen (w := weights ps p) (r := fun k => mvnPdf2d (q k) p / mvnPdf2d (ps k) p)
      (fun k => (weights_pos hu p k).le) (weights_sum hK hu p) (fun k => div_pos (hpos' k) (hpos k))
    have e : ∑ k, weights ps p k * (mvnPdf2d (q k) p / mvnPdf2d (ps k) p)
        = mixImage q p / mixImage ps p := by
      have : ∀ k, weights ps p k * (mvnPdf2d (q k) p / mvnPdf2d (ps k) p)
          = mvnPdf2d (q k) p / mixImage ps p := by
        intro k
        rw [weights_eq hu]
        have := (hpos k).ne'
        have := (mix_pos hK hu p).ne'
        field_simp
      rw [sum_congr rfl fun k _ => this k, ← sum_div]
      rfl
    rw [e, Real.log_div (mix_pos hK hu' p).ne' (mix_pos hK hu p).ne'] at j
    refine le_trans (le_of_eq ?_) j
    refine sum_congr rfl fun k _ => ?_
    rw [Real.log_div (hpos' k).ne' (hpos k).ne']
  -- summed over the image
  have tot : ∑ p, im p * ∑ k, weights ps p k
        * (Real.log (mvnPdf2d (q k) p) - Real.log (mvnPdf2d (ps k) p))
      ≤ logLikelihood im q - logLikelihood im ps := by
    unfold logLikelihood
    rw [← sum_sub_distrib]
    refine sum_le_sum fun p _ => ?_
    rw [← mul_sub]
    exact mul_le_mul_of_nonneg_left (pw p) (hi.nonneg p)
  have swap : ∑ p, im p * ∑ k, weights ps p k
        * (Real.log (mvnPdf2d (q k) p) - Real.log (mvnPdf2d (ps k) p))
      = ∑ k, ∑ p, im p * weights ps p k
        * (Real.log (mvnPdf2d (q k) p) - Real.log (mvnPdf2d (ps k) p)) := by
    rw [sum_comm]
    refine sum_congr rfl fun p _ => ?_
    rw [mul_sum]
    exact sum_congr rfl fun k _ => by ring
  rw [swap] at tot
  -- every component improves, up to the amplitudes
  have comp : ∀ k, nk im ps k * (Real.log (q k).amp - Real.log (ps k).amp)
      ≤ ∑ p, im p * weights ps p k
        * (Real.log (mvnPdf2d (q k) p) - Real.log (mvnPdf2d (ps k) p)) := by
    intro k
    have b := best_gaussian (v := fun p => im p * weights ps p k) (X := locX) (Y := locY)
      (N := nk im ps k) rfl (nk_pos hi hu k) (hu k) (hu' k) (step_mux hi hu k) (step_muy hi hu k)
      (step_sx_sq hi hu k) (step_sy_sq hi hu k) (step_cross hi hu k)
    have e : ∑ p, im p * weights ps p k
        * (Real.log (mvnPdf2d (q k) p) - Real.log (mvnPdf2d (ps k) p))
        = (∑ p, im p * weights ps p k * (Real.log (mvnPdf (locX p) (locY p) (q k))
              - Real.log (q k).amp))
          - (∑ p, im p * weights ps p k * (Real.log (mvnPdf (locX p) (locY p) (ps k))
              - Real.log (ps k).amp))
          + nk im ps k * (Real.log (q k).amp - Real.log (ps k).amp) := by
      rw [nk, sum_mul, ← sum_sub_distrib, ← sum_add_distrib]
      refine sum_congr rfl fun p _ => ?_
      simp only [mvnPdf2d, locX, locY]
      ring
    rw [e]
    linarith
  -- the amplitudes: Gibbs' inequality
  have gibbs : 0 ≤ ∑ k, nk im ps k * (Real.log (q k).amp - Real.log (ps k).amp) := by
    have j := log_jensen (w := fun k => (q k).amp) (r := fun k => (ps k).amp / (q k).amp)
      (fun k => (hu' k).amp.le) hstep.2.1 (fun k => div_pos (hu k).amp (hu' k).amp)
    have e : ∑ k, (q k).amp * ((ps k).amp / (q k).amp) = 1 := by
      rw [← hone]
      refine sum_congr rfl fun k _ => ?_
      have := (hu' k).amp.ne'
      field_simp
    rw [e, Real.log_one] at j
    have : ∀ k, nk im ps k * (Real.log (q k).amp - Real.log (ps k).amp)
        = - (∑ p, im p) * ((q k).amp * Real.log ((ps k).amp / (q k).amp)) := by
      intro k
      rw [Real.log_div (hu k).amp.ne' (hu' k).amp.ne',
        show (q k).amp = nk im ps k / ∑ p, im p from step_amp hu k]
      field_simp
      ring
    rw [sum_congr rfl fun k _ => this k, ← mul_sum]
    nlinarith
  have := sum_le_sum fun k (_ : k ∈ (univ : Finset (Fin K))) => comp k
  linarith

/-- **C95 along the loop.**  From the first pass on the log likelihood never decreases, whatever
usable gaussians the fit starts from. -/
theorem C95_monotone_partial {im : Pix nx ny → ℝ} (hi : GoodImage im) {ps : Fin K → Comp} (hK : 0 < K)
    (hu : ∀ k, Usable (ps k)) {m n : ℕ} (hm : 0 < m) (hmn : m ≤ n) :
    likelihoodSpec im ((emStep im)^[m] ps) ≤ likelihoodSpec im ((emStep im)^[n] ps) := by
  induction n, hmn using Nat.le_induction with
  | base => exact le_refl _
  | succ n hn ih =>
    rw [Function.iterate_succ_apply']
    have hit := C94_iterates hi hK hu n
    exact le_trans ih (C95_step hi hK hit.1 (hit.2 (lt_of_lt_of_le hm hn)))

/-- A single gaussian with the moments of the image is the best fit of amplitude one: no usable
gaussian of amplitude one has a larger likelihood than the result of one EM pass. -/
theorem C95_single_best {im : Pix nx ny → ℝ} (hi : GoodImage im) {c : Comp} (hc : Usable c)
    (h1 : c.amp = 1) :
    likelihoodSpec im (fun _ : Fin 1 => c)
      ≤ likelihoodSpec im (fun _ : Fin 1 => { easyInit im with amp := 1 }) := by
  have hu : ∀ k : Fin 1, Usable ((fun _ : Fin 1 => c) k) := fun _ => hc
  have h := C95_step hi (by norm_num : 0 < 1) hu (by simpa using h1)
  have e : emStep im (fun _ : Fin 1 => c) = fun _ : Fin 1 => { easyInit im with amp := 1 } := by
    funext k
    rw [Subsingleton.elim k 0]
    exact C94_single hi hu
  rwa [e] at h

end Forcepho.Em
