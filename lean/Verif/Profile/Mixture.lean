import Verif.Profile.Props
import Verif.Em.Props

/-!
# C100: radial profiles of gaussian mixtures

Models `Galaxy.profile` and `gauss` (`forcepho/sources.py:696-727`, `:1060-1067`) and the functions
of `forcepho/mixtures/sersic_mix_oned.py` that relate mixtures of gaussians to Sersic profiles.
-/

set_option autoImplicit false
set_option linter.unusedSectionVars false

namespace Forcepho.Profile

open MeasureTheory Filter Topology Set

noncomputable section

/-! ## Model -/

/-- `gauss(x, 0, sigma)` for one component: `C` is `sigma²` times the 2 by 2 identity, and
`det(2 pi C)` is written out (`forcepho/sources.py:1060-1067`). -/
def gauss (x sigma : ℝ) : ℝ :=
  let lndet2piC := Real.log (2 * Real.pi * sigma ^ 2 * (2 * Real.pi * sigma ^ 2) - 0 * 0)
  let chi := (x - 0) / sigma
  Real.exp (-0.5 * (chi ^ 2 + lndet2piC))

/-- `Galaxy.profile(r, band, epsilon)`: the components are pairs of amplitude and radius, `f` is the
flux of the band or 1 (`forcepho/sources.py:696-727`). -/
def profile (comps : List (ℝ × ℝ)) (eps f r : ℝ) : ℝ :=
  f * (comps.map fun c => c.1 * gauss r (Real.sqrt (c.2 ^ 2 + eps ^ 2))).sum

/-- `gauss_cfd(x, amplitudes, radii)` (`forcepho/mixtures/sersic_mix_oned.py:272-279`). -/
def gaussCfd (comps : List (ℝ × ℝ)) (x : ℝ) : ℝ :=
  (comps.map fun c => if c.2 ≤ 0 then c.1
    else c.1 * Real.Gamma 1 * gammainc 1 (0.5 * (x / c.2) ^ 2)).sum / (comps.map Prod.fst).sum

/-- `normal_oned(x, 0, A, sigma)` for one component (`sersic_mix_oned.py:167-173`). -/
def normalOned (x A sigma : ℝ) : ℝ :=
  A / (sigma * Real.sqrt (Real.pi * 2)) * Real.exp (-(x - 0) ^ 2 / (2 * sigma ^ 2))

/-- The mixture compared with the Sersic profile in `chisq`: `disps = hypot(disps, smoothing)`,
`amps /= disps * sqrt(2 pi)`, `normal_oned` (`sersic_mix_oned.py:102-105`). -/
def chisqMixture (comps : List (ℝ × ℝ)) (smoothing x : ℝ) : ℝ :=
  (comps.map fun c =>
    let d := Real.sqrt (c.2 ^ 2 + smoothing ^ 2)
    normalOned x (c.1 / (d * Real.sqrt (2 * Real.pi))) d).sum

/-- `sersic_profile(x, n, rh, sigma=0)` (`sersic_mix_oned.py:132-139`). -/
def sersicProfile (x n rh : ℝ) : ℝ :=
  let alpha := gammaincinv (2 * n) 0.5
  let r0 := rh / alpha ^ n
  Real.exp (-(x / r0) ^ (1.0 / n) + alpha)

/-- `rfrac_from_halfn(frac, n, rh)` (`sersic_mix_oned.py:239-245`). -/
def rfrac (frac n rh : ℝ) : ℝ :=
  let beta := gammaincinv (2 * n) frac
  let alpha := gammaincinv (2 * n) 0.5
  let r0 := rh / alpha ^ n
  r0 * beta ^ n

/-- `normal(x, sigma)` at one point for the covariance matrix `((a, c), (c, b))`
(`sersic_mix_oned.py:176-187`): the inverse matrix is written out. -/
def normal2d (a b c dx dy : ℝ) : ℝ :=
  let det := a * b - c * c
  let lnd := -0.5 * (dx * ((b * dx - c * dy) / det) + dy * ((a * dy - c * dx) / det))
  Real.exp lnd / Real.sqrt (2 * Real.pi * det)

/-- `sersic_prediction(xpix, ypix, x, y, a, weight, radii=..., g1, g2, bg)` at one pixel; the
components are pairs of weight and radius.  The shear arguments are not used
(`forcepho/mixtures/sersic_mix_twod.py:17-41`). -/
def sersicPrediction (xpix ypix x y a : ℝ) (comps : List (ℝ × ℝ)) (_g1 _g2 bg : ℝ) : ℝ :=
  (comps.map fun c =>
    let norm := a * c.1 / (2 * Real.pi * c.2 * c.2)
    let dx := (xpix - x) / c.2
    let dy := (ypix - y) / c.2
    norm * Real.exp (-0.5 * (dx ^ 2 + dy ^ 2))).sum + bg

/-! ## Theorems -/

/-- `gauss` is the round normal density of width `sigma`. -/
theorem gauss_eq {sigma : ℝ} (hs : 0 < sigma) (x : ℝ) :
    gauss x sigma = 1 / (2 * Real.pi * sigma ^ 2) * Real.exp (-(x ^ 2 / (2 * sigma ^ 2))) := by
  have hp := Real.pi_pos
  have hD : 0 < 2 * Real.pi * sigma ^ 2 := by positivity
  unfold gauss
  dsimp only
  have e : (-0.5 : ℝ) * (((x - 0) / sigma) ^ 2
        + Real.log (2 * Real.pi * sigma ^ 2 * (2 * Real.pi * sigma ^ 2) - 0 * 0))
      = -(x ^ 2 / (2 * sigma ^ 2)) - Real.log (2 * Real.pi * sigma ^ 2) := by
    rw [mul_zero, sub_zero, sub_zero, Real.log_mul hD.ne' hD.ne',
      show (-0.5 : ℝ) = -(1 / 2) by norm_num]
    generalize Real.log (2 * Real.pi * sigma ^ 2) = L
    field_simp
    ring
  rw [e, Real.exp_sub, Real.exp_log hD]
  ring

theorem gauss_flux {sigma : ℝ} (hs : 0 < sigma) (R : ℝ) :
    ∫ r in (0 : ℝ)..R, 2 * Real.pi * r * gauss r sigma
      = 1 - Real.exp (-(R ^ 2 / (2 * sigma ^ 2))) := by
  have hp := Real.pi_pos
  have d : ∀ r ∈ uIcc (0 : ℝ) R, HasDerivAt (fun r => -Real.exp (-(r ^ 2 / (2 * sigma ^ 2))))
      (2 * Real.pi * r * gauss r sigma) r := by
    intro r _
    have h1 : HasDerivAt (fun r : ℝ => -(r ^ 2 / (2 * sigma ^ 2)))
        (-((2 : ℕ) * r ^ (2 - 1) / (2 * sigma ^ 2))) r :=
      ((hasDerivAt_pow 2 r).div_const _).neg
    refine (h1.exp.neg).congr_deriv ?_
    rw [gauss_eq hs]
    push_cast
    field_simp
  have c : Continuous fun r : ℝ => 2 * Real.pi * r * gauss r sigma := by
    have : (fun r : ℝ => 2 * Real.pi * r * gauss r sigma) = fun r =>
        2 * Real.pi * r * (1 / (2 * Real.pi * sigma ^ 2) * Real.exp (-(r ^ 2 / (2 * sigma ^ 2)))) := by
      funext r; rw [gauss_eq hs]
    rw [this]
    fun_prop
  rw [intervalIntegral.integral_eq_sub_of_hasDerivAt d (c.intervalIntegrable _ _)]
  simp
  ring

theorem profile_continuous {comps : List (ℝ × ℝ)} {eps : ℝ} (f : ℝ)
    (h : ∀ c ∈ comps, 0 < c.2 ^ 2 + eps ^ 2) : Continuous (profile comps eps f) := by
  unfold profile
  refine continuous_const.mul ?_
  induction comps with
  | nil => simpa using continuous_const
  | cons c cs ih =>
    simp only [List.map_cons, List.sum_cons]
    refine Continuous.add ?_ (ih fun x hx => h x (List.mem_cons_of_mem _ hx))
    have : (fun r => c.1 * gauss r (Real.sqrt (c.2 ^ 2 + eps ^ 2))) = fun r : ℝ => c.1 *
        (1 / (2 * Real.pi * Real.sqrt (c.2 ^ 2 + eps ^ 2) ^ 2)
          * Real.exp (-(r ^ 2 / (2 * Real.sqrt (c.2 ^ 2 + eps ^ 2) ^ 2)))) := by
      funext r; rw [gauss_eq (Real.sqrt_pos.mpr (h c List.mem_cons_self))]
    rw [this]
    fun_prop

/-- **C100, the profile of a galaxy.**  The flux of `profile` inside radius `R` is the band flux
times the sum of the amplitudes times the share of each smoothed gaussian inside `R`. -/
theorem C100_profile {comps : List (ℝ × ℝ)} {eps : ℝ} (f R : ℝ)
    (h : ∀ c ∈ comps, 0 < c.2 ^ 2 + eps ^ 2) :
    ∫ r in (0 : ℝ)..R, 2 * Real.pi * r * profile comps eps f r
      = f * (comps.map fun c =>
          c.1 * (1 - Real.exp (-(R ^ 2 / (2 * (c.2 ^ 2 + eps ^ 2)))))).sum := by
  induction comps with
  | nil => simp [profile]
  | cons c cs ih =>
    have hc := h c List.mem_cons_self
    have hcs : ∀ c ∈ cs, 0 < c.2 ^ 2 + eps ^ 2 := fun x hx => h x (List.mem_cons_of_mem _ hx)
    have hs := Real.sqrt_pos.mpr hc
    have e : ∀ r : ℝ, 2 * Real.pi * r * profile (c :: cs) eps f r
        = f * c.1 * (2 * Real.pi * r * gauss r (Real.sqrt (c.2 ^ 2 + eps ^ 2)))
          + 2 * Real.pi * r * profile cs eps f r := by
      intro r
      simp only [profile, List.map_cons, List.sum_cons]
      ring
    have c1 : Continuous fun r : ℝ =>
        2 * Real.pi * r * gauss r (Real.sqrt (c.2 ^ 2 + eps ^ 2)) := by
      have : (fun r : ℝ => 2 * Real.pi * r * gauss r (Real.sqrt (c.2 ^ 2 + eps ^ 2))) = fun r =>
          2 * Real.pi * r * (1 / (2 * Real.pi * Real.sqrt (c.2 ^ 2 + eps ^ 2) ^ 2)
            * Real.exp (-(r ^ 2 / (2 * Real.sqrt (c.2 ^ 2 + eps ^ 2) ^ 2)))) := by
        funext r; rw [gauss_eq hs]
      rw [this]
      fun_prop
    have c2 : Continuous fun r : ℝ => 2 * Real.pi * r * profile cs eps f r :=
      (by fun_prop : Continuous fun r : ℝ => 2 * Real.pi * r).mul (profile_continuous f hcs)
    rw [intervalIntegral.integral_congr (fun r _ => e r),
      intervalIntegral.integral_add ((c1.intervalIntegrable _ _).const_mul _)
        (c2.intervalIntegrable _ _), intervalIntegral.integral_const_mul, gauss_flux hs, ih hcs,
      Real.sq_sqrt hc.le]
    simp only [List.map_cons, List.sum_cons]
    ring

/-- C100, total: the flux of the profile tends to the band flux times the sum of the amplitudes, so
it is the band flux when the amplitudes sum to one. -/
theorem C100_total {comps : List (ℝ × ℝ)} {eps : ℝ} (f : ℝ)
    (h : ∀ c ∈ comps, 0 < c.2 ^ 2 + eps ^ 2) (h1 : (comps.map Prod.fst).sum = 1) :
    Tendsto (fun R => ∫ r in (0 : ℝ)..R, 2 * Real.pi * r * profile comps eps f r) atTop (𝓝 f) := by
  have t : ∀ cs : List (ℝ × ℝ), (∀ c ∈ cs, 0 < c.2 ^ 2 + eps ^ 2) →
      Tendsto (fun R : ℝ => (cs.map fun c =>
        c.1 * (1 - Real.exp (-(R ^ 2 / (2 * (c.2 ^ 2 + eps ^ 2)))))).sum) atTop
        (𝓝 (cs.map Prod.fst).sum) := by
    intro cs
    induction cs with
    | nil => intro _; simpa using tendsto_const_nhds
    | cons c cs ih =>
      intro hh
      simp only [List.map_cons, List.sum_cons]
      refine Tendsto.add ?_ (ih fun x hx => hh x (List.mem_cons_of_mem _ hx))
      have hc := hh c List.mem_cons_self
      have h2 : Tendsto (fun R : ℝ => R ^ 2 / (2 * (c.2 ^ 2 + eps ^ 2))) atTop atTop :=
        (tendsto_pow_atTop two_ne_zero).atTop_div_const (by positivity)
      have h3 := (Real.tendsto_exp_neg_atTop_nhds_zero.comp h2).const_sub 1 |>.const_mul c.1
      simpa using h3
  have := (t comps h).const_mul f
  rw [h1, mul_one] at this
  refine this.congr fun R => ?_
  rw [C100_profile f R h]

theorem gammainc_one {x : ℝ} : gammainc 1 x = 1 - Real.exp (-x) := by
  unfold gammainc lowerGamma
  rw [Real.Gamma_one, div_one]
  have e : ∀ t : ℝ, t ^ ((1 : ℝ) - 1) * Real.exp (-t) = Real.exp (-t) := by
    intro t; rw [sub_self, Real.rpow_zero, one_mul]
  rw [intervalIntegral.integral_congr (fun t _ => e t)]
  have d : ∀ t ∈ uIcc (0 : ℝ) x, HasDerivAt (fun t : ℝ => -Real.exp (-t)) (Real.exp (-t)) t := by
    intro t _
    exact ((hasDerivAt_neg t).exp.neg).congr_deriv (by ring)
  rw [intervalIntegral.integral_eq_sub_of_hasDerivAt d
    ((by fun_prop : Continuous fun t : ℝ => Real.exp (-t)).intervalIntegrable _ _)]
  simp
  ring

/-- **C100, the cumulative curve.**  For positive radii the cumulative curve is the flux of the
unsmoothed profile inside `x` as a share of the total. -/
theorem C100_cumulative {comps : List (ℝ × ℝ)} (hr : ∀ c ∈ comps, 0 < c.2)
    (h0 : (comps.map Prod.fst).sum ≠ 0) (x : ℝ) :
    gaussCfd comps x * (comps.map Prod.fst).sum
      = ∫ r in (0 : ℝ)..x, 2 * Real.pi * r * profile comps 0 1 r := by
  rw [C100_profile 1 x (fun c hc => by have := hr c hc; positivity), one_mul]
  unfold gaussCfd
  rw [div_mul_cancel₀ _ h0]
  congr 1
  apply List.map_congr_left
  intro c hc
  have h := hr c hc
  rw [if_neg (not_le.mpr h), Real.Gamma_one, mul_one, gammainc_one]
  congr 3
  rw [show (0.5 : ℝ) = 1 / 2 by norm_num]
  field_simp
  simp

/-- C100, point components (radius zero) count fully at every radius. -/
theorem C100_cumulative_point (a : ℝ) (ha : a ≠ 0) (x : ℝ) : gaussCfd [(a, 0)] x = 1 := by
  simp [gaussCfd, ha]

/-- **C100, the mixture fitted to the Sersic profile** is the profile of a galaxy with those
amplitudes, radii and smoothing. -/
theorem C100_fitted {comps : List (ℝ × ℝ)} {s : ℝ} (h : ∀ c ∈ comps, 0 < c.2 ^ 2 + s ^ 2) (x : ℝ) :
    chisqMixture comps s x = profile comps s 1 x := by
  unfold chisqMixture profile
  rw [one_mul]
  congr 1
  apply List.map_congr_left
  intro c hc
  have hs := Real.sqrt_pos.mpr (h c hc)
  dsimp only
  rw [gauss_eq hs]
  generalize Real.sqrt (c.2 ^ 2 + s ^ 2) = d at hs
  unfold normalOned
  have hp := Real.pi_pos
  have e1 : Real.sqrt (Real.pi * 2) * Real.sqrt (2 * Real.pi) = 2 * Real.pi := by
    rw [mul_comm Real.pi 2]
    exact Real.mul_self_sqrt (by positivity)
  have e2 : -(x - 0) ^ 2 / (2 * d ^ 2) = -(x ^ 2 / (2 * d ^ 2)) := by ring
  rw [e2]
  have s1 : 0 < Real.sqrt (Real.pi * 2) := Real.sqrt_pos.mpr (by positivity)
  have s2 : 0 < Real.sqrt (2 * Real.pi) := Real.sqrt_pos.mpr (by positivity)
  calc c.1 / (d * Real.sqrt (2 * Real.pi)) / (d * Real.sqrt (Real.pi * 2))
        * Real.exp (-(x ^ 2 / (2 * d ^ 2)))
      = c.1 / (d ^ 2 * (Real.sqrt (Real.pi * 2) * Real.sqrt (2 * Real.pi)))
        * Real.exp (-(x ^ 2 / (2 * d ^ 2))) := by field_simp
    _ = _ := by rw [e1]; field_simp

/-- **C100, the image model.**  The predicted pixel value is the background plus the radial profile
at the distance of the pixel from the centre. -/
theorem C100_prediction {comps : List (ℝ × ℝ)} (hr : ∀ c ∈ comps, 0 < c.2)
    (xpix ypix x y a g1 g2 bg : ℝ) :
    sersicPrediction xpix ypix x y a comps g1 g2 bg
      = bg + profile comps 0 a (Real.sqrt ((xpix - x) ^ 2 + (ypix - y) ^ 2)) := by
  unfold sersicPrediction profile
  rw [add_comm, ← List.sum_map_mul_left]
  congr 2
  apply List.map_congr_left
  intro c hc
  have h := hr c hc
  have e : Real.sqrt (c.2 ^ 2 + 0 ^ 2) = c.2 := by
    rw [show c.2 ^ 2 + (0 : ℝ) ^ 2 = c.2 ^ 2 by ring, Real.sqrt_sq h.le]
  dsimp only
  rw [e, gauss_eq h, Real.sq_sqrt (by positivity)]
  have e2 : (-0.5 : ℝ) * (((xpix - x) / c.2) ^ 2 + ((ypix - y) / c.2) ^ 2)
      = -(((xpix - x) ^ 2 + (ypix - y) ^ 2) / (2 * c.2 ^ 2)) := by
    rw [show (-0.5 : ℝ) = -(1 / 2) by norm_num]
    field_simp
  rw [e2]
  have hp := Real.pi_pos
  field_simp

/-- **The shear arguments of the image model have no effect**: a sheared source is predicted round. -/
theorem C100_shear_refuted (comps : List (ℝ × ℝ)) (x y a g1 g2 bg d : ℝ) :
    sersicPrediction (x + d) y x y a comps g1 g2 bg = sersicPrediction x (y + d) x y a comps g1 g2 bg := by
  unfold sersicPrediction
  congr 2
  apply List.map_congr_left
  intro c _
  dsimp only
  rw [add_sub_cancel_left, add_sub_cancel_left, sub_self, sub_self, add_comm]

/-- **C100, the Sersic target.**  The unsmoothed target is the Sersic profile with intensity one at
the half-light radius. -/
theorem C100_sersic {x n rh : ℝ} (hn : 0 < n) (hrh : 0 < rh) (hx : 0 ≤ x) :
    sersicProfile x n rh = sersic 1 rh n (bn n) x ∧ sersicProfile rh n rh = 1 := by
  have hk : 0 < bn n := (bn_spec hn).1
  have gen : ∀ y : ℝ, 0 ≤ y → sersicProfile y n rh = sersic 1 rh n (bn n) y := by
    intro y hy
    change Real.exp (-(y / (rh / bn n ^ n)) ^ (1.0 / n) + bn n) = _
    unfold sersic
    rw [one_mul]
    congr 1
    have hkn := Real.rpow_pos_of_pos hk n
    have e : y / (rh / bn n ^ n) = y / rh * bn n ^ n := by field_simp
    rw [e, show (1.0 : ℝ) / n = 1 / n by norm_num, Real.mul_rpow (div_nonneg hy hrh.le) hkn.le,
      ← Real.rpow_mul hk.le, mul_one_div_cancel hn.ne', Real.rpow_one]
    ring
  refine ⟨gen x hx, ?_⟩
  rw [gen rh hrh.le]
  unfold sersic
  rw [div_self hrh.ne', Real.one_rpow]
  simp

/-- **C100, radius of a fraction.**  `rfrac_from_halfn` inverts the enclosed fraction: the returned
radius is positive and encloses exactly that share of the flux. -/
theorem C100_rfrac {frac n rh : ℝ} (hn : 0 < n) (hrh : 0 < rh) (h0 : 0 < frac) (h1 : frac < 1) :
    0 < rfrac frac n rh ∧ fracSersic (rfrac frac n rh) rh n = frac ∧ rfrac 0.5 n rh = rh := by
  have hk : 0 < bn n := (bn_spec hn).1
  have hb := gammaincinv_spec (a := 2 * n) (by linarith) h0 h1
  have hkn := Real.rpow_pos_of_pos hk n
  have hbn := Real.rpow_pos_of_pos hb.1 n
  have hr : rfrac frac n rh = rh / bn n ^ n * gammaincinv (2 * n) frac ^ n := rfl
  refine ⟨by rw [hr]; positivity, ?_, ?_⟩
  · change gammainc (2 * n) (bn n * (rfrac frac n rh / rh) ^ (1 / n)) = frac
    have e : bn n * (rfrac frac n rh / rh) ^ (1 / n) = gammaincinv (2 * n) frac := by
      have : rfrac frac n rh / rh = (gammaincinv (2 * n) frac / bn n) ^ n := by
        rw [hr, Real.div_rpow hb.1.le hk.le]
        field_simp
      rw [this, ← Real.rpow_mul (div_pos hb.1 hk).le, mul_one_div_cancel hn.ne', Real.rpow_one]
      field_simp
    rw [e, hb.2]
  · change rh / bn n ^ n * bn n ^ n = rh
    field_simp

/-- **The helper `normal` is not a normal density.**  For every positive definite covariance matrix
its value is `sqrt (2 pi)` times the two-dimensional normal density: it uses the one-dimensional
normalisation. -/
theorem C100_normal_refuted {a b c : ℝ} (hd : 0 < a * b - c * c) (dx dy : ℝ) :
    normal2d a b c dx dy = Real.sqrt (2 * Real.pi) * Em.normalDensity a b c dx dy ∧
    normal2d a b c dx dy ≠ Em.normalDensity a b c dx dy := by
  have hp := Real.pi_pos
  have e : normal2d a b c dx dy = Real.sqrt (2 * Real.pi) * Em.normalDensity a b c dx dy := by
    unfold normal2d Em.normalDensity
    dsimp only
    rw [Real.sqrt_mul (by positivity : (0 : ℝ) ≤ 2 * Real.pi)]
    have e1 : (-0.5 : ℝ) * (dx * ((b * dx - c * dy) / (a * b - c * c))
          + dy * ((a * dy - c * dx) / (a * b - c * c)))
        = -(1 / 2) * ((b * dx * dx - 2 * c * dx * dy + a * dy * dy) / (a * b - c * c)) := by
      rw [show (-0.5 : ℝ) = -(1 / 2) by norm_num]
      ring
    rw [e1]
    have s1 : 0 < Real.sqrt (2 * Real.pi) := Real.sqrt_pos.mpr (by positivity)
    have s2 : 0 < Real.sqrt (a * b - c * c) := Real.sqrt_pos.mpr hd
    have e2 : 2 * Real.pi = Real.sqrt (2 * Real.pi) * Real.sqrt (2 * Real.pi) :=
      (Real.mul_self_sqrt (by positivity)).symm
    generalize Real.exp _ = E
    have : Real.sqrt (2 * Real.pi) * (1 / (2 * Real.pi * Real.sqrt (a * b - c * c)) * E)
        = Real.sqrt (2 * Real.pi) * (1 / (Real.sqrt (2 * Real.pi) * Real.sqrt (2 * Real.pi)
          * Real.sqrt (a * b - c * c)) * E) := by rw [← e2]
    rw [this]
    field_simp
  refine ⟨e, fun h => ?_⟩
  rw [e] at h
  have hpos : 0 < Em.normalDensity a b c dx dy := by
    unfold Em.normalDensity
    have := Real.sqrt_pos.mpr hd
    have := Real.exp_pos (-(1 / 2) * ((b * dx * dx - 2 * c * dx * dy + a * dy * dy) / (a * b - c * c)))
    positivity
  have h1 : Real.sqrt (2 * Real.pi) = 1 := by
    have : (Real.sqrt (2 * Real.pi) - 1) * Em.normalDensity a b c dx dy = 0 := by linarith
    rcases mul_eq_zero.mp this with h | h
    · linarith
    · exact absurd h hpos.ne'
  have h2 : 2 * Real.pi = 1 := by
    have := Real.mul_self_sqrt (by positivity : (0 : ℝ) ≤ 2 * Real.pi)
    rw [h1] at this
    linarith
  linarith [Real.two_le_pi]

/-! ## Concrete case -/

example : ∫ r in (0 : ℝ)..1, 2 * Real.pi * r * profile [(1 / 4, 0), (3 / 4, 1)] 1 8 r
    = 8 * (1 / 4 * (1 - Real.exp (-(1 / 2))) + 3 / 4 * (1 - Real.exp (-(1 / 4)))) := by
  rw [C100_profile 8 1 (by intro c hc; simp at hc; rcases hc with rfl | rfl <;> norm_num)]
  norm_num

end

end Forcepho.Profile
