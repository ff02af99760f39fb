import Verif.Profile.Model
import Mathlib.MeasureTheory.Integral.IntegralEqImproper
import Mathlib.Analysis.SpecialFunctions.Integrals.Basic
import Mathlib.Topology.Order.IntermediateValue
import Mathlib.Tactic.Linarith
import Mathlib.Tactic.FieldSimp
import Mathlib.Tactic.Ring
import Mathlib.Tactic.Positivity

/-!
# C98, C99: sersic profile utilities

C98: the enclosed fraction, the effective intensity and the isophotal radius are those of the Sersic
profile.  C99: the Kron radius.
-/

set_option autoImplicit false
set_option linter.unusedSectionVars false

namespace Forcepho.Profile

open MeasureTheory Filter Topology Set

/-! ## The incomplete gamma function -/

theorem integrand_pos {a t : ℝ} (ht : 0 < t) : 0 < t ^ (a - 1) * Real.exp (-t) :=
  mul_pos (Real.rpow_pos_of_pos ht _) (Real.exp_pos _)

theorem intervalIntegrable {a : ℝ} (ha : 0 < a) (x y : ℝ) :
    IntervalIntegrable (fun t : ℝ => t ^ (a - 1) * Real.exp (-t)) volume x y :=
  (intervalIntegral.intervalIntegrable_rpow' (by linarith)).mul_continuousOn
    (Real.continuous_exp.comp continuous_neg).continuousOn

theorem lowerGamma_continuous {a : ℝ} (ha : 0 < a) : Continuous (lowerGamma a) :=
  intervalIntegral.continuous_primitive (fun x y => intervalIntegrable ha x y) 0

theorem lowerGamma_zero (a : ℝ) : lowerGamma a 0 = 0 := by simp [lowerGamma]

theorem lowerGamma_hasDerivAt {a x : ℝ} (ha : 0 < a) (hx : 0 < x) :
    HasDerivAt (lowerGamma a) (x ^ (a - 1) * Real.exp (-x)) x := by
  have hc : ContinuousAt (fun t : ℝ => t ^ (a - 1) * Real.exp (-t)) x :=
    (Real.continuousAt_rpow_const x (a - 1) (Or.inl hx.ne')).mul
      (Real.continuous_exp.comp continuous_neg).continuousAt
  refine intervalIntegral.integral_hasDerivAt_right (intervalIntegrable ha 0 x) ?_ hc
  refine ContinuousOn.stronglyMeasurableAtFilter (s := Ioi 0) isOpen_Ioi ?_ x hx
  intro t ht
  exact ((Real.continuousAt_rpow_const t (a - 1) (Or.inl (ne_of_gt ht))).mul
      (Real.continuous_exp.comp continuous_neg).continuousAt).continuousWithinAt

theorem lowerGamma_strictMono {a : ℝ} (ha : 0 < a) : StrictMonoOn (lowerGamma a) (Ici 0) := by
  refine strictMonoOn_of_deriv_pos (convex_Ici 0) (lowerGamma_continuous ha).continuousOn ?_
  intro x hx
  rw [interior_Ici] at hx
  rw [(lowerGamma_hasDerivAt ha hx).deriv]
  exact integrand_pos hx

theorem lowerGamma_tendsto {a : ℝ} (ha : 0 < a) :
    Tendsto (lowerGamma a) atTop (𝓝 (Real.Gamma a)) := by
  rw [Real.Gamma_eq_integral ha]
  have e : ∫ x in Ioi (0 : ℝ), Real.exp (-x) * x ^ (a - 1)
      = ∫ x in Ioi (0 : ℝ), x ^ (a - 1) * Real.exp (-x) := by
    congr 1; funext x; ring
  rw [e]
  have hi : IntegrableOn (fun t : ℝ => t ^ (a - 1) * Real.exp (-t)) (Ioi 0) := by
    have := Real.GammaIntegral_convergent ha
    refine this.congr_fun (fun x _ => by ring) measurableSet_Ioi
  exact intervalIntegral_tendsto_integral_Ioi 0 hi tendsto_id

theorem gammainc_zero (a : ℝ) : gammainc a 0 = 0 := by simp [gammainc, lowerGamma_zero]

theorem gammainc_strictMono {a : ℝ} (ha : 0 < a) : StrictMonoOn (gammainc a) (Ici 0) := by
  intro x hx y hy h
  exact div_lt_div_of_pos_right (lowerGamma_strictMono ha hx hy h) (Real.Gamma_pos_of_pos ha)

theorem gammainc_tendsto {a : ℝ} (ha : 0 < a) : Tendsto (gammainc a) atTop (𝓝 1) := by
  have := (lowerGamma_tendsto ha).div_const (Real.Gamma a)
  rwa [div_self (Real.Gamma_pos_of_pos ha).ne'] at this

theorem gammainc_lt_one {a x : ℝ} (ha : 0 < a) (hx : 0 ≤ x) : gammainc a x < 1 := by
  have h1 : gammainc a x < gammainc a (x + 1) :=
    gammainc_strictMono ha hx (by simp only [mem_Ici]; linarith) (by linarith)
  refine lt_of_lt_of_le h1 (ge_of_tendsto (gammainc_tendsto ha) ?_)
  filter_upwards [eventually_ge_atTop (x + 1)] with y hy
  exact (gammainc_strictMono ha).monotoneOn (by simp only [mem_Ici]; linarith)
    (by simp only [mem_Ici]; linarith) hy

/-- The inverse exists: for a fraction strictly between 0 and 1 `gammaincinv` is the unique positive
solution. -/
theorem gammaincinv_spec {a p : ℝ} (ha : 0 < a) (h0 : 0 < p) (h1 : p < 1) :
    0 < gammaincinv a p ∧ gammainc a (gammaincinv a p) = p := by
  have hc : Continuous (gammainc a) := (lowerGamma_continuous ha).div_const _
  obtain ⟨b, hb⟩ := ((gammainc_tendsto ha).eventually (lt_mem_nhds h1)).and
    (eventually_ge_atTop 0) |>.exists
  have ex : ∃ x, 0 ≤ x ∧ gammainc a x = p := by
    have := intermediate_value_Icc hb.2 hc.continuousOn
    obtain ⟨x, hx, he⟩ := this (show p ∈ Icc (gammainc a 0) (gammainc a b) by
      rw [gammainc_zero]; exact ⟨h0.le, hb.1.le⟩)
    exact ⟨x, hx.1, he⟩
  have hs := Classical.epsilon_spec ex
  change 0 ≤ gammaincinv a p ∧ gammainc a (gammaincinv a p) = p at hs
  refine ⟨lt_of_le_of_ne hs.1 fun he => ?_, hs.2⟩
  rw [← he, gammainc_zero] at hs
  linarith [hs.2]

/-- The constant `b_n`. -/
theorem bn_spec {n : ℝ} (hn : 0 < n) :
    0 < gammaincinv (2 * n) 0.5 ∧ gammainc (2 * n) (gammaincinv (2 * n) 0.5) = 0.5 :=
  gammaincinv_spec (by linarith) (by norm_num) (by norm_num)

/-! ## Specification: the Sersic profile -/

/-- The Sersic profile of effective intensity `ie`, half-light radius `rh`, index `n` and constant
`k`. -/
noncomputable def sersic (ie rh n k r : ℝ) : ℝ := ie * Real.exp (-k * ((r / rh) ^ (1 / n) - 1))

/-- The `s`-th radial moment of `exp (-k (r/rh)^(1/n))` out to `R`. -/
theorem moment_integral {s n k rh R : ℝ} (hs : 1 ≤ s) (hn : 0 < n) (hk : 0 < k) (hrh : 0 < rh)
    (hR : 0 ≤ R) :
    ∫ r in (0 : ℝ)..R, r ^ (s - 1) * Real.exp (-(k * (r / rh) ^ (1 / n)))
      = n * rh ^ s / k ^ (s * n) * lowerGamma (s * n) (k * (R / rh) ^ (1 / n)) := by
  have hs0 : 0 < s := by linarith
  have hsn : 0 < s * n := mul_pos hs0 hn
  have xc : Continuous fun r : ℝ => k * (r / rh) ^ (1 / n) :=
    continuous_const.mul ((continuous_id.div_const rh).rpow_const
      (fun r => Or.inr (by positivity)))
  have key := intervalIntegral.integral_eq_sub_of_hasDerivAt_of_le hR
    (f := fun r => n * rh ^ s / k ^ (s * n) * lowerGamma (s * n) (k * (r / rh) ^ (1 / n)))
    (f' := fun r => r ^ (s - 1) * Real.exp (-(k * (r / rh) ^ (1 / n))))
    (continuous_const.mul ((lowerGamma_continuous hsn).comp xc)).continuousOn ?_ ?_
  · rw [key]
    have : (0 / rh : ℝ) ^ (1 / n) = 0 := by
      rw [zero_div, Real.zero_rpow (by positivity)]
    rw [this]
    simp [lowerGamma_zero]
  · intro r hr
    have hr0 : 0 < r := hr.1
    have hq : 0 < r / rh := by positivity
    have hx : 0 < k * (r / rh) ^ (1 / n) := mul_pos hk (Real.rpow_pos_of_pos hq _)
    have d1 : HasDerivAt (fun r : ℝ => k * (r / rh) ^ (1 / n))
        (k * ((1 / rh) * (1 / n) * (r / rh) ^ (1 / n - 1))) r :=
      (((hasDerivAt_id r).div_const rh).rpow_const (Or.inl hq.ne')).const_mul k
    have d2 := ((lowerGamma_hasDerivAt hsn hx).comp r d1).const_mul (n * rh ^ s / k ^ (s * n))
    refine d2.congr_deriv ?_
    have e1 : (k * (r / rh) ^ (1 / n)) ^ (s * n - 1)
        = k ^ (s * n - 1) * (r / rh) ^ (s - 1 / n) := by
      rw [Real.mul_rpow hk.le (Real.rpow_nonneg hq.le _), ← Real.rpow_mul hq.le]
      congr 2
      field_simp
    have e2 : (r / rh) ^ (s - 1 / n) * (r / rh) ^ (1 / n - 1) = (r / rh) ^ (s - 1) := by
      rw [← Real.rpow_add hq]
      congr 1
      ring
    have e3 : (r / rh) ^ (s - 1) = r ^ (s - 1) / rh ^ (s - 1) := Real.div_rpow hr0.le hrh.le _
    have e4 : rh ^ s = rh ^ (s - 1) * rh := by
      rw [← Real.rpow_add_one hrh.ne']; congr 1; ring
    have e5 : k ^ (s * n) = k ^ (s * n - 1) * k := by
      rw [← Real.rpow_add_one hk.ne']; congr 1; ring
    have p1 : (rh ^ (s - 1)) ≠ 0 := (Real.rpow_pos_of_pos hrh _).ne'
    have p2 : (k ^ (s * n - 1)) ≠ 0 := (Real.rpow_pos_of_pos hk _).ne'
    rw [e1, e4, e5]
    calc n * (rh ^ (s - 1) * rh) / (k ^ (s * n - 1) * k)
          * (k ^ (s * n - 1) * (r / rh) ^ (s - 1 / n) * Real.exp (-(k * (r / rh) ^ (1 / n)))
            * (k * (1 / rh * (1 / n) * (r / rh) ^ (1 / n - 1))))
        = rh ^ (s - 1) * ((r / rh) ^ (s - 1 / n) * (r / rh) ^ (1 / n - 1))
            * Real.exp (-(k * (r / rh) ^ (1 / n))) := by field_simp
      _ = r ^ (s - 1) * Real.exp (-(k * (r / rh) ^ (1 / n))) := by
          rw [e2, e3]; field_simp
  · refine Continuous.intervalIntegrable ?_ _ _
    exact (continuous_id.rpow_const (fun r => Or.inr (by linarith))).mul
      (Real.continuous_exp.comp xc.neg)

/-- The flux of the profile inside radius `R`: intensity integrated over circles. -/
noncomputable def fluxWithin (ie rh n k R : ℝ) : ℝ :=
  ∫ r in (0 : ℝ)..R, 2 * Real.pi * r * sersic ie rh n k r

/-- The flux-weighted sum of radii inside `R`. -/
noncomputable def radiusWithin (ie rh n k R : ℝ) : ℝ :=
  ∫ r in (0 : ℝ)..R, r * (2 * Real.pi * r * sersic ie rh n k r)

theorem fluxWithin_eq {ie rh n k R : ℝ} (hn : 0 < n) (hk : 0 < k) (hrh : 0 < rh) (hR : 0 ≤ R) :
    fluxWithin ie rh n k R = 2 * Real.pi * ie * Real.exp k * (n * rh ^ 2 / k ^ (2 * n))
      * lowerGamma (2 * n) (k * (R / rh) ^ (1 / n)) := by
  have m := moment_integral (s := 2) (by norm_num) hn hk hrh hR
  have e : ∀ r : ℝ, 2 * Real.pi * r * sersic ie rh n k r
      = 2 * Real.pi * ie * Real.exp k * (r ^ ((2 : ℝ) - 1)
        * Real.exp (-(k * (r / rh) ^ (1 / n)))) := by
    intro r
    have : -k * ((r / rh) ^ (1 / n) - 1) = k + -(k * (r / rh) ^ (1 / n)) := by ring
    rw [sersic, this, Real.exp_add, show ((2 : ℝ) - 1) = 1 by norm_num, Real.rpow_one]
    ring
  unfold fluxWithin
  rw [intervalIntegral.integral_congr (fun r _ => e r), intervalIntegral.integral_const_mul, m,
    show rh ^ (2 : ℝ) = rh ^ 2 by exact_mod_cast Real.rpow_natCast rh 2]
  ring

theorem radiusWithin_eq {ie rh n k R : ℝ} (hn : 0 < n) (hk : 0 < k) (hrh : 0 < rh) (hR : 0 ≤ R) :
    radiusWithin ie rh n k R = 2 * Real.pi * ie * Real.exp k * (n * rh ^ 3 / k ^ (3 * n))
      * lowerGamma (3 * n) (k * (R / rh) ^ (1 / n)) := by
  have m := moment_integral (s := 3) (by norm_num) hn hk hrh hR
  have e : ∀ r : ℝ, r * (2 * Real.pi * r * sersic ie rh n k r)
      = 2 * Real.pi * ie * Real.exp k * (r ^ ((3 : ℝ) - 1)
        * Real.exp (-(k * (r / rh) ^ (1 / n)))) := by
    intro r
    have : -k * ((r / rh) ^ (1 / n) - 1) = k + -(k * (r / rh) ^ (1 / n)) := by ring
    rw [sersic, this, Real.exp_add, show ((3 : ℝ) - 1) = (2 : ℕ) by norm_num, Real.rpow_natCast]
    ring
  unfold radiusWithin
  rw [intervalIntegral.integral_congr (fun r _ => e r), intervalIntegral.integral_const_mul, m,
    show rh ^ (3 : ℝ) = rh ^ 3 by exact_mod_cast Real.rpow_natCast rh 3]
  ring

theorem x_tendsto {rh n k : ℝ} (hn : 0 < n) (hk : 0 < k) (hrh : 0 < rh) :
    Tendsto (fun R : ℝ => k * (R / rh) ^ (1 / n)) atTop atTop :=
  Tendsto.const_mul_atTop hk
    ((tendsto_rpow_atTop (by positivity : 0 < 1 / n)).comp (tendsto_id.atTop_div_const hrh))

/-- The flux of the profile inside `R` tends to its total. -/
theorem flux_total {ie rh n k : ℝ} (hn : 0 < n) (hk : 0 < k) (hrh : 0 < rh) :
    Tendsto (fluxWithin ie rh n k) atTop
      (𝓝 (2 * Real.pi * ie * Real.exp k * (n * rh ^ 2 / k ^ (2 * n)) * Real.Gamma (2 * n))) := by
  have h := ((lowerGamma_tendsto (a := 2 * n) (by linarith)).comp (x_tendsto hn hk hrh)).const_mul
    (2 * Real.pi * ie * Real.exp k * (n * rh ^ 2 / k ^ (2 * n)))
  refine h.congr' ?_
  filter_upwards [eventually_ge_atTop 0] with R hR
  rw [fluxWithin_eq hn hk hrh hR]
  rfl

theorem radius_total {ie rh n k : ℝ} (hn : 0 < n) (hk : 0 < k) (hrh : 0 < rh) :
    Tendsto (radiusWithin ie rh n k) atTop
      (𝓝 (2 * Real.pi * ie * Real.exp k * (n * rh ^ 3 / k ^ (3 * n)) * Real.Gamma (3 * n))) := by
  have h := ((lowerGamma_tendsto (a := 3 * n) (by linarith)).comp (x_tendsto hn hk hrh)).const_mul
    (2 * Real.pi * ie * Real.exp k * (n * rh ^ 3 / k ^ (3 * n)))
  refine h.congr' ?_
  filter_upwards [eventually_ge_atTop 0] with R hR
  rw [radiusWithin_eq hn hk hrh hR]
  rfl

/-! ## C98 -/

/-- The constant of the profile used by all functions: half the flux is inside `rh`. -/
noncomputable def bn (n : ℝ) : ℝ := gammaincinv (2 * n) 0.5

/-- **C98, enclosed fraction.**  `frac_sersic(R)` times the total flux of the Sersic profile is the
flux inside `R`; at the half-light radius the fraction is one half. -/
theorem C98_fraction {ie rh n R total : ℝ} (hn : 0 < n) (hrh : 0 < rh) (hR : 0 ≤ R)
    (ht : Tendsto (fluxWithin ie rh n (bn n)) atTop (𝓝 total)) :
    fracSersic R rh n * total = fluxWithin ie rh n (bn n) R ∧ fracSersic rh rh n = 1 / 2 := by
  have hk := (bn_spec hn).1
  change 0 < bn n at hk
  have e := tendsto_nhds_unique ht (flux_total hn hk hrh)
  constructor
  · rw [e, fluxWithin_eq hn hk hrh hR]
    have := (Real.Gamma_pos_of_pos (by linarith : 0 < 2 * n)).ne'
    change gammainc (2 * n) (bn n * (R / rh) ^ (1 / n)) * _ = _
    unfold gammainc
    field_simp
  · change gammainc (2 * n) (bn n * (rh / rh) ^ (1 / n)) = _
    rw [div_self hrh.ne', Real.one_rpow, mul_one]
    exact (bn_spec hn).2.trans (by norm_num)

/-- C98, shape of the fraction: zero at the centre, strictly increasing, below one, and tending to
one. -/
theorem C98_fraction_shape {rh n : ℝ} (hn : 0 < n) (hrh : 0 < rh) :
    fracSersic 0 rh n = 0 ∧
    (∀ R S, 0 ≤ R → R < S → fracSersic R rh n < fracSersic S rh n) ∧
    (∀ R, 0 ≤ R → fracSersic R rh n < 1) ∧
    Tendsto (fun R => fracSersic R rh n) atTop (𝓝 1) := by
  have hk := (bn_spec hn).1
  have h2 : 0 < 2 * n := by linarith
  have nn : ∀ R : ℝ, 0 ≤ R → 0 ≤ gammaincinv (2 * n) 0.5 * (R / rh) ^ (1 / n) := fun R hR =>
    mul_nonneg hk.le (Real.rpow_nonneg (div_nonneg hR hrh.le) _)
  refine ⟨?_, fun R S hR h => ?_, fun R hR => gammainc_lt_one h2 (nn R hR), ?_⟩
  · simp only [fracSersic]
    rw [zero_div, Real.zero_rpow (by positivity), mul_zero, gammainc_zero]
  · refine gammainc_strictMono h2 (nn R hR) (nn S (by linarith)) ?_
    refine mul_lt_mul_of_pos_left ?_ hk
    exact Real.rpow_lt_rpow (div_nonneg hR hrh.le) (div_lt_div_of_pos_right h hrh) (by positivity)
  · exact (gammainc_tendsto h2).comp (x_tendsto hn hk hrh)

/-- **C98, effective intensity.**  With the intensity returned by `I_eff`, the profile has the
requested total flux, or the requested flux inside `flux_radius` if that is given. -/
theorem C98_intensity {lum rh n : ℝ} (hn : 0 < n) (hrh : 0 < rh) :
    Tendsto (fluxWithin (iEff lum rh none n) rh n (bn n)) atTop (𝓝 lum) ∧
    ∀ R, 0 < R → fluxWithin (iEff lum rh (some R) n) rh n (bn n) R = lum := by
  have hk : 0 < bn n := (bn_spec hn).1
  have hG := (Real.Gamma_pos_of_pos (by linarith : 0 < 2 * n)).ne'
  have hp := Real.pi_pos.ne'
  have he := (Real.exp_pos (bn n)).ne'
  have hkk := (Real.rpow_pos_of_pos hk (2 * n)).ne'
  constructor
  · have h := flux_total (ie := iEff lum rh none n) hn hk hrh
    have e : 2 * Real.pi * iEff lum rh none n * Real.exp (bn n)
        * (n * rh ^ 2 / bn n ^ (2 * n)) * Real.Gamma (2 * n) = lum := by
      simp only [iEff]
      change 2 * Real.pi * (lum * (bn n ^ (2 * n) / (n * Real.exp (bn n)) / Real.Gamma (2 * n))
        / (2 * Real.pi * rh ^ 2)) * Real.exp (bn n)
        * (n * rh ^ 2 / bn n ^ (2 * n)) * Real.Gamma (2 * n) = lum
      field_simp
    rwa [e] at h
  · intro R hR
    rw [fluxWithin_eq hn hk hrh hR.le]
    have hx : 0 < bn n * (R / rh) ^ (1 / n) := mul_pos hk (Real.rpow_pos_of_pos (div_pos hR hrh) _)
    have hl : lowerGamma (2 * n) (bn n * (R / rh) ^ (1 / n)) ≠ 0 := by
      have := lowerGamma_strictMono (a := 2 * n) (by linarith) self_mem_Ici hx.le hx
      rw [lowerGamma_zero] at this
      exact this.ne'
    simp only [iEff]
    change 2 * Real.pi * (lum * (bn n ^ (2 * n) / (n * Real.exp (bn n))
        / (Real.Gamma (2 * n) * (lowerGamma (2 * n) (bn n * (R / rh) ^ (1 / n)) / Real.Gamma (2 * n))))
        / (2 * Real.pi * rh ^ 2)) * Real.exp (bn n)
        * (n * rh ^ 2 / bn n ^ (2 * n)) * lowerGamma (2 * n) (bn n * (R / rh) ^ (1 / n)) = lum
    generalize lowerGamma (2 * n) (bn n * (R / rh) ^ (1 / n)) = L at hl
    field_simp

/-- **C98, isophotal radius.**  Where the isophote is not brighter than the centre of the profile,
the profile has exactly the isophotal intensity at the returned radius. -/
theorem C98_isophote {iso flux rh n : ℝ} (fr : Option ℝ) (hn : 0 < n) (hrh : 0 < rh)
    (hiso : 0 < iso) (hie : 0 < iEff flux rh fr n)
    (hle : iso ≤ sersic (iEff flux rh fr n) rh n (bn n) 0) :
    0 ≤ isophotalRadius iso flux rh fr n ∧
    sersic (iEff flux rh fr n) rh n (bn n) (isophotalRadius iso flux rh fr n) = iso := by
  have hk : 0 < bn n := (bn_spec hn).1
  have hbase : 0 ≤ 1 - Real.log (iso / iEff flux rh fr n) / bn n := by
    have h0 : sersic (iEff flux rh fr n) rh n (bn n) 0 = iEff flux rh fr n * Real.exp (bn n) := by
      unfold sersic
      rw [zero_div, Real.zero_rpow (by positivity)]
      congr 2; ring
    rw [h0] at hle
    have h1 : iso / iEff flux rh fr n ≤ Real.exp (bn n) := by
      rw [div_le_iff₀ hie]; linarith
    have h2 : Real.log (iso / iEff flux rh fr n) ≤ bn n := by
      rw [Real.log_le_iff_le_exp (div_pos hiso hie)]; exact h1
    have : Real.log (iso / iEff flux rh fr n) / bn n ≤ 1 := by
      rw [div_le_one hk]; exact h2
    linarith
  have hr : isophotalRadius iso flux rh fr n
      = (1 - Real.log (iso / iEff flux rh fr n) / bn n) ^ n * rh := rfl
  refine ⟨?_, ?_⟩
  · rw [hr]; exact mul_nonneg (Real.rpow_nonneg hbase _) hrh.le
  · rw [hr]
    unfold sersic
    rw [mul_div_assoc, div_self hrh.ne', mul_one, ← Real.rpow_mul hbase,
      mul_one_div_cancel hn.ne', Real.rpow_one]
    have : -bn n * (1 - Real.log (iso / iEff flux rh fr n) / bn n - 1)
        = Real.log (iso / iEff flux rh fr n) := by field_simp; ring
    rw [this, Real.exp_log (div_pos hiso hie)]
    field_simp

/-! ## C99: the Kron radius -/

/-- **C99, unlimited.**  Without a limit the Kron radius is the flux-weighted mean radius of the
whole profile. -/
theorem C99_kron_partial {ie rh n tr tf : ℝ} (hn : 0 < n) (hrh : 0 < rh) (hie : 0 < ie)
    (hr : Tendsto (radiusWithin ie rh n (bn n)) atTop (𝓝 tr))
    (hf : Tendsto (fluxWithin ie rh n (bn n)) atTop (𝓝 tf)) :
    0 < tf ∧ kronRadius rh n none = tr / tf := by
  have hk : 0 < bn n := (bn_spec hn).1
  rw [tendsto_nhds_unique hr (radius_total hn hk hrh), tendsto_nhds_unique hf (flux_total hn hk hrh)]
  have h2 := Real.Gamma_pos_of_pos (by linarith : 0 < 2 * n)
  have hp := Real.pi_pos
  have he := Real.exp_pos (bn n)
  have k2 := Real.rpow_pos_of_pos hk (2 * n)
  have k1 := Real.rpow_pos_of_pos hk n
  have k3 : bn n ^ (3 * n) = bn n ^ (2 * n) * bn n ^ n := by
    rw [← Real.rpow_add hk]; congr 1; ring
  refine ⟨by positivity, ?_⟩
  change rh / bn n ^ n * (Real.Gamma (3 * n) / Real.Gamma (2 * n)) = _
  rw [k3]
  field_simp

/-- What the limited Kron radius is: the flux-weighted mean radius inside `rmax` times
`Γ(2n) / Γ(3n)`, because the ratio of the *regularised* incomplete gamma functions lacks the ratio
of the complete ones. -/
theorem C99_limited {ie rh n rmax : ℝ} (hn : 0 < n) (hrh : 0 < rh) (hie : 0 < ie) (hm : 0 < rmax) :
    kronRadius rh n (some rmax)
      = radiusWithin ie rh n (bn n) rmax / fluxWithin ie rh n (bn n) rmax
        * (Real.Gamma (2 * n) / Real.Gamma (3 * n)) := by
  have hk : 0 < bn n := (bn_spec hn).1
  rw [radiusWithin_eq hn hk hrh hm.le, fluxWithin_eq hn hk hrh hm.le]
  have h2 := Real.Gamma_pos_of_pos (by linarith : 0 < 2 * n)
  have h3 := Real.Gamma_pos_of_pos (by linarith : 0 < 3 * n)
  have hp := Real.pi_pos
  have he := Real.exp_pos (bn n)
  have k2 := Real.rpow_pos_of_pos hk (2 * n)
  have k1 := Real.rpow_pos_of_pos hk n
  have k3 : bn n ^ (3 * n) = bn n ^ (2 * n) * bn n ^ n := by
    rw [← Real.rpow_add hk]; congr 1; ring
  have hx : 0 < bn n * (rmax / rh) ^ (1 / n) :=
    mul_pos hk (Real.rpow_pos_of_pos (div_pos hm hrh) _)
  have hl : 0 < lowerGamma (2 * n) (bn n * (rmax / rh) ^ (1 / n)) := by
    have := lowerGamma_strictMono (a := 2 * n) (by linarith) self_mem_Ici hx.le hx
    rwa [lowerGamma_zero] at this
  change rh / bn n ^ n * (lowerGamma (3 * n) (bn n * (rmax / rh) ^ (1 / n)) / Real.Gamma (3 * n)
    / (lowerGamma (2 * n) (bn n * (rmax / rh) ^ (1 / n)) / Real.Gamma (2 * n))) = _
  rw [k3]
  generalize lowerGamma (2 * n) (bn n * (rmax / rh) ^ (1 / n)) = L2 at hl
  generalize lowerGamma (3 * n) (bn n * (rmax / rh) ^ (1 / n)) = L3
  field_simp

/-- **C99 fails with a limit.**  For an exponential profile (`n = 1`) the Kron radius computed with
a limit is half the flux-weighted mean radius inside the limit, for every limit; as the limit grows
it tends to half the unlimited Kron radius. -/
theorem C99_limited_refuted {ie rh rmax : ℝ} (hrh : 0 < rh) (hie : 0 < ie) (hm : 0 < rmax) :
    kronRadius rh 1 (some rmax)
      = (radiusWithin ie rh 1 (bn 1) rmax / fluxWithin ie rh 1 (bn 1) rmax) / 2 ∧
    kronRadius rh 1 (some rmax)
      ≠ radiusWithin ie rh 1 (bn 1) rmax / fluxWithin ie rh 1 (bn 1) rmax ∧
    Tendsto (fun m => kronRadius rh 1 (some m)) atTop (𝓝 (kronRadius rh 1 none / 2)) := by
  have hk : 0 < bn 1 := (bn_spec one_pos).1
  have g2 : Real.Gamma (2 * 1) = 1 := by
    have := Real.Gamma_nat_eq_factorial 1
    norm_num at this ⊢
  have g3 : Real.Gamma (3 * 1) = 2 := by
    have := Real.Gamma_nat_eq_factorial 2
    norm_num at this ⊢
  have e := C99_limited (n := 1) one_pos hrh hie hm
  rw [g2, g3] at e
  have hpos : 0 < kronRadius rh 1 (some rmax) := by
    have hx : 0 < bn 1 * (rmax / rh) ^ ((1 : ℝ) / 1) :=
      mul_pos hk (Real.rpow_pos_of_pos (div_pos hm hrh) _)
    have p : ∀ a : ℝ, 0 < a → 0 < gammainc a (bn 1 * (rmax / rh) ^ ((1 : ℝ) / 1)) := by
      intro a ha
      have := gammainc_strictMono ha self_mem_Ici hx.le hx
      rwa [gammainc_zero] at this
    exact mul_pos (div_pos hrh (Real.rpow_pos_of_pos hk _))
      (div_pos (p _ (by norm_num)) (p _ (by norm_num)))
  refine ⟨by rw [e]; ring, ?_, ?_⟩
  · intro h
    rw [e] at h hpos
    rw [h] at hpos
    have : radiusWithin ie rh 1 (bn 1) rmax / fluxWithin ie rh 1 (bn 1) rmax * (1 / 2)
        = radiusWithin ie rh 1 (bn 1) rmax / fluxWithin ie rh 1 (bn 1) rmax := h
    linarith
  · have t3 := (gammainc_tendsto (a := 3 * 1) (by norm_num)).comp (x_tendsto one_pos hk hrh)
    have t2 := (gammainc_tendsto (a := 2 * 1) (by norm_num)).comp (x_tendsto one_pos hk hrh)
    have t := (t3.div t2 one_ne_zero).const_mul (rh / bn 1 ^ (1 : ℝ))
    have lim : rh / bn 1 ^ (1 : ℝ) * (1 / 1) = kronRadius rh 1 none / 2 := by
      change _ = rh / bn 1 ^ (1 : ℝ) * (Real.Gamma (3 * 1) / Real.Gamma (2 * 1)) / 2
      rw [g2, g3]; ring
    rw [lim] at t
    exact t

/-! ## Concrete case: the hypotheses of the isophote theorem -/

example : 0 ≤ isophotalRadius (iEff 1 1 none 1) 1 1 none 1 ∧
    isophotalRadius (iEff 1 1 none 1) 1 1 none 1 = 1 := by
  have hk : 0 < bn 1 := (bn_spec one_pos).1
  have hG : 0 < Real.Gamma (2 * 1) := Real.Gamma_pos_of_pos (by norm_num)
  have hie : 0 < iEff 1 1 none 1 := by
    change 0 < 1 * (bn 1 ^ ((2 : ℝ) * 1) / (1 * Real.exp (bn 1)) / Real.Gamma (2 * 1))
      / (2 * Real.pi * 1 ^ 2)
    have := Real.rpow_pos_of_pos hk (2 * 1)
    have := Real.pi_pos
    positivity
  refine ⟨(C98_isophote none one_pos one_pos hie hie ?_).1, ?_⟩
  · unfold sersic
    rw [zero_div, Real.zero_rpow (by norm_num)]
    have : (1 : ℝ) ≤ Real.exp (-bn 1 * (0 - 1)) := by
      rw [Real.one_le_exp_iff]; linarith
    nlinarith
  · simp [isophotalRadius, div_self hie.ne']

end Forcepho.Profile
