import Mathlib.Analysis.SpecialFunctions.Gamma.Basic
import Mathlib.MeasureTheory.Integral.IntervalIntegral.FundThmCalculus

/-!
# Sersic profile utilities (`forcepho/utils/profile.py`)

`scipy.special.gammainc` is the regularised lower incomplete gamma function, defined here by its
integral; `gammaincinv` is its inverse in the second argument.  Arithmetic is exact over the reals.
-/

set_option autoImplicit false

namespace Forcepho.Profile

open MeasureTheory

noncomputable section

/-- The lower incomplete gamma function (not regularised). -/
def lowerGamma (a x : ℝ) : ℝ := ∫ t in (0 : ℝ)..x, t ^ (a - 1) * Real.exp (-t)

/-- `scipy.special.gammainc(a, x)`: regularised (`forcepho/utils/profile.py:7`, note at `:19`). -/
def gammainc (a x : ℝ) : ℝ := lowerGamma a x / Real.Gamma a

/-- `scipy.special.gammaincinv(a, p)`: the non-negative `x` with `gammainc(a, x) = p`
(`profile.py:7`). -/
def gammaincinv (a p : ℝ) : ℝ := Classical.epsilon fun x => 0 ≤ x ∧ gammainc a x = p

/-- `frac_sersic(radius, rhalf, sersic)` (`profile.py:14-21`). -/
def fracSersic (radius rhalf sersic : ℝ) : ℝ :=
  let bn := gammaincinv (2 * sersic) 0.5
  let x := bn * (radius / rhalf) ^ (1 / sersic)
  gammainc (2 * sersic) x

/-- `kron_radius(rhalf, sersic, rmax)`; `none` also stands for the falsy `rmax = 0`
(`profile.py:24-32`). -/
def kronRadius (rhalf sersic : ℝ) (rmax : Option ℝ) : ℝ :=
  let k := gammaincinv (2 * sersic) 0.5
  let c := match rmax with
    | some rm =>
      let x := k * (rm / rhalf) ^ (1 / sersic)
      gammainc (3 * sersic) x / gammainc (2 * sersic) x
    | none => Real.Gamma (3 * sersic) / Real.Gamma (2 * sersic)
  rhalf / k ^ sersic * c

/-- `I_eff(lum, rhalf, flux_radius, sersic)`: the intensity at the half-light radius
(`profile.py:43-54`). -/
def iEff (lum rhalf : ℝ) (fluxRadius : Option ℝ) (sersic : ℝ) : ℝ :=
  let twoN := 2 * sersic
  let k := gammaincinv twoN 0.5
  let f := match fluxRadius with
    | none => Real.Gamma twoN
    | some fr => Real.Gamma twoN * gammainc twoN (k * (fr / rhalf) ^ (1 / sersic))
  let conv := k ^ twoN / (sersic * Real.exp k) / f
  lum * conv / (2 * Real.pi * rhalf ^ 2)

/-- `isophotal_radius(iso, flux, r_half, flux_radius, sersic)` (`profile.py:35-40`). -/
def isophotalRadius (iso flux rhalf : ℝ) (fluxRadius : Option ℝ) (sersic : ℝ) : ℝ :=
  let ie := iEff flux rhalf fluxRadius sersic
  let k := gammaincinv (2 * sersic) 0.5
  (1 - Real.log (iso / ie) / k) ^ sersic * rhalf

end

end Forcepho.Profile
