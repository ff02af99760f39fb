import Mathlib.Analysis.SpecialFunctions.Complex.Arg
import Mathlib.Analysis.SpecialFunctions.Log.Basic
import Mathlib.Analysis.SpecialFunctions.Sqrt
import Mathlib.LinearAlgebra.Matrix.Notation

/-!
# Conformal shear parametrisation of a galaxy's shape

Model of `ConformalShearGalaxy` in `forcepho/sources.py:868-1022`.

Simplifications: exact real arithmetic; `np.arctan2(y, x)` is the argument of `x + iy` in `(-π, π]`
(signed zeros are not distinguished); a division by zero in `ds_deta` (round sources) gives `inf` or
`nan` in numpy and is excluded by the hypotheses of the theorems.
-/

set_option autoImplicit false

namespace Forcepho.Shear

/-- `np.hypot(ep, ec)`. -/
noncomputable def hypot (ep ec : ℝ) : ℝ := Real.sqrt (ep ^ 2 + ec ^ 2)

/-- `np.arctan2(y, x)`. -/
noncomputable def arctan2 (y x : ℝ) : ℝ := Complex.arg ⟨x, y⟩

/-- `etas_from_qphi` (sources.py:946-960); `q` is the square root of the axis ratio. -/
noncomputable def etas (q phi : ℝ) : ℝ × ℝ :=
  let eta := -Real.log (q ^ 2)
  (eta * Real.cos (phi * 2), eta * Real.sin (phi * 2))

/-- The property `q` (sources.py:968-973). -/
noncomputable def qOf (ep ec : ℝ) : ℝ := Real.exp (-(hypot ep ec) / 2)

/-- The property `pa` (sources.py:975-979). -/
noncomputable def paOf (ep ec : ℝ) : ℝ := arctan2 ec ep / 2

/-- The property `ds_deta` (sources.py:981-999). -/
noncomputable def dsDeta (ep ec : ℝ) : Matrix (Fin 2) (Fin 2) ℝ :=
  let sqrtq := qOf ep ec
  let q := sqrtq ^ 2
  let phi := paOf ep ec
  let sin2phi := Real.sin (2 * phi)
  let cos2phi := Real.cos (2 * phi)
  let itlq := 1 / (2 * Real.log q)
  let ds_de : Matrix (Fin 2) (Fin 2) ℝ := !![-q * cos2phi, -q * sin2phi; sin2phi * itlq, -cos2phi * itlq]
  let sq : Matrix (Fin 2) (Fin 2) ℝ := !![(1 / 2) / sqrtq, 0; 0, 1]
  ds_de.transpose * sq

/-- The conversion of the two shape rows of the gradients in `render` (sources.py:1019):
`grad[3:5] = ds_deta @ grad[3:5]`, for one pixel. -/
noncomputable def convertGrad (ep ec dq dpa : ℝ) : ℝ × ℝ :=
  let g := (dsDeta ep ec).mulVec ![dq, dpa]
  (g 0, g 1)

end Forcepho.Shear
