import Verif.SuperScene.Model
import Mathlib.Analysis.SpecialFunctions.Exp

/-!
# Seed weights (`forcepho/superscene.py:467-492`)

Real arithmetic instead of floats.  The flag columns are `int32`
(`sourcecat_dtype`, superscene.py:751-764), so `~flag` is the integer complement `-1 - flag`.
-/

set_option autoImplicit false

namespace Forcepho.Weights

open Forcepho.SuperScene

variable {K : Type}

/-- numpy `~x` on an `int32` column holding a 0/1 flag, cast to float
(superscene.py:472, 482). -/
noncomputable def notFlag (b : Bool) : ℝ := ((-1 - (if b then 1 else 0) : Int) : ℝ)

/-- `np.mean(np.abs(n_iter))` (superscene.py:474, 477). -/
noncomputable def meanAbsIter (rows : List (Row K)) : ℝ :=
  ((rows.map fun r => |r.nIter|).sum : ℤ) / rows.length

/-- Division of every entry by the sum, `w / w.sum()`. -/
noncomputable def normalise (w : List ℝ) : List ℝ := w.map (· / w.sum)

/-- The unnormalised entry of `exp_weight` for one row (superscene.py:472-477). -/
noncomputable def expRaw (mean : ℝ) (r : Row K) : ℝ :=
  notFlag r.isValid * Real.exp ((mean - |(r.nIter : ℝ)|) / 20)

/-- `SuperScene.exp_weight`, also `seed_weight` (superscene.py:467-478). -/
noncomputable def expWeight (rows : List (Row K)) : List ℝ :=
  normalise (rows.map (expRaw (meanAbsIter rows)))

/-- The unnormalised entry of `sigmoid_weight` for one row (superscene.py:482-490). -/
noncomputable def sigRaw (target : ℝ) (r : Row K) : ℝ :=
  notFlag r.isActive * (1 / (1 + Real.exp (-(20 * (1 - (r.nIter : ℝ) / target) + -1))))

/-- `SuperScene.sigmoid_weight` (superscene.py:480-492). -/
noncomputable def sigmoidWeight (target : ℝ) (rows : List (Row K)) : List ℝ :=
  normalise (rows.map (sigRaw target))

end Forcepho.Weights
