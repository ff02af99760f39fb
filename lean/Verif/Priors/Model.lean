import Mathlib.Analysis.SpecialFunctions.Pow.Real
import Mathlib.Analysis.SpecialFunctions.Trigonometric.Arctan

/-! # Priors (forcepho/priors.py)

Over the reals.  A prior acts on a list of parameters; `min`, `max` are given per parameter. -/

set_option autoImplicit false

namespace Forcepho.Priors

/-- The prior classes that can be used (priors.py:9-52). -/
inductive Kind where
  | flat
  | expBeta (alpha : ℝ)

/-- A prior on `n` parameters. -/
structure Prior (n : Nat) where
  kind : Kind
  min : Fin n → ℝ
  max : Fin n → ℝ

/-- The constructors: `LogPrior` (priors.py:11-14) accepts anything, `ExpBeta` (39-44) asserts
`alpha > -1`, `Barrier` (60-66) always raises. -/
noncomputable def mkExpBeta {n : Nat} (min max : Fin n → ℝ) (alpha : ℝ) : Option (Prior n) :=
  open Classical in if alpha > -1 then some ⟨.expBeta alpha, min, max⟩ else none

variable {n : Nat} (p : Prior n)

/-- `self.range` (priors.py:14). -/
def Prior.range (i : Fin n) : ℝ := p.max i - p.min i

/-- `_scale` (priors.py:26-27). -/
noncomputable def Prior.scale (q : Fin n → ℝ) (i : Fin n) : ℝ := (q i - p.min i) / p.range i

/-- `_lnprior` (priors.py:29-30, 46-49): one entry per parameter, or the scalar 0. -/
noncomputable def Kind.lnprior : Kind → (Fin n → ℝ) → List ℝ
  | .flat, _ => [0]
  | .expBeta a, x => (List.finRange n).map fun i => -((x i) ^ a * (1 - x i) ^ a)

/-- `_lnprior_grad` (priors.py:32-33, 51-52). -/
noncomputable def Kind.grad : Kind → (Fin n → ℝ) → Fin n → ℝ
  | .flat, _, _ => 0
  | .expBeta a, x, i => a * (2 * x i - 1) * (-(x i - 1) * x i) ^ (a - 1)

/-- `__call__` (priors.py:16-24). -/
noncomputable def Prior.call (q : Fin n → ℝ) : ℝ × (Fin n → ℝ) :=
  ((p.kind.lnprior (p.scale q)).sum, fun i => p.kind.grad (p.scale q) i / p.range i)

/-- `TruncatedCauchy.sample` (priors.py:117-134) for one uniform variate `r` in `[0, 1)`. -/
noncomputable def cauchySample (loc scale a b r : ℝ) : ℝ :=
  let ua := Real.arctan ((a - loc) / scale) / Real.pi + 0.5
  let ub := Real.arctan ((b - loc) / scale) / Real.pi + 0.5
  let U := ua + (ub - ua) * r
  loc + scale * Real.tan (Real.pi * (U - 0.5))

end Forcepho.Priors
