import Mathlib.Analysis.SpecialFunctions.Log.Basic
import Mathlib.Analysis.SpecialFunctions.Trigonometric.DerivHyp
import Mathlib.Algebra.BigOperators.Fin

/-! # Parameter transforms and the constrained trajectory check (forcepho/model.py)

Arrays of length `n` are functions on `Fin n`; floating point is idealised to real numbers. -/

set_option autoImplicit false

namespace Forcepho.Transform

open scoped BigOperators

/-- `sigmoid` (model.py:555-557): `scipy.special.expit`. -/
noncomputable def sigmoid (x : ℝ) : ℝ := 1 / (1 + Real.exp (-x))

/-- `logit` (model.py:560-561). -/
noncomputable def logit (y : ℝ) : ℝ := - Real.log (1 / y - 1)

/-- `sigmoid_grad` (model.py:564-569). -/
noncomputable def sigmoidGrad (z : ℝ) : ℝ := (0.5 / Real.cosh (0.5 * z)) ^ 2

/-- `BoundedTransform` (model.py:596-608). -/
structure Bounded (n : Nat) where
  lower : Fin n → ℝ
  upper : Fin n → ℝ

variable {n : Nat}

/-- `BoundedTransform.range` (model.py:610-612). -/
def Bounded.range (t : Bounded n) (i : Fin n) : ℝ := t.upper i - t.lower i

/-- `BoundedTransform.transform` (model.py:614-622). -/
noncomputable def Bounded.transform (t : Bounded n) (z : Fin n → ℝ) : Fin n → ℝ :=
  fun i => t.lower i + sigmoid (z i) * t.range i

/-- `BoundedTransform.jacobian` (model.py:624-627): the diagonal. -/
noncomputable def Bounded.jacobian (t : Bounded n) (z : Fin n → ℝ) : Fin n → ℝ :=
  fun i => t.range i * sigmoidGrad (z i)

/-- `Transform.lndetjac` (model.py:583-587), inherited. -/
noncomputable def Bounded.lndetjac (t : Bounded n) (z : Fin n → ℝ) : ℝ :=
  Real.log |∏ i, t.jacobian z i|

/-- `BoundedTransform.lndetjac_grad` (model.py:629-632). -/
noncomputable def Bounded.lndetjacGrad (_t : Bounded n) (z : Fin n → ℝ) : Fin n → ℝ :=
  fun i => 1 - 2.0 * sigmoid (z i)

/-- `BoundedTransform.inverse_transform` (model.py:634-637). -/
noncomputable def Bounded.inverse (t : Bounded n) (θ : Fin n → ℝ) : Fin n → ℝ :=
  fun i => logit ((θ i - t.lower i) / t.range i)

/-- The base class `Transform` (model.py:572-593): identity, unit Jacobian, zero gradient. -/
structure Plain (n : Nat) where
  unit : Unit := ()

/-- `Transform.transform` (model.py:577-578). -/
def Plain.transform (_t : Plain n) (z : Fin n → ℝ) : Fin n → ℝ := z
/-- `Transform.jacobian` (model.py:580-581). -/
def Plain.jacobian (_t : Plain n) (_z : Fin n → ℝ) : Fin n → ℝ := fun _ => 1
/-- `Transform.lndetjac` (model.py:583-587). -/
noncomputable def Plain.lndetjac (t : Plain n) (z : Fin n → ℝ) : ℝ :=
  Real.log |∏ i, t.jacobian z i|
/-- `Transform.lndetjac_grad` (model.py:589-590). -/
def Plain.lndetjacGrad (_t : Plain n) (_z : Fin n → ℝ) : Fin n → ℝ := fun _ => 0

/-! ## The log-probability and its gradient -/

/-- What `FastPosterior.evaluate` combines (model.py:302-351): per-band chi-squares and the stacked
chi-square derivative of the kernel, and the prior with its gradient, all in scene parameters. -/
structure Ingredients (n : Nat) where
  chi2 : (Fin n → ℝ) → List ℝ
  dchi2 : (Fin n → ℝ) → Fin n → ℝ
  lnprior : (Fin n → ℝ) → ℝ
  lnpriorGrad : (Fin n → ℝ) → Fin n → ℝ

/-- `_lnp` after `evaluate` (model.py:331, 344, 351). -/
noncomputable def lnp (g : Ingredients n) (t : Bounded n) (sampling : Bool) (z : Fin n → ℝ) : ℝ :=
  let q := t.transform z
  let ll := (-0.5) * (g.chi2 q).sum
  let base := ll + g.lnprior q
  if sampling then base + t.lndetjac z else base

/-- `_lnp_grad` after `evaluate` (model.py:332, 346, 352). -/
noncomputable def lnpGrad (g : Ingredients n) (t : Bounded n) (sampling : Bool) (z : Fin n → ℝ) :
    Fin n → ℝ :=
  let q := t.transform z
  let llGrad : Fin n → ℝ := fun i => (-0.5) * g.dchi2 q i
  let base : Fin n → ℝ := fun i => (llGrad i + g.lnpriorGrad q i) * t.jacobian z i
  if sampling then fun i => base i + t.lndetjacGrad z i else base

end Forcepho.Transform

namespace Forcepho.Transform.Bounce

variable {K : Type} [Field K] [LinearOrder K] [IsStrictOrderedRing K]

/-- One array element of `check_constrained`: bounds, position, sign. -/
structure Cell (K : Type) where
  lower : K
  upper : K
  theta : K
  sign : K

/-- One pass of the `while` body on one element (model.py:505-510); the flag is `above | below`. -/
def pass (c : Cell K) : Cell K × Bool :=
  let above : Bool := decide (c.upper < c.theta)
  let c1 : Cell K := if above then
    { c with theta := 2 * c.upper - c.theta, sign := c.sign * (-1) } else c
  let below : Bool := decide (c1.theta < c1.lower)
  let c2 : Cell K := if below then
    { c1 with theta := 2 * c1.lower - c1.theta, sign := c1.sign * (-1) } else c1
  (c2, below || above)

/-- `while oob` (model.py:503-511), with fuel: `none` when the fuel runs out.  The final `none`
never stands for an answer of the code. -/
def loop : Nat → List (Cell K) → Option (List (Cell K))
  | 0, _ => none
  | fuel + 1, cs =>
    let r := cs.map pass
    if r.any (·.2) then loop fuel (r.map (·.1)) else some (r.map (·.1))

/-- `ConstrainedTransformedPosterior.check_constrained` (model.py:479-512): the bounds are
broadcast, the signs start at one.  The returned flag is the last `oob`, always false. -/
def checkConstrained (fuel : Nat) (bounds : List (K × K)) (theta : List K) :
    Option (List (Cell K)) :=
  loop fuel ((bounds.zip theta).map fun p => ⟨p.1.1, p.1.2, p.2, 1⟩)

end Forcepho.Transform.Bounce
