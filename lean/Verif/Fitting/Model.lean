import Verif.Transform.Props
import Verif.Bounds.Props
import Verif.Chain.Props
import Mathlib.LinearAlgebra.Matrix.PosDef
import Mathlib.Data.Real.StarOrdered

/-! # Running a fit (forcepho/fitting.py, forcepho/tasks.py, forcepho/model.py:60-75)

The sampler and the minimiser are arbitrary functions of the starting point; everything the code does
before and after them is modelled. Floating point is idealised to real numbers. -/

set_option autoImplicit false

namespace Forcepho.Fitting

open Forcepho.Transform (Bounded)
open Forcepho.Bounds (Row boundsVectors fluxBoundPrec)
open Forcepho.Chain (Arr2 ChainCat Table)

/-! ## Building the model -/

/-- `np.any` of an array of numbers. -/
noncomputable def npAny (xs : List ℝ) : Bool := by
  classical exact xs.any fun x => decide (x ≠ 0)

/-- `Posterior.__init__` with bounds and no transform (model.py:63-75): the truth value of the test in
line 66; `none` is the `ValueError`. -/
noncomputable def posteriorInit (lo hi : List ℝ) : Option (Bounded lo.length) :=
  if (npAny lo && npAny hi) = false then none
  else some ⟨fun i => lo.getD i 0, fun i => hi.getD i 0⟩

/-- `prepare_model` with bounds (device_patch.py:63-70): the transform of the model. -/
noncomputable def prepareTransform (bands : List String) (ref : ℝ × ℝ) (bcat : List (String → ℝ × ℝ)) :
    Option (Bounded (boundsVectors bands ref bcat).1.length) :=
  posteriorInit (boundsVectors bands ref bcat).1 (boundsVectors bands ref bcat).2

/-! ## Sampling and optimising -/

variable {n : Nat}

/-- The starting point in sampling parameters (fitting.py:306-309, 427-430). -/
noncomputable def startOf (t : Option (Bounded n)) (q : Fin n → ℝ) : Fin n → ℝ :=
  match t with
  | some t => t.inverse q
  | none => q

/-- Back to scene parameters (fitting.py:330-333, 448-450). -/
noncomputable def backOf (t : Option (Bounded n)) (z : Fin n → ℝ) : Fin n → ℝ :=
  match t with
  | some t => t.transform z
  | none => z

/-- `run_lmc` (fitting.py:255-342): the chain, one entry per draw. -/
noncomputable def runLmc (t : Option (Bounded n)) (sample : (Fin n → ℝ) → List (Fin n → ℝ)) (q : Fin n → ℝ) :
    List (Fin n → ℝ) :=
  (sample (startOf t q)).map (backOf t)

/-- The result of `run_opt` (fitting.py:442-452). -/
structure OptResult (n : Nat) where
  chain : List (Fin n → ℝ)
  lnp : ℝ
  fun_ : ℝ

/-- `run_opt` (fitting.py:415-454). `minimize` returns a point for a function and a start; scipy's `fun`
is the function at that point. `nll` is `model.nll`. -/
noncomputable def runOpt (t : Option (Bounded n)) (nll : (Fin n → ℝ) → ℝ)
    (minimize : ((Fin n → ℝ) → ℝ) → (Fin n → ℝ) → Fin n → ℝ) (q : Fin n → ℝ) : OptResult n :=
  let x := minimize nll (startOf t q)
  let f := nll x
  { chain := [backOf t x], lnp := -0.5 * f, fun_ := f }

/-- `nll` (model.py:192-202) for the posterior of `Forcepho.Transform.lnp`, with `ndof = 1` (model.py:63). -/
noncomputable def nllOf (g : Transform.Ingredients n) (t : Bounded n) (sampling : Bool) (z : Fin n → ℝ) : ℝ :=
  -(Transform.lnp g t sampling z) / 1

/-- The chain as the two-dimensional array given to `make_chaincat`. -/
noncomputable def chainArr (chain : List (Fin n → ℝ)) : Arr2 ℝ :=
  ⟨chain.length, n, fun it j => if h : j < n then (chain.getD it fun _ => 0) ⟨j, h⟩ else 0⟩

/-! ## The update after linear optimisation -/

/-- One band of the loop (tasks.py:66-72): new fluxes and bounds of all sources; `f` and `s` are the fluxes
and the marginal standard deviations of the band. -/
noncomputable def linearBand (unc1 snrMax : ℝ) (b : String) (f s : List ℝ)
    (st : List Row × List (String → ℝ × ℝ)) : List Row × List (String → ℝ × ℝ) :=
  (st.1.mapIdx fun i r => Function.update r b (f.getD i 0),
   st.2.mapIdx fun i r => Function.update r b (fluxBoundPrec unc1 snrMax (s.getD i 0) (f.getD i 0)))

/-- The loop over bands (tasks.py:66-72). -/
noncomputable def linearUpdate (unc1 snrMax : ℝ) : List (String × List ℝ × List ℝ) →
    List Row × List (String → ℝ × ℝ) → List Row × List (String → ℝ × ℝ)
  | [], st => st
  | (b, f, s) :: rest, st => linearUpdate unc1 snrMax rest (linearBand unc1 snrMax b f s st)

/-! ## The mass matrix -/

/-- The matrix that `scipy.linalg.cholesky(cov, lower=True)` factorises: the upper triangle is not read. -/
def lowerSym (c : Matrix (Fin n) (Fin n) ℝ) : Matrix (Fin n) (Fin n) ℝ :=
  fun i j => if j ≤ i then c i j else c j i

open Classical in
/-- The loop of `get_pot` (fitting.py:395-403) with `k` tries left. Cholesky succeeds exactly on positive
definite matrices. -/
noncomputable def regularize (rv : ℝ) : Nat → Matrix (Fin n) (Fin n) ℝ → Matrix (Fin n) (Fin n) ℝ
  | 0, c => c
  | k + 1, c => if (lowerSym c).PosDef then c else regularize rv k (c + rv • 1)

/-- `np.mean(trace, axis=-1)`; a trace is a list of points. -/
noncomputable def traceMean (trace : List (Fin n → ℝ)) : Fin n → ℝ :=
  fun i => (trace.map fun x => x i).sum / trace.length

/-- `np.cov(trace, rowvar=True)`: products of deviations over the number of points minus one. -/
noncomputable def traceCov (trace : List (Fin n → ℝ)) : Matrix (Fin n) (Fin n) ℝ :=
  fun i j => (trace.map fun x => (x i - traceMean trace i) * (x j - traceMean trace j)).sum / (trace.length - 1)

/-- The potential handed to the sampler. -/
inductive Potential (n : Nat) where
  | full (mean : Fin n → ℝ) (mass : Matrix (Fin n) (Fin n) ℝ) (weight : ℝ)
  | diag (mean : Fin n → ℝ) (mass : Fin n → ℝ) (weight : ℝ)

/-- `get_pot` (fitting.py:370-412), with `regular_variance = 1e-3`. -/
noncomputable def getPot (mean : Fin n → ℝ) (cov : Option (Matrix (Fin n) (Fin n) ℝ))
    (trace : Option (List (Fin n → ℝ))) (full : Bool) (weight : ℝ) : Potential n :=
  let cm : Matrix (Fin n) (Fin n) ℝ × (Fin n → ℝ) :=
    match cov, trace with
    | some c, _ => (c, mean)
    | none, none => (1, mean)
    | none, some tr => (traceCov tr, traceMean tr)
  let c := regularize 0.001 5 cm.1
  if full then .full cm.2 c weight else .diag cm.2 (fun i => c i i) weight

/-- The weight used by `tasks.sample` (tasks.py:93-96): at least ten and at least the smallest number of
iterations of the active sources, if the catalog has that column. -/
def sampleWeight (nIter : Option (List Nat)) : Option Nat :=
  match nIter with
  | none => some 10
  | some xs => xs.min?.map fun m => max 10 m

/-! ## The highest-probability sample -/

/-- `np.argmax`: the first not-a-number (`none`) if there is one, else the first largest. The accumulator is
the best position so far. -/
noncomputable def argmaxFrom : List (Option ℝ) → Nat → Nat → Option ℝ → Nat
  | [], _, best, _ => best
  | _, _, best, none => best
  | none :: _, i, _, some _ => i
  | some x :: xs, i, best, some m => if m < x then argmaxFrom xs (i + 1) i (some x) else argmaxFrom xs (i + 1) best (some m)

/-- `np.argmax`; an empty array raises. -/
noncomputable def argmax : List (Option ℝ) → Option Nat
  | [] => none
  | x :: xs => some (argmaxFrom xs 1 0 x)

/-- `Result.get_map(structured=False)` (fitting.py:170-184). -/
noncomputable def getMap (logp : List (Option ℝ)) (chain : Arr2 ℝ) : Option (List ℝ) :=
  (argmax logp).bind fun k =>
    if k < chain.nrow then some ((List.range chain.ncol).map (chain.at_ k)) else none

/-- `Result.get_map(structured=True)`. -/
noncomputable def getMapCat (logp : List (Option ℝ)) (cat : ChainCat ℝ) (active : Table ℝ) : Option (Table ℝ) :=
  (argmax logp).bind fun k => Chain.getSampleCat cat (k : Int) active

end Forcepho.Fitting
