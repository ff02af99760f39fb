import Verif.Kernel.Model
import Mathlib.LinearAlgebra.Matrix.NonsingularInverse
import Mathlib.Data.Matrix.Mul

/-! # Linear flux optimisation (forcepho/fitting.py:573-627, patches/device_patch.py:185-238)

Over the reals.  `np.linalg.solve` is the exact solution of a nonsingular system and raises for a
singular one.  The proposer is the kernel of `Verif.Kernel`; a scene of one source is evaluated with
that source's astrometry, because packing the scene packs the metadata of that source. -/

set_option autoImplicit false

namespace Forcepho.Fluxes

open Matrix Forcepho.Kernel

/-- `np.linalg.solve` for one right hand side. -/
noncomputable def solve {n : Nat} (A : Matrix (Fin n) (Fin n) ℝ) (b : Fin n → ℝ) : Option (Fin n → ℝ) :=
  open Classical in if A.det = 0 then none else some (A⁻¹ *ᵥ b)

/-- The shapes `fixedX` can have: a number (default 0), one image, or one image per fixed source. -/
inductive Fixed (m : Nat) where
  | scalar (x : ℝ)
  | image (x : Fin m → ℝ)
  | images (k : Nat) (x : Fin k → Fin m → ℝ)

/-- `optimize_one_band` (fitting.py:573-594): the fluxes and the precision matrix.  With one image per
fixed source, as documented, `yp[:, None]` has shape `(nfixed, 1, npix)`, whose second last axis does not
match the pixels: `np.dot` raises, unless there is a single pixel; that case is not modelled (the answer
then has the wrong shape). -/
noncomputable def optimizeOneBand {n m : Nat} (X : Matrix (Fin n) (Fin m) ℝ) (w y : Fin m → ℝ)
    (fixedX : Fixed m) : Option ((Fin n → ℝ) × Matrix (Fin n) (Fin n) ℝ) :=
  let Xp : Matrix (Fin n) (Fin m) ℝ := fun i p => X i p * w p
  let ATA := Xp * Xpᵀ
  let go := fun (yp : Fin m → ℝ) => (solve ATA (Xp *ᵥ yp)).map fun flux => (flux, ATA)
  match fixedX with
  | .scalar c => go fun p => (y p - c) * w p
  | .image f => go fun p => (y p - f p) * w p
  | .images _ _ => none

/-! ## The design matrix -/

/-- The array `data` of one band: the pixels of its exposures, in order. -/
def bandData (es : List Exposure) : List ℝ := es.flatMap fun e => e.pixels.map Pixel.data

/-- The array `ierr` of one band (`split_band("ierr")`, fitting.py:616). -/
def bandIerr (es : List Exposure) : List ℝ := es.flatMap fun e => e.pixels.map Pixel.ierr

/-- The residual image of one band returned by the proposer for a scene of `n` sources. -/
noncomputable def bandResidual (band n : Nat) (es : List Exposure) (sources : Nat → Source) : List ℝ :=
  es.flatMap fun e => residualImage band n e sources

/-- The metadata packed for the scene of source `i` alone (device_patch.py:222-226). -/
def single (i : Nat) (e : Exposure) : Exposure := { e with astrom := fun _ => e.astrom i }

/-- `design_matrix` (device_patch.py:185-238) for one band: row `i` is the image of source `i`,
`model = y - residual`, divided by its flux.  A zero flux gives no number. -/
noncomputable def designMatrix (band n : Nat) (es : List Exposure) (sources : Nat → Source) :
    Option (Matrix (Fin n) (Fin (bandData es).length) ℝ) :=
  open Classical in
  if ∀ i : Fin n, (sources i).fluxes band ≠ 0 then
    some fun i p => ((bandData es)[p] -
      (bandResidual band 1 (es.map (single i)) fun _ => sources i).getD p 0) / (sources i).fluxes band
  else none

/-- One band of `optimize_fluxes` (fitting.py:597-627). -/
noncomputable def optimizeBand (band n : Nat) (es : List Exposure) (sources : Nat → Source) :
    Option ((Fin n → ℝ) × Matrix (Fin n) (Fin n) ℝ) :=
  (designMatrix band n es sources).bind fun X =>
    optimizeOneBand X (fun p => (bandIerr es).getD p 0) (fun p => (bandData es)[p]) (.scalar 0)

/-- The loop of `optimize_fluxes` (fitting.py:617-624): the results of all bands, or the index of the
first band that failed. -/
noncomputable def optimizeFluxes (n : Nat) (sources : Nat → Source) :
    Nat → List (List Exposure) → Except Nat (List ((Fin n → ℝ) × Matrix (Fin n) (Fin n) ℝ))
  | _, [] => .ok []
  | band, es :: rest =>
    match optimizeBand band n es sources with
    | none => .error band
    | some r => match optimizeFluxes n sources (band + 1) rest with
      | .ok rs => .ok (r :: rs)
      | .error i => .error i

end Forcepho.Fluxes
