import Verif.Kernel.Model
import Verif.Util
import Mathlib.Algebra.BigOperators.Group.List.Basic

/-! # The kernel's loops as sums -/

set_option autoImplicit false
set_option linter.unusedSectionVars false

namespace Forcepho.Kernel

/-- The pixel correction factor of a gaussian. -/
noncomputable def hCorr (g : ImGauss) (x y : ℝ) : ℝ :=
  1 + ((g.fxx * (x - g.xcen) + g.fxy * (y - g.ycen)) ^ 2 +
    (g.fyy * (y - g.ycen) + g.fxy * (x - g.xcen)) ^ 2 - g.fxx - g.fyy) / 24

/-- The counts a gaussian contributes to a pixel. -/
noncomputable def contrib (g : ImGauss) (x y : ℝ) : ℝ :=
  if expArg g x y > maxExpArg then 0
  else g.amp * Real.exp (-(1 / 2) * expArg g x y) * hCorr g x y

/-- A direction in the space of the six image parameters of a gaussian. -/
structure D6 where
  dA : ℝ
  dx : ℝ
  dy : ℝ
  dFxx : ℝ
  dFyy : ℝ
  dFxy : ℝ

/-- The column of the stored Jacobian that belongs to a parameter. -/
def jac (g : ImGauss) : Param → D6
  | .flux => ⟨g.dA_dFlux, 0, 0, 0, 0, 0⟩
  | .ra => ⟨0, g.dx_dAlpha, g.dy_dAlpha, 0, 0, 0⟩
  | .dec => ⟨0, g.dx_dDelta, g.dy_dDelta, 0, 0, 0⟩
  | .q => ⟨g.dA_dQ, 0, 0, g.dFxx_dQ, g.dFyy_dQ, g.dFxy_dQ⟩
  | .pa => ⟨g.dA_dPA, 0, 0, g.dFxx_dPA, g.dFyy_dPA, g.dFxy_dPA⟩
  | .sersic => ⟨g.dA_dSersic, 0, 0, 0, 0, 0⟩
  | .rh => ⟨g.dA_drh, 0, 0, 0, 0, 0⟩

/-- The linear response of `contrib` to a change of the image parameters. -/
noncomputable def dcontrib (g : ImGauss) (x y : ℝ) (J : D6) : ℝ :=
  let dx := x - g.xcen
  let dy := y - g.ycen
  let vx := g.fxx * dx + g.fxy * dy
  let vy := g.fyy * dy + g.fxy * dx
  let E := Real.exp (-(1 / 2) * expArg g x y)
  let H := hCorr g x y
  if expArg g x y > maxExpArg then 0
  else
    E * H * J.dA +
    g.amp * E * (H * vx - (g.fxx * vx + g.fxy * vy) / 12) * J.dx +
    g.amp * E * (H * vy - (g.fyy * vy + g.fxy * vx) / 12) * J.dy +
    g.amp * E * (-(1 / 2) * H * dx * dx - (1 - 2 * dx * vx) / 24) * J.dFxx +
    g.amp * E * (-(1 / 2) * H * dy * dy - (1 - 2 * dy * vy) / 24) * J.dFyy +
    g.amp * E * (-H * dx * dy + (dy * vx + dx * vy) / 12) * J.dFxy

lemma computeResidual_eq (x y data : ℝ) (gs : List ImGauss) :
    computeResidual x y data gs = data - (gs.map fun g => contrib g x y).sum := by
  unfold computeResidual
  induction gs generalizing data with
  | nil => simp
  | cons g gs ih =>
    rw [List.foldl_cons, ih]
    simp only [List.map_cons, List.sum_cons]
    have : (if (x - g.xcen) * (g.fxx * (x - g.xcen) + g.fxy * (y - g.ycen)) +
          (y - g.ycen) * (g.fyy * (y - g.ycen) + g.fxy * (x - g.xcen)) > maxExpArg then data
        else data - g.amp * Real.exp (-(1 / 2) *
          ((x - g.xcen) * (g.fxx * (x - g.xcen) + g.fxy * (y - g.ycen)) +
          (y - g.ycen) * (g.fyy * (y - g.ycen) + g.fxy * (x - g.xcen)))) *
          (1 + ((g.fxx * (x - g.xcen) + g.fxy * (y - g.ycen)) *
            (g.fxx * (x - g.xcen) + g.fxy * (y - g.ycen)) +
            (g.fyy * (y - g.ycen) + g.fxy * (x - g.xcen)) *
            (g.fyy * (y - g.ycen) + g.fxy * (x - g.xcen)) - g.fxx - g.fyy) / 24)) =
        data - contrib g x y := by
      unfold contrib hCorr expArg
      beta_reduce
      simp only []
      split
      · ring
      · ring
    rw [this]
    ring

lemma derivStep_eq (x y rie2 : ℝ) (d : Param → ℝ) (g : ImGauss) (p : Param) :
    derivStep x y rie2 d g p = d p + -2 * rie2 * dcontrib g x y (jac g p) := by
  unfold derivStep dcontrib hCorr expArg
  simp only []
  split
  · ring
  · cases p <;> simp only [jac] <;> ring

lemma foldl_derivStep (x y rie2 : ℝ) (gs : List ImGauss) (d : Param → ℝ) (p : Param) :
    gs.foldl (derivStep x y rie2) d p =
      d p + (gs.map fun g => -2 * rie2 * dcontrib g x y (jac g p)).sum := by
  induction gs generalizing d with
  | nil => simp
  | cons g gs ih =>
    rw [List.foldl_cons, ih, derivStep_eq]
    simp only [List.map_cons, List.sum_cons]
    ring

lemma computeDerivative_eq (x y rie2 : ℝ) (gs : List ImGauss) (p : Param) :
    computeDerivative x y rie2 gs p =
      (gs.map fun g => -2 * rie2 * dcontrib g x y (jac g p)).sum := by
  unfold computeDerivative
  rw [foldl_derivStep]
  simp

lemma slice_flatten_const {α : Type} {w : Nat} (ls : List (List α)) (hw : ∀ l ∈ ls, l.length = w)
    {i : Nat} {l : List α} (hi : ls[i]? = some l) : (ls.flatten.drop (i * w)).take w = l := by
  have hl : l.length = w := hw l (List.mem_of_getElem? hi)
  apply List.ext_getElem?
  intro k
  by_cases hk : k < w
  · rw [List.getElem?_take_of_lt hk, List.getElem?_drop, Util.flatten_const ls hw hi hk]
  · rw [List.getElem?_eq_none (by simp; omega), List.getElem?_eq_none (by omega)]

/-- The slice the derivative loop uses for source `gal` is that source's gaussians. -/
lemma slice_source (band : Nat) (e : Exposure) (n : Nat) (sources : Nat → Source) (gal : Nat)
    (h : gal < n) :
    ((createImageGaussians band e n sources).drop (gal * e.psfs.length)).take e.psfs.length =
      sourceGauss band e gal (sources gal) := by
  unfold createImageGaussians
  apply slice_flatten_const
  · intro l hl
    simp only [List.mem_map] at hl
    obtain ⟨g, -, rfl⟩ := hl
    simp [sourceGauss]
  · simp [List.getElem?_map, List.getElem?_range h]

lemma foldl_pixelStep (n : Nat) (gs : List ImGauss) (nGal : Nat) (ps : List Pixel) (acc : Acc) :
    (ps.foldl (pixelStep n gs nGal) acc).chi2 = acc.chi2 + (ps.map (pixelChi2 gs)).sum ∧
    ∀ gal prm, gal < n → (ps.foldl (pixelStep n gs nGal) acc).grad gal prm =
      acc.grad gal prm + (ps.map fun p => computeDerivative p.x p.y (weighted gs p)
        ((gs.drop (gal * nGal)).take nGal) prm).sum := by
  induction ps generalizing acc with
  | nil => simp
  | cons p ps ih =>
    rw [List.foldl_cons]
    obtain ⟨h1, h2⟩ := ih (pixelStep n gs nGal acc p)
    constructor
    · rw [h1]
      simp only [pixelStep, List.map_cons, List.sum_cons]
      ring
    · intro gal prm hg
      rw [h2 gal prm hg]
      simp only [pixelStep, List.map_cons, List.sum_cons, if_pos hg]
      ring

/-- What one exposure adds to the derivative of source `gal` with respect to `prm`. -/
noncomputable def exposureGrad (band n : Nat) (sources : Nat → Source) (gal : Nat) (prm : Param)
    (e : Exposure) : ℝ :=
  (e.pixels.map fun p =>
    (e.psfs.map fun f =>
      -2 * weighted (createImageGaussians band e n sources) p *
        dcontrib (imGauss band e gal (sources gal) f) p.x p.y
          (jac (imGauss band e gal (sources gal) f) prm)).sum).sum

lemma foldl_exposureStep (band n : Nat) (sources : Nat → Source) (es : List Exposure) (acc : Acc) :
    (es.foldl (exposureStep band n sources) acc).chi2 =
      acc.chi2 + (es.map fun e =>
        (e.pixels.map (pixelChi2 (createImageGaussians band e n sources))).sum).sum ∧
    ∀ gal prm, gal < n → (es.foldl (exposureStep band n sources) acc).grad gal prm =
      acc.grad gal prm + (es.map (exposureGrad band n sources gal prm)).sum := by
  induction es generalizing acc with
  | nil => simp
  | cons e es ih =>
    rw [List.foldl_cons]
    obtain ⟨h1, h2⟩ := ih (exposureStep band n sources acc e)
    obtain ⟨p1, p2⟩ := foldl_pixelStep n (createImageGaussians band e n sources) e.psfs.length
      e.pixels acc
    constructor
    · rw [h1]
      simp only [exposureStep, List.map_cons, List.sum_cons]
      rw [p1]
      ring
    · intro gal prm hg
      rw [h2 gal prm hg]
      simp only [exposureStep, List.map_cons, List.sum_cons]
      rw [p2 gal prm hg, slice_source band e n sources gal hg]
      have : (e.pixels.map fun p => computeDerivative p.x p.y
          (weighted (createImageGaussians band e n sources) p)
          (sourceGauss band e gal (sources gal)) prm).sum =
          exposureGrad band n sources gal prm e := by
        unfold exposureGrad
        congr 1
        apply List.map_congr_left
        intro p _
        rw [computeDerivative_eq]
        simp only [sourceGauss, List.map_map, Function.comp_def]
      rw [this]
      ring

lemma evaluate_chi2 (band n : Nat) (es : List Exposure) (sources : Nat → Source) :
    (evaluate band n es sources).chi2 = (es.map fun e =>
      (e.pixels.map (pixelChi2 (createImageGaussians band e n sources))).sum).sum := by
  unfold evaluate
  rw [(foldl_exposureStep band n sources es _).1]
  simp

lemma evaluate_grad (band n : Nat) (es : List Exposure) (sources : Nat → Source) (gal : Nat)
    (prm : Param) (h : gal < n) :
    (evaluate band n es sources).grad gal prm =
      (es.map (exposureGrad band n sources gal prm)).sum := by
  unfold evaluate
  rw [(foldl_exposureStep band n sources es _).2 gal prm h]
  simp

lemma pixelChi2_eq (gs : List ImGauss) (p : Pixel) :
    pixelChi2 gs p = p.ierr ^ 2 *
      ((p.data - (gs.map fun g => contrib g p.x p.y).sum) ^ 2 - p.data ^ 2) := by
  unfold pixelChi2
  rw [computeResidual_eq]
  ring

end Forcepho.Kernel
