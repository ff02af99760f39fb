import Verif.Fluxes.Model
import Verif.Kernel.Props
import Verif.Bounds.Model
import Mathlib.LinearAlgebra.Matrix.PosDef
import Mathlib.Analysis.Matrix.Order

/-! # C62, C78: linear flux optimisation -/

set_option autoImplicit false
set_option linter.unusedSectionVars false

namespace Forcepho.Fluxes

open Matrix Forcepho.Kernel

variable {n m : Nat}

/-! ## C62: one band -/

/-- The weighted sum of squared residuals of a flux vector. -/
def objective (X : Matrix (Fin n) (Fin m) ℝ) (w y : Fin m → ℝ) (f : Fin n → ℝ) : ℝ :=
  ∑ p, (w p * (y p - ∑ i, f i * X i p)) ^ 2

/-- The fixed contribution in each pixel. -/
def Fixed.value : Fixed m → Fin m → ℝ
  | .scalar c, _ => c
  | .image f, p => f p
  | .images k x, p => ∑ j : Fin k, x j p

/-- The weighted rows. -/
def weightedRows (X : Matrix (Fin n) (Fin m) ℝ) (w : Fin m → ℝ) : Matrix (Fin n) (Fin m) ℝ := fun i p => X i p * w p

/-- Exact expansion of the objective around any point. -/
lemma objective_expand (X : Matrix (Fin n) (Fin m) ℝ) (w y : Fin m → ℝ) (f d : Fin n → ℝ) :
    objective X w y (f + d) = objective X w y f -
      2 * (d ⬝ᵥ (weightedRows X w *ᵥ (fun p => y p * w p) - (weightedRows X w * (weightedRows X w)ᵀ) *ᵥ f)) +
      d ⬝ᵥ ((weightedRows X w * (weightedRows X w)ᵀ) *ᵥ d) := by
  have hv : ∀ (g : Fin n → ℝ) p, ((weightedRows X w)ᵀ *ᵥ g) p = w p * ∑ i, g i * X i p := by
    intro g p
    simp only [mulVec, dotProduct, transpose_apply, weightedRows, Finset.mul_sum]
    exact Finset.sum_congr rfl fun i _ => by ring
  have hq : ∀ g h : Fin n → ℝ, g ⬝ᵥ ((weightedRows X w * (weightedRows X w)ᵀ) *ᵥ h) =
      ∑ p, (w p * ∑ i, g i * X i p) * (w p * ∑ i, h i * X i p) := by
    intro g h
    rw [← mulVec_mulVec, dotProduct_mulVec, ← mulVec_transpose]
    simp only [dotProduct]
    exact Finset.sum_congr rfl fun p _ => by rw [hv, hv]
  have hl : d ⬝ᵥ (weightedRows X w *ᵥ (fun p => y p * w p)) = ∑ p, (w p * ∑ i, d i * X i p) * (w p * y p) := by
    rw [dotProduct_mulVec, ← mulVec_transpose]
    simp only [dotProduct]
    exact Finset.sum_congr rfl fun p _ => by rw [hv]; ring
  rw [dotProduct_sub, hl, hq, hq]
  unfold objective
  rw [mul_sub, Finset.mul_sum, Finset.mul_sum, ← Finset.sum_sub_distrib, ← Finset.sum_sub_distrib, ← Finset.sum_add_distrib]
  apply Finset.sum_congr rfl
  intro p _
  have : ∑ i, (f + d) i * X i p = ∑ i, f i * X i p + ∑ i, d i * X i p := by
    rw [← Finset.sum_add_distrib]
    exact Finset.sum_congr rfl fun i _ => by rw [Pi.add_apply]; ring
  rw [this]
  ring

lemma optimize_spec (X : Matrix (Fin n) (Fin m) ℝ) (w y : Fin m → ℝ) (fx : Fixed m)
    (hfx : ∀ k x, fx ≠ .images k x) (f : Fin n → ℝ) (P : Matrix (Fin n) (Fin n) ℝ) :
    optimizeOneBand X w y fx = some (f, P) ↔
      P = weightedRows X w * (weightedRows X w)ᵀ ∧ P.det ≠ 0 ∧
      P *ᵥ f = weightedRows X w *ᵥ fun p => (y p - fx.value p) * w p := by
  have key : ∀ yp : Fin m → ℝ,
      ((solve (weightedRows X w * (weightedRows X w)ᵀ) (weightedRows X w *ᵥ yp)).map fun flux =>
        (flux, weightedRows X w * (weightedRows X w)ᵀ)) = some (f, P) ↔
      P = weightedRows X w * (weightedRows X w)ᵀ ∧ P.det ≠ 0 ∧ P *ᵥ f = weightedRows X w *ᵥ yp := by
    intro yp
    rw [Option.map_eq_some_iff]
    constructor
    · rintro ⟨g, hg, he⟩
      obtain ⟨rfl, rfl⟩ := Prod.mk.inj he
      unfold solve at hg
      by_cases hd : (weightedRows X w * (weightedRows X w)ᵀ).det = 0
      · rw [if_pos hd] at hg; cases hg
      · rw [if_neg hd] at hg
        obtain rfl := Option.some.inj hg
        refine ⟨rfl, hd, ?_⟩
        rw [mulVec_mulVec, mul_nonsing_inv _ (isUnit_iff_ne_zero.mpr hd), one_mulVec]
    · rintro ⟨rfl, hd, h⟩
      refine ⟨f, ?_, rfl⟩
      unfold solve
      rw [if_neg hd, ← h, mulVec_mulVec, nonsing_inv_mul _ (isUnit_iff_ne_zero.mpr hd), one_mulVec]
  cases fx with
  | scalar c => exact key _
  | image g => exact key _
  | images k x => exact absurd rfl (hfx k x)

/-- C62. The returned fluxes minimise the weighted sum of squared residuals after subtraction of the
fixed image, over all flux vectors, and are the only minimum. The returned precision matrix is
symmetric, positive definite, and half the Hessian: the objective at a distance `d` from the minimum is
larger by exactly `dᵀ P d`. -/
theorem C62_minimum (X : Matrix (Fin n) (Fin m) ℝ) (w y : Fin m → ℝ) (fx : Fixed m)
    (f : Fin n → ℝ) (P : Matrix (Fin n) (Fin n) ℝ) (h : optimizeOneBand X w y fx = some (f, P)) :
    (∀ g, objective X w (fun p => y p - fx.value p) f ≤ objective X w (fun p => y p - fx.value p) g) ∧
    (∀ g, objective X w (fun p => y p - fx.value p) g ≤ objective X w (fun p => y p - fx.value p) f → g = f) ∧
    (∀ d, objective X w (fun p => y p - fx.value p) (f + d) =
      objective X w (fun p => y p - fx.value p) f + d ⬝ᵥ (P *ᵥ d)) ∧
    P.PosDef ∧ (∀ i j, P i j = ∑ p, w p ^ 2 * X i p * X j p) := by
  have hfx : ∀ k x, fx ≠ .images k x := by
    rintro k x rfl; cases h
  obtain ⟨hP, hdet, hf⟩ := (optimize_spec X w y fx hfx f P).mp h
  have hexp : ∀ d, objective X w (fun p => y p - fx.value p) (f + d) =
      objective X w (fun p => y p - fx.value p) f + d ⬝ᵥ (P *ᵥ d) := by
    intro d
    rw [objective_expand, ← hP, hf, sub_self, dotProduct_zero]
    ring
  have hpd : P.PosDef := by
    have hps : P.PosSemidef := by
      rw [hP]
      have := posSemidef_self_mul_conjTranspose (weightedRows X w)
      rwa [conjTranspose_eq_transpose_of_trivial] at this
    exact hps.posDef_iff_isUnit.mpr ((isUnit_iff_isUnit_det P).mpr (isUnit_iff_ne_zero.mpr hdet))
  refine ⟨?_, ?_, hexp, hpd, ?_⟩
  · intro g
    have := hexp (g - f)
    rw [add_sub_cancel] at this
    rw [this]
    have h0 := hpd.posSemidef.dotProduct_mulVec_nonneg (g - f)
    rw [star_trivial] at h0
    linarith
  · intro g hg
    by_contra hne
    have := hexp (g - f)
    rw [add_sub_cancel] at this
    have h0 := hpd.dotProduct_mulVec_pos (sub_ne_zero.mpr hne)
    rw [star_trivial] at h0
    linarith
  · intro i j
    rw [hP, mul_apply]
    exact Finset.sum_congr rfl fun p _ => by simp [weightedRows]; ring

/-- C62. There is an answer exactly when no nonzero combination of the source images vanishes in all
pixels of nonzero weight. -/
theorem C62_solvable (X : Matrix (Fin n) (Fin m) ℝ) (w y : Fin m → ℝ) (fx : Fixed m)
    (hfx : ∀ k x, fx ≠ .images k x) :
    (∃ r, optimizeOneBand X w y fx = some r) ↔
      ∀ g : Fin n → ℝ, (∀ p, w p ≠ 0 → ∑ i, g i * X i p = 0) → g = 0 := by
  have hv : ∀ (g : Fin n → ℝ) p, ((weightedRows X w)ᵀ *ᵥ g) p = w p * ∑ i, g i * X i p := by
    intro g p
    simp only [mulVec, dotProduct, transpose_apply, weightedRows, Finset.mul_sum]
    exact Finset.sum_congr rfl fun i _ => by ring
  have hdet : (weightedRows X w * (weightedRows X w)ᵀ).det ≠ 0 ↔
      ∀ g : Fin n → ℝ, (∀ p, w p ≠ 0 → ∑ i, g i * X i p = 0) → g = 0 := by
    constructor
    · intro hd g hg
      have h0 : (weightedRows X w)ᵀ *ᵥ g = 0 := by
        funext p
        rw [hv]
        by_cases hw : w p = 0
        · rw [hw, zero_mul]; rfl
        · rw [hg p hw, mul_zero]; rfl
      exact Matrix.eq_zero_of_mulVec_eq_zero hd (by rw [← mulVec_mulVec, h0, mulVec_zero])
    · intro H hd
      obtain ⟨g, hg0, hg⟩ := (Matrix.exists_mulVec_eq_zero_iff (M := weightedRows X w * (weightedRows X w)ᵀ)).mpr hd
      apply hg0
      apply H
      intro p hw
      have hz : ((weightedRows X w)ᵀ *ᵥ g) ⬝ᵥ ((weightedRows X w)ᵀ *ᵥ g) = 0 := by
        have : g ⬝ᵥ ((weightedRows X w * (weightedRows X w)ᵀ) *ᵥ g) = 0 := by rw [hg, dotProduct_zero]
        rwa [← mulVec_mulVec, dotProduct_mulVec, ← mulVec_transpose] at this
      have := congrFun (dotProduct_self_eq_zero.mp hz) p
      rw [hv] at this
      exact (mul_eq_zero.mp this).resolve_left hw
  rw [← hdet]
  constructor
  · rintro ⟨⟨f, P⟩, h⟩
    obtain ⟨hP, hd, -⟩ := (optimize_spec X w y fx hfx f P).mp h
    rwa [← hP]
  · intro hd
    refine ⟨(_, _), (optimize_spec X w y fx hfx
      ((weightedRows X w * (weightedRows X w)ᵀ)⁻¹ *ᵥ (weightedRows X w *ᵥ fun p => (y p - fx.value p) * w p)) _).mpr
      ⟨rfl, hd, ?_⟩⟩
    rw [mulVec_mulVec, mul_nonsing_inv _ (isUnit_iff_ne_zero.mpr hd), one_mulVec]

/-- C62 refuted for the documented form of `fixedX`: one image per fixed source never works. -/
theorem C62_fixed_refuted (X : Matrix (Fin n) (Fin m) ℝ) (w y : Fin m → ℝ) (k : Nat) (x : Fin k → Fin m → ℝ) :
    optimizeOneBand X w y (.images k x) = none := rfl

/-! ## C78: the design matrix -/

/-- A source with another flux in a band. -/
def withFlux (s : Source) (band : Nat) (v : ℝ) : Source := { s with fluxes := Function.update s.fluxes band v }

lemma imGauss_withFlux (band : Nat) (e : Exposure) (g : Nat) (s : Source) (p : Psf) (v : ℝ) (x y : ℝ) :
    s.fluxes band * contrib (imGauss band e g (withFlux s band v) p) x y =
      v * contrib (imGauss band e g s p) x y := by
  have he : expArg (imGauss band e g (withFlux s band v) p) x y = expArg (imGauss band e g s p) x y := rfl
  have hh : hCorr (imGauss band e g (withFlux s band v) p) x y = hCorr (imGauss band e g s p) x y := rfl
  have ha : s.fluxes band * (imGauss band e g (withFlux s band v) p).amp = v * (imGauss band e g s p).amp := by
    simp only [imGauss, getGaussianAndJacobian, pixGauss, withFlux, covariance, Function.update_self]
    ring
  unfold contrib
  rw [he, hh]
  split
  · simp
  · calc _ = (s.fluxes band * (imGauss band e g (withFlux s band v) p).amp) *
        Real.exp (-(1 / 2) * expArg (imGauss band e g s p) x y) * hCorr (imGauss band e g s p) x y := by ring
      _ = _ := by rw [ha]; ring

lemma list_range_sum (k : Nat) (f : Nat → ℝ) : ((List.range k).map f).sum = ∑ i : Fin k, f i := by
  rw [Fin.sum_univ_eq_sum_range (fun i => f i) k]
  induction k with
  | zero => simp
  | succ k ih => rw [List.range_succ, List.map_append, List.sum_append, ih, Finset.sum_range_succ]; simp

/-- The image of source `i` of a scene in one pixel. -/
noncomputable def sourceCounts (band : Nat) (e : Exposure) (i : Nat) (s : Source) (px : Pixel) : ℝ :=
  (e.psfs.map fun p => contrib (imGauss band e i s p) px.x px.y).sum

lemma sourceCounts_withFlux (band : Nat) (e : Exposure) (i : Nat) (s : Source) (px : Pixel) (v : ℝ) :
    s.fluxes band * sourceCounts band e i (withFlux s band v) px = v * sourceCounts band e i s px := by
  unfold sourceCounts
  rw [← List.sum_map_mul_left, ← List.sum_map_mul_left]
  congr 1
  exact List.map_congr_left fun p _ => imGauss_withFlux band e i s p v px.x px.y

/-- The pixels of a band with their exposures. -/
def bandPixels (es : List Exposure) : List (Exposure × Pixel) := es.flatMap fun e => e.pixels.map fun px => (e, px)

lemma bandData_eq (es : List Exposure) : bandData es = (bandPixels es).map fun q => q.2.data := by
  unfold bandData bandPixels
  rw [List.map_flatMap]
  congr 1; funext e; rw [List.map_map]; rfl

lemma data_at (es : List Exposure) (p : Fin (bandData es).length) (q : Exposure × Pixel)
    (hq : (bandPixels es)[p.val]? = some q) : (bandData es)[p] = q.2.data := by
  obtain ⟨k, hk⟩ := p
  have : (bandData es)[k]? = some q.2.data := by
    rw [bandData_eq, List.getElem?_map]
    simp only at hq
    rw [hq]; rfl
  rw [List.getElem?_eq_getElem hk] at this
  exact Option.some.inj this

lemma bandIerr_eq (es : List Exposure) : bandIerr es = (bandPixels es).map fun q => q.2.ierr := by
  unfold bandIerr bandPixels
  rw [List.map_flatMap]
  congr 1; funext e; rw [List.map_map]; rfl

lemma bandResidual_eq (band k : Nat) (es : List Exposure) (sources : Nat → Source) :
    bandResidual band k es sources = (bandPixels es).map fun q => q.2.data -
      ((List.range k).map fun g => sourceCounts band q.1 g (sources g) q.2).sum := by
  unfold bandResidual bandPixels
  rw [List.map_flatMap]
  congr 1; funext e
  rw [List.map_map]
  unfold residualImage
  apply List.map_congr_left
  intro px _
  simp only [Function.comp]
  rw [computeResidual_eq, sum_contrib]
  rfl

lemma bandPixels_single (i : Nat) (es : List Exposure) :
    bandPixels (es.map (single i)) = (bandPixels es).map fun q => (single i q.1, q.2) := by
  unfold bandPixels
  rw [List.flatMap_map, List.map_flatMap]
  congr 1; funext e
  rw [List.map_map]; rfl

lemma sourceCounts_single (band : Nat) (e : Exposure) (i : Nat) (s : Source) (px : Pixel) :
    sourceCounts band (single i e) 0 s px = sourceCounts band e i s px := rfl

lemma design_entry (band : Nat) (es : List Exposure) (sources : Nat → Source)
    (X : Matrix (Fin n) (Fin (bandData es).length) ℝ) (h : designMatrix band n es sources = some X)
    (i : Fin n) (p : Fin (bandData es).length) (q : Exposure × Pixel) (hq : (bandPixels es)[p.val]? = some q) :
    (sources i).fluxes band ≠ 0 ∧ X i p = sourceCounts band q.1 i (sources i) q.2 / (sources i).fluxes band := by
  unfold designMatrix at h
  split at h
  · rename_i hne
    obtain rfl := Option.some.inj h
    refine ⟨hne i, ?_⟩
    have hd := data_at es p q hq
    have hr : (bandResidual band 1 (es.map (single i)) fun _ => sources i).getD p 0 =
        q.2.data - sourceCounts band q.1 i (sources i) q.2 := by
      rw [bandResidual_eq, bandPixels_single, List.map_map, List.getD_eq_getElem?_getD, List.getElem?_map, hq]
      simp [sourceCounts_single]
    show ((bandData es)[p] - _) / _ = _
    rw [hd, hr]
    congr 1; ring
  · cases h

/-- C78. With nonzero starting fluxes the design matrix exists; it does not depend on those fluxes, and
for any flux vector the combination of its rows is the model that the kernel subtracts from the data
for a scene with these fluxes. -/
theorem C78_design (band : Nat) (es : List Exposure) (sources : Nat → Source)
    (hne : ∀ i : Fin n, (sources i).fluxes band ≠ 0) :
    ∃ X, designMatrix band n es sources = some X ∧
    (∀ f₀ : Nat → ℝ, (∀ i : Fin n, f₀ i ≠ 0) →
      designMatrix band n es (fun i => withFlux (sources i) band (f₀ i)) = some X) ∧
    (∀ (f : Nat → ℝ) (p : Fin (bandData es).length),
      (bandResidual band n es fun i => withFlux (sources i) band (f i))[p.val]? =
        some ((bandData es)[p] - ∑ i : Fin n, f i * X i p)) := by
  have hex : ∃ X, designMatrix band n es sources = some X := ⟨_, if_pos hne⟩
  obtain ⟨X, hX⟩ := hex
  have hpix : ∀ p : Fin (bandData es).length, ∃ q, (bandPixels es)[p.val]? = some q := by
    intro p
    have : p.val < (bandPixels es).length := by
      have := p.isLt
      have hl : (bandData es).length = (bandPixels es).length := by rw [bandData_eq, List.length_map]
      omega
    exact ⟨_, List.getElem?_eq_getElem this⟩
  refine ⟨X, hX, ?_, ?_⟩
  · intro f₀ hf₀
    have hex' : ∃ X', designMatrix band n es (fun i => withFlux (sources i) band (f₀ i)) = some X' :=
      ⟨_, if_pos (fun i => by simpa [withFlux] using hf₀ i)⟩
    obtain ⟨X', hX'⟩ := hex'
    rw [hX']
    congr 1
    ext i p
    obtain ⟨q, hq⟩ := hpix p
    obtain ⟨h1, e1⟩ := design_entry band es sources X hX i p q hq
    obtain ⟨h2, e2⟩ := design_entry band es _ X' hX' i p q hq
    rw [e1, e2]
    rw [div_eq_div_iff h2 h1]
    have := sourceCounts_withFlux band q.1 i (sources i) q.2 (f₀ i)
    have hf : (withFlux (sources i) band (f₀ i)).fluxes band = f₀ i := by simp [withFlux]
    rw [hf]
    linarith
  · intro f p
    obtain ⟨q, hq⟩ := hpix p
    have hd := data_at es p q hq
    rw [bandResidual_eq, List.getElem?_map, hq, Option.map_some, hd]
    congr 2
    rw [list_range_sum]
    apply Finset.sum_congr rfl
    intro i _
    obtain ⟨h1, e1⟩ := design_entry band es sources X hX i p q hq
    have := sourceCounts_withFlux band q.1 i (sources i) q.2 (f i)
    rw [e1]
    field_simp
    linarith

/-- Fluxes for all sources from a vector. -/
def extend (f : Fin n → ℝ) (i : Nat) : ℝ := if h : i < n then f ⟨i, h⟩ else 0

lemma extend_fin (f : Fin n → ℝ) (i : Fin n) : extend f i = f i := by
  simp [extend]

/-- The kernel's chi-square of a band as a sum over the pixels, in terms of its residual image. -/
lemma chi2_eq (band : Nat) (es : List Exposure) (sources : Nat → Source) :
    (evaluate band n es sources).chi2 = ((bandPixels es).map fun q => q.2.ierr ^ 2 * ((q.2.data -
      ((List.range n).map fun g => sourceCounts band q.1 g (sources g) q.2).sum) ^ 2 - q.2.data ^ 2)).sum := by
  rw [evaluate_chi2]
  unfold bandPixels
  rw [List.map_flatMap, List.flatMap_def, List.sum_flatten, List.map_map]
  congr 1
  apply List.map_congr_left
  intro e _
  simp only [Function.comp]
  rw [List.map_map]
  congr 1
  apply List.map_congr_left
  intro px _
  rw [pixelChi2_eq, sum_contrib]
  rfl

lemma list_sum_fin (l : List ℝ) : l.sum = ∑ p : Fin l.length, l[p] := by
  rw [← List.sum_ofFn]
  congr 1
  exact List.ofFn_getElem.symm

/-- The objective of the linear problem is chi-square plus a constant. -/
lemma objective_chi2 (band : Nat) (es : List Exposure) (sources : Nat → Source)
    (X : Matrix (Fin n) (Fin (bandData es).length) ℝ) (hX : designMatrix band n es sources = some X)
    (f : Fin n → ℝ) :
    objective X (fun p => (bandIerr es).getD p 0) (fun p => (bandData es)[p]) f =
      (evaluate band n es fun i => withFlux (sources i) band (extend f i)).chi2 +
        ((bandPixels es).map fun q => q.2.ierr ^ 2 * q.2.data ^ 2).sum := by
  rw [chi2_eq, ← List.sum_map_add, list_sum_fin]
  have hl : (bandData es).length = ((bandPixels es).map fun q => q.2.ierr ^ 2 * ((q.2.data -
      ((List.range n).map fun g => sourceCounts band q.1 g (withFlux (sources g) band (extend f g)) q.2).sum) ^ 2 -
        q.2.data ^ 2) + q.2.ierr ^ 2 * q.2.data ^ 2).length := by
    rw [bandData_eq, List.length_map, List.length_map]
  unfold objective
  refine Fintype.sum_equiv (finCongr hl) _ _ ?_
  intro p
  have hp : p.val < (bandPixels es).length := by
    have hl : (bandData es).length = (bandPixels es).length := by rw [bandData_eq, List.length_map]
    exact hl ▸ p.isLt
  have hq : (bandPixels es)[p.val]? = some (bandPixels es)[p.val] := List.getElem?_eq_getElem hp
  beta_reduce
  rw [data_at es p _ hq]
  have hi : (bandIerr es).getD p 0 = (bandPixels es)[p.val].2.ierr := by
    rw [bandIerr_eq, List.getD_eq_getElem?_getD, List.getElem?_map, hq]; rfl
  rw [hi]
  simp only [finCongr_apply, Fin.getElem_fin, Fin.val_cast, List.getElem_map]
  have hsum : ∑ i, f i * X i p = ((List.range n).map fun g =>
      sourceCounts band (bandPixels es)[p.val].1 g (withFlux (sources g) band (extend f g)) (bandPixels es)[p.val].2).sum := by
    rw [list_range_sum]
    apply Finset.sum_congr rfl
    intro i _
    obtain ⟨h1, e1⟩ := design_entry band es sources X hX i p _ hq
    have := sourceCounts_withFlux band (bandPixels es)[p.val].1 i (sources i) (bandPixels es)[p.val].2 (extend f i)
    rw [e1, extend_fin] at *
    field_simp
    linarith
  rw [hsum]
  ring

/-- C62, end to end. The fluxes that linear optimisation returns for a band minimise the kernel's
chi-square over all fluxes of the sources in that band, and no other fluxes do; chi-square grows from
there by exactly the quadratic form of the returned precision matrix. -/
theorem C62_chi2 (band : Nat) (es : List Exposure) (sources : Nat → Source) (f : Fin n → ℝ)
    (P : Matrix (Fin n) (Fin n) ℝ) (h : optimizeBand band n es sources = some (f, P)) :
    (∀ g : Fin n → ℝ, (evaluate band n es fun i => withFlux (sources i) band (extend f i)).chi2 ≤
      (evaluate band n es fun i => withFlux (sources i) band (extend g i)).chi2) ∧
    (∀ g : Fin n → ℝ, (evaluate band n es fun i => withFlux (sources i) band (extend g i)).chi2 ≤
      (evaluate band n es fun i => withFlux (sources i) band (extend f i)).chi2 → g = f) ∧
    (∀ d : Fin n → ℝ, (evaluate band n es fun i => withFlux (sources i) band (extend (f + d) i)).chi2 =
      (evaluate band n es fun i => withFlux (sources i) band (extend f i)).chi2 + d ⬝ᵥ (P *ᵥ d)) ∧
    P.PosDef := by
  unfold optimizeBand at h
  obtain ⟨X, hX, h⟩ := Option.bind_eq_some_iff.mp h
  obtain ⟨h1, h2, h3, h4, -⟩ := C62_minimum X _ _ _ f P h
  have hz : (fun p => (bandData es)[p] - (Fixed.scalar 0 : Fixed (bandData es).length).value p) =
      fun p => (bandData es)[p] := by funext p; simp [Fixed.value]
  rw [hz] at h1 h2 h3
  refine ⟨?_, ?_, ?_, h4⟩
  · intro g
    have := h1 g
    rw [objective_chi2 band es sources X hX, objective_chi2 band es sources X hX] at this
    linarith
  · intro g hg
    apply h2 g
    rw [objective_chi2 band es sources X hX, objective_chi2 band es sources X hX]
    linarith
  · intro d
    have := h3 d
    rw [objective_chi2 band es sources X hX, objective_chi2 band es sources X hX] at this
    linarith

/-- C62, all bands. If linear optimisation succeeds there is one result per band, in order, each the
result for that band; if it fails it names a band that has no solution, and all bands before it have. -/
theorem C62_bands (sources : Nat → Source) (first : Nat) (bands : List (List Exposure)) :
    (∀ rs, optimizeFluxes n sources first bands = .ok rs → rs.length = bands.length ∧
      ∀ (j : Nat) (es : List Exposure), bands[j]? = some es → ∃ r, rs[j]? = some r ∧
        optimizeBand (first + j) n es sources = some r) ∧
    (∀ b, optimizeFluxes n sources first bands = .error b → ∃ (j : Nat) (es : List Exposure),
      b = first + j ∧ bands[j]? = some es ∧ optimizeBand b n es sources = none ∧
      ∀ (k : Nat) (es' : List Exposure), k < j → bands[k]? = some es' →
        (optimizeBand (first + k) n es' sources).isSome = true) := by
  induction bands generalizing first with
  | nil =>
    refine ⟨?_, ?_⟩
    · intro rs h
      rw [optimizeFluxes] at h
      obtain rfl : [] = rs := by injection h
      exact ⟨rfl, by simp⟩
    · intro b h
      rw [optimizeFluxes] at h; cases h
  | cons es rest ih =>
    obtain ⟨ih1, ih2⟩ := ih (first + 1)
    rw [optimizeFluxes]
    cases hb : optimizeBand first n es sources with
    | none =>
      refine ⟨fun rs h => (by cases h), ?_⟩
      intro b h
      obtain rfl : first = b := by injection h
      exact ⟨0, es, rfl, rfl, hb, fun k es' hk => absurd hk (by omega)⟩
    | some r =>
      simp only []
      cases hr : optimizeFluxes n sources (first + 1) rest with
      | ok rs' =>
        refine ⟨?_, fun b h => by cases h⟩
        intro rs h
        obtain rfl : r :: rs' = rs := by injection h
        obtain ⟨l1, l2⟩ := ih1 rs' hr
        refine ⟨by simp [l1], ?_⟩
        intro j es' hj
        cases j with
        | zero =>
          obtain rfl : es = es' := by simpa using hj
          exact ⟨r, rfl, hb⟩
        | succ j =>
          obtain ⟨r', h1, h2⟩ := l2 j es' (by simpa using hj)
          exact ⟨r', by simpa using h1, by rw [← h2]; congr 1; omega⟩
      | error i =>
        refine ⟨fun rs h => (by cases h), ?_⟩
        intro b h
        obtain rfl : i = b := by injection h
        obtain ⟨j, es', e1, e2, e3, e4⟩ := ih2 i hr
        refine ⟨j + 1, es', by omega, by simpa using e2, e3, ?_⟩
        intro k es'' hk hes
        cases k with
        | zero =>
          obtain rfl : es = es'' := by simpa using hes
          rw [Nat.add_zero, hb]; rfl
        | succ k =>
          have := e4 k es'' (by omega) (by simpa using hes)
          rw [show first + (k + 1) = first + 1 + k by omega]; exact this

/-- A problem with a solution: two sources, three pixels. -/
example : ∀ g : Fin 2 → ℝ, (∀ p : Fin 3, (fun _ => 1 : Fin 3 → ℝ) p ≠ 0 →
    ∑ i, g i * (!![1, 0, 1; 0, 1, 1] : Matrix (Fin 2) (Fin 3) ℝ) i p = 0) → g = 0 := by
  intro g h
  have h0 := h 0 (by norm_num)
  have h1 := h 1 (by norm_num)
  simp [Fin.sum_univ_two] at h0 h1
  funext i
  fin_cases i
  · exact h0
  · exact h1

/-- C62 (tasks.py:61-74). The flux bounds that are set from the precision matrix after linear
optimisation strictly contain the optimal fluxes. -/
theorem C62_bounds (band : Nat) (es : List Exposure) (sources : Nat → Source) (f : Fin n → ℝ)
    (P : Matrix (Fin n) (Fin n) ℝ) (h : optimizeBand band n es sources = some (f, P))
    (expansion snrMax : ℝ) (hex : 0 < expansion) (i : Fin n) :
    (Bounds.fluxBoundPrec expansion snrMax (Real.sqrt (P⁻¹ i i)) (f i)).1 < f i ∧
    f i < (Bounds.fluxBoundPrec expansion snrMax (Real.sqrt (P⁻¹ i i)) (f i)).2 := by
  obtain ⟨-, -, -, hP⟩ := C62_chi2 band es sources f P h
  have hs : 0 < Real.sqrt (P⁻¹ i i) := Real.sqrt_pos.mpr hP.inv.diag_pos
  have hm : 0 < max (Real.sqrt (P⁻¹ i i)) (f i / snrMax) := lt_of_lt_of_le hs (le_max_left _ _)
  have := mul_pos hex hm
  unfold Bounds.fluxBoundPrec
  simp only []
  exact ⟨by linarith, lt_of_lt_of_le (by linarith) (le_max_left _ _)⟩

/-- A scene for the end-to-end statement: one source on the only pixel of one exposure. -/
noncomputable def exSource : Source := ⟨0, 0, 1, 0, fun _ => 2, fun _ => 1, fun _ => 0, fun _ => 0⟩

/-- Its exposure. -/
noncomputable def exExposure : Exposure :=
  ⟨1, fun _ => ⟨⟨1, 0, 0, 1⟩, ⟨1, 0, 0, 1⟩, (0, 0), (0, 0)⟩, [⟨1, 0, 0, 1, 1, 0, 0⟩], fun _ => 0, [⟨0, 0, 3, 1⟩]⟩

/-- The hypothesis of `C62_chi2` is met: the optimisation of this scene succeeds. -/
theorem C62_witness : ∃ r, optimizeBand 0 1 [exExposure] (fun _ => exSource) = some r := by
  have hne : ∀ i : Fin 1, ((fun _ => exSource) i.val).fluxes 0 ≠ 0 := by
    intro i; norm_num [exSource]
  obtain ⟨X, hX, -, -⟩ := C78_design (n := 1) 0 [exExposure] (fun _ => exSource) hne
  unfold optimizeBand
  rw [hX, Option.bind_some]
  refine (C62_solvable X (fun p => (bandIerr [exExposure]).getD p 0) (fun p => (bandData [exExposure])[p]) (.scalar 0)
    (fun k x => by simp)).mpr ?_
  intro g hg
  have hlen : 0 < (bandData [exExposure]).length := by decide
  have h0 := hg ⟨0, hlen⟩ (by norm_num [bandIerr, exExposure])
  obtain ⟨-, e⟩ := design_entry 0 [exExposure] (fun _ => exSource) X hX 0 ⟨0, hlen⟩ (exExposure, ⟨0, 0, 3, 1⟩) rfl
  have hc : sourceCounts 0 exExposure 0 exSource ⟨0, 0, 3, 1⟩ = 2 * (1 / (2 * Real.pi)) * (1 + (-1 - 1) / 24) := by
    simp [sourceCounts, exExposure, exSource, contrib, expArg, hCorr, imGauss, getGaussianAndJacobian, pixGauss, covariance,
      M22.mulVec, M22.inv, M22.det, M22.smul, M22.add, maxExpArg]
    rw [if_neg (by norm_num)]
    ring
  rw [Fin.sum_univ_one, e] at h0
  rw [show ((0 : Fin 1) : Nat) = 0 from rfl, hc] at h0
  have hpi := Real.pi_pos
  have hx : 2 * (1 / (2 * Real.pi)) * (1 + (-1 - 1) / 24) / exSource.fluxes 0 ≠ 0 := by
    apply div_ne_zero
    · have : (0 : ℝ) < 2 * (1 / (2 * Real.pi)) := by positivity
      have h2 : (0 : ℝ) < 1 + (-1 - 1) / 24 := by norm_num
      exact (mul_pos this h2).ne'
    · norm_num [exSource]
  funext i
  rw [Subsingleton.elim i 0]
  exact (mul_eq_zero.mp h0).resolve_right hx

end Forcepho.Fluxes
