import Verif.Kernel.Sums
import Verif.Transform.Props

/-! # C50: the kernel's gradients are the derivatives of its chi-square -/

set_option autoImplicit false
set_option linter.unusedSectionVars false

namespace Forcepho.Kernel

open Forcepho.Transform (hdc)

/-! ## One gaussian at one pixel -/

lemma hconst {g : ℝ → ℝ} {b t : ℝ} (h : ∀ y, g y = g t) (hb : b = 0) : HasDerivAt g b t :=
  hdc (hasDerivAt_const t (g t)) h hb

/-- Along a curve of gaussians `c` the six image parameters have derivatives `J` at `t₀`. -/
structure Along (c : ℝ → ImGauss) (J : D6) (t₀ : ℝ) : Prop where
  amp : HasDerivAt (fun t => (c t).amp) J.dA t₀
  xcen : HasDerivAt (fun t => (c t).xcen) J.dx t₀
  ycen : HasDerivAt (fun t => (c t).ycen) J.dy t₀
  fxx : HasDerivAt (fun t => (c t).fxx) J.dFxx t₀
  fyy : HasDerivAt (fun t => (c t).fyy) J.dFyy t₀
  fxy : HasDerivAt (fun t => (c t).fxy) J.dFxy t₀

theorem contrib_hasDerivAt {c : ℝ → ImGauss} {J : D6} {t₀ : ℝ} (h : Along c J t₀) (x y : ℝ)
    (hne : expArg (c t₀) x y ≠ maxExpArg) :
    HasDerivAt (fun t => contrib (c t) x y) (dcontrib (c t₀) x y J) t₀ := by
  obtain ⟨ha, hx, hy, hfx, hfy, hfxy⟩ := h
  have hdx := hx.const_sub x
  have hdy := hy.const_sub y
  have hvx : HasDerivAt (fun t => (c t).fxx * (x - (c t).xcen) + (c t).fxy * (y - (c t).ycen))
      (J.dFxx * (x - (c t₀).xcen) + (c t₀).fxx * -J.dx +
        (J.dFxy * (y - (c t₀).ycen) + (c t₀).fxy * -J.dy)) t₀ :=
    (hfx.mul hdx).add (hfxy.mul hdy)
  have hvy : HasDerivAt (fun t => (c t).fyy * (y - (c t).ycen) + (c t).fxy * (x - (c t).xcen))
      (J.dFyy * (y - (c t₀).ycen) + (c t₀).fyy * -J.dy +
        (J.dFxy * (x - (c t₀).xcen) + (c t₀).fxy * -J.dx)) t₀ :=
    (hfy.mul hdy).add (hfxy.mul hdx)
  have hE : HasDerivAt (fun t => expArg (c t) x y)
      (-J.dx * ((c t₀).fxx * (x - (c t₀).xcen) + (c t₀).fxy * (y - (c t₀).ycen)) +
        (x - (c t₀).xcen) * (J.dFxx * (x - (c t₀).xcen) + (c t₀).fxx * -J.dx +
          (J.dFxy * (y - (c t₀).ycen) + (c t₀).fxy * -J.dy)) +
        (-J.dy * ((c t₀).fyy * (y - (c t₀).ycen) + (c t₀).fxy * (x - (c t₀).xcen)) +
          (y - (c t₀).ycen) * (J.dFyy * (y - (c t₀).ycen) + (c t₀).fyy * -J.dy +
            (J.dFxy * (x - (c t₀).xcen) + (c t₀).fxy * -J.dx)))) t₀ :=
    (hdx.mul hvx).add (hdy.mul hvy)
  have hcont := hE.continuousAt
  rcases lt_or_gt_of_ne hne with hlt | hgt
  · -- below the threshold
    have hev : (fun t => contrib (c t) x y) =ᶠ[nhds t₀] fun t =>
        (c t).amp * Real.exp (-(1 / 2) * expArg (c t) x y) * hCorr (c t) x y := by
      filter_upwards [hcont.eventually (gt_mem_nhds hlt)] with t ht
      unfold contrib
      rw [if_neg (not_lt.mpr ht.le)]
    refine HasDerivAt.congr_of_eventuallyEq ?_ hev
    have hH : HasDerivAt (fun t => hCorr (c t) x y)
        ((2 * ((c t₀).fxx * (x - (c t₀).xcen) + (c t₀).fxy * (y - (c t₀).ycen)) *
          (J.dFxx * (x - (c t₀).xcen) + (c t₀).fxx * -J.dx +
            (J.dFxy * (y - (c t₀).ycen) + (c t₀).fxy * -J.dy)) +
          2 * ((c t₀).fyy * (y - (c t₀).ycen) + (c t₀).fxy * (x - (c t₀).xcen)) *
          (J.dFyy * (y - (c t₀).ycen) + (c t₀).fyy * -J.dy +
            (J.dFxy * (x - (c t₀).xcen) + (c t₀).fxy * -J.dx)) - J.dFxx - J.dFyy) / 24) t₀ := by
      refine hdc (((((hvx.pow 2).add (hvy.pow 2)).sub hfx).sub hfy).div_const 24 |>.const_add 1)
        (fun t => rfl) ?_
      norm_num
    have hG : HasDerivAt (fun t => Real.exp (-(1 / 2) * expArg (c t) x y)) _ t₀ :=
      (hE.const_mul (-(1 / 2))).exp
    refine hdc ((ha.mul hG).mul hH) (fun t => rfl) ?_
    unfold dcontrib
    simp only []
    rw [if_neg (not_lt.mpr hlt.le)]
    simp only [Pi.mul_apply]
    generalize Real.exp (-(1 / 2) * expArg (c t₀) x y) = E
    generalize hCorr (c t₀) x y = H
    ring
  · have hev : (fun t => contrib (c t) x y) =ᶠ[nhds t₀] fun _ => 0 := by
      filter_upwards [hcont.eventually (lt_mem_nhds hgt)] with t ht
      unfold contrib
      rw [if_pos ht]
    refine HasDerivAt.congr_of_eventuallyEq ?_ hev
    unfold dcontrib
    simp only []
    rw [if_pos hgt]
    exact hasDerivAt_const _ _

/-! ## The image gaussian as a function of the source -/

lemma inv_hasDerivAt {a b d : ℝ → ℝ} {a' b' d' t₀ : ℝ} (ha : HasDerivAt a a' t₀)
    (hb : HasDerivAt b b' t₀) (hd : HasDerivAt d d' t₀)
    (hdet : 0 < (M22.mk (a t₀) (b t₀) (b t₀) (d t₀)).det) :
    HasDerivAt (fun t => (M22.mk (a t) (b t) (b t) (d t)).inv.v11)
      (M22.smul (-1) (M22.ABA (M22.mk (a t₀) (b t₀) (b t₀) (d t₀)).inv ⟨a', b', b', d'⟩)).v11 t₀ ∧
    HasDerivAt (fun t => (M22.mk (a t) (b t) (b t) (d t)).inv.v21)
      (M22.smul (-1) (M22.ABA (M22.mk (a t₀) (b t₀) (b t₀) (d t₀)).inv ⟨a', b', b', d'⟩)).v21 t₀ ∧
    HasDerivAt (fun t => (M22.mk (a t) (b t) (b t) (d t)).inv.v22)
      (M22.smul (-1) (M22.ABA (M22.mk (a t₀) (b t₀) (b t₀) (d t₀)).inv ⟨a', b', b', d'⟩)).v22 t₀ ∧
    HasDerivAt (fun t => Real.sqrt (M22.mk (a t) (b t) (b t) (d t)).inv.det)
      (1 / 2 * Real.sqrt (M22.mk (a t₀) (b t₀) (b t₀) (d t₀)).inv.det *
        ((M22.mk (a t₀) (b t₀) (b t₀) (d t₀)).mul (M22.smul (-1)
          (M22.ABA (M22.mk (a t₀) (b t₀) (b t₀) (d t₀)).inv ⟨a', b', b', d'⟩))).trace) t₀ := by
  have hD : HasDerivAt (fun t => a t * d t - b t * b t)
      (a' * d t₀ + a t₀ * d' - (b' * b t₀ + b t₀ * b')) t₀ := (ha.mul hd).sub (hb.mul hb)
  have hpos : 0 < a t₀ * d t₀ - b t₀ * b t₀ := hdet
  have hne := hpos.ne'
  have hI : HasDerivAt (fun t => 1 / (a t * d t - b t * b t))
      (-(a' * d t₀ + a t₀ * d' - (b' * b t₀ + b t₀ * b')) / (a t₀ * d t₀ - b t₀ * b t₀) ^ 2) t₀ := by
    refine hdc (hD.inv hne) (fun t => ?_) rfl
    simp
  refine ⟨?_, ?_, ?_, ?_⟩
  · refine hdc (hd.mul hI) (fun t => rfl) ?_
    simp only [M22.smul, M22.ABA, M22.inv, M22.det]
    field_simp
    ring
  · refine hdc (hb.neg.mul hI) (fun t => rfl) ?_
    simp only [M22.smul, M22.ABA, M22.inv, M22.det, Pi.neg_apply]
    field_simp
    ring
  · refine hdc (ha.mul hI) (fun t => rfl) ?_
    simp only [M22.smul, M22.ABA, M22.inv, M22.det]
    field_simp
    ring
  · have hev : (fun t => Real.sqrt (M22.mk (a t) (b t) (b t) (d t)).inv.det) =ᶠ[nhds t₀]
        fun t => Real.sqrt (1 / (a t * d t - b t * b t)) := by
      filter_upwards [hD.continuousAt.eventually (lt_mem_nhds hpos)] with t ht
      congr 1
      simp only [M22.inv, M22.det]
      have := ht.ne'
      field_simp
    refine HasDerivAt.congr_of_eventuallyEq ?_ hev
    have hi : (0 : ℝ) < 1 / (a t₀ * d t₀ - b t₀ * b t₀) := by positivity
    refine hdc (hI.sqrt hi.ne') (fun t => rfl) ?_
    have hdetF : (M22.mk (a t₀) (b t₀) (b t₀) (d t₀)).inv.det =
        1 / (a t₀ * d t₀ - b t₀ * b t₀) := by
      simp only [M22.inv, M22.det]
      field_simp
    rw [hdetF]
    have hs : Real.sqrt (1 / (a t₀ * d t₀ - b t₀ * b t₀)) ^ 2 =
        1 / (a t₀ * d t₀ - b t₀ * b t₀) := Real.sq_sqrt hi.le
    have hs0 : 0 < Real.sqrt (1 / (a t₀ * d t₀ - b t₀ * b t₀)) := Real.sqrt_pos.mpr hi
    have htr : ((M22.mk (a t₀) (b t₀) (b t₀) (d t₀)).mul (M22.smul (-1)
          (M22.ABA (M22.mk (a t₀) (b t₀) (b t₀) (d t₀)).inv ⟨a', b', b', d'⟩))).trace =
        -(a' * d t₀ + a t₀ * d' - (b' * b t₀ + b t₀ * b')) / (a t₀ * d t₀ - b t₀ * b t₀) := by
      simp only [M22.smul, M22.ABA, M22.inv, M22.det, M22.mul, M22.trace]
      have hne2 : a t₀ * d t₀ - b t₀ ^ 2 ≠ 0 := by rw [sq]; exact hne
      generalize a t₀ = A at *
      generalize b t₀ = B at *
      generalize d t₀ = C at *
      rw [eq_div_iff hne]
      field_simp
      ring
    rw [htr]
    rw [eq_div_iff (by positivity)]
    generalize Real.sqrt (1 / (a t₀ * d t₀ - b t₀ * b t₀)) = s at hs hs0 ⊢
    calc _ = s ^ 2 * (-(a' * d t₀ + a t₀ * d' - (b' * b t₀ + b t₀ * b')) /
          (a t₀ * d t₀ - b t₀ * b t₀)) := by ring
      _ = _ := by
        rw [hs]
        field_simp

/-- The image gaussian when only the shape matrix `T` of the source gaussian moves. -/
lemma shape_along (s : PixGauss) (p : Psf) (T : ℝ → M22) (dT : M22) (t₀ : ℝ)
    (h11 : HasDerivAt (fun t => (T t).v11) dT.v11 t₀)
    (h12 : HasDerivAt (fun t => (T t).v12) dT.v12 t₀)
    (h21 : HasDerivAt (fun t => (T t).v21) dT.v21 t₀)
    (h22 : HasDerivAt (fun t => (T t).v22) dT.v22 t₀)
    (hdet : 0 < (covariance { s with T := T t₀ } p).det)
    (c : ℝ → PixGauss)
    (hc : ∀ t, (c t).amp = s.amp ∧ (c t).xcen = s.xcen ∧ (c t).ycen = s.ycen ∧
      (c t).covar = s.covar ∧ (c t).flux = s.flux ∧ (c t).G = s.G ∧ (c t).T = T t) :
    Along (fun t => getGaussianAndJacobian (c t) p)
      (let f := (covariance { s with T := T t₀ } p).inv
       let dF := M22.smul (-1) (M22.ABA f (M22.smul s.covar (M22.symABt (T t₀) dT)))
       let g := getGaussianAndJacobian (c t₀) p
       ⟨1 / 2 * g.amp * ((covariance { s with T := T t₀ } p).mul dF).trace, 0, 0,
        dF.v11, dF.v22, dF.v21⟩) t₀ := by
  have h1 : HasDerivAt (fun t => s.covar * ((T t).v11 * (T t).v11 + (T t).v12 * (T t).v12) + p.cxx)
      (s.covar * (2 * ((T t₀).v11 * dT.v11 + (T t₀).v12 * dT.v12))) t₀ := by
    refine hdc ((((h11.mul h11).add (h12.mul h12)).const_mul s.covar).add_const p.cxx)
      (fun t => rfl) (by ring)
  have h2 : HasDerivAt (fun t => s.covar * ((T t).v11 * (T t).v21 + (T t).v12 * (T t).v22) + p.cxy)
      (s.covar * ((T t₀).v11 * dT.v21 + (T t₀).v12 * dT.v22 + (T t₀).v21 * dT.v11 +
        (T t₀).v22 * dT.v12)) t₀ := by
    refine hdc ((((h11.mul h21).add (h12.mul h22)).const_mul s.covar).add_const p.cxy)
      (fun t => rfl) (by ring)
  have h3 : HasDerivAt (fun t => s.covar * ((T t).v21 * (T t).v21 + (T t).v22 * (T t).v22) + p.cyy)
      (s.covar * (2 * ((T t₀).v21 * dT.v21 + (T t₀).v22 * dT.v22))) t₀ := by
    refine hdc ((((h21.mul h21).add (h22.mul h22)).const_mul s.covar).add_const p.cyy)
      (fun t => rfl) (by ring)
  obtain ⟨e1, e2, e3, e4⟩ := inv_hasDerivAt h1 h2 h3 hdet
  have hcov : ∀ t, covariance (c t) p = M22.mk
      (s.covar * ((T t).v11 * (T t).v11 + (T t).v12 * (T t).v12) + p.cxx)
      (s.covar * ((T t).v11 * (T t).v21 + (T t).v12 * (T t).v22) + p.cxy)
      (s.covar * ((T t).v11 * (T t).v21 + (T t).v12 * (T t).v22) + p.cxy)
      (s.covar * ((T t).v21 * (T t).v21 + (T t).v22 * (T t).v22) + p.cyy) := by
    intro t
    obtain ⟨-, -, -, q4, -, -, q7⟩ := hc t
    simp only [covariance, M22.smul, M22.AAt, M22.add, q4, q7]
  refine ⟨?_, ?_, ?_, ?_, ?_, ?_⟩
  · refine hdc (e4.const_mul (s.G * p.amp * (1 / (2 * Real.pi)) * s.flux * s.amp)) (fun t => ?_) ?_
    · obtain ⟨q1, -, -, -, q5, q6, -⟩ := hc t
      simp only [getGaussianAndJacobian, hcov, q1, q5, q6]
      ring
    · obtain ⟨q1, -, -, -, q5, q6, -⟩ := hc t₀
      simp only [getGaussianAndJacobian, hcov, q1, q5, q6]
      have hcov0 : covariance { s with T := T t₀ } p = covariance (c t₀) p := by
        rw [hcov]
        simp only [covariance, M22.smul, M22.AAt, M22.add]
      rw [hcov0, hcov]
      simp only [M22.symABt, M22.smul]
      ring
  · refine hdc (hasDerivAt_const t₀ (s.xcen + p.xcen)) (fun t => ?_) rfl
    simp only [getGaussianAndJacobian, (hc t).2.1]
  · refine hdc (hasDerivAt_const t₀ (s.ycen + p.ycen)) (fun t => ?_) rfl
    simp only [getGaussianAndJacobian, (hc t).2.2.1]
  · refine hdc e1 (fun t => ?_) rfl
    simp only [getGaussianAndJacobian, hcov]
  · refine hdc e3 (fun t => ?_) rfl
    simp only [getGaussianAndJacobian, hcov]
  · refine hdc e2 (fun t => ?_) rfl
    simp only [getGaussianAndJacobian, hcov]

/-- The source with one on-sky parameter of the image changed. The profile parameters act through the
mixture amplitudes, given as a curve. -/
def Source.setFlux (s : Source) (band : Nat) (v : ℝ) : Source :=
  { s with fluxes := Function.update s.fluxes band v }

section along
variable (band : Nat) (e : Exposure) (g : Nat) (s : Source) (p : Psf)

lemma along_flux :
    Along (fun t => imGauss band e g (s.setFlux band t) p) (jac (imGauss band e g s p) .flux)
      (s.fluxes band) := by
  refine ⟨?_, ?_, ?_, ?_, ?_, ?_⟩
  · refine hdc ((hasDerivAt_id (s.fluxes band)).const_mul
      ((imGauss band e g s p).dA_dFlux)) (fun t => ?_) ?_
    · simp only [imGauss, getGaussianAndJacobian, pixGauss, covariance, Source.setFlux,
        Function.update_self, id]
      ring
    · simp [jac]
  all_goals exact hconst (fun _ => rfl) rfl

lemma along_ra :
    Along (fun t => imGauss band e g { s with ra := t } p) (jac (imGauss band e g s p) .ra)
      s.ra := by
  refine ⟨?_, ?_, ?_, ?_, ?_, ?_⟩
  · exact hdc (hasDerivAt_const (s.ra) (imGauss band e g s p).amp) (fun t => rfl) rfl
  · refine hdc ((((hasDerivAt_id s.ra).sub_const (e.astrom g).crval.1).const_mul
      (e.astrom g).CW.v11).add_const ((e.astrom g).CW.v12 * (s.dec - (e.astrom g).crval.2) +
        (e.astrom g).crpix.1 + p.xcen)) (fun t => ?_) ?_
    · simp only [imGauss, getGaussianAndJacobian, pixGauss, M22.mulVec, id]
      ring
    · simp [jac, imGauss, getGaussianAndJacobian, pixGauss]
  · refine hdc ((((hasDerivAt_id s.ra).sub_const (e.astrom g).crval.1).const_mul
      (e.astrom g).CW.v21).add_const ((e.astrom g).CW.v22 * (s.dec - (e.astrom g).crval.2) +
        (e.astrom g).crpix.2 + p.ycen)) (fun t => ?_) ?_
    · simp only [imGauss, getGaussianAndJacobian, pixGauss, M22.mulVec, id]
      ring
    · simp [jac, imGauss, getGaussianAndJacobian, pixGauss]
  all_goals exact hconst (fun _ => rfl) rfl

lemma along_dec :
    Along (fun t => imGauss band e g { s with dec := t } p) (jac (imGauss band e g s p) .dec)
      s.dec := by
  refine ⟨?_, ?_, ?_, ?_, ?_, ?_⟩
  · exact hdc (hasDerivAt_const (s.dec) (imGauss band e g s p).amp) (fun t => rfl) rfl
  · refine hdc ((((hasDerivAt_id s.dec).sub_const (e.astrom g).crval.2).const_mul
      (e.astrom g).CW.v12).add_const ((e.astrom g).CW.v11 * (s.ra - (e.astrom g).crval.1) +
        (e.astrom g).crpix.1 + p.xcen)) (fun t => ?_) ?_
    · simp only [imGauss, getGaussianAndJacobian, pixGauss, M22.mulVec, id]
      ring
    · simp [jac, imGauss, getGaussianAndJacobian, pixGauss]
  · refine hdc ((((hasDerivAt_id s.dec).sub_const (e.astrom g).crval.2).const_mul
      (e.astrom g).CW.v22).add_const ((e.astrom g).CW.v21 * (s.ra - (e.astrom g).crval.1) +
        (e.astrom g).crpix.2 + p.ycen)) (fun t => ?_) ?_
    · simp only [imGauss, getGaussianAndJacobian, pixGauss, M22.mulVec, id]
      ring
    · simp [jac, imGauss, getGaussianAndJacobian, pixGauss]
  all_goals exact hconst (fun _ => rfl) rfl

/-- The covariance of an image gaussian. -/
noncomputable def imCov : M22 := covariance (pixGauss band e (e.astrom g) s p) p

lemma along_q (hq : s.q ≠ 0) (hdet : 0 < (imCov band e g s p).det) :
    Along (fun t => imGauss band e g { s with q := t } p) (jac (imGauss band e g s p) .q) s.q := by
  have hinv : HasDerivAt (fun t : ℝ => 1 / t) (-1 / (s.q * s.q)) s.q := by
    refine hdc (hasDerivAt_inv hq) (fun t => by simp) ?_
    field_simp
  have hid := hasDerivAt_id s.q
  exact shape_along (pixGauss band e (e.astrom g) s p) p
    (fun t => ((e.astrom g).D.mul (M22.rot s.pa)).mul (M22.scale t))
    (((e.astrom g).D.mul (M22.rot s.pa)).mul (M22.scaleDeriv s.q)) s.q
    (hdc ((hinv.const_mul ((e.astrom g).D.mul (M22.rot s.pa)).v11).add_const
      (((e.astrom g).D.mul (M22.rot s.pa)).v12 * 0)) (fun t => rfl)
      (by simp [M22.mul, M22.scaleDeriv]))
    (hdc ((hid.const_mul ((e.astrom g).D.mul (M22.rot s.pa)).v12).const_add
      (((e.astrom g).D.mul (M22.rot s.pa)).v11 * 0)) (fun t => rfl)
      (by simp [M22.mul, M22.scaleDeriv]))
    (hdc ((hinv.const_mul ((e.astrom g).D.mul (M22.rot s.pa)).v21).add_const
      (((e.astrom g).D.mul (M22.rot s.pa)).v22 * 0)) (fun t => rfl)
      (by simp [M22.mul, M22.scaleDeriv]))
    (hdc ((hid.const_mul ((e.astrom g).D.mul (M22.rot s.pa)).v22).const_add
      (((e.astrom g).D.mul (M22.rot s.pa)).v21 * 0)) (fun t => rfl)
      (by simp [M22.mul, M22.scaleDeriv]))
    hdet _ (fun t => ⟨rfl, rfl, rfl, rfl, rfl, rfl, rfl⟩)

lemma along_pa (hdet : 0 < (imCov band e g s p).det) :
    Along (fun t => imGauss band e g { s with pa := t } p) (jac (imGauss band e g s p) .pa) s.pa := by
  have hc := Real.hasDerivAt_cos s.pa
  have hs := Real.hasDerivAt_sin s.pa
  exact shape_along (pixGauss band e (e.astrom g) s p) p
    (fun t => ((e.astrom g).D.mul (M22.rot t)).mul (M22.scale s.q))
    (((e.astrom g).D.mul (M22.rotDeriv s.pa)).mul (M22.scale s.q)) s.pa
    (hdc ((((hc.const_mul (e.astrom g).D.v11).add (hs.const_mul (e.astrom g).D.v12)).mul_const
        (1 / s.q)).add (((hs.neg.const_mul (e.astrom g).D.v11).add
        (hc.const_mul (e.astrom g).D.v12)).mul_const 0)) (fun t => rfl)
      (by simp only [M22.mul, M22.rotDeriv, M22.scale]))
    (hdc ((((hc.const_mul (e.astrom g).D.v11).add (hs.const_mul (e.astrom g).D.v12)).mul_const
        0).add (((hs.neg.const_mul (e.astrom g).D.v11).add
        (hc.const_mul (e.astrom g).D.v12)).mul_const s.q)) (fun t => rfl)
      (by simp only [M22.mul, M22.rotDeriv, M22.scale]))
    (hdc ((((hc.const_mul (e.astrom g).D.v21).add (hs.const_mul (e.astrom g).D.v22)).mul_const
        (1 / s.q)).add (((hs.neg.const_mul (e.astrom g).D.v21).add
        (hc.const_mul (e.astrom g).D.v22)).mul_const 0)) (fun t => rfl)
      (by simp only [M22.mul, M22.rotDeriv, M22.scale]))
    (hdc ((((hc.const_mul (e.astrom g).D.v21).add (hs.const_mul (e.astrom g).D.v22)).mul_const
        0).add (((hs.neg.const_mul (e.astrom g).D.v21).add
        (hc.const_mul (e.astrom g).D.v22)).mul_const s.q)) (fun t => rfl)
      (by simp only [M22.mul, M22.rotDeriv, M22.scale]))
    hdet _ (fun t => ⟨rfl, rfl, rfl, rfl, rfl, rfl, rfl⟩)

lemma along_amp (A : ℝ → Nat → ℝ) (t₀ : ℝ) (dA : Nat → ℝ)
    (hA : ∀ k, HasDerivAt (fun t => A t k) (dA k) t₀) :
    Along (fun t => imGauss band e g { s with amps := A t } p)
      ⟨s.fluxes band * (e.G * p.amp * Real.sqrt (imCov band e g s p).inv.det *
        (1 / (2 * Real.pi))) * dA p.bin, 0, 0, 0, 0, 0⟩ t₀ := by
  refine ⟨?_, ?_, ?_, ?_, ?_, ?_⟩
  · refine hdc ((hA p.bin).const_mul (s.fluxes band * (e.G * p.amp *
      Real.sqrt (imCov band e g s p).inv.det * (1 / (2 * Real.pi))))) (fun t => ?_) rfl
    simp only [imGauss, getGaussianAndJacobian, pixGauss, imCov, covariance]
    ring
  all_goals exact hconst (fun _ => rfl) rfl

end along

/-! ## The whole chi-square -/

lemma hasDerivAt_list_sum {ι : Type} (l : List ι) (f : ι → ℝ → ℝ) (f' : ι → ℝ) (t₀ : ℝ)
    (h : ∀ i ∈ l, HasDerivAt (f i) (f' i) t₀) :
    HasDerivAt (fun t => (l.map fun i => f i t).sum) (l.map f').sum t₀ := by
  induction l with
  | nil => simpa using hasDerivAt_const t₀ (0 : ℝ)
  | cons i l ih =>
    simp only [List.map_cons, List.sum_cons]
    exact (h i (by simp)).add (ih fun j hj => h j (by simp [hj]))

/-- No exponent of source `g` sits on the truncation threshold. -/
def OffThreshold (band : Nat) (es : List Exposure) (g : Nat) (s : Source) : Prop :=
  ∀ e ∈ es, ∀ p ∈ e.psfs, ∀ px ∈ e.pixels, expArg (imGauss band e g s p) px.x px.y ≠ maxExpArg

lemma sum_contrib (band : Nat) (e : Exposure) (n : Nat) (sources : Nat → Source) (x y : ℝ) :
    ((createImageGaussians band e n sources).map fun g => contrib g x y).sum =
      ((List.range n).map fun g => (e.psfs.map fun p =>
        contrib (imGauss band e g (sources g) p) x y).sum).sum := by
  unfold createImageGaussians
  rw [List.map_flatten, List.sum_flatten, List.map_map, List.map_map]
  congr 1
  apply List.map_congr_left
  intro g _
  simp [sourceGauss, Function.comp_def]

lemma range_sum_single (n g : Nat) (hg : g < n) (v : ℝ) :
    ((List.range n).map fun i => if i = g then v else 0).sum = v := by
  induction n with
  | zero => omega
  | succ n ih =>
    rw [List.range_succ, List.map_append, List.sum_append]
    by_cases h : g < n
    · rw [ih h]
      have : n ≠ g := by omega
      simp [this]
    · have hgn : g = n := by omega
      subst hgn
      have : ((List.range g).map fun i => if i = g then v else 0).sum = 0 := by
        apply List.sum_eq_zero
        intro x hx
        simp only [List.mem_map, List.mem_range] at hx
        obtain ⟨i, hi, rfl⟩ := hx
        rw [if_neg (by omega)]
      rw [this]
      simp

/-- If the gaussians of source `g` follow `J` along a curve of sources, then so does chi-square. -/
lemma chi2_hasDerivAt (band n : Nat) (es : List Exposure) (sources : Nat → Source) (g : Nat)
    (hg : g < n) (prm : Param) (c : ℝ → Source) (t₀ : ℝ)
    (hgs : ∀ e ∈ es, ∀ p ∈ e.psfs,
      Along (fun t => imGauss band e g (c t) p) (jac (imGauss band e g (sources g) p) prm) t₀)
    (hc : c t₀ = sources g)
    (hoff : OffThreshold band es g (sources g)) :
    HasDerivAt (fun t => (evaluate band n es (Function.update sources g (c t))).chi2)
      ((evaluate band n es sources).grad g prm) t₀ := by
  rw [evaluate_grad band n es sources g prm hg]
  have hfun : (fun t => (evaluate band n es (Function.update sources g (c t))).chi2) =
      fun t => (es.map fun e => (e.pixels.map fun px => px.ierr ^ 2 * ((px.data -
        ((List.range n).map fun i => (e.psfs.map fun p =>
          contrib (imGauss band e i (Function.update sources g (c t) i) p) px.x px.y).sum).sum) ^ 2
        - px.data ^ 2)).sum).sum := by
    funext t
    rw [evaluate_chi2]
    congr 1
    apply List.map_congr_left
    intro e _
    congr 1
    apply List.map_congr_left
    intro px _
    rw [pixelChi2_eq, sum_contrib]
  rw [hfun]
  apply hasDerivAt_list_sum
  intro e he
  unfold exposureGrad
  apply hasDerivAt_list_sum
  intro px hpx
  -- the model at the pixel
  have hM : HasDerivAt (fun t => ((List.range n).map fun i => (e.psfs.map fun p =>
      contrib (imGauss band e i (Function.update sources g (c t) i) p) px.x px.y).sum).sum)
      (((List.range n).map fun i => if i = g then (e.psfs.map fun p =>
        dcontrib (imGauss band e g (sources g) p) px.x px.y
          (jac (imGauss band e g (sources g) p) prm)).sum else 0).sum) t₀ := by
    apply hasDerivAt_list_sum
    intro i _
    by_cases hi : i = g
    · subst hi
      rw [if_pos rfl]
      simp only [Function.update_self]
      apply hasDerivAt_list_sum
      intro p hp
      have h := contrib_hasDerivAt (hgs e he p hp) px.x px.y
        (by rw [hc]; exact hoff e he p hp px hpx)
      rw [hc] at h
      exact h
    · rw [if_neg hi]
      simp only [Function.update_of_ne hi]
      exact hasDerivAt_const _ _
  rw [range_sum_single n g hg] at hM
  have hR := (((hM.const_sub px.data).pow 2).sub_const (px.data ^ 2)).const_mul (px.ierr ^ 2)
  refine hdc hR (fun t => rfl) ?_
  have hm0 : ((List.range n).map fun i => (e.psfs.map fun p =>
      contrib (imGauss band e i (Function.update sources g (c t₀) i) p) px.x px.y).sum).sum =
      ((createImageGaussians band e n sources).map fun g => contrib g px.x px.y).sum := by
    rw [sum_contrib, hc, Function.update_eq_self]
  rw [hm0]
  unfold weighted
  rw [computeResidual_eq, List.sum_map_mul_left]
  ring


section C50
variable (band n : Nat) (es : List Exposure) (sources : Nat → Source) (g : Nat) (hg : g < n)
  (hoff : OffThreshold band es g (sources g))

include hg hoff

/-- **C50 (flux).** The reported flux derivative of a source is the derivative of the reported
chi-square with respect to its flux in the band. -/
theorem C50_gradient_flux :
    HasDerivAt (fun t => (evaluate band n es (Function.update sources g
        { sources g with fluxes := Function.update (sources g).fluxes band t })).chi2)
      ((evaluate band n es sources).grad g .flux) ((sources g).fluxes band) :=
  chi2_hasDerivAt band n es sources g hg .flux (fun t => (sources g).setFlux band t) _
    (fun e _ p _ => along_flux band e g (sources g) p)
    (by simp [Source.setFlux, Function.update_eq_self]) hoff

/-- **C50 (right ascension).** -/
theorem C50_gradient_ra :
    HasDerivAt (fun t => (evaluate band n es (Function.update sources g
        { sources g with ra := t })).chi2)
      ((evaluate band n es sources).grad g .ra) (sources g).ra :=
  chi2_hasDerivAt band n es sources g hg .ra (fun t => { sources g with ra := t }) _
    (fun e _ p _ => along_ra band e g (sources g) p) rfl hoff

/-- **C50 (declination).** -/
theorem C50_gradient_dec :
    HasDerivAt (fun t => (evaluate band n es (Function.update sources g
        { sources g with dec := t })).chi2)
      ((evaluate band n es sources).grad g .dec) (sources g).dec :=
  chi2_hasDerivAt band n es sources g hg .dec (fun t => { sources g with dec := t }) _
    (fun e _ p _ => along_dec band e g (sources g) p) rfl hoff

/-- **C50 (axis ratio).** The axis ratio must be nonzero and the image covariances nonsingular, which
`C49_positive_definite` guarantees. -/
theorem C50_gradient_q (hq : (sources g).q ≠ 0)
    (hdet : ∀ e ∈ es, ∀ p ∈ e.psfs, 0 < (imCov band e g (sources g) p).det) :
    HasDerivAt (fun t => (evaluate band n es (Function.update sources g
        { sources g with q := t })).chi2)
      ((evaluate band n es sources).grad g .q) (sources g).q :=
  chi2_hasDerivAt band n es sources g hg .q (fun t => { sources g with q := t }) _
    (fun e he p hp => along_q band e g (sources g) p hq (hdet e he p hp)) rfl hoff

/-- **C50 (position angle).** -/
theorem C50_gradient_pa
    (hdet : ∀ e ∈ es, ∀ p ∈ e.psfs, 0 < (imCov band e g (sources g) p).det) :
    HasDerivAt (fun t => (evaluate band n es (Function.update sources g
        { sources g with pa := t })).chi2)
      ((evaluate band n es sources).grad g .pa) (sources g).pa :=
  chi2_hasDerivAt band n es sources g hg .pa (fun t => { sources g with pa := t }) _
    (fun e he p hp => along_pa band e g (sources g) p (hdet e he p hp)) rfl hoff

/-- **C50 (Sersic index).** The profile parameters enter the kernel as mixture amplitudes with their
derivatives. Along any curve of amplitudes with the supplied derivatives, the reported derivative is
the derivative of chi-square. -/
theorem C50_gradient_sersic (A : ℝ → Nat → ℝ) (t₀ : ℝ) (hA0 : A t₀ = (sources g).amps)
    (hA : ∀ k, HasDerivAt (fun t => A t k) ((sources g).dAmpDn k) t₀) :
    HasDerivAt (fun t => (evaluate band n es (Function.update sources g
        { sources g with amps := A t })).chi2)
      ((evaluate band n es sources).grad g .sersic) t₀ := by
  refine chi2_hasDerivAt band n es sources g hg .sersic (fun t => { sources g with amps := A t }) _
    (fun e _ p _ => ?_) (by rw [hA0]) hoff
  have h := along_amp band e g (sources g) p A t₀ _ hA
  have hj : jac (imGauss band e g (sources g) p) .sersic = ⟨(sources g).fluxes band * (e.G * p.amp *
      Real.sqrt (imCov band e g (sources g) p).inv.det * (1 / (2 * Real.pi))) *
      (sources g).dAmpDn p.bin, 0, 0, 0, 0, 0⟩ := by
    simp only [jac, imGauss, getGaussianAndJacobian, imCov, D6.mk.injEq, and_true]
    simp only [pixGauss]
    ring
  rw [hj]
  exact h

/-- **C50 (half-light radius).** -/
theorem C50_gradient_rh (A : ℝ → Nat → ℝ) (t₀ : ℝ) (hA0 : A t₀ = (sources g).amps)
    (hA : ∀ k, HasDerivAt (fun t => A t k) ((sources g).dAmpDrh k) t₀) :
    HasDerivAt (fun t => (evaluate band n es (Function.update sources g
        { sources g with amps := A t })).chi2)
      ((evaluate band n es sources).grad g .rh) t₀ := by
  refine chi2_hasDerivAt band n es sources g hg .rh (fun t => { sources g with amps := A t }) _
    (fun e _ p _ => ?_) (by rw [hA0]) hoff
  have h := along_amp band e g (sources g) p A t₀ _ hA
  have hj : jac (imGauss band e g (sources g) p) .rh = ⟨(sources g).fluxes band * (e.G * p.amp *
      Real.sqrt (imCov band e g (sources g) p).inv.det * (1 / (2 * Real.pi))) *
      (sources g).dAmpDrh p.bin, 0, 0, 0, 0, 0⟩ := by
    simp only [jac, imGauss, getGaussianAndJacobian, imCov, D6.mk.injEq, and_true]
    simp only [pixGauss]
    ring
  rw [hj]
  exact h

end C50

end Forcepho.Kernel
