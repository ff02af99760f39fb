import Verif.Slow.Model
import Verif.Kernel.Deriv

/-! # The slow likelihood's jacobians and gradients are derivatives -/

set_option autoImplicit false
set_option linter.unusedSectionVars false

namespace Forcepho.Slow

open Forcepho.Kernel (M22 Param Pixel hconst inv_hasDerivAt hasDerivAt_list_sum)
open Forcepho.Transform (hdc)

/-! ## The matrix helpers -/

/-- The hand-written 2 × 2 helpers are the determinant, the inverse (of an invertible matrix), the trace
and the product of three matrices. -/
theorem C64_helpers (a b c : M22) :
    dotDot a b c = (a.mul b).mul c ∧ fastDet a = a.det ∧ fastTrace a = a.trace ∧
    (fastDet a ≠ 0 → a.mul (fastInv a) = ⟨1, 0, 0, 1⟩ ∧ (fastInv a).mul a = ⟨1, 0, 0, 1⟩) := by
  refine ⟨rfl, ?_, rfl, ?_⟩
  · simp only [fastDet, M22.det]
    ring
  · intro h
    simp only [fastDet] at h
    constructor
    all_goals
      simp only [M22.mul, fastInv, M22.mk.injEq]
      refine ⟨?_, ?_, ?_, ?_⟩
      all_goals
        first
        | (rw [← mul_div_assoc, ← mul_div_assoc, ← add_div, div_eq_iff h]; ring)
        | (rw [div_mul_eq_mul_div, div_mul_eq_mul_div, ← add_div, div_eq_iff h]; ring)

lemma fastInv_eq (a : M22) : fastInv a = a.inv := by
  simp only [fastInv, M22.inv, M22.det]
  have : a.v11 * a.v22 - a.v21 * a.v12 = a.v11 * a.v22 - a.v12 * a.v21 := by ring
  rw [this]
  generalize a.v11 * a.v22 - a.v12 * a.v21 = d
  simp only [M22.mk.injEq]
  refine ⟨?_, ?_, ?_, ?_⟩ <;> simp [div_eq_mul_inv]

lemma fastDet_eq (a : M22) : fastDet a = a.det := (C64_helpers a a a).2.1

/-! ## One gaussian at one pixel -/

/-- Along a curve of gaussians the six image parameters have derivatives `J` at `t₀`. -/
structure Along (c : ℝ → Gauss) (J : Row) (t₀ : ℝ) : Prop where
  amp : HasDerivAt (fun t => (c t).amp) J.dA t₀
  xcen : HasDerivAt (fun t => (c t).xcen) J.dx t₀
  ycen : HasDerivAt (fun t => (c t).ycen) J.dy t₀
  fxx : HasDerivAt (fun t => (c t).fxx) J.dFxx t₀
  fyy : HasDerivAt (fun t => (c t).fyy) J.dFyy t₀
  fxy : HasDerivAt (fun t => (c t).fxy) J.dFxy t₀

/-- For every choice of options the six numbers returned are the derivatives of the counts. -/
theorem C64_counts (o : Opts) {c : ℝ → Gauss} {J : Row} {t₀ : ℝ} (h : Along c J t₀) (x y : ℝ)
    (hok : GradOk o (c t₀) x y) :
    HasDerivAt (fun t => counts o (c t) x y) (J.dot (gradients o (c t₀) x y)) t₀ := by
  obtain ⟨ha, hx, hy, hfx, hfy, hfxy⟩ := h
  obtain ⟨oa, oh, od⟩ := hok
  have hdx := hx.const_sub x
  have hdy := hy.const_sub y
  have hvx : HasDerivAt (fun t => (c t).fxx * (x - (c t).xcen) + (c t).fxy * (y - (c t).ycen))
      (J.dFxx * (x - (c t₀).xcen) + (c t₀).fxx * -J.dx +
        (J.dFxy * (y - (c t₀).ycen) + (c t₀).fxy * -J.dy)) t₀ :=
    (hfx.mul hdx).add (hfxy.mul hdy)
  have hvy : HasDerivAt (fun t => (c t).fyy * (y - (c t).ycen) + (c t).fxy * (x - (c t).xcen))
      (J.dFyy * (y - (c t₀).ycen) + (c t₀).fyy * -J.dy +
        (J.dFxy * (x - (c t₀).xcen) + (c t₀).fxy * -J.dx)) t₀ :=
    (hfy.mul hdy).add (hfxy.mul hdx)
  have hG := (((hdx.mul hvx).add (hdy.mul hvy)).const_mul (-0.5)).exp
  have hH2 := ((((hvx.mul hvx).add (hvy.mul hvy)).sub hfx).sub hfy).div_const 24 |>.const_add 1
  have hH : HasDerivAt (fun t => hOf o (c t) x y) (if o.secondOrder then
      (2 * ((c t₀).fxx * (x - (c t₀).xcen) + (c t₀).fxy * (y - (c t₀).ycen)) *
          (J.dFxx * (x - (c t₀).xcen) + (c t₀).fxx * -J.dx +
            (J.dFxy * (y - (c t₀).ycen) + (c t₀).fxy * -J.dy)) +
          2 * ((c t₀).fyy * (y - (c t₀).ycen) + (c t₀).fxy * (x - (c t₀).xcen)) *
          (J.dFyy * (y - (c t₀).ycen) + (c t₀).fyy * -J.dy +
            (J.dFxy * (x - (c t₀).xcen) + (c t₀).fxy * -J.dx)) - J.dFxx - J.dFyy) / 24 else 0) t₀ := by
    cases hs : o.secondOrder
    · exact hconst (fun t => by simp only [hOf, hs]; rfl) (by simp)
    · refine hdc hH2 (fun t => by simp only [hOf, hs, if_true]; rfl) ?_
      simp only [if_true]
      ring
  have hR : HasDerivAt (fun t => rootDet o (c t)) (if o.useDet then
      (J.dFxx * (c t₀).fyy + (c t₀).fxx * J.dFyy - 2 * (c t₀).fxy * J.dFxy) /
        (2 * rootDet o (c t₀)) else 0) t₀ := by
    cases hs : o.useDet
    · exact hconst (fun t => by simp only [rootDet, hs]; rfl) (by simp)
    · have h0 := od hs
      have h1 : (c t₀).fxx * (c t₀).fyy - (c t₀).fxy * (c t₀).fxy ≠ 0 := by
        intro h2
        apply h0
        simp only [rootDet, hs, if_true, h2, Real.sqrt_zero]
      refine hdc (((hfx.mul hfy).sub (hfxy.mul hfxy)).sqrt h1) (fun t => by
        simp only [rootDet, hs, if_true]; rfl) ?_
      simp only [if_true, rootDet, hs, Pi.sub_apply, Pi.mul_apply]
      congr 1
      ring
  refine hdc (((ha.mul hG).mul hH).mul hR) (fun t => rfl) ?_
  simp only [Row.dot, gradients, counts, Pi.mul_apply, Pi.add_apply]
  generalize hE : Real.exp _ = E
  generalize hHv : hOf o (c t₀) x y = H at *
  generalize hRv : rootDet o (c t₀) = R at *
  cases hs : o.secondOrder
  · cases hd : o.useDet
    · simp only [if_false, Bool.false_eq_true]
      field_simp
      ring
    · have := od hd
      simp only [if_false, if_true, Bool.false_eq_true]
      field_simp
      ring
  · have := oh hs
    cases hd : o.useDet
    · simp only [if_false, if_true, Bool.false_eq_true]
      field_simp
      ring
    · have := od hd
      simp only [if_true]
      field_simp
      ring

/-! ## The jacobian of a gaussian -/

/-- The source with other profile amplitudes. -/
def Source.withAmps (s : Source) (a : Nat → ℝ) : Source :=
  { s with comps := s.comps.mapIdx fun i c => { c with amp := a i } }

/-- The curve of sources along which one on-sky parameter moves; the two profile parameters act through
the amplitudes of the mixture. -/
def Moves (s : Source) : Param → (ℝ → Source) → ℝ → Prop
  | .flux, c, t₀ => t₀ = s.flux ∧ ∀ t, c t = { s with flux := t }
  | .ra, c, t₀ => t₀ = s.ra ∧ ∀ t, c t = { s with ra := t }
  | .dec, c, t₀ => t₀ = s.dec ∧ ∀ t, c t = { s with dec := t }
  | .q, c, t₀ => t₀ = s.q ∧ ∀ t, c t = { s with q := t }
  | .pa, c, t₀ => t₀ = s.pa ∧ ∀ t, c t = { s with pa := t }
  | .sersic, c, t₀ => ∃ A : Nat → ℝ → ℝ, (∀ t, c t = s.withAmps fun i => A i t) ∧
      ∀ (i : Nat) (k : Comp), s.comps[i]? = some k → A i t₀ = k.amp ∧ HasDerivAt (A i) k.dAmpDn t₀
  | .rh, c, t₀ => ∃ A : Nat → ℝ → ℝ, (∀ t, c t = s.withAmps fun i => A i t) ∧
      ∀ (i : Nat) (k : Comp), s.comps[i]? = some k → A i t₀ = k.amp ∧ HasDerivAt (A i) k.dAmpDrh t₀

/-- The source is not degenerate: the axis ratio is nonzero, its covariances and those of the PSF are
symmetric, and the image covariances have positive determinant. -/
structure Regular (s : Source) (st : Stamp) : Prop where
  q : s.q ≠ 0
  symS : ∀ c ∈ s.comps, c.cov.v12 = c.cov.v21
  symP : ∀ p ∈ st.psf, p.cov.v12 = p.cov.v21
  det : ∀ c ∈ s.comps, ∀ p ∈ st.psf, 0 < fastDet (sigma s st c p)

variable (s : Source) (st : Stamp)

lemma sigma_dotDot (c : Comp) (p : PComp) :
    sigma s st c p = (dotDot (tMatrix s st) c.cov (tMatrix s st).tr).add (psfCov st p) := by
  simp only [sigma, dotDot, M22.mul, M22.add, M22.mk.injEq]
  refine ⟨?_, ?_, ?_, ?_⟩ <;> ring

lemma psfCov_sym (p : PComp) (h : p.cov.v12 = p.cov.v21) : (psfCov st p).v12 = (psfCov st p).v21 := by
  unfold psfCov
  split
  · simp only [M22.mul, M22.tr]
    rw [h]
    ring
  · exact h

/-- The image gaussian when only the shape matrix moves. -/
lemma shape_along (c : Comp) (p : PComp) (m : ℝ × ℝ) (u : ℝ → Source) (T : ℝ → M22) (dT : M22) (t₀ : ℝ)
    (h11 : HasDerivAt (fun t => (T t).v11) dT.v11 t₀)
    (h12 : HasDerivAt (fun t => (T t).v12) dT.v12 t₀)
    (h21 : HasDerivAt (fun t => (T t).v21) dT.v21 t₀)
    (h22 : HasDerivAt (fun t => (T t).v22) dT.v22 t₀)
    (hT : ∀ t, tMatrix (u t) st = T t) (hu : u t₀ = s)
    (hflux : ∀ t, (u t).flux = s.flux) (hra : ∀ t, (u t).ra = s.ra) (hdec : ∀ t, (u t).dec = s.dec)
    (hc : c.cov.v12 = c.cov.v21) (hp : p.cov.v12 = p.cov.v21) (hdet : 0 < fastDet (sigma s st c p)) :
    Along (fun t => toGaussian (u t) st c p m)
      (let dS := (dotDot (tMatrix s st) c.cov dT.tr).add (dotDot dT c.cov (tMatrix s st).tr)
       let F := fastInv (sigma s st c p)
       let dF := M22.smul (-1) (dotDot F dS F)
       ⟨(toGaussian s st c p m).amp / (2 * fastDet F) *
          (fastDet F * fastTrace ((sigma s st c p).mul dF)), 0, 0, dF.v11, dF.v22, dF.v21⟩) t₀ := by
  have hP := psfCov_sym st p hp
  generalize hPv : psfCov st p = P at hP
  rcases hcv : c.cov with ⟨k11, k12, k21, k22⟩
  rw [hcv] at hc
  simp only at hc
  subst hc
  have hsig : ∀ t, sigma (u t) st c p = M22.mk
      ((T t).v11 * (k11 * (T t).v11 + k12 * (T t).v12) + (T t).v12 * (k12 * (T t).v11 + k22 * (T t).v12) + P.v11)
      ((T t).v11 * (k11 * (T t).v21 + k12 * (T t).v22) + (T t).v12 * (k12 * (T t).v21 + k22 * (T t).v22) + P.v21)
      ((T t).v11 * (k11 * (T t).v21 + k12 * (T t).v22) + (T t).v12 * (k12 * (T t).v21 + k22 * (T t).v22) + P.v21)
      ((T t).v21 * (k11 * (T t).v21 + k12 * (T t).v22) + (T t).v22 * (k12 * (T t).v21 + k22 * (T t).v22) + P.v22) := by
    intro t
    simp only [sigma, hT, hPv, hcv, M22.mul, M22.add, M22.tr, M22.mk.injEq, hP]
    refine ⟨trivial, trivial, ?_, trivial⟩
    ring
  have b1 : HasDerivAt (fun t => (T t).v11 * (k11 * (T t).v11 + k12 * (T t).v12) + (T t).v12 * (k12 * (T t).v11 + k22 * (T t).v12) + P.v11)
      (dT.v11 * (k11 * (T t₀).v11 + k12 * (T t₀).v12) + (T t₀).v11 * (k11 * dT.v11 + k12 * dT.v12) +
        (dT.v12 * (k12 * (T t₀).v11 + k22 * (T t₀).v12) + (T t₀).v12 * (k12 * dT.v11 + k22 * dT.v12))) t₀ :=
    hdc (((h11.mul ((h11.const_mul k11).add (h12.const_mul k12))).add
      (h12.mul ((h11.const_mul k12).add (h12.const_mul k22)))).add_const P.v11) (fun t => rfl) rfl
  have b2 : HasDerivAt (fun t => (T t).v11 * (k11 * (T t).v21 + k12 * (T t).v22) + (T t).v12 * (k12 * (T t).v21 + k22 * (T t).v22) + P.v21)
      (dT.v11 * (k11 * (T t₀).v21 + k12 * (T t₀).v22) + (T t₀).v11 * (k11 * dT.v21 + k12 * dT.v22) +
        (dT.v12 * (k12 * (T t₀).v21 + k22 * (T t₀).v22) + (T t₀).v12 * (k12 * dT.v21 + k22 * dT.v22))) t₀ :=
    hdc (((h11.mul ((h21.const_mul k11).add (h22.const_mul k12))).add
      (h12.mul ((h21.const_mul k12).add (h22.const_mul k22)))).add_const P.v21) (fun t => rfl) rfl
  have b3 : HasDerivAt (fun t => (T t).v21 * (k11 * (T t).v21 + k12 * (T t).v22) + (T t).v22 * (k12 * (T t).v21 + k22 * (T t).v22) + P.v22)
      (dT.v21 * (k11 * (T t₀).v21 + k12 * (T t₀).v22) + (T t₀).v21 * (k11 * dT.v21 + k12 * dT.v22) +
        (dT.v22 * (k12 * (T t₀).v21 + k22 * (T t₀).v22) + (T t₀).v22 * (k12 * dT.v21 + k22 * dT.v22))) t₀ :=
    hdc (((h21.mul ((h21.const_mul k11).add (h22.const_mul k12))).add
      (h22.mul ((h21.const_mul k12).add (h22.const_mul k22)))).add_const P.v22) (fun t => rfl) rfl
  have hd0 : 0 < (sigma (u t₀) st c p).det := by rw [hu, ← fastDet_eq]; exact hdet
  rw [hsig] at hd0
  obtain ⟨e1, e2, e3, e4⟩ := inv_hasDerivAt b1 b2 b3 hd0
  have hs0 := hsig t₀
  rw [hu] at hs0
  have hdS : ((dotDot (tMatrix s st) ⟨k11, k12, k12, k22⟩ dT.tr).add
      (dotDot dT ⟨k11, k12, k12, k22⟩ (tMatrix s st).tr)) = M22.mk
      (dT.v11 * (k11 * (T t₀).v11 + k12 * (T t₀).v12) + (T t₀).v11 * (k11 * dT.v11 + k12 * dT.v12) +
        (dT.v12 * (k12 * (T t₀).v11 + k22 * (T t₀).v12) + (T t₀).v12 * (k12 * dT.v11 + k22 * dT.v12)))
      (dT.v11 * (k11 * (T t₀).v21 + k12 * (T t₀).v22) + (T t₀).v11 * (k11 * dT.v21 + k12 * dT.v22) +
        (dT.v12 * (k12 * (T t₀).v21 + k22 * (T t₀).v22) + (T t₀).v12 * (k12 * dT.v21 + k22 * dT.v22)))
      (dT.v11 * (k11 * (T t₀).v21 + k12 * (T t₀).v22) + (T t₀).v11 * (k11 * dT.v21 + k12 * dT.v22) +
        (dT.v12 * (k12 * (T t₀).v21 + k22 * (T t₀).v22) + (T t₀).v12 * (k12 * dT.v21 + k22 * dT.v22)))
      (dT.v21 * (k11 * (T t₀).v21 + k12 * (T t₀).v22) + (T t₀).v21 * (k11 * dT.v21 + k12 * dT.v22) +
        (dT.v22 * (k12 * (T t₀).v21 + k22 * (T t₀).v22) + (T t₀).v22 * (k12 * dT.v21 + k22 * dT.v22))) := by
    have hTs : tMatrix s st = T t₀ := by rw [← hT t₀, hu]
    rw [hTs]
    simp only [dotDot, M22.add, M22.tr, M22.mk.injEq]
    refine ⟨?_, ?_, ?_, ?_⟩ <;> ring
  have haba : ∀ a b : M22, a.v12 = a.v21 → dotDot a b a = M22.ABA a b := by
    intro a b h
    simp only [dotDot, M22.ABA, M22.mk.injEq, h]
    refine ⟨?_, ?_, ?_, ?_⟩ <;> ring
  have hFsym : (fastInv (sigma s st c p)).v12 = (fastInv (sigma s st c p)).v21 := by
    rw [fastInv_eq, hs0]
    simp only [M22.inv]
  have hFdet : fastDet (fastInv (sigma s st c p)) ≠ 0 := by
    rw [fastInv_eq, fastDet_eq, hs0]
    generalize hM : M22.mk _ _ _ _ = M at hd0
    have hne := hd0.ne'
    have : M.inv.det = 1 / M.det := by
      simp only [M22.inv, M22.det] at hne ⊢
      field_simp
    rw [this]
    exact one_div_ne_zero hne
  refine ⟨?_, ?_, ?_, ?_, ?_, ?_⟩
  · refine hdc (e4.const_mul (s.flux * st.G * c.amp * p.amp / (2 * Real.pi))) (fun t => ?_) ?_
    · simp only [toGaussian, hflux, hsig, fastInv_eq, fastDet_eq]
      try ring
    · dsimp only
      rw [haba _ _ hFsym, hdS]
      have hk : ∀ X : ℝ, (toGaussian s st c p m).amp / (2 * fastDet (fastInv (sigma s st c p))) *
          (fastDet (fastInv (sigma s st c p)) * X) = (toGaussian s st c p m).amp / 2 * X := by
        intro X
        field_simp
      rw [hk]
      simp only [toGaussian, fastInv_eq, fastDet_eq, hs0, fastTrace, M22.trace]
      ring
  · refine hconst (fun t => ?_) rfl
    simp only [toGaussian, hra, hdec]
  · refine hconst (fun t => ?_) rfl
    simp only [toGaussian, hra, hdec]
  · dsimp only
    rw [haba _ _ hFsym, hdS, fastInv_eq, hs0]
    refine hdc e1 (fun t => ?_) rfl
    simp only [toGaussian, fastInv_eq, hsig]
  · dsimp only
    rw [haba _ _ hFsym, hdS, fastInv_eq, hs0]
    refine hdc e3 (fun t => ?_) rfl
    simp only [toGaussian, fastInv_eq, hsig]
  · dsimp only
    rw [haba _ _ hFsym, hdS, fastInv_eq, hs0]
    refine hdc e2 (fun t => ?_) rfl
    simp only [toGaussian, fastInv_eq, hsig]

lemma derivs_q (c : Comp) (p : PComp) (m : ℝ × ℝ) (prm : Param) (dT : M22)
    (h : prm = .q ∧ dT = dotDot st.D (rotationMatrix s.pa) (scaleMatrixDeriv s.q) ∨
      prm = .pa ∧ dT = dotDot st.D (rotationMatrixDeriv s.pa) (scaleMatrix s.q)) :
    derivs s st c p prm =
      (let dS := (dotDot (tMatrix s st) c.cov dT.tr).add (dotDot dT c.cov (tMatrix s st).tr)
       let F := fastInv (sigma s st c p)
       let dF := M22.smul (-1) (dotDot F dS F)
       ⟨(toGaussian s st c p m).amp / (2 * fastDet F) *
          (fastDet F * fastTrace ((sigma s st c p).mul dF)), 0, 0, dF.v11, dF.v22, dF.v21⟩) := by
  rcases h with ⟨rfl, rfl⟩ | ⟨rfl, rfl⟩
  all_goals
    simp only [derivs, toGaussian]
    rw [← sigma_dotDot]

/-- The jacobian of a gaussian gives its derivatives, for the parameters that are not of the profile. -/
lemma derivs_along (c : Comp) (p : PComp) (m : ℝ × ℝ) (hr : Regular s st) (hc : c ∈ s.comps)
    (hp : p ∈ st.psf) (hok : DerivsOk s st c p) (prm : Param) (u : ℝ → Source) (t₀ : ℝ)
    (hm : Moves s prm u t₀) (hprm : prm ≠ .sersic ∧ prm ≠ .rh) :
    u t₀ = s ∧ (∀ t, (u t).comps = s.comps) ∧
      Along (fun t => toGaussian (u t) st c p m) (derivs s st c p prm) t₀ := by
  obtain ⟨-, of, oa⟩ := hok
  cases prm with
  | flux =>
    obtain ⟨rfl, hu⟩ := hm
    refine ⟨hu _, fun t => by rw [hu], ?_, ?_, ?_, ?_, ?_, ?_⟩
    · refine hdc ((hasDerivAt_id s.flux).const_mul (st.G * c.amp * p.amp *
        Real.sqrt (fastDet (fastInv (sigma s st c p))) / (2 * Real.pi))) (fun t => ?_) ?_
      · rw [hu]
        simp only [toGaussian, id, sigma, tMatrix]
        ring
      · simp only [derivs]
        rw [← sigma_dotDot]
        field_simp
    all_goals exact hconst (fun t => by rw [hu, hu]; rfl) rfl
  | ra =>
    obtain ⟨rfl, hu⟩ := hm
    refine ⟨hu _, fun t => by rw [hu], ?_, ?_, ?_, ?_, ?_, ?_⟩
    · exact hconst (fun t => by rw [hu, hu]; rfl) rfl
    · refine hdc ((((hasDerivAt_id s.ra).sub_const st.crval.1).const_mul st.CW.v11).add_const
        (st.CW.v12 * (s.dec - st.crval.2) + st.crpix.1 + m.1)) (fun t => ?_) (by simp [derivs])
      rw [hu]
      simp only [toGaussian, M22.mulVec, id]
      ring
    · refine hdc ((((hasDerivAt_id s.ra).sub_const st.crval.1).const_mul st.CW.v21).add_const
        (st.CW.v22 * (s.dec - st.crval.2) + st.crpix.2 + m.2)) (fun t => ?_) (by simp [derivs])
      rw [hu]
      simp only [toGaussian, M22.mulVec, id]
      ring
    all_goals exact hconst (fun t => by rw [hu, hu]; rfl) rfl
  | dec =>
    obtain ⟨rfl, hu⟩ := hm
    refine ⟨hu _, fun t => by rw [hu], ?_, ?_, ?_, ?_, ?_, ?_⟩
    · exact hconst (fun t => by rw [hu, hu]; rfl) rfl
    · refine hdc ((((hasDerivAt_id s.dec).sub_const st.crval.2).const_mul st.CW.v12).add_const
        (st.CW.v11 * (s.ra - st.crval.1) + st.crpix.1 + m.1)) (fun t => ?_) (by simp [derivs])
      rw [hu]
      simp only [toGaussian, M22.mulVec, id]
      ring
    · refine hdc ((((hasDerivAt_id s.dec).sub_const st.crval.2).const_mul st.CW.v22).add_const
        (st.CW.v21 * (s.ra - st.crval.1) + st.crpix.2 + m.2)) (fun t => ?_) (by simp [derivs])
      rw [hu]
      simp only [toGaussian, M22.mulVec, id]
      ring
    all_goals exact hconst (fun t => by rw [hu, hu]; rfl) rfl
  | q =>
    obtain ⟨rfl, hu⟩ := hm
    refine ⟨hu _, fun t => by rw [hu], ?_⟩
    rw [derivs_q s st c p m .q _ (Or.inl ⟨rfl, rfl⟩)]
    have hinv : HasDerivAt (fun t : ℝ => 1 / t) (-1 / s.q ^ 2) s.q := by
      refine hdc (hasDerivAt_inv hr.q) (fun t => by simp) ?_
      rw [neg_div, one_div]
    have hid := hasDerivAt_id s.q
    refine shape_along s st c p m u (fun t => dotDot st.D (rotationMatrix s.pa) (scaleMatrix t)) _ s.q
      (hdc ((hinv.const_mul (st.D.v11 * Real.cos s.pa + st.D.v12 * Real.sin s.pa)).add_const
        ((st.D.v11 * -Real.sin s.pa + st.D.v12 * Real.cos s.pa) * 0)) (fun t => rfl)
        (by simp [dotDot, rotationMatrix, scaleMatrixDeriv]))
      (hdc ((hid.const_mul (st.D.v11 * -Real.sin s.pa + st.D.v12 * Real.cos s.pa)).const_add
        ((st.D.v11 * Real.cos s.pa + st.D.v12 * Real.sin s.pa) * 0)) (fun t => rfl)
        (by simp [dotDot, rotationMatrix, scaleMatrixDeriv]))
      (hdc ((hinv.const_mul (st.D.v21 * Real.cos s.pa + st.D.v22 * Real.sin s.pa)).add_const
        ((st.D.v21 * -Real.sin s.pa + st.D.v22 * Real.cos s.pa) * 0)) (fun t => rfl)
        (by simp [dotDot, rotationMatrix, scaleMatrixDeriv]))
      (hdc ((hid.const_mul (st.D.v21 * -Real.sin s.pa + st.D.v22 * Real.cos s.pa)).const_add
        ((st.D.v21 * Real.cos s.pa + st.D.v22 * Real.sin s.pa) * 0)) (fun t => rfl)
        (by simp [dotDot, rotationMatrix, scaleMatrixDeriv]))
      (fun t => by rw [hu]; rfl) (by rw [hu]) (fun t => by rw [hu]) (fun t => by rw [hu])
      (fun t => by rw [hu]) (hr.symS c hc) (hr.symP p hp) (hr.det c hc p hp)
  | pa =>
    obtain ⟨rfl, hu⟩ := hm
    refine ⟨hu _, fun t => by rw [hu], ?_⟩
    rw [derivs_q s st c p m .pa _ (Or.inr ⟨rfl, rfl⟩)]
    have hco := Real.hasDerivAt_cos s.pa
    have hs := Real.hasDerivAt_sin s.pa
    refine shape_along s st c p m u (fun t => dotDot st.D (rotationMatrix t) (scaleMatrix s.q)) _ s.pa
      (hdc ((((hco.const_mul st.D.v11).add (hs.const_mul st.D.v12)).mul_const (1 / s.q)).add
        (((hs.neg.const_mul st.D.v11).add (hco.const_mul st.D.v12)).mul_const 0)) (fun t => rfl) rfl)
      (hdc ((((hco.const_mul st.D.v11).add (hs.const_mul st.D.v12)).mul_const 0).add
        (((hs.neg.const_mul st.D.v11).add (hco.const_mul st.D.v12)).mul_const s.q)) (fun t => rfl) rfl)
      (hdc ((((hco.const_mul st.D.v21).add (hs.const_mul st.D.v22)).mul_const (1 / s.q)).add
        (((hs.neg.const_mul st.D.v21).add (hco.const_mul st.D.v22)).mul_const 0)) (fun t => rfl) rfl)
      (hdc ((((hco.const_mul st.D.v21).add (hs.const_mul st.D.v22)).mul_const 0).add
        (((hs.neg.const_mul st.D.v21).add (hco.const_mul st.D.v22)).mul_const s.q)) (fun t => rfl) rfl)
      (fun t => by rw [hu]; rfl) (by rw [hu]) (fun t => by rw [hu]) (fun t => by rw [hu])
      (fun t => by rw [hu]) (hr.symS c hc) (hr.symP p hp) (hr.det c hc p hp)
  | sersic => exact absurd rfl hprm.1
  | rh => exact absurd rfl hprm.2

/-- The same for an amplitude of the profile. -/
lemma amp_along (c : Comp) (p : PComp) (m : ℝ × ℝ) (hok : DerivsOk s st c p) (A : ℝ → ℝ) (A' t₀ : ℝ)
    (h0 : A t₀ = c.amp) (hA : HasDerivAt A A' t₀) :
    Along (fun t => toGaussian s st { c with amp := A t } p m)
      ⟨(toGaussian s st c p m).amp / c.amp * A', 0, 0, 0, 0, 0⟩ t₀ := by
  obtain ⟨-, of, oa⟩ := hok
  refine ⟨?_, ?_, ?_, ?_, ?_, ?_⟩
  · refine hdc (hA.const_mul (s.flux * st.G * p.amp *
      Real.sqrt (fastDet (fastInv (sigma s st c p))) / (2 * Real.pi))) (fun t => ?_) ?_
    · simp only [toGaussian, sigma]
      ring
    · simp only [toGaussian]
      field_simp
  all_goals exact hconst (fun t => rfl) rfl

/-! ## The gaussians of a source along a curve -/

/-- A curve of lists of gaussians, each of which follows its jacobian. -/
def Follows (prm : Param) (curve : ℝ → List Full) (t₀ : ℝ) : Prop :=
  ∃ (ι : Type) (L : List ι) (G : ℝ → ι → Full), (∀ t, curve t = L.map (G t)) ∧
    ∀ l ∈ L, (G t₀ l).ok → Along (fun t => (G t l).g) ((G t₀ l).J prm) t₀

/-- The gaussians of a source, if the conversion does not raise. -/
noncomputable def gigD (s : Source) (st : Stamp) : List Full := (gig s st).getD []

lemma gigD_eq (ms : List (ℝ × ℝ)) (hms : psfMeans st = some ms) :
    gigD s st = (s.comps.map fun c => (st.psf.zip ms).map fun pm =>
      (⟨toGaussian s st c pm.1 pm.2, derivs s st c pm.1, DerivsOk s st c pm.1⟩ : Full)).flatten := by
  simp only [gigD, gig, hms, Option.getD_some]

lemma follows_moves (ms : List (ℝ × ℝ)) (hms : psfMeans st = some ms) (hr : Regular s st)
    (prm : Param) (u : ℝ → Source) (t₀ : ℝ) (hm : Moves s prm u t₀) :
    gigD (u t₀) st = gigD s st ∧ Follows prm (fun t => gigD (u t) st) t₀ := by
  have hprof : ∀ (dA : Comp → ℝ), (∀ c p, derivs s st c p prm =
        ⟨(toGaussian s st c p (0, 0)).amp / c.amp * dA c, 0, 0, 0, 0, 0⟩) →
      (∃ A : Nat → ℝ → ℝ, (∀ t, u t = s.withAmps fun i => A i t) ∧
        ∀ (i : Nat) (k : Comp), s.comps[i]? = some k → A i t₀ = k.amp ∧ HasDerivAt (A i) (dA k) t₀) →
      gigD (u t₀) st = gigD s st ∧ Follows prm (fun t => gigD (u t) st) t₀ := by
    rintro dA hd ⟨A, hu, hA⟩
    have h0 : u t₀ = s := by
      rw [hu]
      unfold Source.withAmps
      have : (s.comps.mapIdx fun i (c : Comp) => { c with amp := A i t₀ }) = s.comps := by
        apply List.ext_getElem?
        intro i
        rw [List.getElem?_mapIdx]
        cases hi : s.comps[i]? with
        | none => rfl
        | some k =>
          simp only [Option.map_some, (hA i k hi).1]
      rw [this]
    refine ⟨by rw [h0], (Comp × Nat) × (PComp × (ℝ × ℝ)), (s.comps.zipIdx.map fun ci =>
      (st.psf.zip ms).map fun pm => (ci, pm)).flatten, fun t x =>
        ⟨toGaussian s st { x.1.1 with amp := A x.1.2 t } x.2.1 x.2.2,
          derivs s st { x.1.1 with amp := A x.1.2 t } x.2.1,
          DerivsOk s st { x.1.1 with amp := A x.1.2 t } x.2.1⟩, ?_, ?_⟩
    · intro t
      beta_reduce
      rw [gigD_eq _ _ ms hms, hu, List.map_flatten, List.map_map]
      simp only [Source.withAmps]
      rw [List.mapIdx_eq_zipIdx_map, List.map_map]
      congr 1
      apply List.map_congr_left
      rintro ⟨c, i⟩ -
      simp only [Function.comp_apply, List.map_map]
      rfl
    · intro l hl hok
      obtain ⟨⟨c, i⟩, p, m⟩ := l
      simp only [List.mem_flatten, List.mem_map] at hl
      obtain ⟨_, ⟨⟨c', i'⟩, hci, rfl⟩, hx⟩ := hl
      obtain ⟨pm, -, hpm⟩ := List.mem_map.mp hx
      obtain ⟨⟨rfl, rfl⟩, rfl⟩ : (c' = c ∧ i' = i) ∧ pm = (p, m) := by
        simp only [Prod.mk.injEq] at hpm
        obtain ⟨⟨a, b⟩, d⟩ := hpm
        exact ⟨⟨a, b⟩, d⟩
      have hi : s.comps[i']? = some c' := List.mk_mem_zipIdx_iff_getElem?.mp hci
      obtain ⟨ha, hd'⟩ := hA i' c' hi
      beta_reduce at hok ⊢
      dsimp only at hok ⊢
      have hcc : ({ c' with amp := A i' t₀ } : Comp) = c' := by rw [ha]
      rw [hcc] at hok ⊢
      rw [hd]
      exact amp_along s st c' p m hok (A i') _ t₀ ha hd'
  have hother : prm ≠ .sersic ∧ prm ≠ .rh → (u t₀ = s ∧ ∀ t, (u t).comps = s.comps) →
      gigD (u t₀) st = gigD s st ∧ Follows prm (fun t => gigD (u t) st) t₀ := by
    intro hne ⟨h0, hcomps⟩
    refine ⟨by rw [h0], Comp × (PComp × (ℝ × ℝ)), (s.comps.map fun c =>
      (st.psf.zip ms).map fun pm => (c, pm)).flatten, fun t x =>
        ⟨toGaussian (u t) st x.1 x.2.1 x.2.2, derivs (u t) st x.1 x.2.1,
          DerivsOk (u t) st x.1 x.2.1⟩, ?_, ?_⟩
    · intro t
      beta_reduce
      rw [gigD_eq _ _ ms hms, hcomps, List.map_flatten, List.map_map]
      congr 1
      apply List.map_congr_left
      intro c _
      simp only [Function.comp_apply, List.map_map]
      rfl
    · intro l hl hok
      obtain ⟨c, p, m⟩ := l
      simp only [List.mem_flatten, List.mem_map] at hl
      obtain ⟨_, ⟨c', hc, rfl⟩, hx⟩ := hl
      obtain ⟨⟨p', m'⟩, hz, hpm⟩ := List.mem_map.mp hx
      simp only [Prod.mk.injEq] at hpm
      obtain ⟨rfl, rfl, rfl⟩ := hpm
      beta_reduce at hok ⊢
      dsimp only at hok ⊢
      rw [h0] at hok ⊢
      exact (derivs_along s st c' p' m' hr hc (List.of_mem_zip hz).1 hok prm u t₀ hm hne).2.2
  cases prm with
  | flux => exact hother ⟨by simp, by simp⟩ (by obtain ⟨rfl, hu⟩ := hm; exact ⟨hu _, fun t => by rw [hu]⟩)
  | ra => exact hother ⟨by simp, by simp⟩ (by obtain ⟨rfl, hu⟩ := hm; exact ⟨hu _, fun t => by rw [hu]⟩)
  | dec => exact hother ⟨by simp, by simp⟩ (by obtain ⟨rfl, hu⟩ := hm; exact ⟨hu _, fun t => by rw [hu]⟩)
  | q => exact hother ⟨by simp, by simp⟩ (by obtain ⟨rfl, hu⟩ := hm; exact ⟨hu _, fun t => by rw [hu]⟩)
  | pa => exact hother ⟨by simp, by simp⟩ (by obtain ⟨rfl, hu⟩ := hm; exact ⟨hu _, fun t => by rw [hu]⟩)
  | sersic =>
    refine hprof Comp.dAmpDn (fun c p => ?_) hm
    simp only [derivs, toGaussian]
    rw [← sigma_dotDot]
  | rh =>
    refine hprof Comp.dAmpDrh (fun c p => ?_) hm
    simp only [derivs, toGaussian]
    rw [← sigma_dotDot]

end Forcepho.Slow
