import Verif.Slow.Props
import Verif.Kernel.Props

/-! # C79: the Python likelihood and the compiled kernel agree -/

set_option autoImplicit false
set_option linter.unusedSectionVars false

namespace Forcepho.Slow

open Forcepho.Kernel (M22 Param Pixel Psf Exposure expArg maxExpArg imGauss createImageGaussians evaluate)

/-- The source as the kernel receives it. -/
def kSource (s : Source) : Kernel.Source where
  ra := s.ra
  dec := s.dec
  q := s.q
  pa := s.pa
  fluxes := fun _ => s.flux
  amps := fun i => (s.comps[i]?).elim 0 (·.amp)
  dAmpDrh := fun i => (s.comps[i]?).elim 0 (·.dAmpDrh)
  dAmpDn := fun i => (s.comps[i]?).elim 0 (·.dAmpDn)

/-- A PSF gaussian as the kernel receives it, for profile gaussian `i`. -/
def kPsf (i : Nat) (p : PComp) : Psf := ⟨p.amp, p.mean.1, p.mean.2, p.cov.v11, p.cov.v22, p.cov.v12, i⟩

/-- The stamp as the kernel receives it: every source has the same astrometry, and for each of the `nr`
profile gaussians all PSF gaussians are listed. -/
def kExposure (st : Stamp) (rad2 : Nat → ℝ) (nr : Nat) : Exposure where
  G := st.G
  astrom := fun _ => ⟨st.D, st.CW, st.crpix, st.crval⟩
  psfs := ((List.range nr).map fun i => st.psf.map (kPsf i)).flatten
  rad2 := rad2
  pixels := st.pixels

/-- The source is built from the round gaussians of the kernel's list of radii. -/
def Round (rad2 : Nat → ℝ) (nr : Nat) (s : Source) : Prop :=
  s.comps.length = nr ∧ ∀ (i : Nat) (c : Comp), s.comps[i]? = some c → c.cov = ⟨rad2 i, 0, 0, rad2 i⟩

/-- The stamp's PSF is in pixels and its covariances are symmetric. -/
def PixelPsf (st : Stamp) : Prop := st.arcsec = false ∧ ∀ p ∈ st.psf, p.cov.v12 = p.cov.v21

/-- The same image gaussian in both programs. -/
def SameGauss (g : Kernel.ImGauss) (h : Gauss) : Prop :=
  g.amp = h.amp ∧ g.xcen = h.xcen ∧ g.ycen = h.ycen ∧ g.fxx = h.fxx ∧ g.fyy = h.fyy ∧ g.fxy = h.fxy

/-- The same row of the jacobian. -/
def SameRow (a : Kernel.D6) (b : Row) : Prop :=
  a.dA = b.dA ∧ a.dx = b.dx ∧ a.dy = b.dy ∧ a.dFxx = b.dFxx ∧ a.dFyy = b.dFyy ∧ a.dFxy = b.dFxy

variable (st : Stamp) (rad2 : Nat → ℝ) (nr : Nat)

lemma cov_eq (s : Source) (i : Nat) (c : Comp) (p : PComp)
    (hc : c.cov = ⟨rad2 i, 0, 0, rad2 i⟩) (har : st.arcsec = false) (hsym : p.cov.v12 = p.cov.v21)
    (band g : Nat) :
    Kernel.covariance (Kernel.pixGauss band (kExposure st rad2 nr)
      ((kExposure st rad2 nr).astrom g) (kSource s) (kPsf i p)) (kPsf i p) = sigma s st c p := by
  have hP : psfCov st p = p.cov := by simp [psfCov, har]
  simp only [Kernel.covariance, Kernel.pixGauss, kExposure, kPsf, kSource, sigma, hP, hc, tMatrix, dotDot,
    rotationMatrix, scaleMatrix, M22.mul, M22.add, M22.tr, M22.smul, M22.AAt, M22.rot, M22.scale,
    M22.mk.injEq, hsym]
  refine ⟨?_, ?_, ?_, ?_⟩ <;> ring

/-- The conversion of one profile and one PSF gaussian, with its jacobian. -/
theorem C79_gaussian (s : Source) (i : Nat) (c : Comp) (p : PComp) (hi : s.comps[i]? = some c)
    (hc : c.cov = ⟨rad2 i, 0, 0, rad2 i⟩) (har : st.arcsec = false) (hsym : p.cov.v12 = p.cov.v21)
    (band g : Nat) :
    SameGauss (imGauss band (kExposure st rad2 nr) g (kSource s) (kPsf i p)) (toGaussian s st c p p.mean) ∧
    (DerivsOk s st c p → ∀ prm,
      SameRow (Kernel.jac (imGauss band (kExposure st rad2 nr) g (kSource s) (kPsf i p)) prm)
        (derivs s st c p prm)) := by
  have hcov := cov_eq st rad2 nr s i c p hc har hsym band g
  have hamp : (kSource s).amps i = c.amp := by simp [kSource, hi]
  have hn : (kSource s).dAmpDn i = c.dAmpDn := by simp [kSource, hi]
  have hrh : (kSource s).dAmpDrh i = c.dAmpDrh := by simp [kSource, hi]
  have hbin : (kPsf i p).bin = i := rfl
  constructor
  · refine ⟨?_, ?_, ?_, ?_, ?_, ?_⟩
    all_goals
      simp only [imGauss, Kernel.getGaussianAndJacobian, hcov, toGaussian, fastInv_eq, fastDet_eq]
      try simp only [Kernel.pixGauss, hbin, hamp]
      try simp only [kExposure, kPsf, kSource]
      try ring
  · rintro ⟨hd, hf, ha⟩ prm
    have hd' := hd
    rw [fastDet_eq] at hd'
    have hFdet : fastDet (fastInv (sigma s st c p)) ≠ 0 := by
      rw [fastInv_eq, fastDet_eq]
      generalize sigma s st c p = M at hd'
      have : M.inv.det = 1 / M.det := by
        simp only [M22.inv, M22.det] at hd' ⊢
        field_simp
      rw [this]
      exact one_div_ne_zero hd'
    have hFsym : (fastInv (sigma s st c p)).v12 = (fastInv (sigma s st c p)).v21 := by
      rw [fastInv_eq, ← hcov]
      simp only [M22.inv, Kernel.covariance, M22.smul, M22.AAt, M22.add]
    have haba : ∀ a b : M22, a.v12 = a.v21 → dotDot a b a = M22.ABA a b := by
      intro a b h
      simp only [dotDot, M22.ABA, M22.mk.injEq, h]
      refine ⟨?_, ?_, ?_, ?_⟩ <;> ring
    have hds : ∀ (T dT : M22), (dotDot T c.cov dT.tr).add (dotDot dT c.cov T.tr) =
        M22.smul (rad2 i) (M22.symABt T dT) := by
      intro T dT
      rw [hc]
      simp only [dotDot, M22.add, M22.tr, M22.smul, M22.symABt, M22.mk.injEq]
      refine ⟨?_, ?_, ?_, ?_⟩ <;> ring
    have hk : ∀ K X : ℝ, K / (2 * fastDet (fastInv (sigma s st c p))) *
        (fastDet (fastInv (sigma s st c p)) * X) = (1 / 2) * K * X := by
      intro K X
      field_simp
    have hT : ((st.D.mul (M22.rot s.pa)).mul (M22.scale s.q)) = tMatrix s st := rfl
    have hTq : ((st.D.mul (M22.rot s.pa)).mul (M22.scaleDeriv s.q)) =
        dotDot st.D (rotationMatrix s.pa) (scaleMatrixDeriv s.q) := by
      simp only [dotDot, M22.mul, M22.rot, rotationMatrix, M22.scaleDeriv, scaleMatrixDeriv, sq]
    have hTpa : ((st.D.mul (M22.rotDeriv s.pa)).mul (M22.scale s.q)) =
        dotDot st.D (rotationMatrixDeriv s.pa) (scaleMatrix s.q) := rfl
    cases prm with
    | flux =>
      refine ⟨?_, rfl, rfl, rfl, rfl, rfl⟩
      simp only [Kernel.jac, imGauss, Kernel.getGaussianAndJacobian, hcov, derivs]
      rw [← sigma_dotDot, ← fastInv_eq, ← fastDet_eq]
      simp only [Kernel.pixGauss, hbin, hamp]
      simp only [kExposure, kPsf]
      field_simp
    | ra => exact ⟨rfl, rfl, rfl, rfl, rfl, rfl⟩
    | dec => exact ⟨rfl, rfl, rfl, rfl, rfl, rfl⟩
    | q =>
      refine ⟨?_, rfl, rfl, ?_, ?_, ?_⟩
      all_goals
        simp only [Kernel.jac, imGauss, Kernel.getGaussianAndJacobian, hcov, derivs]
        rw [← sigma_dotDot, haba _ _ hFsym, hds]
        try rw [hk]
        simp only [Kernel.pixGauss, hbin, hamp]
        simp only [kExposure, kPsf, kSource, hT, hTq, fastInv_eq, fastDet_eq, fastTrace, M22.trace]
        try ring
    | pa =>
      refine ⟨?_, rfl, rfl, ?_, ?_, ?_⟩
      all_goals
        simp only [Kernel.jac, imGauss, Kernel.getGaussianAndJacobian, hcov, derivs]
        rw [← sigma_dotDot, haba _ _ hFsym, hds]
        try rw [hk]
        simp only [Kernel.pixGauss, hbin, hamp]
        simp only [kExposure, kPsf, kSource, hT, hTpa, fastInv_eq, fastDet_eq, fastTrace, M22.trace]
        try ring
    | sersic =>
      refine ⟨?_, rfl, rfl, rfl, rfl, rfl⟩
      simp only [Kernel.jac, imGauss, Kernel.getGaussianAndJacobian, hcov, derivs]
      rw [← sigma_dotDot, ← fastInv_eq, ← fastDet_eq]
      simp only [Kernel.pixGauss, hbin, hn]
      simp only [kExposure, kPsf, kSource]
      field_simp
    | rh =>
      refine ⟨?_, rfl, rfl, rfl, rfl, rfl⟩
      simp only [Kernel.jac, imGauss, Kernel.getGaussianAndJacobian, hcov, derivs]
      rw [← sigma_dotDot, ← fastInv_eq, ← fastDet_eq]
      simp only [Kernel.pixGauss, hbin, hrh]
      simp only [kExposure, kPsf, kSource]
      field_simp

/-- The contribution of a gaussian to a pixel within the kernel's cutoff. -/
lemma contrib_eq (g : Kernel.ImGauss) (h : Gauss) (hs : SameGauss g h) (x y : ℝ)
    (hcut : expArg g x y ≤ maxExpArg) : Kernel.contrib g x y = counts {} h x y := by
  obtain ⟨h1, h2, h3, h4, h5, h6⟩ := hs
  unfold Kernel.contrib
  rw [if_neg (not_lt.mpr hcut)]
  simp only [counts, hOf, rootDet, Kernel.hCorr, expArg, h1, h2, h3, h4, h5, h6, if_true,
    Bool.false_eq_true, if_false]
  have : (-0.5 : ℝ) = -(1 / 2) := by norm_num
  rw [this]
  ring

lemma dcontrib_eq (g : Kernel.ImGauss) (h : Gauss) (hs : SameGauss g h) (a : Kernel.D6) (b : Row)
    (hab : SameRow a b) (x y : ℝ) (hcut : expArg g x y ≤ maxExpArg) (hok : GradOk {} h x y) :
    Kernel.dcontrib g x y a = b.dot (gradients {} h x y) := by
  obtain ⟨h1, h2, h3, h4, h5, h6⟩ := hs
  obtain ⟨k1, k2, k3, k4, k5, k6⟩ := hab
  obtain ⟨o1, o2, -⟩ := hok
  have o2 := o2 rfl
  unfold Kernel.dcontrib
  simp only []
  rw [if_neg (not_lt.mpr hcut)]
  have hH : Kernel.hCorr g x y = hOf {} h x y := by
    simp only [Kernel.hCorr, hOf, h2, h3, h4, h5, h6, if_true]
    ring
  have hC : counts {} h x y = h.amp * Real.exp (-(1 / 2) * expArg g x y) * hOf {} h x y := by
    simp only [counts, rootDet, expArg, h2, h3, h4, h5, h6, Bool.false_eq_true, if_false]
    have : (-0.5 : ℝ) = -(1 / 2) := by norm_num
    rw [this]
    ring
  simp only [gradients, Row.dot, hC, if_true, Bool.false_eq_true, if_false, hH]
  rw [k1, k2, k3, k4, k5, k6, h1, h2, h3, h4, h5, h6]
  generalize Real.exp _ = E
  generalize hOf {} h x y = H at *
  have : (0.5 : ℝ) = 1 / 2 := by norm_num
  field_simp
  rw [this]
  ring

lemma sum_map_sub' {α : Type} (l : List α) (f g : α → ℝ) :
    (l.map fun a => f a - g a).sum = (l.map f).sum - (l.map g).sum := by
  induction l with
  | nil => simp
  | cons a l ih =>
    simp only [List.map_cons, List.sum_cons, ih]
    ring

/-- No gaussian is cut off by the kernel in any pixel. -/
def WithinCut (band n : Nat) (e : Exposure) (sources : Nat → Kernel.Source) : Prop :=
  ∀ g < n, ∀ p ∈ e.psfs, ∀ px ∈ e.pixels, expArg (imGauss band e g (sources g) p) px.x px.y ≤ maxExpArg

lemma gig_pixels (s : Source) (hr : Round rad2 nr s) (hst : PixelPsf st) :
    gigD s st = ((List.range nr).map fun i => st.psf.map fun p =>
      (⟨toGaussian s st (s.comps[i]?.getD ⟨⟨0, 0, 0, 0⟩, 0, 0, 0⟩) p p.mean,
        derivs s st (s.comps[i]?.getD ⟨⟨0, 0, 0, 0⟩, 0, 0, 0⟩) p,
        DerivsOk s st (s.comps[i]?.getD ⟨⟨0, 0, 0, 0⟩, 0, 0, 0⟩) p⟩ : Full)).flatten := by
  have hms : psfMeans st = some (st.psf.map (·.mean)) := by simp [psfMeans, hst.1]
  rw [gigD_eq s st _ hms]
  have hz : st.psf.zip (st.psf.map (·.mean)) = st.psf.map fun p => (p, p.mean) := by
    generalize st.psf = l
    induction l with
    | nil => rfl
    | cons a l ih => simp only [List.map_cons, List.zip_cons_cons, ih]
  simp only [hz, List.map_map]
  congr 1
  apply List.ext_getElem?
  intro i
  simp only [List.getElem?_map]
  by_cases hi : i < nr
  · have hl : i < s.comps.length := by rw [hr.1]; exact hi
    simp only [List.getElem?_range hi, List.getElem?_eq_getElem hl, Option.map_some, Option.getD_some]
    rfl
  · have hl : ¬ i < s.comps.length := by rw [hr.1]; exact hi
    simp [List.getElem?_eq_none (not_lt.mp hl), not_lt.mp hi]

/-- The counts of one source in one pixel. -/
lemma source_counts (band g : Nat) (s : Source) (hr : Round rad2 nr s) (hst : PixelPsf st) (px : Pixel)
    (hcut : ∀ p ∈ (kExposure st rad2 nr).psfs,
      expArg (imGauss band (kExposure st rad2 nr) g (kSource s) p) px.x px.y ≤ maxExpArg) :
    ((kExposure st rad2 nr).psfs.map fun p =>
      Kernel.contrib (imGauss band (kExposure st rad2 nr) g (kSource s) p) px.x px.y).sum =
      sourceCounts {} px (gigD s st) := by
  rw [gig_pixels st rad2 nr s hr hst]
  unfold sourceCounts
  have hps : (kExposure st rad2 nr).psfs = ((List.range nr).map fun i => st.psf.map (kPsf i)).flatten := rfl
  rw [hps] at hcut ⊢
  simp only [List.map_flatten, List.map_map, Function.comp_def]
  congr 2
  apply List.map_congr_left
  intro i hi
  apply List.map_congr_left
  intro p hp
  have hl : i < s.comps.length := by rw [hr.1]; exact List.mem_range.mp hi
  have hci : s.comps[i]? = some s.comps[i] := List.getElem?_eq_getElem hl
  simp only [hci, Option.getD_some]
  refine contrib_eq _ _ (C79_gaussian st rad2 nr s i _ p hci (hr.2 i _ hci) hst.1 (hst.2 p hp) band g).1
    px.x px.y ?_
  apply hcut
  apply List.mem_flatten.mpr
  exact ⟨_, List.mem_map_of_mem hi, List.mem_map_of_mem hp⟩

/-- The sources given to the kernel. -/
def kSources (ss : List Source) (g : Nat) : Kernel.Source :=
  kSource (ss[g]?.getD ⟨0, 0, 0, 0, 0, []⟩)

/-- For the same sources and pixels, with no exponent beyond the kernel's cutoff, the kernel's chi-square is
minus twice the log-likelihood of the Python plans up to a constant (the chi-square of the data alone),
and wherever the Python gradient is a number the kernel's is minus twice it. -/
theorem C79_agree (band : Nat) (ss : List Source) (hst : PixelPsf st) (hr : ∀ s ∈ ss, Round rad2 nr s)
    (hcut : WithinCut band ss.length (kExposure st rad2 nr) (kSources ss)) :
    (evaluate band ss.length [kExposure st rad2 nr] (kSources ss)).chi2 =
      -2 * (fastLnlike {} st.pixels (ss.map fun s => gigD s st) []).lnlike -
        (st.pixels.map fun p => (p.data * p.ierr) ^ 2).sum ∧
    ∀ (k : Nat) (g : Param → ℝ), (fastLnlike {} st.pixels (ss.map fun s => gigD s st) []).grads[k]? =
        some (some g) → ∀ prm,
      (evaluate band ss.length [kExposure st rad2 nr] (kSources ss)).grad k prm = -2 * g prm := by
  classical
  have hsrc : ∀ (k : Nat) (h : k < ss.length), kSources ss k = kSource ss[k] := by
    intro k h
    simp [kSources, List.getElem?_eq_getElem h]
  have hmodel : ∀ px ∈ st.pixels, ((createImageGaussians band (kExposure st rad2 nr) ss.length
      (kSources ss)).map fun g => Kernel.contrib g px.x px.y).sum =
      modelCounts {} px (ss.map fun s => gigD s st) := by
    intro px hpx
    rw [Kernel.sum_contrib]
    unfold modelCounts
    rw [List.map_map]
    congr 1
    apply List.ext_getElem?
    intro i
    simp only [List.getElem?_map]
    by_cases hi : i < ss.length
    · simp only [List.getElem?_range hi, List.getElem?_eq_getElem hi, Option.map_some, Function.comp_apply]
      rw [hsrc i hi, source_counts st rad2 nr band i ss[i] (hr _ (List.getElem_mem hi)) hst px]
      intro p hp
      rw [← hsrc i hi]
      exact hcut i hi p hp px hpx
    · simp [List.getElem?_eq_none (not_lt.mp hi), not_lt.mp hi]
  have hres : ∀ px : Pixel, fastResidual {} (ss.map fun s => gigD s st) [] px =
      px.data - modelCounts {} px (ss.map fun s => gigD s st) := by
    intro px
    rw [fastResidual_eq, List.append_nil]
  constructor
  · rw [Kernel.evaluate_chi2]
    simp only [List.map_cons, List.map_nil, List.sum_cons, List.sum_nil, add_zero, fastLnlike, hres]
    have h1 : ((kExposure st rad2 nr).pixels.map (Kernel.pixelChi2 (createImageGaussians band
        (kExposure st rad2 nr) ss.length (kSources ss)))) = st.pixels.map fun px =>
        ((px.data - modelCounts {} px (ss.map fun s => gigD s st)) * px.ierr *
          ((px.data - modelCounts {} px (ss.map fun s => gigD s st)) * px.ierr)) -
          (px.data * px.ierr) ^ 2 := by
      apply List.map_congr_left
      intro px hpx
      rw [Kernel.pixelChi2_eq, hmodel px hpx]
      ring
    rw [h1, sum_map_sub']
    ring
  · intro k g hg prm
    have hk : k < ss.length := by
      by_contra hk
      simp [fastLnlike, List.getElem?_eq_none (not_lt.mp hk)] at hg
    simp only [fastLnlike, List.getElem?_map, List.getElem?_eq_getElem hk, Option.map_some,
      Option.some.injEq] at hg
    split at hg
    case isFalse => simp at hg
    case isTrue hok =>
    simp only [Option.some.injEq] at hg
    have hgp := congrFun hg prm
    simp only [fastGrad_eq] at hgp
    rw [← hgp, Kernel.evaluate_grad _ _ _ _ _ _ hk]
    simp only [List.map_cons, List.map_nil, List.sum_cons, List.sum_nil, add_zero, Kernel.exposureGrad]
    rw [← List.sum_map_mul_left]
    congr 1
    apply List.map_congr_left
    intro px hpx
    have hw : Kernel.weighted (createImageGaussians band (kExposure st rad2 nr) ss.length
        (kSources ss)) px = fastResidual {} (ss.map fun s => gigD s st) [] px * px.ierr * px.ierr := by
      unfold Kernel.weighted
      rw [Kernel.computeResidual_eq, hmodel px hpx, hres]
    rw [hw, List.sum_map_mul_left, hsrc k hk]
    have hgr := hr _ (List.getElem_mem hk)
    have hrow : ((kExposure st rad2 nr).psfs.map fun f => Kernel.dcontrib
        (imGauss band (kExposure st rad2 nr) k (kSource ss[k]) f) px.x px.y
        (Kernel.jac (imGauss band (kExposure st rad2 nr) k (kSource ss[k]) f) prm)).sum =
        ((gigD ss[k] st).map fun f => (f.J prm).dot (gradients {} f.g px.x px.y)).sum := by
      have hok' := hok
      rw [gig_pixels st rad2 nr ss[k] hgr hst] at hok' ⊢
      have hps : (kExposure st rad2 nr).psfs =
          ((List.range nr).map fun i => st.psf.map (kPsf i)).flatten := rfl
      rw [hps]
      simp only [List.map_flatten, List.map_map, Function.comp_def]
      congr 2
      apply List.map_congr_left
      intro i hi
      apply List.map_congr_left
      intro p hp
      have hl : i < ss[k].comps.length := by rw [hgr.1]; exact List.mem_range.mp hi
      have hci : ss[k].comps[i]? = some ss[k].comps[i] := List.getElem?_eq_getElem hl
      have hmem := hok' _ (List.mem_flatten.mpr ⟨_, List.mem_map_of_mem hi, List.mem_map_of_mem hp⟩)
      simp only [hci, Option.getD_some] at hmem ⊢
      obtain ⟨g1, g2⟩ := C79_gaussian st rad2 nr ss[k] i _ p hci (hgr.2 i _ hci) hst.1 (hst.2 p hp) band k
      refine dcontrib_eq _ _ g1 _ _ (g2 hmem.1 prm) px.x px.y ?_ (hmem.2 px hpx)
      rw [← hsrc k hk]
      apply hcut k hk _ _ px hpx
      rw [hps]
      exact List.mem_flatten.mpr ⟨_, List.mem_map_of_mem hi, List.mem_map_of_mem hp⟩
    rw [hrow]
    ring

/-- The hypotheses can be met. -/
theorem C79_witness : PixelPsf stamp1 ∧ Round (fun _ => 1) 1 source1 ∧
    WithinCut 0 1 (kExposure stamp1 (fun _ => 1) 1) (kSources [source1]) := by
  refine ⟨⟨rfl, by simp [stamp1]⟩, ⟨rfl, ?_⟩, ?_⟩
  · intro i c h
    rcases i with _ | i
    · simp only [source1, List.getElem?_cons_zero, Option.some.injEq] at h
      rw [← h]
    · simp [source1] at h
  · intro g hg p hp px hpx
    obtain rfl : g = 0 := by omega
    have hpx' : px = ⟨0, 0, 2, 1⟩ := by simpa [kExposure, stamp1] using hpx
    have hp' : p = kPsf 0 ⟨1, (0, 0), ⟨1, 0, 0, 1⟩⟩ := by simpa [kExposure, stamp1] using hp
    subst hpx'
    subst hp'
    have : (imGauss 0 (kExposure stamp1 (fun _ => 1) 1) 0 (kSources [source1] 0)
        (kPsf 0 ⟨1, (0, 0), ⟨1, 0, 0, 1⟩⟩)).xcen = 0 ∧
        (imGauss 0 (kExposure stamp1 (fun _ => 1) 1) 0 (kSources [source1] 0)
        (kPsf 0 ⟨1, (0, 0), ⟨1, 0, 0, 1⟩⟩)).ycen = 0 := by
      simp [imGauss, Kernel.getGaussianAndJacobian, Kernel.pixGauss, kSources, kSource, source1, kExposure,
        stamp1, kPsf, M22.mulVec]
    simp only [expArg, this.1, this.2, maxExpArg]
    norm_num

end Forcepho.Slow
