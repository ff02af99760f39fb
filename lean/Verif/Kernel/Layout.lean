import Verif.Kernel.Props
import Verif.Kernel.Gpu

/-! # The flattened astrometry arrays, and concrete cases -/

set_option autoImplicit false
set_option linter.unusedSectionVars false

namespace Forcepho.Kernel

/-! ## Flattened arrays -/

/-- A 2 × 2 matrix stored in C order (patch.py:185-186, 318-319). -/
def M22.flat (a : M22) : List ℝ := [a.v11, a.v12, a.v21, a.v22]

/-- The array of shape `(n_exposures, n_sources, 2, 2)` stored in C order (patch.py:183-184, 316-317). -/
def flatMatrices (arr : List (List M22)) : List ℝ := ((arr.flatten).map M22.flat).flatten

/-- The array of shape `(n_exposures, n_sources, 2)` stored in C order (patch.py:185-186, 318-319). -/
def flatPairs (arr : List (List (ℝ × ℝ))) : List ℝ := ((arr.flatten).map fun v => [v.1, v.2]).flatten

/-- `matrix22(patch->D + d_cw_start)` with `d_cw_start = 4*(n_sources*exposure + g)`
(compute_gaussians_kernel.cc:60, 73, matrix22.cc:49-51). -/
def readMatrix (nSources e g : Nat) (l : List ℝ) : Option M22 :=
  let start := 4 * (nSources * e + g)
  match l[start]?, l[start + 1]?, l[start + 2]?, l[start + 3]? with
  | some a, some b, some c, some d => some ⟨a, b, c, d⟩
  | _, _, _, _ => none

/-- `crpix[cr_start], crpix[cr_start+1]` with `cr_start = 2*(n_sources*exposure + g)`
(compute_gaussians_kernel.cc:61-64). -/
def readPair (nSources e g : Nat) (l : List ℝ) : Option (ℝ × ℝ) :=
  let start := 2 * (nSources * e + g)
  match l[start]?, l[start + 1]? with
  | some a, some b => some (a, b)
  | _, _ => none

/-- **C49 (layout).** The kernel reads, for every exposure and every source, exactly the matrix and
the vector that were stored for that exposure and source. -/
theorem C49_layout (n : Nat) (mats : List (List M22)) (vecs : List (List (ℝ × ℝ)))
    (hm : ∀ r ∈ mats, r.length = n) (hv : ∀ r ∈ vecs, r.length = n) (e g : Nat)
    (rm : List M22) (rv : List (ℝ × ℝ)) (m : M22) (v : ℝ × ℝ)
    (h1 : mats[e]? = some rm) (h2 : rm[g]? = some m)
    (h3 : vecs[e]? = some rv) (h4 : rv[g]? = some v) :
    readMatrix n e g (flatMatrices mats) = some m ∧ readPair n e g (flatPairs vecs) = some v := by
  have hgm : g < n := by
    have := (List.getElem?_eq_some_iff.mp h2).1
    rw [hm rm (List.mem_of_getElem? h1)] at this
    exact this
  constructor
  · have hrow := Util.flatten_const mats hm h1 hgm
    rw [h2] at hrow
    have hblk : ((mats.flatten).map M22.flat)[e * n + g]? = some m.flat := by
      rw [List.getElem?_map, hrow]
      rfl
    have hw : ∀ l ∈ (mats.flatten).map M22.flat, l.length = 4 := by
      intro l hl
      simp only [List.mem_map] at hl
      obtain ⟨a, -, rfl⟩ := hl
      rfl
    have hget : ∀ j < 4, (flatMatrices mats)[4 * (n * e + g) + j]? = m.flat[j]? := by
      intro j hj
      have := Util.flatten_const _ hw hblk hj
      rw [← this]
      unfold flatMatrices
      congr 1
      ring
    unfold readMatrix
    simp only []
    rw [← Nat.add_zero (4 * (n * e + g)), hget 0 (by omega)]
    simp only [Nat.add_zero]
    rw [hget 1 (by omega), hget 2 (by omega), hget 3 (by omega)]
    rfl
  · have hrow := Util.flatten_const vecs hv h3 hgm
    rw [h4] at hrow
    have hblk : ((vecs.flatten).map fun v : ℝ × ℝ => [v.1, v.2])[e * n + g]? = some [v.1, v.2] := by
      rw [List.getElem?_map, hrow]
      rfl
    have hw : ∀ l ∈ (vecs.flatten).map fun v : ℝ × ℝ => [v.1, v.2], l.length = 2 := by
      intro l hl
      simp only [List.mem_map] at hl
      obtain ⟨a, -, rfl⟩ := hl
      rfl
    have hget : ∀ j < 2, (flatPairs vecs)[2 * (n * e + g) + j]? = [v.1, v.2][j]? := by
      intro j hj
      have := Util.flatten_const _ hw hblk hj
      rw [← this]
      unfold flatPairs
      congr 1
      ring
    unfold readPair
    simp only []
    rw [← Nat.add_zero (2 * (n * e + g)), hget 0 (by omega)]
    simp only [Nat.add_zero]
    rw [hget 1 (by omega)]
    rfl

/-! ## Concrete cases -/

section cases

/-- One exposure with a sheared scale matrix, one round PSF gaussian and two pixels. -/
noncomputable def exE : Exposure :=
  { G := 2
    astrom := fun _ => ⟨⟨1, 1, 0, 1⟩, ⟨1, 0, 0, 1⟩, (0, 0), (0, 0)⟩
    psfs := [⟨1, 0, 0, 1, 1, 0, 0⟩]
    rad2 := fun _ => 1
    pixels := [⟨0, 0, 5, 1⟩, ⟨0, 0, 7, 0⟩] }

/-- One elliptical source. -/
noncomputable def exS : Nat → Source := fun _ => ⟨0, 0, 1 / 2, 0, fun _ => 3, fun _ => 1, fun _ => 0, fun _ => 0⟩

lemma exE_det : (exE.astrom 0).D.toMatrix.det ≠ 0 := by
  rw [← (C49_matrix _ ⟨0, 0, 0, 0⟩ 0 0 0).2.2.2.2.2.1]
  simp [exE, M22.det]

lemma exE_psf : (psfCov ⟨1, 0, 0, 1, 1, 0, 0⟩).PosSemidef := by
  have : psfCov ⟨1, 0, 0, 1, 1, 0, 0⟩ = 1 := by
    ext i j
    fin_cases i <;> fin_cases j <;> simp [psfCov]
  rw [this]
  exact Matrix.PosSemidef.one

lemma exE_cov : ∀ e ∈ [exE], ∀ p ∈ e.psfs, 0 < (imCov 0 e 0 (exS 0) p).det := by
  intro e he p hp
  simp only [List.mem_singleton] at he
  subst he
  have hp' : p = ⟨1, 0, 0, 1, 1, 0, 0⟩ := by simpa [exE] using hp
  subst hp'
  exact (C49_positive_definite 0 exE 0 (exS 0) _ (by simp [exS]) exE_det
    (Or.inl ⟨by simp [exE], exE_psf⟩)).2.2

lemma exE_off : OffThreshold 0 [exE] 0 (exS 0) := by
  intro e he p hp px hpx
  simp only [List.mem_singleton] at he
  subst he
  have hp' : p = ⟨1, 0, 0, 1, 1, 0, 0⟩ := by simpa [exE] using hp
  subst hp'
  have hx : px.x = 0 ∧ px.y = 0 := by
    simp only [exE, List.mem_cons, List.not_mem_nil, or_false] at hpx
    rcases hpx with rfl | rfl <;> exact ⟨rfl, rfl⟩
  have hc : (imGauss 0 exE 0 (exS 0) ⟨1, 0, 0, 1, 1, 0, 0⟩).xcen = 0 ∧
      (imGauss 0 exE 0 (exS 0) ⟨1, 0, 0, 1, 1, 0, 0⟩).ycen = 0 := by
    simp [imGauss, getGaussianAndJacobian, pixGauss, exE, exS, M22.mulVec]
  unfold expArg
  rw [hx.1, hx.2, hc.1, hc.2]
  simp [maxExpArg]

/-- The hypotheses of the gradient theorems hold in a non-trivial case. -/
example : HasDerivAt (fun t => (evaluate 0 1 [exE] (Function.update exS 0
        { exS 0 with q := t })).chi2)
      ((evaluate 0 1 [exE] exS).grad 0 .q) (1 / 2) :=
  C50_gradient_q 0 1 [exE] exS 0 (by omega) exE_off (by simp [exS]) exE_cov

/-- The hypotheses of the normalisation theorem hold in a non-trivial case. -/
example : ∫ y : ℝ, ∫ x : ℝ, (imGauss 0 exE 0 (exS 0) ⟨1, 0, 0, 1, 1, 0, 0⟩).amp *
      Real.exp (-(1 / 2) * expArg (imGauss 0 exE 0 (exS 0) ⟨1, 0, 0, 1, 1, 0, 0⟩) x y) = 6 := by
  rw [C49_total_flux 0 exE 0 (exS 0) _ (by simp [exS]) exE_det (Or.inl ⟨by simp [exE], exE_psf⟩)]
  simp [exE, exS]
  norm_num

/-- The second pixel carries no weight, so its value is irrelevant. -/
example (v : ℝ) : evaluate 0 1 [{ exE with pixels := [⟨0, 0, 5, 1⟩, ⟨0, 0, v, 0⟩] }] exS =
    evaluate 0 1 [exE] exS :=
  C51_one_pixel 0 1 exS [] [] exE [⟨0, 0, 5, 1⟩] [] ⟨0, 0, 7, 0⟩ v rfl

/-- A run of the default block of 1024 threads on one padded exposure. -/
example : ∃ acc, GpuRun 0 1024 1 exS [{ exE with pixels := List.replicate 64 ⟨0, 0, 5, 1⟩ }]
      { chi2 := 0, grad := fun _ _ => 0 } acc ∧
    acc.chi2 = (evaluate 0 1 [{ exE with pixels := List.replicate 64 ⟨0, 0, 5, 1⟩ }] exS).chi2 := by
  obtain ⟨acc, h⟩ := C52_run_exists 0 1024 1 exS
    [{ exE with pixels := List.replicate 64 ⟨0, 0, 5, 1⟩ }] { chi2 := 0, grad := fun _ _ => 0 }
  refine ⟨acc, h, (C52_agree_partial 0 1024 1 exS (by norm_num) (by norm_num) _ ?_ acc h).1⟩
  intro e he
  simp only [List.mem_singleton] at he
  subst he
  simp

example : strideFrom 3 8 1 = [1, 4, 7] := by decide +kernel

end cases

end Forcepho.Kernel
