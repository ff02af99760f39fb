import Verif.Profile.Mixture
import Verif.Profile.Smooth
import Verif.Kernel.Light
import Mathlib.Analysis.Calculus.Deriv.Comp
import Mathlib.Analysis.SpecialFunctions.Log.Deriv
import Mathlib.Analysis.Calculus.FDeriv.Pi

/-!
# C157: the fit of gaussian mixtures to Sersic profiles

Models the objective `chisq` and the start of `fit_gaussians` (`forcepho/mixtures/sersic_mix_oned.py:25-129`). The minimisers of
scipy are left out; what is proved is about every point they may stop at.
-/

set_option autoImplicit false
set_option linter.unusedSectionVars false

namespace Forcepho.Profile

open Matrix Filter Topology

noncomputable section

/-! ## Model -/

variable {n : Nat}

/-- `disps = np.hypot(np.exp(radii), smoothing)` (`sersic_mix_oned.py:97`, `:103`). -/
def disps (radii : Fin n → ℝ) (smoothing : ℝ) (i : Fin n) : ℝ := Real.sqrt (Real.exp (radii i) ^ 2 + smoothing ^ 2)

/-- `amps = np.exp(params)` after `amps /= disps * np.sqrt(2 * np.pi)` (`sersic_mix_oned.py:98`, `:104`). -/
def heights (params radii : Fin n → ℝ) (smoothing : ℝ) (i : Fin n) : ℝ :=
  Real.exp (params i) / (disps radii smoothing i * Real.sqrt (2 * Real.pi))

/-- `gauss` (`sersic_mix_oned.py:105`). -/
def gaussAt (params radii : Fin n → ℝ) (smoothing x : ℝ) : ℝ :=
  ∑ i, normalOned x (heights params radii smoothing i) (disps radii smoothing i)

/-- The weighted deviation (`sersic_mix_oned.py:106-108`); `xs` has the radii with the values of `target` there. -/
def deviation (xs : List (ℝ × ℝ)) (g : ℝ → ℝ) : ℝ :=
  (xs.map fun p =>
    let delta := (g p.1 - p.2) / p.2
    delta * delta * p.2 * p.1).sum / (xs.map fun p => p.1 * p.2).sum * 1e-2

/-- `pa` (`sersic_mix_oned.py:112-117`); the matrix `d` is `band n 2 (-1)`. -/
def roughness (a : Fin n → ℝ) : ℝ := a ⬝ᵥ ((band n 2 (-1))ᵀ *ᵥ (band n 2 (-1) *ᵥ a))

/-- `chisq` with given radii (`sersic_mix_oned.py:85-129`). -/
def chisq (params radii : Fin n → ℝ) (xs : List (ℝ × ℝ)) (smoothing asmooth arpenalty arscale : ℝ) : ℝ :=
  deviation xs (gaussAt params radii smoothing) +
    (if asmooth > 0 then asmooth * roughness (fun i => Real.log (heights params radii smoothing i)) else 0) +
    if arpenalty > 0 then
      arpenalty * ∑ i, heights params radii smoothing i * Real.exp (disps radii smoothing i / arscale)
    else 0

/-- The exceptions of `fit_gaussians`. -/
inductive FitErr | attribute | type | index | value
  deriving DecidableEq

/-- A number of python: an integer or a float. -/
inductive PyNum | int (k : Nat) | float (v : ℝ)

/-- `/` of python, which gives a float. -/
def truediv (a b : Nat) : PyNum := .float (a / b)

/-- `params[:k]`, which needs an integer. -/
def sliceTo (params : List ℝ) : PyNum → Except FitErr (List ℝ)
  | .int k => .ok (params.take k)
  | .float _ => .error .type

/-- `params[k:]`, which needs an integer. -/
def sliceFrom (params : List ℝ) : PyNum → Except FitErr (List ℝ)
  | .int k => .ok (params.drop k)
  | .float _ => .error .type

/-- The logarithms of the amplitudes and dispersions in `chisq` (`sersic_mix_oned.py:96-101`). -/
def splitParams (params : List ℝ) (radii : Option (List ℝ)) : Except FitErr (List ℝ × List ℝ) :=
  match radii with
  | some rs => do
    let amps ← sliceTo params (.int rs.length)
    .ok (amps, rs)
  | none => do
    let amps ← sliceTo params (truediv params.length 2)
    let disps ← sliceFrom params (truediv params.length 2)
    .ok (amps, disps)

/-- `np.linspace(a, b, n)`. -/
def spaced (a b : ℝ) (n : Nat) : List ℝ := (List.range n).map fun i : Nat => a + (i : ℝ) * ((b - a) / ((n : ℝ) - 1))

/-- `fit_gaussians` up to the first evaluation of `chisq` (`sersic_mix_oned.py:54-79`): the start of the fit, with the
logarithms of amplitudes and dispersions seen by that evaluation. `x.max()` needs the radii at which the profiles are compared,
and `amp[0] = amp[1]` two radii of the mixture. -/
def fitStart (x radii : Option (List ℝ)) (rh : ℝ) (ncomp : Nat) : Except FitErr (List ℝ × List ℝ × List ℝ) := do
  let maxrad ← match x with
    | none => .error .attribute
    | some [] => .error .value
    | some (a :: rest) => .ok (rest.foldl max a)
  let p0 ← match radii with
    | none =>
      let sigma := (spaced (Real.log 0.001) (Real.log maxrad) ncomp).map fun v => Real.log rh + v
      let amp := spaced (Real.log 0.01) (Real.log maxrad) ncomp
      .ok (amp ++ sigma)
    | some rs => if rs.length < 2 then .error .index else .ok (rs.map fun _ => 1e-5)
  let seen ← splitParams p0 radii
  .ok (p0, seen.1, seen.2)

/-! ## The mixture -/

theorem disps_sq (radii : Fin n → ℝ) (s : ℝ) (i : Fin n) : disps radii s i ^ 2 = Real.exp (radii i) ^ 2 + s ^ 2 :=
  Real.sq_sqrt (by positivity)

theorem disps_pos (radii : Fin n → ℝ) (s : ℝ) (i : Fin n) : 0 < disps radii s i :=
  Real.sqrt_pos.mpr (by positivity)

theorem heights_pos (params radii : Fin n → ℝ) (s : ℝ) (i : Fin n) : 0 < heights params radii s i := by
  have := disps_pos radii s i
  have := Real.pi_pos
  unfold heights
  positivity

/-- The value of the mixture, linear in the amplitudes. -/
theorem gaussAt_eq (params radii : Fin n → ℝ) (s x : ℝ) :
    gaussAt params radii s x = ∑ i, Real.exp (params i) *
      (Real.exp (-x ^ 2 / (2 * (Real.exp (radii i) ^ 2 + s ^ 2))) / (2 * Real.pi * (Real.exp (radii i) ^ 2 + s ^ 2))) := by
  unfold gaussAt normalOned heights
  apply Finset.sum_congr rfl
  intro i _
  have hd := disps_pos radii s i
  have h2 : Real.sqrt (2 * Real.pi) ^ 2 = 2 * Real.pi := Real.sq_sqrt (by positivity)
  have hq : 0 < Real.sqrt (2 * Real.pi) := Real.sqrt_pos.mpr (by positivity)
  rw [← disps_sq, mul_comm Real.pi 2, sub_zero]
  field_simp
  linarith

/-- C157 (mixture): the mixture that is compared with the target is the sum of normal densities in the plane, of total weight
`exp(params)` and dispersion `exp(radii)`, each convolved with a normal density of the smoothing dispersion. -/
theorem C157_mixture (params radii : Fin n → ℝ) {s : ℝ} (hs : 0 < s) (x : ℝ) :
    gaussAt params radii s x = ∑ i, Real.exp (params i) *
      Kernel.blur (Kernel.normalPdf !![Real.exp (radii i) ^ 2, 0; 0, Real.exp (radii i) ^ 2])
        (Kernel.normalPdf !![s ^ 2, 0; 0, s ^ 2]) x 0 := by
  rw [gaussAt_eq]
  apply Finset.sum_congr rfl
  intro i _
  congr 1
  have hE := Real.exp_pos (radii i)
  have h := (Kernel.pdf_blur (Real.exp (radii i) ^ 2) 0 (Real.exp (radii i) ^ 2) (s ^ 2) 0 (s ^ 2) (by positivity)
    (by simp only [mul_zero, sub_zero]; positivity) (by positivity) (by simp only [mul_zero, sub_zero]; positivity)
    0 0 x 0).1
  simp only [sub_zero, add_zero] at h
  have h2 := h.trans (Kernel.pdf_coords _ _ _ _ _ (by simp only [mul_zero, sub_zero]; positivity))
  rw [Kernel.blur]
  simp only [zero_sub] at h2 ⊢
  rw [h2, Kernel.form, mul_zero, sub_zero, Real.sqrt_mul_self (by positivity)]
  congr 2
  field_simp
  ring

/-! ## The deviation -/

theorem terms_nonneg (xs : List (ℝ × ℝ)) (h : ∀ p ∈ xs, 0 ≤ p.1 ∧ 0 < p.2) (g : ℝ → ℝ) :
    ∀ p ∈ xs, 0 ≤ (g p.1 - p.2) / p.2 * ((g p.1 - p.2) / p.2) * p.2 * p.1 := by
  intro p hp
  obtain ⟨h1, h2⟩ := h p hp
  have := mul_self_nonneg ((g p.1 - p.2) / p.2)
  positivity

theorem weight_pos (xs : List (ℝ × ℝ)) (h : ∀ p ∈ xs, 0 ≤ p.1 ∧ 0 < p.2) (hx : ∃ p ∈ xs, 0 < p.1) :
    0 < (xs.map fun p => p.1 * p.2).sum := by
  induction xs with
  | nil => simp at hx
  | cons q l ih =>
    simp only [List.map_cons, List.sum_cons]
    have hq := h q (by simp)
    have hl : 0 ≤ (l.map fun p => p.1 * p.2).sum := by
      apply List.sum_nonneg
      intro v hv
      obtain ⟨p, hp, rfl⟩ := List.mem_map.mp hv
      exact mul_nonneg (h p (by simp [hp])).1 (h p (by simp [hp])).2.le
    obtain ⟨p, hp, hpos⟩ := hx
    rcases List.mem_cons.mp hp with rfl | hp
    · have := mul_pos hpos hq.2
      linarith
    · have := ih (fun p hp => h p (by simp [hp])) ⟨p, hp, hpos⟩
      have := mul_nonneg hq.1 hq.2.le
      linarith

theorem sum_zero_iff {ι : Type} (l : List ι) (f : ι → ℝ) (h : ∀ p ∈ l, 0 ≤ f p) : (l.map f).sum = 0 ↔ ∀ p ∈ l, f p = 0 := by
  induction l with
  | nil => simp
  | cons a l ih =>
    have ha := h a (by simp)
    have hl : 0 ≤ (l.map f).sum := by
      apply List.sum_nonneg
      intro v hv
      obtain ⟨p, hp, rfl⟩ := List.mem_map.mp hv
      exact h p (by simp [hp])
    simp only [List.map_cons, List.sum_cons, List.forall_mem_cons, ← ih fun p hp => h p (by simp [hp])]
    constructor
    · intro e
      constructor <;> linarith
    · rintro ⟨e1, e2⟩
      linarith

/-- C157 (deviation): without penalties the objective is one percent of the mean square of the relative deviation of the mixture
from the target, weighted with the light in rings. It is never negative, and zero exactly when the mixture equals the target at
every positive radius. -/
theorem C157_deviation (params radii : Fin n → ℝ) (xs : List (ℝ × ℝ)) (s asmooth arpenalty arscale : ℝ)
    (h : ∀ p ∈ xs, 0 ≤ p.1 ∧ 0 < p.2) (hx : ∃ p ∈ xs, 0 < p.1) (ha : asmooth ≤ 0) (hr : arpenalty ≤ 0) :
    chisq params radii xs s asmooth arpenalty arscale * (100 * (xs.map fun p => p.1 * p.2).sum) =
      (xs.map fun p => p.1 * p.2 * (gaussAt params radii s p.1 / p.2 - 1) ^ 2).sum ∧
    0 ≤ chisq params radii xs s asmooth arpenalty arscale ∧
    (chisq params radii xs s asmooth arpenalty arscale = 0 ↔ ∀ p ∈ xs, 0 < p.1 → gaussAt params radii s p.1 = p.2) := by
  have hw := weight_pos xs h hx
  have e : chisq params radii xs s asmooth arpenalty arscale = deviation xs (gaussAt params radii s) := by
    rw [chisq, if_neg (not_lt.mpr ha), if_neg (not_lt.mpr hr), add_zero, add_zero]
  have hn := terms_nonneg xs h (gaussAt params radii s)
  have hs : 0 ≤ (xs.map fun p => (gaussAt params radii s p.1 - p.2) / p.2 * ((gaussAt params radii s p.1 - p.2) / p.2) *
      p.2 * p.1).sum := by
    apply List.sum_nonneg
    intro v hv
    obtain ⟨p, hp, rfl⟩ := List.mem_map.mp hv
    exact hn p hp
  rw [e, deviation]
  refine ⟨?_, by positivity, ?_⟩
  · have hterm : (xs.map fun p => p.1 * p.2 * (gaussAt params radii s p.1 / p.2 - 1) ^ 2).sum =
        (xs.map fun p => (gaussAt params radii s p.1 - p.2) / p.2 * ((gaussAt params radii s p.1 - p.2) / p.2) *
          p.2 * p.1).sum := by
      congr 1
      apply List.map_congr_left
      intro p hp
      have := (h p hp).2
      field_simp
    rw [hterm]
    field_simp
    norm_num
    ring
  · constructor
    · intro h0 p hp hpos
      have hnum : (xs.map fun p => (gaussAt params radii s p.1 - p.2) / p.2 *
          ((gaussAt params radii s p.1 - p.2) / p.2) * p.2 * p.1).sum = 0 := by
        rcases mul_eq_zero.mp h0 with h1 | h1
        · rcases div_eq_zero_iff.mp h1 with h2 | h2
          · exact h2
          · exact absurd h2 hw.ne'
        · norm_num at h1
      have := (sum_zero_iff xs _ hn).mp hnum p hp
      have ht := (h p hp).2
      simp only [mul_eq_zero, hpos.ne', ht.ne', or_false, div_eq_zero_iff, or_self] at this
      linarith
    · intro hall
      have hnum : (xs.map fun p => (gaussAt params radii s p.1 - p.2) / p.2 *
          ((gaussAt params radii s p.1 - p.2) / p.2) * p.2 * p.1).sum = 0 := by
        rw [sum_zero_iff xs _ hn]
        intro p hp
        rcases (h p hp).1.eq_or_lt with h1 | h1
        · rw [← h1, mul_zero]
        · rw [hall p hp h1]
          simp
      simp only
      rw [hnum]
      simp

/-- C157 (scale): without penalties the fit does not depend on the unit of brightness: a target `c` times as bright is fitted
equally well by amplitudes `c` times as large. -/
theorem C157_scale (params radii : Fin n → ℝ) (xs : List (ℝ × ℝ)) (s arscale : ℝ) {c : ℝ} (hc : 0 < c)
    (h : ∀ p ∈ xs, 0 < p.2) :
    chisq (fun i => params i + Real.log c) radii (xs.map fun p => (p.1, c * p.2)) s 0 0 arscale =
      chisq params radii xs s 0 0 arscale := by
  have hg : ∀ x, gaussAt (fun i => params i + Real.log c) radii s x = c * gaussAt params radii s x := by
    intro x
    rw [gaussAt_eq, gaussAt_eq, Finset.mul_sum]
    apply Finset.sum_congr rfl
    intro i _
    rw [Real.exp_add, Real.exp_log hc]
    ring
  simp only [chisq, gt_iff_lt, lt_self_iff_false, if_false, add_zero, deviation, List.map_map, Function.comp_def, hg]
  have e1 : (xs.map fun p => (c * gaussAt params radii s p.1 - c * p.2) / (c * p.2) *
      ((c * gaussAt params radii s p.1 - c * p.2) / (c * p.2)) * (c * p.2) * p.1).sum =
      c * (xs.map fun p => (gaussAt params radii s p.1 - p.2) / p.2 * ((gaussAt params radii s p.1 - p.2) / p.2) *
        p.2 * p.1).sum := by
    rw [← List.sum_map_mul_left]
    congr 1
    apply List.map_congr_left
    intro p hp
    have := h p hp
    field_simp
  have e2 : (xs.map fun p => p.1 * (c * p.2)).sum = c * (xs.map fun p => p.1 * p.2).sum := by
    rw [← List.sum_map_mul_left]
    congr 1
    apply List.map_congr_left
    intro p _
    ring
  rw [e1, e2, mul_div_mul_left _ _ hc.ne']

/-! ## Minima -/

/-- The logarithms of the amplitudes on the way from one mixture to another. -/
def between (p q : Fin n → ℝ) (t : ℝ) (i : Fin n) : ℝ := Real.log ((1 - t) * Real.exp (p i) + t * Real.exp (q i))

theorem exp_between (p q : Fin n → ℝ) {t : ℝ} (h0 : 0 ≤ t) (h1 : t ≤ 1) (i : Fin n) :
    Real.exp (between p q t i) = (1 - t) * Real.exp (p i) + t * Real.exp (q i) := by
  apply Real.exp_log
  have hp := Real.exp_pos (p i)
  have hq := Real.exp_pos (q i)
  rcases h0.eq_or_lt with h | h
  · rw [← h]
    simpa using hp
  · have := mul_nonneg (sub_nonneg.mpr h1) hp.le
    have := mul_pos h hq
    linarith

theorem convex_between (p q radii : Fin n → ℝ) (xs : List (ℝ × ℝ)) (s arpenalty arscale : ℝ)
    (h : ∀ p ∈ xs, 0 ≤ p.1 ∧ 0 < p.2) {t : ℝ} (h0 : 0 ≤ t) (h1 : t ≤ 1) :
    chisq (between p q t) radii xs s 0 arpenalty arscale ≤
      (1 - t) * chisq p radii xs s 0 arpenalty arscale + t * chisq q radii xs s 0 arpenalty arscale := by
  have hg : ∀ x, gaussAt (between p q t) radii s x = (1 - t) * gaussAt p radii s x + t * gaussAt q radii s x := by
    intro x
    simp only [gaussAt_eq, Finset.mul_sum, ← Finset.sum_add_distrib]
    apply Finset.sum_congr rfl
    intro i _
    rw [exp_between p q h0 h1]
    ring
  have hh : ∀ i, heights (between p q t) radii s i = (1 - t) * heights p radii s i + t * heights q radii s i := by
    intro i
    simp only [heights]
    rw [exp_between p q h0 h1]
    ring
  have hdev : deviation xs (gaussAt (between p q t) radii s) ≤
      (1 - t) * deviation xs (gaussAt p radii s) + t * deviation xs (gaussAt q radii s) := by
    have hw : 0 ≤ (xs.map fun p => p.1 * p.2).sum := by
      apply List.sum_nonneg
      intro v hv
      obtain ⟨p, hp, rfl⟩ := List.mem_map.mp hv
      exact mul_nonneg (h p hp).1 (h p hp).2.le
    have hsum : (xs.map fun z => (gaussAt (between p q t) radii s z.1 - z.2) / z.2 *
        ((gaussAt (between p q t) radii s z.1 - z.2) / z.2) * z.2 * z.1).sum ≤
        (1 - t) * (xs.map fun z => (gaussAt p radii s z.1 - z.2) / z.2 * ((gaussAt p radii s z.1 - z.2) / z.2) * z.2 * z.1).sum +
        t * (xs.map fun z => (gaussAt q radii s z.1 - z.2) / z.2 * ((gaussAt q radii s z.1 - z.2) / z.2) * z.2 * z.1).sum := by
      rw [← List.sum_map_mul_left, ← List.sum_map_mul_left, ← List.sum_map_add]
      apply List.sum_le_sum
      intro z hz
      obtain ⟨hz1, hz2⟩ := h z hz
      rw [hg]
      set A := (gaussAt p radii s z.1 - z.2) / z.2
      set B := (gaussAt q radii s z.1 - z.2) / z.2
      have hAB : ((1 - t) * gaussAt p radii s z.1 + t * gaussAt q radii s z.1 - z.2) / z.2 = (1 - t) * A + t * B := by
        simp only [A, B]
        field_simp
        ring
      rw [hAB]
      have hc : 0 ≤ t * (1 - t) * (A - B) ^ 2 * (z.2 * z.1) := by
        have := sub_nonneg.mpr h1
        positivity
      nlinarith
    simp only [deviation]
    rw [← mul_assoc, ← mul_assoc, ← add_mul, ← mul_div_assoc, ← mul_div_assoc, ← add_div]
    gcongr
  have hpen : (∑ i, heights (between p q t) radii s i * Real.exp (disps radii s i / arscale)) =
      (1 - t) * (∑ i, heights p radii s i * Real.exp (disps radii s i / arscale)) +
      t * (∑ i, heights q radii s i * Real.exp (disps radii s i / arscale)) := by
    simp only [Finset.mul_sum, ← Finset.sum_add_distrib, hh]
    apply Finset.sum_congr rfl
    intro i _
    ring
  simp only [chisq, gt_iff_lt, lt_self_iff_false, if_false, add_zero]
  by_cases ha : 0 < arpenalty
  · rw [if_pos ha, if_pos ha, if_pos ha, hpen]
    linarith
  · rw [if_neg ha, if_neg ha, if_neg ha]
    linarith

theorem between_zero (p q : Fin n → ℝ) : between p q 0 = p := by
  funext i
  simp [between]

theorem between_continuous (p q : Fin n → ℝ) : ContinuousAt (between p q) 0 := by
  apply continuousAt_pi.mpr
  intro i
  apply ContinuousAt.log
  · fun_prop
  · simp [(Real.exp_pos (p i)).ne']

/-- C157 (minimum): without the smoothness penalty every local minimum in the logarithms of the amplitudes is a global one. -/
theorem C157_minimum (p radii : Fin n → ℝ) (xs : List (ℝ × ℝ)) (s arpenalty arscale : ℝ)
    (h : ∀ p ∈ xs, 0 ≤ p.1 ∧ 0 < p.2)
    (hmin : IsLocalMin (fun q : Fin n → ℝ => chisq q radii xs s 0 arpenalty arscale) p) (q : Fin n → ℝ) :
    chisq p radii xs s 0 arpenalty arscale ≤ chisq q radii xs s 0 arpenalty arscale := by
  have hc := between_continuous p q
  rw [ContinuousAt, between_zero] at hc
  have hev := hc.eventually hmin
  obtain ⟨e, he, hball⟩ := Metric.eventually_nhds_iff.mp hev
  set t := min (e / 2) 1 with ht
  have ht0 : 0 < t := lt_min (by linarith) one_pos
  have ht1 : t ≤ 1 := min_le_right _ _
  have hte : t < e := lt_of_le_of_lt (min_le_left _ _) (by linarith)
  have h1 := hball (y := t) (by rw [Real.dist_eq, sub_zero, abs_of_pos ht0]; exact hte)
  have h2 := convex_between p q radii xs s arpenalty arscale h ht0.le ht1
  have h3 : t * chisq p radii xs s 0 arpenalty arscale ≤ t * chisq q radii xs s 0 arpenalty arscale := by linarith
  exact le_of_mul_le_mul_left h3 ht0

/-- C157 (stationary): without the smoothness penalty every point where the gradient is zero is a global minimum. -/
theorem C157_stationary (p radii : Fin n → ℝ) (xs : List (ℝ × ℝ)) (s arpenalty arscale : ℝ)
    (h : ∀ p ∈ xs, 0 ≤ p.1 ∧ 0 < p.2)
    (hgrad : HasFDerivAt (fun q : Fin n → ℝ => chisq q radii xs s 0 arpenalty arscale) (0 : (Fin n → ℝ) →L[ℝ] ℝ) p)
    (q : Fin n → ℝ) :
    chisq p radii xs s 0 arpenalty arscale ≤ chisq q radii xs s 0 arpenalty arscale := by
  have hb : HasDerivAt (between p q) (fun i => (Real.exp (q i) - Real.exp (p i)) / Real.exp (p i)) 0 := by
    rw [hasDerivAt_pi]
    intro i
    have h1 : HasDerivAt (fun t : ℝ => (1 - t) * Real.exp (p i) + t * Real.exp (q i)) (Real.exp (q i) - Real.exp (p i)) 0 := by
      have := (((hasDerivAt_id (0 : ℝ)).const_sub 1).mul_const (Real.exp (p i))).add
        ((hasDerivAt_id (0 : ℝ)).mul_const (Real.exp (q i)))
      exact this.congr_deriv (by ring)
    have := h1.log (by simp [(Real.exp_pos (p i)).ne'])
    exact this.congr_deriv (by simp)
  have hcomp : HasDerivAt (fun t => chisq (between p q t) radii xs s 0 arpenalty arscale) 0 0 := by
    have hg' : HasFDerivAt (fun q : Fin n → ℝ => chisq q radii xs s 0 arpenalty arscale)
        (0 : (Fin n → ℝ) →L[ℝ] ℝ) (between p q 0) := by
      rw [between_zero]
      exact hgrad
    have := hg'.comp_hasDerivAt (0 : ℝ) hb
    exact this.congr_deriv (by simp)
  by_contra hlt
  rw [not_le] at hlt
  set A := chisq p radii xs s 0 arpenalty arscale with hA
  set B := chisq q radii xs s 0 arpenalty arscale with hB
  have hs := hasDerivAt_iff_tendsto_slope_zero.mp hcomp
  have hs' := hs.mono_left (nhdsWithin_mono 0 (fun t (ht : t ∈ Set.Ioi (0 : ℝ)) => (show t ∈ ({0}ᶜ : Set ℝ) from ht.ne')))
  have hle : ∀ᶠ t in 𝓝[>] (0 : ℝ), t⁻¹ • (chisq (between p q (0 + t)) radii xs s 0 arpenalty arscale -
      chisq (between p q 0) radii xs s 0 arpenalty arscale) ≤ B - A := by
    filter_upwards [Ioc_mem_nhdsGT (show (0 : ℝ) < 1 by norm_num)] with t ht
    rw [zero_add, between_zero, smul_eq_mul, inv_mul_le_iff₀ ht.1]
    have := convex_between p q radii xs s arpenalty arscale h ht.1.le ht.2
    rw [← hA, ← hB] at this
    rw [← hA]
    linarith
  have := le_of_tendsto hs' hle
  linarith

/-- A target that is a mixture is fitted exactly, and that is a local minimum and a point of zero gradient. -/
theorem exact_fit (p radii : Fin n → ℝ) (s x : ℝ) (hn : 0 < n) (hx : 0 < x) :
    IsLocalMin (fun q : Fin n → ℝ => chisq q radii [(x, gaussAt p radii s x)] s 0 0 1) p ∧
    HasFDerivAt (fun q : Fin n → ℝ => chisq q radii [(x, gaussAt p radii s x)] s 0 0 1) (0 : (Fin n → ℝ) →L[ℝ] ℝ) p := by
  have hpos : 0 < gaussAt p radii s x := by
    rw [gaussAt_eq]
    have : (Finset.univ : Finset (Fin n)).Nonempty := ⟨⟨0, hn⟩, Finset.mem_univ _⟩
    apply Finset.sum_pos _ this
    intro i _
    have := Real.pi_pos
    positivity
  have hd := fun q => C157_deviation q radii [(x, gaussAt p radii s x)] s 0 0 1 (by simp [hx.le, hpos]) (by simp [hx]) le_rfl le_rfl
  have h0 : chisq p radii [(x, gaussAt p radii s x)] s 0 0 1 = 0 := (hd p).2.2.mpr (by simp)
  have hmin : IsLocalMin (fun q : Fin n → ℝ => chisq q radii [(x, gaussAt p radii s x)] s 0 0 1) p := by
    apply Filter.Eventually.of_forall
    intro q
    simp only
    rw [h0]
    exact (hd q).2.1
  refine ⟨hmin, ?_⟩
  have hdiff : DifferentiableAt ℝ (fun q : Fin n → ℝ => chisq q radii [(x, gaussAt p radii s x)] s 0 0 1) p := by
    simp only [chisq, deviation, gt_iff_lt, lt_self_iff_false, if_false, add_zero, List.map_cons, List.map_nil, List.sum_cons,
      List.sum_nil]
    generalize gaussAt p radii s x = t
    simp_rw [gaussAt_eq]
    fun_prop
  have := hdiff.hasFDerivAt
  rwa [hmin.fderiv_eq_zero] at this

/-! ## The smoothness penalty -/

/-- A vector with zeros on both sides. -/
def padded (a : Fin n → ℝ) (k : Nat) : ℝ := if h : 1 ≤ k ∧ k ≤ n then a ⟨k - 1, by omega⟩ else 0

theorem padded_succ (a : Fin n → ℝ) (i : Fin n) : padded a (i.val + 1) = a i := by
  unfold padded
  rw [dif_pos ⟨by omega, by omega⟩]
  congr 1

theorem band_mulVec (a : Fin n → ℝ) (i : Fin n) :
    (band n 2 (-1) *ᵥ a) i = 2 * padded a (i.val + 1) - padded a i.val - padded a (i.val + 2) := by
  have e1 : ∑ j : Fin n, (if i.val = j.val then 1 else 0) * a j = padded a (i.val + 1) := by
    rw [padded_succ, Finset.sum_eq_single i]
    · simp
    · intro j _ hj
      rw [if_neg (fun h => hj (Fin.ext h.symm)), zero_mul]
    · simp
  have e2 : ∑ j : Fin n, (if i.val = j.val + 1 then 1 else 0) * a j = padded a i.val := by
    by_cases h0 : i.val = 0
    · rw [Finset.sum_eq_zero]
      · simp [padded, h0]
      · intro j _
        rw [if_neg (by omega), zero_mul]
    · rw [Finset.sum_eq_single ⟨i.val - 1, by omega⟩]
      · rw [if_pos (by simp only; omega), one_mul, padded, dif_pos ⟨by omega, by omega⟩]
      · intro j _ hj
        rw [if_neg (fun h => hj (Fin.ext (by simp only; omega))), zero_mul]
      · simp
  have e3 : ∑ j : Fin n, (if i.val + 1 = j.val then 1 else 0) * a j = padded a (i.val + 2) := by
    by_cases h0 : i.val + 1 < n
    · rw [Finset.sum_eq_single ⟨i.val + 1, h0⟩]
      · rw [if_pos rfl, one_mul, padded, dif_pos ⟨by omega, by omega⟩]
        rfl
      · intro j _ hj
        rw [if_neg (fun h => hj (Fin.ext (by simp only; omega))), zero_mul]
      · simp
    · rw [Finset.sum_eq_zero]
      · rw [padded, dif_neg (by omega)]
      · intro j _
        rw [if_neg (by omega), zero_mul]
  rw [← e1, ← e2, ← e3, Matrix.mulVec, dotProduct, Finset.mul_sum, ← Finset.sum_sub_distrib, ← Finset.sum_sub_distrib]
  apply Finset.sum_congr rfl
  intro j _
  unfold band
  ring

theorem roughness_eq (a : Fin n → ℝ) : roughness a = ∑ i, ((band n 2 (-1) *ᵥ a) i) ^ 2 := by
  rw [roughness, Matrix.dotProduct_mulVec, Matrix.vecMul_transpose, dotProduct]
  apply Finset.sum_congr rfl
  intro i _
  ring

theorem roughness_zero (a : Fin n → ℝ) (h : roughness a = 0) : a = 0 := by
  rw [roughness_eq, Finset.sum_eq_zero_iff_of_nonneg (fun i _ => sq_nonneg _)] at h
  have hrec : ∀ k, k < n → padded a (k + 2) = 2 * padded a (k + 1) - padded a k := by
    intro k hk
    have := h ⟨k, hk⟩ (Finset.mem_univ _)
    rw [band_mulVec, sq_eq_zero_iff] at this
    simp only at this
    linarith
  have hlin : ∀ k, k ≤ n → padded a k = k * padded a 1 ∧ padded a (k + 1) = (k + 1) * padded a 1 := by
    intro k
    induction k with
    | zero => simp [padded]
    | succ k ih =>
      intro hk
      obtain ⟨i1, i2⟩ := ih (by omega)
      refine ⟨by rw [i2]; push_cast; ring, ?_⟩
      rw [hrec k (by omega), i1, i2]
      push_cast
      ring
  have hend : padded a (n + 1) = 0 := by
    unfold padded
    rw [dif_neg (by omega)]
  have h1 : padded a 1 = 0 := by
    have := (hlin n le_rfl).2
    rw [hend] at this
    rcases mul_eq_zero.mp this.symm with h | h
    · have : (0 : ℝ) < n + 1 := by positivity
      linarith
    · exact h
  funext i
  rw [← padded_succ a i, (hlin i.val i.isLt.le).2, h1, mul_zero]
  rfl

/-- C157 (roughness): the smoothness penalty is the sum of squares of second differences of the logarithms of the heights, with
zeros on both sides. It is zero only when every height is one, that is when each amplitude is its dispersion times the square
root of two pi. -/
theorem C157_roughness (params radii : Fin n → ℝ) (xs : List (ℝ × ℝ)) (s : ℝ) {asmooth : ℝ} (ha : 0 < asmooth) (arscale : ℝ) :
    (chisq params radii xs s asmooth 0 arscale - chisq params radii xs s 0 0 arscale =
      asmooth * ∑ i : Fin n, (2 * padded (fun i => Real.log (heights params radii s i)) (i.val + 1) -
        padded (fun i => Real.log (heights params radii s i)) i.val -
        padded (fun i => Real.log (heights params radii s i)) (i.val + 2)) ^ 2) ∧
    (chisq params radii xs s asmooth 0 arscale = chisq params radii xs s 0 0 arscale ↔
      ∀ i, Real.exp (params i) = Real.sqrt (Real.exp (radii i) ^ 2 + s ^ 2) * Real.sqrt (2 * Real.pi)) := by
  have e : chisq params radii xs s asmooth 0 arscale - chisq params radii xs s 0 0 arscale =
      asmooth * roughness (fun i => Real.log (heights params radii s i)) := by
    simp only [chisq, gt_iff_lt, lt_self_iff_false, if_false, if_pos ha]
    ring
  constructor
  · rw [e, roughness_eq]
    simp_rw [band_mulVec]
  · rw [← sub_eq_zero, e, mul_eq_zero, or_iff_right ha.ne']
    have hd : ∀ i, 0 < disps radii s i * Real.sqrt (2 * Real.pi) := fun i =>
      mul_pos (disps_pos radii s i) (Real.sqrt_pos.mpr (by have := Real.pi_pos; positivity))
    constructor
    · intro h i
      have := congrFun (roughness_zero _ h) i
      simp only [Pi.zero_apply] at this
      have h1 := Real.eq_one_of_pos_of_log_eq_zero (heights_pos params radii s i) this
      rw [heights, div_eq_one_iff_eq (hd i).ne'] at h1
      exact h1
    · intro h
      have : (fun i => Real.log (heights params radii s i)) = 0 := by
        funext i
        rw [heights, h i]
        change Real.log (disps radii s i * Real.sqrt (2 * Real.pi) / _) = 0
        rw [div_self (hd i).ne', Real.log_one]
      rw [this, roughness]
      simp

/-- C157 fails for the smoothness penalty: equal amplitudes, which have no gradient, are penalised, and so is the brighter of two
mixtures of the same shape. -/
theorem C157_roughness_refuted : ∃ (radii : Fin 2 → ℝ) (c : ℝ) (xs : List (ℝ × ℝ)), 0 < c ∧
    chisq (fun _ => 0) radii xs 0 0 0 1 < chisq (fun _ => 0) radii xs 0 1 0 1 ∧
    ∀ p : Fin 2 → ℝ, chisq p radii xs 0 1 0 1 = chisq p radii xs 0 0 0 1 →
      chisq (fun i => p i + Real.log c) radii (xs.map fun z => (z.1, c * z.2)) 0 0 0 1 <
        chisq (fun i => p i + Real.log c) radii (xs.map fun z => (z.1, c * z.2)) 0 1 0 1 := by
  have hge : ∀ (p radii : Fin 2 → ℝ) (xs : List (ℝ × ℝ)), chisq p radii xs 0 0 0 1 ≤ chisq p radii xs 0 1 0 1 := by
    intro p radii xs
    have := (C157_roughness p radii xs 0 one_pos 1).1
    have h2 : 0 ≤ (1 : ℝ) * ∑ i : Fin 2, (2 * padded (fun i => Real.log (heights p radii 0 i)) (i.val + 1) -
        padded (fun i => Real.log (heights p radii 0 i)) i.val -
        padded (fun i => Real.log (heights p radii 0 i)) (i.val + 2)) ^ 2 := by positivity
    linarith
  refine ⟨![0, 1], 2, [(1, 1)], two_pos, lt_of_le_of_ne (hge _ _ _) ?_, ?_⟩
  · intro h
    have h := (C157_roughness (fun _ => 0) ![0, 1] [(1, 1)] 0 one_pos 1).2.mp h.symm
    have h0 := h 0
    have h1 := h 1
    rw [h0] at h1
    simp only [Matrix.cons_val_zero, Matrix.cons_val_one, Matrix.cons_val_fin_one, Real.exp_zero, ne_eq, OfNat.ofNat_ne_zero,
      not_false_eq_true, zero_pow, add_zero, one_pow, Real.sqrt_one, one_mul] at h1
    rw [Real.sqrt_sq (Real.exp_pos 1).le] at h1
    have hq : 0 < Real.sqrt (2 * Real.pi) := Real.sqrt_pos.mpr (by have := Real.pi_pos; positivity)
    have he := Real.add_one_lt_exp (one_ne_zero (α := ℝ))
    nlinarith
  · intro p hp
    apply lt_of_le_of_ne (hge _ _ _)
    intro h
    have h1 := (C157_roughness p ![0, 1] [(1, 1)] 0 one_pos 1).2.mp hp 0
    have h2 := (C157_roughness (fun i => p i + Real.log 2) ![0, 1] _ 0 one_pos 1).2.mp h.symm 0
    rw [Real.exp_add, Real.exp_log two_pos, ← h1] at h2
    have := Real.exp_pos (p 0)
    linarith

/-! ## The start of the fit -/

/-- C157 (start): the fit with given radii starts from equal amplitudes, one for each radius. It needs two radii, and the radii
at which to compare. -/
theorem C157_start (x : List ℝ) (hx : x ≠ []) (rs : List ℝ) (h : 2 ≤ rs.length) (rh : ℝ) (ncomp : Nat) :
    fitStart (some x) (some rs) rh ncomp =
      .ok (List.replicate rs.length 1e-5, List.replicate rs.length 1e-5, rs) ∧
    (∀ r, fitStart (some x) (some [r]) rh ncomp = .error .index) ∧
    fitStart (some x) (some []) rh ncomp = .error .index ∧
    fitStart none (some rs) rh ncomp = .error .attribute ∧ fitStart (some []) (some rs) rh ncomp = .error .value := by
  obtain ⟨a, rest, rfl⟩ := List.exists_cons_of_ne_nil hx
  refine ⟨?_, fun r => rfl, rfl, rfl, rfl⟩
  have e : rs.map (fun _ => (1e-5 : ℝ)) = List.replicate rs.length 1e-5 := List.map_const' ..
  have h2 : ¬ rs.length < 2 := by omega
  simp only [fitStart, Bind.bind, Except.bind, if_neg h2, splitParams, sliceTo, e]
  simp

/-- C157 fails for free radii: a fit that asks for a number of gaussians and not their radii always raises. -/
theorem C157_free_refuted (x : List ℝ) (hx : x ≠ []) (rh : ℝ) (ncomp : Nat) :
    fitStart (some x) none rh ncomp = .error .type := by
  obtain ⟨a, rest, rfl⟩ := List.exists_cons_of_ne_nil hx
  rfl

/-- C157 (halves): with the division of whole numbers the parameters would be split in equal halves, amplitudes first; the start
of the fit has the logarithms of amplitudes from 0.01 and of dispersions from a thousandth of the half-light radius, up to the
largest radius, in equal steps. -/
theorem C157_halves (amp sigma : List ℝ) (h : amp.length = sigma.length) (a b : ℝ) (m : Nat) :
    sliceTo (amp ++ sigma) (.int ((amp ++ sigma).length / 2)) = .ok amp ∧
    sliceFrom (amp ++ sigma) (.int ((amp ++ sigma).length / 2)) = .ok sigma ∧
    (spaced a b m).length = m ∧ (2 ≤ m → (spaced a b m).head? = some a ∧ (spaced a b m).getLast? = some b ∧
      ∀ i (hi : i + 1 < (spaced a b m).length), ((spaced a b m)[i + 1] - (spaced a b m)[i]) * ((m : ℝ) - 1) = b - a) := by
  have e : (amp ++ sigma).length / 2 = amp.length := by
    rw [List.length_append, ← h]
    omega
  refine ⟨?_, ?_, by simp [spaced], fun hm => ⟨?_, ?_, ?_⟩⟩
  · rw [sliceTo, e, List.take_left]
  · rw [sliceFrom, e, List.drop_left]
  · obtain ⟨k, rfl⟩ : ∃ k, m = k + 1 := ⟨m - 1, by omega⟩
    simp [spaced, List.range_succ_eq_map]
  · obtain ⟨k, rfl⟩ : ∃ k, m = k + 1 := ⟨m - 1, by omega⟩
    have hk : (k : ℝ) ≠ 0 := by
      have : 1 ≤ k := by omega
      positivity
    simp only [spaced, List.range_succ, List.map_append, List.map_cons, List.map_nil, List.getLast?_concat]
    push_cast
    congr 1
    rw [add_sub_cancel_right, mul_div_cancel₀ _ hk]
    ring
  · intro i hi
    have hk : ((m : ℝ) - 1) ≠ 0 := by
      have : (2 : ℝ) ≤ m := by exact_mod_cast hm
      linarith
    simp only [spaced, List.getElem_map, List.getElem_range]
    push_cast
    field_simp
    ring

/-- C157 (wings): the penalty of the wings adds the heights of the gaussians, each times the exponential of its smoothed
dispersion in units of the scale. -/
theorem C157_wings (params radii : Fin n → ℝ) (xs : List (ℝ × ℝ)) (s asmooth arscale : ℝ) {arpenalty : ℝ} (ha : 0 < arpenalty) :
    chisq params radii xs s asmooth arpenalty arscale = chisq params radii xs s asmooth 0 arscale +
      arpenalty * ∑ i, Real.exp (params i) / (Real.sqrt (Real.exp (radii i) ^ 2 + s ^ 2) * Real.sqrt (2 * Real.pi)) *
        Real.exp (Real.sqrt (Real.exp (radii i) ^ 2 + s ^ 2) / arscale) := by
  simp only [chisq, gt_iff_lt, lt_self_iff_false, if_false, if_pos ha, add_zero]
  rfl

/-- The theorems on minima apply to a mixture of two gaussians, fitted to its own profile. -/
example (q : Fin 2 → ℝ) : chisq ![0, 1] ![0, 1] [(1, gaussAt ![0, 1] ![0, 1] 0.1 1)] 0.1 0 0 1 ≤
    chisq q ![0, 1] [(1, gaussAt ![0, 1] ![0, 1] 0.1 1)] 0.1 0 0 1 := by
  have h := exact_fit ![0, 1] ![0, 1] 0.1 1 (by norm_num) one_pos
  have hp : 0 < gaussAt ![0, 1] ![0, 1] 0.1 1 := by
    rw [gaussAt_eq]
    apply Finset.sum_pos _ Finset.univ_nonempty
    intro i _
    have := Real.pi_pos
    positivity
  have h1 := C157_minimum ![0, 1] ![0, 1] _ 0.1 0 1 (by simp [hp.le, hp]) h.1 q
  have h2 := C157_stationary ![0, 1] ![0, 1] _ 0.1 0 1 (by simp [hp.le, hp]) h.2 q
  exact h1

end

end Forcepho.Profile
