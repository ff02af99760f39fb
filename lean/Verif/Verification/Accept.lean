import Verif.Posterior.CheckGrad
import Mathlib.Data.Real.Basic
import Mathlib.Analysis.Calculus.MeanValue
import Mathlib.Analysis.Calculus.Deriv.Pow
import Mathlib.Analysis.Calculus.Deriv.Mul
import Mathlib.Tactic.Linarith
import Mathlib.Tactic.Positivity
import Mathlib.Tactic.NormNum

/-!
# C158: what the verification accepts

Model of the comparisons of tests/verification/verify_reference.py.  Pixels and gradients are exact numbers,
`none` is `nan`; infinities are not modelled.  The scene, the image and the kernels enter through the values
they produce.
-/

set_option autoImplicit false

namespace Forcepho.Verification

/-! ## Model -/

/-- `np.isclose(a, b, rtol, atol)` of numbers, `none` for `nan`: |a − b| ≤ atol + rtol·|b|
(verify_reference.py:107, 133-143, 164, 234). -/
noncomputable def isclose (rtol atol : ℝ) (a b : Option ℝ) : Bool :=
  match a, b with
  | some x, some y => decide (|x - y| ≤ atol + rtol * |y|)
  | _, _ => false

/-- `np.allclose` of an array with one number. -/
noncomputable def allcloseTo (rtol atol : ℝ) (xs : List (Option ℝ)) (b : Option ℝ) : Bool :=
  xs.all fun x => isclose rtol atol x b

/-- `np.allclose` of two arrays of the same shape; arrays of different lengths raise (`none`; the broadcast of
an array of length one is left out). -/
noncomputable def allclose (rtol atol : ℝ) (xs ys : List (Option ℝ)) : Option Bool :=
  if xs.length = ys.length then some ((List.zipWith (isclose rtol atol) xs ys).all id) else none

/-- The default `rtol` of `np.allclose`. -/
noncomputable def defaultRtol : ℝ := 1e-5

/-- The default `atol` of `np.allclose`. -/
noncomputable def defaultAtol : ℝ := 1e-8

/-- One pixel of the patch: its coordinate (negative in the padding), data, inverse error, and the residual
computed by the kernel. -/
structure Pixel where
  xpix : ℝ
  data : ℝ
  ierr : ℝ
  residual : Option ℝ

/-- `residuals[valid]` with `valid = patcher.xpix >= 0` (verify_reference.py:106-108, 124, 233-235). -/
noncomputable def valid (ps : List Pixel) : List Pixel := ps.filter fun p => decide (0 ≤ p.xpix)

/-- The check of the script (verify_reference.py:232-238): true when no error is raised. -/
noncomputable def imageMatches (ps : List Pixel) : Bool :=
  allcloseTo defaultRtol 5e-7 ((valid ps).map Pixel.residual) (some 0)

/-- A sum in which one `nan` makes everything `nan`. -/
noncomputable def nansum : List (Option ℝ) → Option ℝ
  | [] => some 0
  | none :: _ => none
  | some a :: t => (nansum t).map (a + ·)

/-- The two assertions on chi square (verify_reference.py:136-143). -/
noncomputable def chi2Passes (ps : List Pixel) (lnp : ℝ) : Bool × Bool :=
  let chi2 := (valid ps).map fun p => p.residual.map fun r => (r * p.ierr) ^ 2
  let less := (valid ps).map fun p => p.residual.map fun r => (r * p.ierr) ^ 2 - (p.data * p.ierr) ^ 2
  (isclose defaultRtol 2e-7 (some 0) (nansum chi2),
   isclose 1e-7 1e-7 (nansum less) (some (-2 * lnp)))

/-- The steps of `test_gradients` (verify_reference.py:161). -/
noncomputable def deltas : List ℝ := [1e-3, 1e-6, 1e-6, 1e-3, 1e-1, 1e-3, 1e-3]

/-- The comparison of `test_gradients` (verify_reference.py:158-164) at the position held by the array `a`: `none` when
`check_grad` or `allclose` raises, otherwise whether the assertion holds. -/
noncomputable def gradientsPass (e : Posterior.Env ℝ ℝ) (s : Posterior.State ℝ ℝ) (a free : Nat) : Option Bool :=
  match (Posterior.checkGrad e s a free (.array deltas)).2 with
  | none => none
  | some (g, num) => allclose 1e-1 defaultAtol (g.map some) (num.map some)

/-- `qoff[3:5] = 0.8, 1.0` (verify_reference.py:158-159); `none` when the slice is not of length two. -/
noncomputable def offset (q : List ℝ) : Option (List ℝ) :=
  if ((q.drop 3).take 2).length = 2 then some (q.take 3 ++ [0.8, 1.0] ++ q.drop 5) else none

/-- The class of patch and the label of the kernel (verify_reference.py:48-55). -/
def kernelChoice (requested : String) (hasgpu : Bool) : String × String :=
  if (requested == "gpukernel") && hasgpu then ("SimplePatch", "gpukernel") else ("SimpleCPUPatch", "cppkernel")

/-! ## C158 -/

theorem nansum_some (xs : List ℝ) : nansum (xs.map some) = some xs.sum := by
  induction xs with
  | nil => rfl
  | cons x t ih => rw [List.map_cons, nansum, ih, List.sum_cons]; rfl

theorem nansum_none (xs : List (Option ℝ)) (h : none ∈ xs) : nansum xs = none := by
  induction xs with
  | nil => simp at h
  | cons x t ih =>
    cases x with
    | none => rfl
    | some a =>
      rw [nansum, ih (by simpa using h)]; rfl

/-- C158 (closeness). Two numbers are close when they differ by at most atol + rtol·|b|, `nan` is close to nothing, not even to
`nan`; arrays are close when they have the same length and all their elements are. -/
theorem C158_close (rtol atol : ℝ) :
    (∀ a b, isclose rtol atol a b = true ↔ ∃ x y : ℝ, a = some x ∧ b = some y ∧ |x - y| ≤ atol + rtol * |y|) ∧
    (∀ xs b, allcloseTo rtol atol xs b = true ↔
      ∀ a ∈ xs, ∃ x y : ℝ, a = some x ∧ b = some y ∧ |x - y| ≤ atol + rtol * |y|) ∧
    (∀ xs ys : List (Option ℝ), xs.length ≠ ys.length → allclose rtol atol xs ys = none) ∧
    (∀ xs ys : List (Option ℝ), xs.length = ys.length → (allclose rtol atol xs ys = some true ↔
      ∀ (i : Nat) a b, xs[i]? = some a → ys[i]? = some b →
        ∃ x y : ℝ, a = some x ∧ b = some y ∧ |x - y| ≤ atol + rtol * |y|)) := by
  have key : ∀ a b, isclose rtol atol a b = true ↔ ∃ x y : ℝ, a = some x ∧ b = some y ∧ |x - y| ≤ atol + rtol * |y| := by
    intro a b
    cases a <;> cases b <;> simp [isclose]
  refine ⟨key, ?_, ?_, ?_⟩
  · intro xs b
    simp only [allcloseTo, List.all_eq_true, key]
  · intro xs ys h
    simp [allclose, h]
  · intro xs ys h
    simp only [allclose, if_pos h, Option.some.injEq, List.all_eq_true]
    constructor
    · intro hall i a b ha hb
      exact (key a b).1 (hall (isclose rtol atol a b) (List.mem_of_getElem? (i := i) (by rw [List.getElem?_zipWith, ha, hb])))
    · intro hall z hz
      obtain ⟨i, hi⟩ := List.mem_iff_getElem?.1 hz
      rw [List.getElem?_zipWith] at hi
      cases ha : xs[i]? with
      | none => simp [ha] at hi
      | some a =>
        cases hb : ys[i]? with
        | none => simp [ha, hb] at hi
        | some b =>
          rw [ha, hb] at hi
          injection hi with hi
          rw [← hi]
          exact (key a b).2 (hall i a b ha hb)

/-- C158 (image). The script reports a match exactly when at every pixel that is not padding the residual is a
number of size at most 5e-7: padding never matters, a residual that is not a number never passes, and with no such pixel
everything passes. -/
theorem C158_image (ps : List Pixel) :
    imageMatches ps = true ↔
      ∀ p ∈ ps, 0 ≤ p.xpix → ∃ r : ℝ, p.residual = some r ∧ |r| ≤ 5e-7 := by
  have hall : imageMatches ps = true ↔ ∀ p ∈ ps, 0 ≤ p.xpix → isclose defaultRtol 5e-7 p.residual (some 0) = true := by
    unfold imageMatches allcloseTo valid
    rw [List.all_eq_true]
    constructor
    · intro h p hp hx
      exact h _ (List.mem_map.2 ⟨p, List.mem_filter.2 ⟨hp, by simpa using hx⟩, rfl⟩)
    · intro h x hx
      obtain ⟨p, hp, rfl⟩ := List.mem_map.1 hx
      exact h p (List.mem_filter.1 hp).1 (by simpa using (List.mem_filter.1 hp).2)
  rw [hall]
  constructor
  · intro h p hp hx
    have := h p hp hx
    cases hr : p.residual with
    | none => rw [hr] at this; simp [isclose] at this
    | some r =>
      rw [hr] at this
      simp only [isclose, decide_eq_true_eq, sub_zero, abs_zero, mul_zero, add_zero] at this
      exact ⟨r, rfl, this⟩
  · intro h p hp hx
    obtain ⟨r, hr, hb⟩ := h p hp hx
    rw [hr]
    simpa only [isclose, decide_eq_true_eq, sub_zero, abs_zero, mul_zero, add_zero] using hb

/-- C158 (chi square). With numbers everywhere, the first assertion holds exactly when the chi square of the pixels that
are not padding is at most 2e-7/(1 − 1e-5); and when the log-likelihood is the one of the kernels,
−½ Σ ((r·e)² − (d·e)²) over all pixels with the padding of weight zero, the second always holds. -/
theorem C158_chi2 (ps : List Pixel) (r : Pixel → ℝ) (hr : ∀ p ∈ ps, p.residual = some (r p)) (lnp : ℝ) :
    ((chi2Passes ps lnp).1 = true ↔
      ((ps.filter fun p => decide (0 ≤ p.xpix)).map fun p => (r p * p.ierr) ^ 2).sum ≤ 2e-7 / (1 - 1e-5)) ∧
    ((∀ p ∈ ps, p.xpix < 0 → p.ierr = 0) →
      lnp = -(1 / 2) * (ps.map fun p => (r p * p.ierr) ^ 2 - (p.data * p.ierr) ^ 2).sum →
      (chi2Passes ps lnp).2 = true) ∧
    ((∀ p ∈ ps, p.xpix < 0 → p.ierr = 0) →
      ((chi2Passes ps lnp).2 = true ↔
        |(ps.map fun p => (r p * p.ierr) ^ 2 - (p.data * p.ierr) ^ 2).sum + 2 * lnp| ≤ 1e-7 + 1e-7 * |2 * lnp|)) := by
  have h1 : (valid ps).map (fun p => p.residual.map fun r => (r * p.ierr) ^ 2)
      = ((ps.filter fun p => decide (0 ≤ p.xpix)).map fun p => (r p * p.ierr) ^ 2).map some := by
    unfold valid
    rw [List.map_map]
    apply List.map_congr_left
    intro p hp
    rw [hr p (List.mem_filter.1 hp).1]; rfl
  have h2 : (valid ps).map (fun p => p.residual.map fun r => (r * p.ierr) ^ 2 - (p.data * p.ierr) ^ 2)
      = ((ps.filter fun p => decide (0 ≤ p.xpix)).map fun p => (r p * p.ierr) ^ 2 - (p.data * p.ierr) ^ 2).map some := by
    unfold valid
    rw [List.map_map]
    apply List.map_congr_left
    intro p hp
    rw [hr p (List.mem_filter.1 hp).1]; rfl
  have hpad : (∀ p ∈ ps, p.xpix < 0 → p.ierr = 0) →
      ((ps.filter fun p => decide (0 ≤ p.xpix)).map fun p => (r p * p.ierr) ^ 2 - (p.data * p.ierr) ^ 2).sum
      = (ps.map fun p => (r p * p.ierr) ^ 2 - (p.data * p.ierr) ^ 2).sum := by
    clear h1 h2 hr
    intro h
    induction ps with
    | nil => rfl
    | cons p t ih =>
      have ih' := ih (fun q hq => h q (List.mem_cons_of_mem _ hq))
      by_cases hx : 0 ≤ p.xpix
      · rw [List.filter_cons_of_pos (by simpa using hx), List.map_cons, List.sum_cons, ih', List.map_cons, List.sum_cons]
      · rw [List.filter_cons_of_neg (by simpa using hx), ih', List.map_cons, List.sum_cons,
          h p (by simp) (lt_of_not_ge hx)]
        ring
  have hsnd : (∀ p ∈ ps, p.xpix < 0 → p.ierr = 0) →
      ((chi2Passes ps lnp).2 = true ↔
        |(ps.map fun p => (r p * p.ierr) ^ 2 - (p.data * p.ierr) ^ 2).sum + 2 * lnp| ≤ 1e-7 + 1e-7 * |2 * lnp|) := by
    intro h
    simp only [chi2Passes]
    rw [h2, nansum_some, hpad h]
    simp only [isclose, decide_eq_true_eq]
    rw [show ∀ x : ℝ, x - -2 * lnp = x + 2 * lnp from fun x => by ring, show (-2 * lnp) = -(2 * lnp) by ring, abs_neg]
  refine ⟨?_, ?_, hsnd⟩
  · simp only [chi2Passes]
    rw [h1, nansum_some]
    have hn : 0 ≤ ((ps.filter fun p => decide (0 ≤ p.xpix)).map fun p => (r p * p.ierr) ^ 2).sum := by
      apply List.sum_nonneg
      intro x hx
      obtain ⟨p, _, rfl⟩ := List.mem_map.1 hx
      positivity
    simp only [isclose, decide_eq_true_eq, zero_sub, abs_neg, abs_of_nonneg hn, defaultRtol]
    rw [le_div_iff₀ (by norm_num)]
    constructor <;> intro h <;> linarith
  · intro h hl
    rw [hsnd h, hl]
    rw [show ∀ x : ℝ, x + 2 * (-(1 / 2) * x) = 0 from fun x => by ring, abs_zero]
    positivity

/-- C158 (chi square, not a number). One residual that is not a number, at a pixel that is not padding, fails both
assertions whatever the likelihood. -/
theorem C158_nan (ps : List Pixel) (lnp : ℝ) (p : Pixel) (hp : p ∈ ps) (hx : 0 ≤ p.xpix) (hr : p.residual = none) :
    chi2Passes ps lnp = (false, false) ∧ imageMatches ps = false := by
  have hv : p ∈ valid ps := by
    unfold valid
    rw [List.mem_filter]
    exact ⟨hp, by simpa using hx⟩
  constructor
  · have h1 : none ∈ (valid ps).map (fun p => p.residual.map fun r => (r * p.ierr) ^ 2) :=
      List.mem_map.2 ⟨p, hv, by rw [hr]; rfl⟩
    have h2 : none ∈ (valid ps).map (fun p => p.residual.map fun r => (r * p.ierr) ^ 2 - (p.data * p.ierr) ^ 2) :=
      List.mem_map.2 ⟨p, hv, by rw [hr]; rfl⟩
    simp only [chi2Passes]
    rw [nansum_none _ h1, nansum_none _ h2]
    rfl
  · cases h : imageMatches ps with
    | false => rfl
    | true =>
      obtain ⟨r, hr', _⟩ := (C158_image ps).1 h p hp hx
      rw [hr] at hr'; cases hr'

/-- The central difference of a function with a bounded third derivative. -/
theorem central_error (f f1 f2 f3 : ℝ → ℝ) (x d M : ℝ) (hd : 0 < d)
    (h1 : ∀ t, |t - x| ≤ d → HasDerivAt f (f1 t) t) (h2 : ∀ t, |t - x| ≤ d → HasDerivAt f1 (f2 t) t)
    (h3 : ∀ t, |t - x| ≤ d → HasDerivAt f2 (f3 t) t) (hM : ∀ t, |t - x| ≤ d → |f3 t| ≤ M) :
    |(f (x + d) - f (x - d)) / (2 * d) - f1 x| ≤ M * d ^ 2 / 6 := by
  have hin : ∀ t ∈ Set.Icc (0 : ℝ) d, |x + t - x| ≤ d ∧ |x - t - x| ≤ d := by
    intro t ht
    rw [show x + t - x = t by ring, show x - t - x = -t by ring, abs_neg, abs_of_nonneg ht.1]
    exact ⟨ht.2, ht.2⟩
  have hp : ∀ (F F' : ℝ → ℝ), (∀ t, |t - x| ≤ d → HasDerivAt F (F' t) t) → ∀ t ∈ Set.Icc (0 : ℝ) d,
      HasDerivAt (fun u => F (x + u)) (F' (x + t)) t ∧ HasDerivAt (fun u => F (x - u)) (-F' (x - t)) t := by
    intro F F' hF t ht
    refine ⟨?_, ?_⟩
    · have h := (hF (x + t) (hin t ht).1).comp t ((hasDerivAt_id t).const_add x)
      simp only [mul_one] at h
      exact h
    · have h := (hF (x - t) (hin t ht).2).comp t ((hasDerivAt_id t).const_sub x)
      exact h.congr_deriv (by ring)
  have key : ∀ (G G' B B' : ℝ → ℝ), (∀ t ∈ Set.Icc (0 : ℝ) d, HasDerivAt G (G' t) t) → (∀ t, HasDerivAt B (B' t) t) →
      G 0 = 0 → B 0 = 0 → (∀ t ∈ Set.Icc (0 : ℝ) d, |G' t| ≤ B' t) → ∀ t ∈ Set.Icc (0 : ℝ) d, |G t| ≤ B t := by
    intro G G' B B' hG hB g0 b0 hle t ht
    have := image_norm_le_of_norm_deriv_right_le_deriv_boundary (f := G) (f' := G') (a := 0) (b := d)
      (fun t ht => (hG t ht).continuousAt.continuousWithinAt)
      (fun t ht => (hG t (Set.Ico_subset_Icc_self ht)).hasDerivWithinAt) (B := B) (B' := B')
      (by rw [g0, b0]; simp) hB (fun t ht => by
        rw [Real.norm_eq_abs]; exact hle t (Set.Ico_subset_Icc_self ht))
    have h := this ht
    rwa [Real.norm_eq_abs] at h
  have a2 : ∀ t ∈ Set.Icc (0 : ℝ) d, |f2 (x + t) - f2 (x - t)| ≤ 2 * M * t := by
    apply key (fun t => f2 (x + t) - f2 (x - t)) (fun t => f3 (x + t) + f3 (x - t)) (fun t => 2 * M * t) (fun _ => 2 * M)
    · intro t ht
      exact ((hp f2 f3 h3 t ht).1.sub (hp f2 f3 h3 t ht).2).congr_deriv (by ring)
    · intro t
      simpa using (hasDerivAt_id t).const_mul (2 * M)
    · simp
    · simp
    · intro t ht
      calc |f3 (x + t) + f3 (x - t)| ≤ |f3 (x + t)| + |f3 (x - t)| := abs_add_le _ _
        _ ≤ 2 * M := by linarith [hM _ (hin t ht).1, hM _ (hin t ht).2]
  have a1 : ∀ t ∈ Set.Icc (0 : ℝ) d, |f1 (x + t) + f1 (x - t) - 2 * f1 x| ≤ M * t ^ 2 := by
    apply key (fun t => f1 (x + t) + f1 (x - t) - 2 * f1 x) (fun t => f2 (x + t) - f2 (x - t)) (fun t => M * t ^ 2)
      (fun t => 2 * M * t)
    · intro t ht
      exact (((hp f1 f2 h2 t ht).1.add (hp f1 f2 h2 t ht).2).sub_const (2 * f1 x)).congr_deriv (by ring)
    · intro t
      exact (((hasDerivAt_id t).pow 2).const_mul M).congr_deriv (by simp; ring)
    · simp; ring
    · simp
    · exact a2
  have a0 : ∀ t ∈ Set.Icc (0 : ℝ) d, |f (x + t) - f (x - t) - 2 * f1 x * t| ≤ M / 3 * t ^ 3 := by
    apply key (fun t => f (x + t) - f (x - t) - 2 * f1 x * t) (fun t => f1 (x + t) + f1 (x - t) - 2 * f1 x)
      (fun t => M / 3 * t ^ 3) (fun t => M * t ^ 2)
    · intro t ht
      have hl : HasDerivAt (fun u : ℝ => 2 * f1 x * u) (2 * f1 x) t := by
        simpa using (hasDerivAt_id t).const_mul (2 * f1 x)
      exact (((hp f f1 h1 t ht).1.sub (hp f f1 h1 t ht).2).sub hl).congr_deriv (by ring)
    · intro t
      exact (((hasDerivAt_id t).pow 3).const_mul (M / 3)).congr_deriv (by simp; ring)
    · simp
    · simp
    · exact a1
  have h := a0 d ⟨hd.le, le_refl d⟩
  rw [show (f (x + d) - f (x - d)) / (2 * d) - f1 x = (f (x + d) - f (x - d) - 2 * f1 x * d) / (2 * d) by
    field_simp, abs_div, abs_of_pos (by linarith : (0 : ℝ) < 2 * d), div_le_iff₀ (by linarith)]
  calc _ ≤ M / 3 * d ^ 3 := h
    _ = M * d ^ 2 / 6 * (2 * d) := by ring

/-- C158 (gradients). Whatever the object has been asked before: for seven parameters, when the log-probability has a
third derivative along each parameter, bounded by `M` within the step of that parameter (1e-3, 1e-6, 1e-6, 1e-3, 1e-1,
1e-3, 1e-3), the comparison never raises; if it is accepted then every gradient returned is within
1e-8 + |D|/10 + 1.1·M·d²/6 of the derivative `D`; and it is accepted if every gradient returned is within
1e-8 + |D|/10 − 1.1·M·d²/6 of it. -/
theorem C158_gradients (e : Posterior.Env ℝ ℝ) (hF : Posterior.Respects e) (f : List ℝ → ℝ) (g : List ℝ → List ℝ)
    (s : Posterior.State ℝ ℝ) (hf : ∀ v : List ℝ, v.length = 7 → e.F s.sampling v = some (f v, g v))
    (hg : ∀ v : List ℝ, v.length = 7 → (g v).length = 7)
    (used : List Nat) (hs : Posterior.Fresh e 7 s used) (a free : Nat) (hu : ∀ b ∈ used, b < free) (ha : a < free)
    (hl : (s.heap a).length = 7) (hz : s.zref ≠ none ∨ Posterior.anyNeSentinel e (s.heap a) = true)
    (M : Nat → ℝ) (f1 f2 f3 : Nat → ℝ → ℝ)
    (hD : ∀ (i : Nat) (x d t : ℝ), (s.heap a)[i]? = some x →
      ([0.001, 0.000001, 0.000001, 0.001, 0.1, 0.001, 0.001] : List ℝ)[i]? = some d → |t - x| ≤ d →
      HasDerivAt (fun u => f ((s.heap a).set i u)) (f1 i t) t ∧ HasDerivAt (f1 i) (f2 i t) t ∧
      HasDerivAt (f2 i) (f3 i t) t ∧ |f3 i t| ≤ M i) :
    ∃ b : Bool, gradientsPass e s a free = some b ∧
      (b = true → ∀ (i : Nat) (x d y : ℝ), (s.heap a)[i]? = some x →
        ([0.001, 0.000001, 0.000001, 0.001, 0.1, 0.001, 0.001] : List ℝ)[i]? = some d → (g (s.heap a))[i]? = some y →
        |y - f1 i x| ≤ 0.00000001 + |f1 i x| / 10 + 1.1 * (M i * d ^ 2 / 6)) ∧
      ((∀ (i : Nat) (x d y : ℝ), (s.heap a)[i]? = some x →
        ([0.001, 0.000001, 0.000001, 0.001, 0.1, 0.001, 0.001] : List ℝ)[i]? = some d → (g (s.heap a))[i]? = some y →
        |y - f1 i x| ≤ 0.00000001 + |f1 i x| / 10 - 1.1 * (M i * d ^ 2 / 6)) → b = true) := by
  have hdel : deltas = [0.001, 0.000001, 0.000001, 0.001, 0.1, 0.001, 0.001] := by
    unfold deltas; norm_num
  obtain ⟨num, c1, c2, c3, -⟩ := Posterior.C110_values e hF 7 f g s hf hg used hs a free hu ha hl hz (.array deltas)
    deltas (Or.inl ⟨rfl, by rw [hdel]; rfl⟩)
  have hnum : ∀ (i : Nat) (x d : ℝ), (s.heap a)[i]? = some x → deltas[i]? = some d →
      ∃ v : ℝ, num[i]? = some v ∧ |v - f1 i x| ≤ M i * d ^ 2 / 6 := by
    intro i x d hx hd
    have hgetD : (s.heap a).getD i 0 = x := by rw [List.getD_eq_getElem?_getD, hx]; rfl
    have h := c3 i d _ _ hd (Posterior.shift_moved _ _ _) (Posterior.shift_moved _ _ _)
    refine ⟨_, h, ?_⟩
    have hdpos : 0 < d := by
      rw [hdel] at hd
      have := List.mem_of_getElem? hd
      simp only [List.mem_cons, List.not_mem_nil, or_false] at this
      rcases this with h | h | h | h | h | h | h <;> rw [h] <;> norm_num
    rw [hdel] at hd
    have hall := fun t ht => hD i x d t hx hd ht
    have := central_error (fun u => f ((s.heap a).set i u)) (f1 i) (f2 i) (f3 i) x d (M i) hdpos
      (fun t ht => (hall t ht).1) (fun t ht => (hall t ht).2.1) (fun t ht => (hall t ht).2.2.1)
      (fun t ht => (hall t ht).2.2.2)
    simp only [Posterior.shift, hgetD]
    rw [← sub_eq_add_neg]
    exact this
  have hglen := hg _ hl
  have hb : gradientsPass e s a free =
      some ((List.zipWith (isclose 1e-1 defaultAtol) ((g (s.heap a)).map some) (num.map some)).all id) := by
    unfold gradientsPass
    rw [c1]
    simp only [allclose]
    rw [if_pos (by simp [hglen, c2])]
  have hiff : (List.zipWith (isclose 1e-1 defaultAtol) ((g (s.heap a)).map some) (num.map some)).all id = true ↔
      ∀ (i : Nat) (y v : ℝ), (g (s.heap a))[i]? = some y → num[i]? = some v →
        |y - v| ≤ 0.00000001 + 0.1 * |v| := by
    rw [List.all_eq_true]
    have hat : defaultAtol = 0.00000001 := by unfold defaultAtol; norm_num
    have hrt : (1e-1 : ℝ) = 0.1 := by norm_num
    constructor
    · intro h i y v hy hv
      have hm := h (isclose 1e-1 defaultAtol (some y) (some v)) (by
        apply List.mem_of_getElem? (i := i)
        rw [List.getElem?_zipWith, List.getElem?_map, List.getElem?_map, hy, hv]
        rfl)
      simp only [id, isclose, decide_eq_true_eq] at hm
      rwa [hat, hrt] at hm
    · intro h b hb
      obtain ⟨i, hi⟩ := List.getElem?_of_mem hb
      rw [List.getElem?_zipWith, List.getElem?_map, List.getElem?_map] at hi
      cases hy : (g (s.heap a))[i]? with
      | none => rw [hy] at hi; simp at hi
      | some y =>
        cases hv : num[i]? with
        | none => rw [hy, hv] at hi; simp at hi
        | some v =>
          rw [hy, hv] at hi
          simp only [Option.map_some, Option.some.injEq] at hi
          rw [← hi]
          simp only [id, isclose, decide_eq_true_eq]
          rw [hat, hrt]
          exact h i y v hy hv
  refine ⟨_, hb, ?_, ?_⟩
  · intro h i x d y hx hd hy
    rw [← hdel] at hd
    obtain ⟨v, hv, hbound⟩ := hnum i x d hx hd
    have h1 := hiff.1 h i y v hy hv
    have h2 : |y - f1 i x| ≤ |y - v| + |v - f1 i x| := abs_sub_le _ _ _
    have h3 : |v| ≤ |f1 i x| + |v - f1 i x| := by
      have := abs_add_le (f1 i x) (v - f1 i x)
      rwa [show f1 i x + (v - f1 i x) = v by ring] at this
    linarith
  · intro h
    apply hiff.2
    intro i y v hy hv
    have hi : i < 7 := by
      have := (List.getElem?_eq_some_iff.1 hy).1
      omega
    have hx : (s.heap a)[i]? = some ((s.heap a)[i]'(by omega)) := List.getElem?_eq_getElem (by omega)
    have hdl : deltas.length = 7 := by rw [hdel]; rfl
    have hd : deltas[i]? = some (deltas[i]'(by omega)) := List.getElem?_eq_getElem (by omega)
    obtain ⟨v', hv', hbound⟩ := hnum i _ _ hx hd
    rw [hv] at hv'
    injection hv' with hv'
    rw [← hv'] at hbound
    have h1 := h i _ _ y hx (by rw [← hdel]; exact hd) hy
    have h2 : |y - v| ≤ |y - f1 i ((s.heap a)[i]'(by omega))| + |f1 i ((s.heap a)[i]'(by omega)) - v| := abs_sub_le _ _ _
    rw [abs_sub_comm (f1 i _) v] at h2
    have h3 : |f1 i ((s.heap a)[i]'(by omega))| ≤ |v| + |v - f1 i ((s.heap a)[i]'(by omega))| := by
      have := abs_add_le v (f1 i ((s.heap a)[i]'(by omega)) - v)
      rw [abs_sub_comm] at this
      rwa [show v + (f1 i ((s.heap a)[i]'(by omega)) - v) = f1 i ((s.heap a)[i]'(by omega)) by ring] at this
    linarith

/-- C158 (gradients, position). For one galaxy in one band (flux, ra, dec, q, pa, sersic, rhalf) the position tested has
exactly the axis ratio and the position angle replaced, by 0.8 and 1; a vector of fewer than five numbers raises. -/
theorem C158_offset (q : List ℝ) :
    (q.length < 5 → offset q = none) ∧
    (5 ≤ q.length → ∃ z : List ℝ, offset q = some z ∧ z.length = q.length ∧ z[3]? = some (0.8 : ℝ) ∧
      z[4]? = some (1 : ℝ) ∧
      ∀ i, i ≠ 3 → i ≠ 4 → z[i]? = q[i]?) := by
  constructor
  · intro h
    unfold offset
    rw [if_neg (by simp; omega)]
  · intro h
    unfold offset
    rw [if_pos (by simp; omega)]
    obtain ⟨a, b, c, d, e, t, rfl⟩ : ∃ a b c d e t, q = a :: b :: c :: d :: e :: t := by
      match q, h with
      | a :: b :: c :: d :: e :: t, _ => exact ⟨a, b, c, d, e, t, rfl⟩
    refine ⟨_, rfl, by simp, rfl, by simp; norm_num, ?_⟩
    intro i h3 h4
    match i with
    | 0 => rfl
    | 1 => rfl
    | 2 => rfl
    | 3 => exact absurd rfl h3
    | 4 => exact absurd rfl h4
    | i + 5 => rfl

/-- C158 (kernel). The kernel tested is the one requested, except that without a GPU everything is tested with the
CPU kernel, and the name under which the results are written is that of the kernel tested. -/
theorem C158_kernel (requested : String) (hasgpu : Bool) :
    (kernelChoice requested hasgpu).2 = "gpukernel" ↔ requested = "gpukernel" ∧ hasgpu = true := by
  unfold kernelChoice
  cases hasgpu <;> simp
  by_cases h : requested = "gpukernel" <;> simp [h]

/-- C158 (kernel). The class of patch goes with the name. -/
theorem C158_patch (requested : String) (hasgpu : Bool) :
    kernelChoice requested hasgpu = ("SimplePatch", "gpukernel") ∨
    kernelChoice requested hasgpu = ("SimpleCPUPatch", "cppkernel") := by
  unfold kernelChoice
  split <;> simp

/-- A pixel of the image, and padding whose residual is anything. -/
example : imageMatches [⟨3, 1, 2, some 1e-7⟩, ⟨-1, 0, 0, none⟩] = true ∧
    imageMatches [⟨0, 1, 2, some 1e-6⟩] = false := by
  constructor
  · rw [C158_image]
    intro p hp hx
    simp only [List.mem_cons, List.not_mem_nil, or_false] at hp
    rcases hp with rfl | rfl
    · exact ⟨_, rfl, by norm_num⟩
    · norm_num at hx
  · rw [← Bool.not_eq_true, C158_image]
    intro h
    obtain ⟨r, hr, hb⟩ := h _ (List.mem_cons_self) (le_refl _)
    injection hr with hr
    rw [← hr] at hb
    norm_num at hb

/-- An object whose log-probability is the cube of the first parameter, with the exact gradient. -/
noncomputable def exEnv : Posterior.Env ℝ ℝ where
  ne x y := decide (x ≠ y)
  sentinel := -99
  F _ v := some (v.getD 0 0 ^ 3, [3 * v.getD 0 0 ^ 2, 0, 0, 0, 0, 0, 0])
  ndof := 1

/-- It meets the hypotheses of `C158_gradients` and is accepted, although its third derivative is 6. -/
example : gradientsPass exEnv (Posterior.init (fun _ => [1, 0, 0, 0, 0, 0, 0]) true) 0 1 = some true := by
  have hne : ∀ z w : List ℝ, z.length = w.length → Posterior.anyNe exEnv z w = false → z = w := by
    intro z
    induction z with
    | nil => intro w h _; exact (List.length_eq_zero_iff.1 h.symm).symm
    | cons x t ih =>
      intro w h hw
      cases w with
      | nil => simp at h
      | cons y u =>
        simp only [Posterior.anyNe, List.zip_cons_cons, List.any_cons, Bool.or_eq_false_iff] at hw
        have hxy : x = y := by
          have := hw.1
          simpa [exEnv] using this
        rw [hxy, ih u (by simpa using h) hw.2]
  have hset : ∀ i : Nat, i ≠ 0 → ∀ u : ℝ, (([1, 0, 0, 0, 0, 0, 0] : List ℝ).set i u).getD 0 0 = 1 := by
    intro i hi u
    cases i with
    | zero => exact absurd rfl hi
    | succ k => rfl
  obtain ⟨b, hb, -, h⟩ := C158_gradients exEnv (fun _ z w hl hw => by rw [hne z w hl hw])
    (fun v => v.getD 0 0 ^ 3) (fun v => [3 * v.getD 0 0 ^ 2, 0, 0, 0, 0, 0, 0])
    (Posterior.init (fun _ => [1, 0, 0, 0, 0, 0, 0]) true) (fun _ _ => rfl) (fun _ _ => rfl) [] trivial 0 1
    (by simp) (by norm_num) rfl
    (Or.inr (by simp [Posterior.anyNeSentinel, Posterior.init, exEnv]))
    (fun i => if i = 0 then 6 else 0) (fun i t => if i = 0 then 3 * t ^ 2 else 0) (fun i t => if i = 0 then 6 * t else 0)
    (fun i _ => if i = 0 then 6 else 0) (by
      intro i x d t _ _ _
      by_cases hi : i = 0
      · subst hi
        simp only [if_true]
        refine ⟨?_, ?_, ?_, by norm_num⟩
        · exact ((hasDerivAt_id t).pow 3).congr_deriv (by simp)
        · exact (((hasDerivAt_id t).pow 2).const_mul 3).congr_deriv (by simp; ring)
        · simpa using (hasDerivAt_id t).const_mul 6
      · simp only [if_neg hi]
        refine ⟨?_, hasDerivAt_const t 0, hasDerivAt_const t 0, by simp⟩
        have := hasDerivAt_const t ((1 : ℝ) ^ 3)
        refine this.congr_of_eventuallyEq (Filter.Eventually.of_forall fun u => ?_)
        show ((([1, 0, 0, 0, 0, 0, 0] : List ℝ).set i u).getD 0 0) ^ 3 = 1 ^ 3
        rw [hset i hi u])
  rw [hb, h]
  intro i x d y hx hd hy
  by_cases hi : i = 0
  · subst hi
    injection hx with hx
    injection hd with hd
    injection hy with hy
    rw [← hx, ← hd, ← hy]
    norm_num [Posterior.init]
  · have hy0 : y = 0 := by
      match i, hy, hi with
      | 0, _, hi => exact absurd rfl hi
      | k + 1, hy, _ =>
        have := List.mem_of_getElem? (i := k) (l := ([0, 0, 0, 0, 0, 0] : List ℝ)) hy
        simpa using this
    simp only [if_neg hi, hy0]
    norm_num

end Forcepho.Verification
