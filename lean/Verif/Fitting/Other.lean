import Verif.Fitting.Props

/-! # The other fitters: bounded optimisation, nested sampling, pymc3 (forcepho/fitting.py) -/

set_option autoImplicit false

namespace Forcepho.Fitting

open Forcepho.Transform (Bounded)

variable {n : Nat}

/-- The box handed to the minimiser by `run_opt_bounded` (fitting.py:462, 468-472): with a transform it is
±200 in every sampling parameter, whatever the caller passed; without one it is the caller's. -/
noncomputable def optBox (t : Option (Bounded n)) (bounds : Option (Fin n → ℝ × ℝ)) : Option (Fin n → ℝ × ℝ) :=
  match t with
  | some _ => some fun _ => (-200, 200)
  | none => bounds

/-- `run_opt_bounded` (fitting.py:457-499): `minimize` gets the function, the start and the box. -/
noncomputable def runOptBounded (t : Option (Bounded n)) (nll : (Fin n → ℝ) → ℝ)
    (minimize : ((Fin n → ℝ) → ℝ) → (Fin n → ℝ) → Option (Fin n → ℝ × ℝ) → Fin n → ℝ)
    (q : Fin n → ℝ) (bounds : Option (Fin n → ℝ × ℝ)) : OptResult n :=
  let x := minimize nll (startOf t q) (optBox t bounds)
  let f := nll x
  { chain := [backOf t x], lnp := -0.5 * f, fun_ := f }

/-- A minimiser stays in its box, if it has one (what L-BFGS-B promises). -/
def StaysIn (minimize : ((Fin n → ℝ) → ℝ) → (Fin n → ℝ) → Option (Fin n → ℝ × ℝ) → Fin n → ℝ) : Prop :=
  ∀ f s box i, (box i).1 ≤ (box i).2 → (box i).1 ≤ minimize f s (some box) i ∧ minimize f s (some box) i ≤ (box i).2

/-- C124, partial: without a transform, the point reported by the bounded optimiser obeys the bounds the
caller passes; with a transform it lies strictly between the transform's bounds.  The reported function value
is the function at a point that maps to the reported one, and the reported log-probability is minus half of
it. -/
theorem C124_bounded_partial (nll : (Fin n → ℝ) → ℝ)
    (minimize : ((Fin n → ℝ) → ℝ) → (Fin n → ℝ) → Option (Fin n → ℝ × ℝ) → Fin n → ℝ) (hm : StaysIn minimize)
    (q : Fin n → ℝ) (bounds : Fin n → ℝ × ℝ) (hb : ∀ i, (bounds i).1 ≤ (bounds i).2) :
    (∃ x, (runOptBounded none nll minimize q (some bounds)).chain = [x] ∧
      (runOptBounded none nll minimize q (some bounds)).fun_ = nll x ∧
      (runOptBounded none nll minimize q (some bounds)).lnp = -(nll x) / 2 ∧
      ∀ i, (bounds i).1 ≤ x i ∧ x i ≤ (bounds i).2) ∧
    ∀ t : Bounded n, (∀ i, t.lower i < t.upper i) →
      ∃ z, (runOptBounded (some t) nll minimize q (some bounds)).chain = [t.transform z] ∧
        (runOptBounded (some t) nll minimize q (some bounds)).fun_ = nll z ∧
        (runOptBounded (some t) nll minimize q (some bounds)).lnp = -(nll z) / 2 ∧
        (∀ i, -200 ≤ z i ∧ z i ≤ 200) ∧ ∀ i, t.lower i < t.transform z i ∧ t.transform z i < t.upper i := by
  refine ⟨⟨minimize nll q (some bounds), rfl, rfl, by simp only [runOptBounded, startOf, optBox]; ring, fun i => hm nll q bounds i (hb i)⟩, ?_⟩
  intro t ht
  obtain ⟨h1, -⟩ := Transform.C29_bijection t ht
  exact ⟨minimize nll (t.inverse q) (some fun _ => (-200, 200)), rfl, rfl,
    by simp only [runOptBounded, startOf, optBox]; ring,
    fun i => hm nll (t.inverse q) (fun _ => (-200, 200)) i (by norm_num), h1 _⟩

/-- C124, the way the code fails: with a transform the bounds passed by the caller have no effect at all. -/
theorem C124_bounds_refuted (t : Bounded n) (nll : (Fin n → ℝ) → ℝ)
    (minimize : ((Fin n → ℝ) → ℝ) → (Fin n → ℝ) → Option (Fin n → ℝ × ℝ) → Fin n → ℝ) (q : Fin n → ℝ)
    (b b' : Option (Fin n → ℝ × ℝ)) :
    runOptBounded (some t) nll minimize q b = runOptBounded (some t) nll minimize q b' := rfl

/-- The minimiser that puts its start into its box. -/
noncomputable def clampMin (_f : (Fin n → ℝ) → ℝ) (s : Fin n → ℝ) (box : Option (Fin n → ℝ × ℝ)) : Fin n → ℝ :=
  match box with
  | some b => fun i => max (b i).1 (min (b i).2 (s i))
  | none => s

/-- It stays in its box. -/
theorem clampMin_stays : StaysIn (n := n) clampMin := by
  intro f s box i h
  exact ⟨le_max_left _ _, max_le h (min_le_left _ _)⟩

/-! ## Nested sampling -/

/-- The `prior_transform` of `run_dynesty` (fitting.py:544, 547-550). -/
def priorTransform (lower upper : Fin n → ℝ) (u : Fin n → ℝ) : Fin n → ℝ :=
  fun i => lower i + (upper i - lower i) * u i

/-- The log-probability `run_dynesty` assigns to a point of the unit cube (fitting.py:552): `model.lnprob` of
the scaled point, which takes *sampling* parameters (model.py:100-118). -/
noncomputable def dynestyLike (g : Transform.Ingredients n) (t : Bounded n) (sampling : Bool)
    (lower upper : Fin n → ℝ) (u : Fin n → ℝ) : ℝ :=
  Transform.lnp g t sampling (priorTransform lower upper u)

/-- The log-probability of scene parameters: likelihood and prior. -/
noncomputable def sceneLnp (g : Transform.Ingredients n) (q : Fin n → ℝ) : ℝ :=
  -(g.chi2 q).sum / 2 + g.lnprior q

/-- C124: the unit cube is mapped one to one onto the box between the bounds, each coordinate in proportion. -/
theorem C124_prior (lower upper : Fin n → ℝ) (hb : ∀ i, lower i < upper i) :
    (∀ u, (∀ i, 0 ≤ u i ∧ u i ≤ 1) → ∀ i, lower i ≤ priorTransform lower upper u i ∧
      priorTransform lower upper u i ≤ upper i) ∧
    (∀ q, (∀ i, lower i ≤ q i ∧ q i ≤ upper i) → ∃! u : Fin n → ℝ, priorTransform lower upper u = q ∧
      ∀ i, 0 ≤ u i ∧ u i ≤ 1) ∧
    ∀ u v i, priorTransform lower upper u i - priorTransform lower upper v i = (upper i - lower i) * (u i - v i) := by
  refine ⟨?_, ?_, ?_⟩
  · intro u hu i
    have := hb i
    constructor
    · have := mul_nonneg (sub_nonneg.mpr (hb i).le) (hu i).1
      simp only [priorTransform]
      linarith
    · have := mul_le_mul_of_nonneg_left (hu i).2 (sub_nonneg.mpr (hb i).le)
      simp only [priorTransform]
      linarith
  · intro q hq
    refine ⟨fun i => (q i - lower i) / (upper i - lower i), ⟨?_, ?_⟩, ?_⟩
    · funext i
      have : upper i - lower i ≠ 0 := (sub_pos.mpr (hb i)).ne'
      simp only [priorTransform]
      field_simp
      ring
    · intro i
      have h := sub_pos.mpr (hb i)
      exact ⟨div_nonneg (sub_nonneg.mpr (hq i).1) h.le, (div_le_one h).mpr (by linarith [(hq i).2])⟩
    · rintro v ⟨hv, _⟩
      funext i
      have h := (sub_pos.mpr (hb i)).ne'
      have := congrFun hv i
      simp only [priorTransform] at this
      rw [eq_div_iff h, ← this]
      ring
  · intro u v i
    simp only [priorTransform]
    ring

/-- C124, the way the code fails: the likelihood used at a point of the box is not that of these scene
parameters but of their transform, so a nested sampling run between bounds 0 and 1 of a model with the same
bounds never looks at scene parameters below one half. -/
theorem C124_dynesty_refuted (g : Transform.Ingredients n) (u : Fin n → ℝ) (hu : ∀ i, 0 ≤ u i ∧ u i ≤ 1) :
    ∃ q : Fin n → ℝ, dynestyLike g ⟨fun _ => 0, fun _ => 1⟩ false (fun _ => 0) (fun _ => 1) u = sceneLnp g q ∧
      (∀ i, 1 / 2 ≤ q i ∧ q i < 1) ∧
      q = (⟨fun _ => 0, fun _ => 1⟩ : Bounded n).transform u := by
  have hp : priorTransform (n := n) (fun _ => 0) (fun _ => 1) u = u := by
    funext i
    simp [priorTransform]
  refine ⟨(⟨fun _ => 0, fun _ => 1⟩ : Bounded n).transform u, ?_, ?_, rfl⟩
  · simp only [dynestyLike, hp, Transform.lnp, sceneLnp, Bool.false_eq_true, if_false]
    ring
  · intro i
    simp only [Bounded.transform, Bounded.range, Transform.sigmoid]
    have h1 : 0 < Real.exp (-u i) := Real.exp_pos _
    have h2 : Real.exp (-u i) ≤ 1 := Real.exp_le_one_iff.mpr (by linarith [(hu i).1])
    constructor
    · rw [zero_add, sub_zero, mul_one]
      exact one_div_le_one_div_of_le (by linarith) (by linarith)
    · rw [zero_add, sub_zero, mul_one, div_lt_one (by linarith)]
      linarith

/-- For a transform that is the identity, the log-probability of the base class transform
(model.py:572-593): likelihood and prior at the point itself, with or without the volume correction, which is
the logarithm of one. -/
noncomputable def plainLnp (g : Transform.Ingredients n) (t : Transform.Plain n) (sampling : Bool)
    (z : Fin n → ℝ) : ℝ :=
  let q := t.transform z
  let base := (-0.5) * (g.chi2 q).sum + g.lnprior q
  if sampling then base + t.lndetjac z else base

/-- C124, partial: for a model with the identity transform a nested sampling run evaluates, at each point of
the box, likelihood and prior of these scene parameters.  (The full statement would cover bounded models.) -/
theorem C124_dynesty_partial (g : Transform.Ingredients n) (t : Transform.Plain n) (sampling : Bool)
    (lower upper : Fin n → ℝ) (u : Fin n → ℝ) :
    plainLnp g t sampling (priorTransform lower upper u) =
      -(g.chi2 (fun i => lower i + (upper i - lower i) * u i)).sum / 2 +
        g.lnprior (fun i => lower i + (upper i - lower i) * u i) := by
  have h : priorTransform lower upper u = fun i => lower i + (upper i - lower i) * u i := rfl
  cases sampling
  · simp only [plainLnp, Transform.Plain.transform, h, Bool.false_eq_true, if_false]
    ring
  · simp only [plainLnp, Transform.Plain.transform, Transform.Plain.lndetjac, Transform.Plain.jacobian, h,
      if_true, Finset.prod_const_one, abs_one, Real.log_one]
    ring

/-- The hypotheses can be met: a caller's box of [5, 6] for a parameter the transform keeps in (0, 1); the
optimiser reports a point outside the caller's box. -/
example : ∃ x : Fin 1 → ℝ,
    (runOptBounded (some (⟨fun _ => 0, fun _ => 1⟩ : Bounded 1)) (fun _ => 0) clampMin (fun _ => 1 / 2)
      (some fun _ => (5, 6))).chain = [x] ∧ x 0 < 5 := by
  obtain ⟨z, h1, _, _, _, h2⟩ := (C124_bounded_partial (fun _ => 0) clampMin clampMin_stays (fun _ : Fin 1 => 1 / 2)
    (fun _ => (5, 6)) (by intro i; norm_num)).2 ⟨fun _ => 0, fun _ => 1⟩ (by intro i; norm_num)
  exact ⟨_, h1, by have := (h2 0).2; simp only at this; linarith⟩

end Forcepho.Fitting
