import Verif.Psfdata.Fit
import Verif.Profile.Mixture
import Mathlib.Tactic.LinearCombination
import Mathlib.Tactic.FieldSimp
import Mathlib.Tactic.Positivity

/-!
# The dictionary of a fitted Sersic mixture

Model of `sersic_model` and `sersic_prediction` (mixtures/sersic_mix_twod.py:17-141) at the level of their dictionaries: what is
sampled, with which mean the image is compared, and what the prediction makes of the parameters sampled and the radii.
`separate=True` is left out.
-/

set_option autoImplicit false

namespace Forcepho.Psfdata

open Classical

noncomputable section

/-- The arguments of `sersic_model` that decide what is sampled and how (sersic_mix_twod.py:44-50). -/
structure SersicArgs where
  nneg : Nat := 0
  xcen : ℝ := 0
  ycen : ℝ := 0
  dcen : ℝ := 0
  radii : List ℝ := [1]
  gmax : ℝ := 0
  maxbg : ℝ := 0
  afix : Option ℝ := some 1
  prior : String := "exp-squared"

/-- How a fit fails: a name without value, a part not written, an unknown keyword. -/
inductive SersicFault where
  | name
  | notImplemented
  | keyword
deriving DecidableEq

/-- What is sampled, in order (sersic_mix_twod.py:89-130). -/
def sersicSites (A : SersicArgs) : List String :=
  (if 0 < A.maxbg then ["bg"] else []) ++ (if 0 < A.dcen then ["x", "y"] else []) ++
  (if (fixedAmplitude A.afix).isSome then [] else ["a"]) ++ [if A.prior = "dirichlet" then "weight" else "lnW"]

/-- The mean of the likelihood at the sampled values (sersic_mix_twod.py:86-141).  The shears have a bound `maxg` that has no value;
a prior without a kernel leaves the covariance without value. -/
def sersicFitted (A : SersicArgs) (v : String → List ℝ) : Except SersicFault (ℝ → ℝ → ℝ) :=
  let bg := if 0 < A.maxbg then (v "bg").headD 0 else 0
  let x := if 0 < A.dcen then (v "x").headD 0 else A.xcen
  let y := if 0 < A.dcen then (v "y").headD 0 else A.ycen
  if 0 < A.gmax then .error .name
  else
    let tot := match fixedAmplitude A.afix with
      | some a => a
      | none => (v "a").headD 0
    if A.prior = "dirichlet" ∨ A.prior ∈ ["triangular", "finite-difference", "exp-squared"] then
      let w := if A.prior = "dirichlet" then v "weight" else (v "lnW").map Real.exp
      if 0 < A.nneg then .error .notImplemented
      else .ok fun xp yp => Profile.sersicPrediction xp yp x y tot (w.zip A.radii) 0 0 bg
    else .error .name

/-- The best sample as a dictionary. -/
def sersicBest (A : SersicArgs) (v : String → List ℝ) : Dict := (sersicSites A).map fun k => (k, v k)

/-- `sersic_prediction(xpix, ypix, radii=radii, **d)` (sersic_mix_twod.py:17-41): the logarithms go before the weights. -/
def sersicPredict (radii : List ℝ) (d : Dict) : Except SersicFault (ℝ → ℝ → ℝ) :=
  if d.all fun e => ["x", "y", "a", "weight", "lnW", "g1", "g2", "bg"].contains e.1 then
    let w := match lookup d "lnW" with
      | some l => l.map Real.exp
      | none => match lookup d "weight" with
        | some w => w
        | none => radii.map fun _ => 1
    .ok fun xp yp => Profile.sersicPrediction xp yp ((arg d "x" [0]).headD 0) ((arg d "y" [0]).headD 0)
      ((arg d "a" [1]).headD 0) (w.zip radii) ((arg d "g1" [0]).headD 0) ((arg d "g2" [0]).headD 0) ((arg d "bg" [0]).headD 0)
  else .error .keyword

/-! ## Claims -/

/-- C161 (the Sersic prediction). The prediction is the sum over the radii of the weight (or its exponential) times a round normal
density about the centre, times the amplitude, plus the background; the shears change nothing. -/
theorem C161_sersic_prediction (radii w : List ℝ) (x y a g1 g2 bg : ℝ) (ln : Bool) (hr : ∀ r ∈ radii, r ≠ 0) (xp yp : ℝ) :
    ∃ f, sersicPredict radii [("x", [x]), ("y", [y]), ("a", [a]), (if ln then "lnW" else "weight", w), ("g1", [g1]), ("g2", [g2]),
        ("bg", [bg])] = .ok f ∧
      f xp yp = (List.zipWith (fun u r => a * (if ln then Real.exp u else u) / (2 * Real.pi * r ^ 2) *
        Real.exp (-((xp - x) ^ 2 + (yp - y) ^ 2) / (2 * r ^ 2))) w radii).sum + bg := by
  have key : ∀ w : List ℝ, (List.zipWith (fun u r => a * u / (2 * Real.pi * r ^ 2) *
      Real.exp (-((xp - x) ^ 2 + (yp - y) ^ 2) / (2 * r ^ 2))) w radii).sum + bg =
      Profile.sersicPrediction xp yp x y a (w.zip radii) g1 g2 bg := by
    intro w
    unfold Profile.sersicPrediction
    congr 2
    rw [show List.zipWith (fun u r => a * u / (2 * Real.pi * r ^ 2) *
        Real.exp (-((xp - x) ^ 2 + (yp - y) ^ 2) / (2 * r ^ 2))) w radii = (w.zip radii).map (fun c =>
          a * c.1 / (2 * Real.pi * c.2 ^ 2) * Real.exp (-((xp - x) ^ 2 + (yp - y) ^ 2) / (2 * c.2 ^ 2))) by
      rw [List.zip, List.map_zipWith]]
    apply List.map_congr_left
    intro c hc
    have h0 : c.2 ≠ 0 := hr _ (List.of_mem_zip (a := c.1) (b := c.2) hc).2
    simp only
    have e1 : -0.5 * (((xp - x) / c.2) ^ 2 + ((yp - y) / c.2) ^ 2) = -((xp - x) ^ 2 + (yp - y) ^ 2) / (2 * c.2 ^ 2) := by
      norm_num
      field_simp
      ring
    rw [e1]
    congr 2
    ring
  cases ln with
  | false =>
    refine ⟨fun xp yp => Profile.sersicPrediction xp yp x y a (w.zip radii) g1 g2 bg, ?_, ?_⟩
    · simp [sersicPredict, lookup, arg]
    · simp only [Bool.false_eq_true, if_false]
      exact (key w).symm
  | true =>
    refine ⟨fun xp yp => Profile.sersicPrediction xp yp x y a ((w.map Real.exp).zip radii) g1 g2 bg, ?_, ?_⟩
    · simp [sersicPredict, lookup, arg]
    · simp only [if_true]
      rw [← key (w.map Real.exp), List.zipWith_map_left]

/-- C161 (what a Sersic fit samples). The background if it has a bound, the centre if it has a spread, the amplitude if it is not
fixed or fixed to zero, and the weights, or their logarithms for every prior but the Dirichlet one. -/
theorem C161_sersic_sites (A : SersicArgs) (k : String) : k ∈ sersicSites A ↔
    (k = "bg" ∧ 0 < A.maxbg) ∨ ((k = "x" ∨ k = "y") ∧ 0 < A.dcen) ∨ (k = "a" ∧ (A.afix = none ∨ A.afix = some 0)) ∨
    (k = "weight" ∧ A.prior = "dirichlet") ∨ (k = "lnW" ∧ A.prior ≠ "dirichlet") := by
  have hf : (fixedAmplitude A.afix).isSome = true ↔ ¬ (A.afix = none ∨ A.afix = some 0) := by
    cases h : A.afix with
    | none => simp [fixedAmplitude]
    | some a => by_cases ha : a = 0 <;> simp [fixedAmplitude, Option.filter, ha]
  unfold sersicSites
  by_cases h1 : 0 < A.maxbg <;> by_cases h2 : 0 < A.dcen <;> by_cases h3 : A.afix = none ∨ A.afix = some 0 <;>
    by_cases h4 : A.prior = "dirichlet" <;> simp [h1, h2, h3, h4, hf] <;> tauto

/-- C161 (when a Sersic fit fails). It fails with a shear to be fitted, with a prior that is not one of four, and with negative
gaussians; and only then. -/
theorem C161_sersic_fails (A : SersicArgs) (v : String → List ℝ) :
    (0 < A.gmax → sersicFitted A v = .error .name) ∧
    (¬ 0 < A.gmax → A.prior ∉ ["dirichlet", "triangular", "finite-difference", "exp-squared"] →
      sersicFitted A v = .error .name) ∧
    (¬ 0 < A.gmax → A.prior ∈ ["dirichlet", "triangular", "finite-difference", "exp-squared"] → 0 < A.nneg →
      sersicFitted A v = .error .notImplemented) ∧
    (¬ 0 < A.gmax → A.prior ∈ ["dirichlet", "triangular", "finite-difference", "exp-squared"] → A.nneg = 0 →
      ∃ f, sersicFitted A v = .ok f) := by
  have hp : A.prior ∈ ["dirichlet", "triangular", "finite-difference", "exp-squared"] ↔
      (A.prior = "dirichlet" ∨ A.prior ∈ ["triangular", "finite-difference", "exp-squared"]) := by simp
  refine ⟨?_, ?_, ?_, ?_⟩
  · intro h; simp only [sersicFitted, h, if_true]
  · intro h1 h2; rw [hp] at h2; simp only [sersicFitted, h1, h2, if_false]
  · intro h1 h2 h3; rw [hp] at h2; simp only [sersicFitted, h1, h2, h3, if_false, if_true]
  · intro h1 h2 h3
    rw [hp] at h2
    have h4 : ¬ 0 < A.nneg := by omega
    exact ⟨_, by simp only [sersicFitted, h1, h2, h4, if_false, if_true]; rfl⟩

/-- The fit fails or not by itself; when it does not, its mean is this. -/
theorem sersicFitted_ok (A : SersicArgs) (v : String → List ℝ) (f : ℝ → ℝ → ℝ) (h : sersicFitted A v = .ok f) :
    f = fun xp yp => Profile.sersicPrediction xp yp (if 0 < A.dcen then (v "x").headD 0 else A.xcen)
      (if 0 < A.dcen then (v "y").headD 0 else A.ycen)
      (if A.afix = none ∨ A.afix = some 0 then (v "a").headD 0 else A.afix.getD 0)
      ((if A.prior = "dirichlet" then v "weight" else (v "lnW").map Real.exp).zip A.radii) 0 0
      (if 0 < A.maxbg then (v "bg").headD 0 else 0) := by
  unfold sersicFitted at h
  by_cases h1 : 0 < A.gmax
  · simp [h1] at h
  by_cases h2 : A.prior = "dirichlet" ∨ A.prior ∈ ["triangular", "finite-difference", "exp-squared"]
  · by_cases h3 : 0 < A.nneg
    · simp only [h1, h2, h3, if_false, if_true, reduceCtorEq] at h
    · simp only [h1, h2, h3, if_false, if_true, Except.ok.injEq] at h
      rw [← h]
      have : (match fixedAmplitude A.afix with | some a => a | none => (v "a").headD 0) =
          (if A.afix = none ∨ A.afix = some 0 then (v "a").headD 0 else A.afix.getD 0) := by
        cases h : A.afix with
        | none => simp [fixedAmplitude]
        | some a => by_cases ha : a = 0 <;> simp [fixedAmplitude, Option.filter, ha]
      rw [← this]
  · simp only [h1, h2, if_false, reduceCtorEq] at h

theorem sersicPredict_best (A : SersicArgs) (v : String → List ℝ) :
    sersicPredict A.radii (sersicBest A v) = .ok fun xp yp =>
      Profile.sersicPrediction xp yp (if 0 < A.dcen then (v "x").headD 0 else 0)
      (if 0 < A.dcen then (v "y").headD 0 else 0)
      (if A.afix = none ∨ A.afix = some 0 then (v "a").headD 0 else 1)
      ((if A.prior = "dirichlet" then v "weight" else (v "lnW").map Real.exp).zip A.radii) 0 0
      (if 0 < A.maxbg then (v "bg").headD 0 else 0) := by
  have hf : (fixedAmplitude A.afix).isSome = true ↔ ¬ (A.afix = none ∨ A.afix = some 0) := by
    cases h : A.afix with
    | none => simp [fixedAmplitude]
    | some a => by_cases ha : a = 0 <;> simp [fixedAmplitude, Option.filter, ha]
  by_cases h1 : 0 < A.maxbg <;> by_cases h2 : 0 < A.dcen <;> by_cases h3 : A.afix = none ∨ A.afix = some 0 <;>
    by_cases h4 : A.prior = "dirichlet" <;>
    simp [sersicPredict, sersicBest, sersicSites, lookup, arg, h1, h2, h3, h4, hf]

/-- C161, partial (the best Sersic fit). The prediction from the best sample and the radii is the mean that was fitted, if the centre
was fitted or is the origin, and the amplitude was fitted or is one.
Missing: other fixed centres and amplitudes, refuted below. -/
theorem C161_sersic_partial (A : SersicArgs) (v : String → List ℝ) (f : ℝ → ℝ → ℝ) (h : sersicFitted A v = .ok f)
    (hc : 0 < A.dcen ∨ (A.xcen = 0 ∧ A.ycen = 0)) (ha : A.afix = none ∨ A.afix = some 0 ∨ A.afix = some 1) :
    sersicPredict A.radii (sersicBest A v) = .ok f := by
  rw [sersicFitted_ok A v f h, sersicPredict_best]
  have e1 : (if 0 < A.dcen then (v "x").headD 0 else 0) = if 0 < A.dcen then (v "x").headD 0 else A.xcen := by
    split
    · rfl
    · rename_i hn; rw [(hc.resolve_left hn).1]
  have e2 : (if 0 < A.dcen then (v "y").headD 0 else 0) = if 0 < A.dcen then (v "y").headD 0 else A.ycen := by
    split
    · rfl
    · rename_i hn; rw [(hc.resolve_left hn).2]
  have e3 : (if A.afix = none ∨ A.afix = some 0 then (v "a").headD 0 else 1) =
      if A.afix = none ∨ A.afix = some 0 then (v "a").headD 0 else A.afix.getD 0 := by
    split
    · rfl
    · rename_i hn
      rcases ha with h | h | h
      · exact absurd (Or.inl h) hn
      · exact absurd (Or.inr h) hn
      · rw [h]; rfl
  rw [e1, e2, e3]

/-- C161, refuted (a fixed centre). With the centre fixed the prediction from the best sample is centred on the origin: it is the
fitted mean displaced, at every pixel. -/
theorem C161_sersic_centre_refuted (A : SersicArgs) (v : String → List ℝ) (f : ℝ → ℝ → ℝ) (h : sersicFitted A v = .ok f)
    (hd : ¬ 0 < A.dcen) (ha : A.afix = none ∨ A.afix = some 0 ∨ A.afix = some 1) :
    ∃ g, sersicPredict A.radii (sersicBest A v) = .ok g ∧ ∀ xp yp, g xp yp = f (xp + A.xcen) (yp + A.ycen) := by
  refine ⟨_, sersicPredict_best A v, ?_⟩
  intro xp yp
  have e3 : (if A.afix = none ∨ A.afix = some 0 then (v "a").headD 0 else 1) =
      if A.afix = none ∨ A.afix = some 0 then (v "a").headD 0 else A.afix.getD 0 := by
    split
    · rfl
    · rename_i hn
      rcases ha with h | h | h
      · exact absurd (Or.inl h) hn
      · exact absurd (Or.inr h) hn
      · rw [h]; rfl
  rw [sersicFitted_ok A v f h]
  simp only [hd, if_false, e3, Profile.sersicPrediction, add_sub_cancel_right, sub_zero]

/-- C161, refuted (a fixed amplitude). With the amplitude fixed to `a` the prediction from the best sample has amplitude one: without
background the fitted mean is `a` times what is predicted. -/
theorem C161_sersic_amplitude_refuted (A : SersicArgs) (v : String → List ℝ) (f : ℝ → ℝ → ℝ) (h : sersicFitted A v = .ok f)
    (a : ℝ) (ha : A.afix = some a) (h0 : a ≠ 0) (hb : ¬ 0 < A.maxbg) (hc : 0 < A.dcen ∨ (A.xcen = 0 ∧ A.ycen = 0)) :
    ∃ g, sersicPredict A.radii (sersicBest A v) = .ok g ∧ ∀ xp yp, f xp yp = a * g xp yp := by
  refine ⟨_, sersicPredict_best A v, ?_⟩
  intro xp yp
  have e1 : (if 0 < A.dcen then (v "x").headD 0 else 0) = if 0 < A.dcen then (v "x").headD 0 else A.xcen := by
    split
    · rfl
    · rename_i hn; rw [(hc.resolve_left hn).1]
  have e2 : (if 0 < A.dcen then (v "y").headD 0 else 0) = if 0 < A.dcen then (v "y").headD 0 else A.ycen := by
    split
    · rfl
    · rename_i hn; rw [(hc.resolve_left hn).2]
  have hn : ¬ (A.afix = none ∨ A.afix = some 0) := by
    rw [ha]; simpa using h0
  rw [sersicFitted_ok A v f h]
  simp only [hn, hb, if_false, ← e1, ← e2, Profile.sersicPrediction, add_zero]
  rw [ha, ← List.sum_map_mul_left]
  congr 1
  apply List.map_congr_left
  intro c _
  simp only [Option.getD_some]
  ring

/-- A fit with the default arguments, of three radii. -/
example : ∃ f, sersicFitted { radii := [1, 2, 4] } (fun _ => [-1, -1, -1]) = .ok f :=
  (C161_sersic_fails _ _).2.2.2 (by simp) (by simp) rfl

end

end Forcepho.Psfdata
