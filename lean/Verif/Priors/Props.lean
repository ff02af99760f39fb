import Verif.Priors.Model
import Verif.Kernel.Deriv
import Mathlib.Analysis.SpecialFunctions.Pow.Deriv
import Mathlib.Analysis.SpecialFunctions.Trigonometric.ArctanDeriv

/-! # C63: priors -/

set_option autoImplicit false
set_option linter.unusedSectionVars false

namespace Forcepho.Priors

open Forcepho.Transform (hdc)

variable {n : Nat}

lemma beta_hasDerivAt (a x : ℝ) (h0 : 0 < x) (h1 : x < 1) :
    HasDerivAt (fun t : ℝ => -(t ^ a * (1 - t) ^ a)) (a * (2 * x - 1) * (-(x - 1) * x) ^ (a - 1)) x := by
  have hy : 0 < 1 - x := by linarith
  have e1 := (hasDerivAt_id x).rpow_const (p := a) (Or.inl h0.ne')
  have e2 := ((hasDerivAt_id x).const_sub 1).rpow_const (p := a) (Or.inl hy.ne')
  refine hdc (e1.mul e2).neg (fun _ => rfl) ?_
  have hprod : -(x - 1) * x = x * (1 - x) := by ring
  rw [hprod, Real.mul_rpow h0.le hy.le]
  have hx : x ^ a = x ^ (a - 1) * x := by
    rw [← Real.rpow_add_one h0.ne']; ring_nf
  have hx1 : (1 - x) ^ a = (1 - x) ^ (a - 1) * (1 - x) := by
    rw [← Real.rpow_add_one hy.ne']; ring_nf
  simp only [id]
  rw [hx, hx1]
  ring

/-- C63. The gradient returned with a prior is the derivative of the value returned, in each
parameter, at every point strictly inside the limits. -/
theorem C63_gradient (p : Prior n) (q : Fin n → ℝ) (hq : ∀ i, p.min i < q i ∧ q i < p.max i) (i : Fin n) :
    HasDerivAt (fun t => (p.call (Function.update q i t)).1) ((p.call q).2 i) (q i) := by
  have hr : 0 < p.max i - p.min i := by linarith [(hq i).1, (hq i).2]
  obtain ⟨k, mn, mx⟩ := p
  cases k with
  | flat =>
    refine hdc (hasDerivAt_const (q i) (0 : ℝ)) (fun t => ?_) ?_
    · simp [Prior.call, Kind.lnprior]
    · simp [Prior.call, Kind.grad]
  | expBeta a =>
    have key : ∀ j, HasDerivAt (fun t => -((((Function.update q i t) j - mn j) / (mx j - mn j)) ^ a *
        (1 - ((Function.update q i t) j - mn j) / (mx j - mn j)) ^ a))
        (if j = i then a * (2 * ((q i - mn i) / (mx i - mn i)) - 1) *
          (-((q i - mn i) / (mx i - mn i) - 1) * ((q i - mn i) / (mx i - mn i))) ^ (a - 1) / (mx i - mn i) else 0)
        (q i) := by
      intro j
      by_cases hj : j = i
      · subst hj
        simp only [Function.update_self, if_true]
        have hb := beta_hasDerivAt a ((q j - mn j) / (mx j - mn j))
          (div_pos (by linarith [(hq j).1]) hr) ((div_lt_one hr).mpr (by linarith [(hq j).2]))
        have hs : HasDerivAt (fun t : ℝ => (t - mn j) / (mx j - mn j)) (1 / (mx j - mn j)) (q j) :=
          ((hasDerivAt_id (q j)).sub_const (mn j)).div_const _
        refine hdc (HasDerivAt.comp (q j) hb hs) (fun t => rfl) ?_
        ring
      · simp only [Function.update_of_ne hj, if_neg hj]
        exact hasDerivAt_const _ _
    have hsum := Kernel.hasDerivAt_list_sum (List.finRange n) (fun j t => -((((Function.update q i t) j - mn j) /
      (mx j - mn j)) ^ a * (1 - ((Function.update q i t) j - mn j) / (mx j - mn j)) ^ a)) _ (q i) (fun j _ => key j)
    refine hdc hsum (fun t => rfl) ?_
    rw [List.sum_map_ite_eq]
    rw [List.count_eq_one_of_mem (List.nodup_finRange n) (List.mem_finRange i)]
    simp [Prior.call, Kind.grad, Prior.scale, Prior.range]

/-- The term of one parameter is below any given bound close enough to either limit when the exponent
is negative. -/
theorem barrier_term (alpha : ℝ) (ha : alpha < 0) (bound : ℝ) :
    ∃ ε > 0, ∀ x : ℝ, (0 < x ∧ x < ε ∨ 1 - ε < x ∧ x < 1) → 0 < x → x < 1 →
      -(x ^ alpha * (1 - x) ^ alpha) < bound := by
  -- x (1 - x) small makes the power large
  obtain ⟨B, hB⟩ : ∃ B, B = max 1 (1 - bound) := ⟨_, rfl⟩
  have hB1 : 1 ≤ B := by rw [hB]; exact le_max_left _ _
  have hB0 : 0 < B := by linarith
  refine ⟨B ^ (1 / alpha), Real.rpow_pos_of_pos hB0 _, ?_⟩
  intro x hx h0 h1
  have hy : 0 < 1 - x := by linarith
  have hprod : x ^ alpha * (1 - x) ^ alpha = (x * (1 - x)) ^ alpha := (Real.mul_rpow h0.le hy.le).symm
  have hlt : x * (1 - x) < B ^ (1 / alpha) := by
    rcases hx with ⟨-, h⟩ | ⟨h, -⟩
    · nlinarith
    · nlinarith
  have hpos : 0 < x * (1 - x) := mul_pos h0 hy
  have hpow : B < (x * (1 - x)) ^ alpha := by
    have := Real.rpow_lt_rpow_of_neg hpos hlt ha
    rwa [← Real.rpow_mul hB0.le, one_div, inv_mul_cancel₀ ha.ne, Real.rpow_one] at this
  rw [hprod]
  have : 1 - bound ≤ B := by rw [hB]; exact le_max_right _ _
  linarith

/-- C63. The barrier prior can be made exactly for exponents above -1, with the limits given. -/
theorem C63_accepts (min max : Fin n → ℝ) (alpha : ℝ) :
    ((mkExpBeta min max alpha).isSome = true ↔ -1 < alpha) ∧
    ∀ p, mkExpBeta min max alpha = some p → ∀ q, (p.call q).1 =
      -∑ i, ((q i - min i) / (max i - min i)) ^ alpha * (1 - (q i - min i) / (max i - min i)) ^ alpha := by
  unfold mkExpBeta
  constructor
  · split <;> simp_all
  · intro p h q
    split at h
    · obtain rfl := Option.some.inj h
      simp only [Prior.call, Kind.lnprior, Prior.scale, Prior.range]
      rw [← List.sum_ofFn, List.ofFn_eq_map]
      rw [List.map_congr_left (fun i _ => neg_eq_neg_one_mul _), List.sum_map_mul_left]
      ring
    · cases h

/-- C63. For a negative exponent the barrier prior is below any given bound whenever one parameter is
close enough to one of its limits, whatever the other parameters are. -/
theorem C63_barrier (min max : Fin n → ℝ) (alpha : ℝ) (ha : alpha < 0) (p : Prior n)
    (hp : mkExpBeta min max alpha = some p) (bound : ℝ) :
    ∃ ε > 0, ∀ q : Fin n → ℝ, (∀ i, min i < q i ∧ q i < max i) →
      (∃ i, q i - min i < ε * (max i - min i) ∨ max i - q i < ε * (max i - min i)) →
      (p.call q).1 < bound := by
  obtain ⟨ε, hε, h⟩ := barrier_term alpha ha bound
  refine ⟨ε, hε, ?_⟩
  intro q hq ⟨i, hi⟩
  rw [(C63_accepts min max alpha).2 p hp q]
  have hr : ∀ j, 0 < max j - min j := fun j => by linarith [(hq j).1, (hq j).2]
  have h0 : ∀ j, 0 < (q j - min j) / (max j - min j) := fun j => div_pos (by linarith [(hq j).1]) (hr j)
  have h1 : ∀ j, (q j - min j) / (max j - min j) < 1 := fun j => by
    rw [div_lt_one (hr j)]; linarith [(hq j).2]
  have hterm := h ((q i - min i) / (max i - min i)) (by
    rcases hi with hi | hi
    · left; exact ⟨h0 i, by rw [div_lt_iff₀ (hr i)]; exact hi⟩
    · right
      refine ⟨?_, h1 i⟩
      rw [lt_div_iff₀ (hr i)]
      linarith) (h0 i) (h1 i)
  have hle := Finset.single_le_sum (f := fun j => ((q j - min j) / (max j - min j)) ^ alpha *
    (1 - (q j - min j) / (max j - min j)) ^ alpha) (fun j _ => mul_nonneg (Real.rpow_nonneg (h0 j).le _)
    (Real.rpow_nonneg (by linarith [h1 j]) _)) (Finset.mem_univ i)
  linarith

/-! ## Truncated Cauchy -/

/-- The cumulative distribution function of the Cauchy distribution. -/
noncomputable def cauchyCdf (loc scale t : ℝ) : ℝ := Real.arctan ((t - loc) / scale) / Real.pi + 1 / 2

lemma angle_eq (loc scale a b r : ℝ) :
    cauchySample loc scale a b r = loc + scale * Real.tan (Real.arctan ((a - loc) / scale) +
      (Real.arctan ((b - loc) / scale) - Real.arctan ((a - loc) / scale)) * r) := by
  unfold cauchySample
  have hpi := Real.pi_pos.ne'
  simp only []
  congr 3
  generalize Real.arctan ((a - loc) / scale) = A
  generalize Real.arctan ((b - loc) / scale) = B
  field_simp
  ring

lemma angle_mem (x y r : ℝ) (h0 : 0 ≤ r) (h1 : r ≤ 1) :
    min (Real.arctan x) (Real.arctan y) ≤ Real.arctan x + (Real.arctan y - Real.arctan x) * r ∧
    Real.arctan x + (Real.arctan y - Real.arctan x) * r ≤ max (Real.arctan x) (Real.arctan y) := by
  rcases le_total (Real.arctan x) (Real.arctan y) with h | h
  · rw [min_eq_left h, max_eq_right h]; constructor <;> nlinarith
  · rw [min_eq_right h, max_eq_left h]; constructor <;> nlinarith

/-- C63. Every sample of the truncated Cauchy distribution lies in the truncation interval, for any
location and any non-zero scale. -/
theorem C63_cauchy_interval (loc scale a b r : ℝ) (hs : scale ≠ 0) (hab : a ≤ b) (h0 : 0 ≤ r) (h1 : r ≤ 1) :
    a ≤ cauchySample loc scale a b r ∧ cauchySample loc scale a b r ≤ b := by
  rw [angle_eq]
  obtain ⟨hl, hu⟩ := angle_mem ((a - loc) / scale) ((b - loc) / scale) r h0 h1
  generalize hθ : Real.arctan ((a - loc) / scale) +
    (Real.arctan ((b - loc) / scale) - Real.arctan ((a - loc) / scale)) * r = θ at hl hu
  have hθ1 : -(Real.pi / 2) < θ := lt_of_lt_of_le (lt_min (Real.neg_pi_div_two_lt_arctan _) (Real.neg_pi_div_two_lt_arctan _)) hl
  have hθ2 : θ < Real.pi / 2 := lt_of_le_of_lt hu (max_lt (Real.arctan_lt_pi_div_two _) (Real.arctan_lt_pi_div_two _))
  have hθt : Real.arctan (Real.tan θ) = θ := Real.arctan_tan hθ1 hθ2
  rw [← hθt] at hl hu
  have hl' : min ((a - loc) / scale) ((b - loc) / scale) ≤ Real.tan θ := by
    rcases min_le_iff.mp hl with h | h
    · exact min_le_iff.mpr (Or.inl (Real.arctan_strictMono.le_iff_le.mp h))
    · exact min_le_iff.mpr (Or.inr (Real.arctan_strictMono.le_iff_le.mp h))
  have hu' : Real.tan θ ≤ max ((a - loc) / scale) ((b - loc) / scale) := by
    rcases le_max_iff.mp hu with h | h
    · exact le_max_iff.mpr (Or.inl (Real.arctan_strictMono.le_iff_le.mp h))
    · exact le_max_iff.mpr (Or.inr (Real.arctan_strictMono.le_iff_le.mp h))
  generalize Real.tan θ = T at hl' hu'
  rcases lt_or_gt_of_ne hs with hneg | hpos
  · have hdec : (b - loc) / scale ≤ (a - loc) / scale := by
      rw [div_le_div_right_of_neg hneg]; linarith
    rw [min_eq_right hdec] at hl'
    rw [max_eq_left hdec] at hu'
    rw [div_le_iff_of_neg hneg] at hl'
    rw [le_div_iff_of_neg hneg] at hu'
    constructor <;> linarith
  · have hinc : (a - loc) / scale ≤ (b - loc) / scale := by
      rw [div_le_div_iff_of_pos_right hpos]; linarith
    rw [min_eq_left hinc] at hl'
    rw [max_eq_right hinc] at hu'
    rw [div_le_iff₀ hpos] at hl'
    rw [le_div_iff₀ hpos] at hu'
    constructor <;> linarith

/-- C63. The samples follow the truncated Cauchy distribution: the sample for a uniform variate is at
most `t` exactly when the variate is at most the conditional probability of the interval up to `t`. -/
theorem C63_cauchy_distribution (loc scale a b r t : ℝ) (hs : 0 < scale) (hab : a < b)
    (h0 : 0 ≤ r) (h1 : r ≤ 1) :
    cauchySample loc scale a b r ≤ t ↔
      r ≤ (cauchyCdf loc scale t - cauchyCdf loc scale a) / (cauchyCdf loc scale b - cauchyCdf loc scale a) := by
  rw [angle_eq]
  obtain ⟨hl, hu⟩ := angle_mem ((a - loc) / scale) ((b - loc) / scale) r h0 h1
  have hlt : Real.arctan ((a - loc) / scale) < Real.arctan ((b - loc) / scale) := by
    apply Real.arctan_strictMono
    rw [div_lt_div_iff_of_pos_right hs]; linarith
  generalize hθ : Real.arctan ((a - loc) / scale) +
    (Real.arctan ((b - loc) / scale) - Real.arctan ((a - loc) / scale)) * r = θ at hl hu
  have hθ1 : -(Real.pi / 2) < θ := lt_of_lt_of_le (lt_min (Real.neg_pi_div_two_lt_arctan _) (Real.neg_pi_div_two_lt_arctan _)) hl
  have hθ2 : θ < Real.pi / 2 := lt_of_le_of_lt hu (max_lt (Real.arctan_lt_pi_div_two _) (Real.arctan_lt_pi_div_two _))
  have hθt : Real.arctan (Real.tan θ) = θ := Real.arctan_tan hθ1 hθ2
  have e1 : loc + scale * Real.tan θ ≤ t ↔ θ ≤ Real.arctan ((t - loc) / scale) := by
    rw [← hθt, Real.arctan_strictMono.le_iff_le, le_div_iff₀ hs, hθt]
    constructor <;> intro h <;> linarith
  have hpi := Real.pi_pos
  have e2 : (cauchyCdf loc scale t - cauchyCdf loc scale a) / (cauchyCdf loc scale b - cauchyCdf loc scale a) =
      (Real.arctan ((t - loc) / scale) - Real.arctan ((a - loc) / scale)) /
        (Real.arctan ((b - loc) / scale) - Real.arctan ((a - loc) / scale)) := by
    have hd : Real.arctan ((b - loc) / scale) - Real.arctan ((a - loc) / scale) ≠ 0 := by linarith
    unfold cauchyCdf
    generalize Real.arctan ((t - loc) / scale) = T
    generalize Real.arctan ((a - loc) / scale) = A at hd ⊢
    generalize Real.arctan ((b - loc) / scale) = B at hd ⊢
    have h1 : B / Real.pi + 1 / 2 - (A / Real.pi + 1 / 2) = (B - A) / Real.pi := by ring
    have h2 : T / Real.pi + 1 / 2 - (A / Real.pi + 1 / 2) = (T - A) / Real.pi := by ring
    rw [h1, h2, div_div_div_cancel_right₀ hpi.ne']
  rw [e1, e2, le_div_iff₀ (by linarith), ← hθ]
  constructor <;> intro h <;> linarith

/-- A point to which `C63_gradient` applies. -/
example : ∀ i : Fin 2, (fun _ => 0 : Fin 2 → ℝ) i < (fun _ => 1 / 2 : Fin 2 → ℝ) i ∧
    (fun _ => 1 / 2 : Fin 2 → ℝ) i < (fun _ => 1 : Fin 2 → ℝ) i := by
  intro i; norm_num

end Forcepho.Priors
