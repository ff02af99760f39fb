import Verif.Transform.Model
import Verif.Posterior.Props
import Mathlib.Analysis.SpecialFunctions.Log.Deriv
import Mathlib.Analysis.Calculus.Deriv.Inv
import Mathlib.Analysis.Calculus.Deriv.Add
import Mathlib.Analysis.Calculus.Deriv.Mul
import Mathlib.Analysis.Calculus.Deriv.Comp
import Mathlib.LinearAlgebra.Matrix.Determinant.Basic
import Mathlib.Algebra.BigOperators.Field
import Mathlib.Tactic.FieldSimp
import Mathlib.Tactic.Linarith
import Mathlib.Tactic.Positivity
import Mathlib.Tactic.LinearCombination

/-! # Properties C29–C32: transforms, gradients and reflections -/

set_option autoImplicit false

namespace Forcepho.Transform

open scoped BigOperators

variable {n : Nat}

/-- Change the presentation of a derivative. -/
theorem hdc {f g : ℝ → ℝ} {a b x : ℝ} (h : HasDerivAt f a x) (hf : ∀ y, g y = f y) (hab : b = a) :
    HasDerivAt g b x := by
  have : g = f := funext hf
  rw [this, hab]; exact h

theorem sigmoid_pos (x : ℝ) : 0 < sigmoid x := by unfold sigmoid; positivity

theorem sigmoid_lt_one (x : ℝ) : sigmoid x < 1 := by
  unfold sigmoid
  rw [div_lt_one (by positivity)]
  linarith [Real.exp_pos (-x)]

theorem sigmoid_strictMono : StrictMono sigmoid := by
  intro x y h
  unfold sigmoid
  apply one_div_lt_one_div_of_lt (by positivity)
  have := Real.exp_lt_exp.2 (neg_lt_neg h)
  linarith

theorem logit_sigmoid (x : ℝ) : logit (sigmoid x) = x := by
  unfold logit sigmoid
  have h : 1 / (1 / (1 + Real.exp (-x))) - 1 = Real.exp (-x) := by
    rw [one_div_one_div]; ring
  rw [h, Real.log_exp]; ring

theorem sigmoid_logit (y : ℝ) (h0 : 0 < y) (h1 : y < 1) : sigmoid (logit y) = y := by
  unfold logit sigmoid
  have h : 0 < 1 / y - 1 := by
    rw [sub_pos]; exact (one_lt_div h0).2 h1
  rw [neg_neg, Real.exp_log h]
  field_simp
  ring

/-- C29: the transform maps every real vector strictly inside the box; it and the inverse
transform undo each other (on all reals, and on the open box); it is strictly increasing in each
coordinate and each coordinate depends on its own input only. -/
theorem C29_bijection (t : Bounded n) (hb : ∀ i, t.lower i < t.upper i) :
    (∀ z i, t.lower i < t.transform z i ∧ t.transform z i < t.upper i) ∧
    (∀ z, t.inverse (t.transform z) = z) ∧
    (∀ θ, (∀ i, t.lower i < θ i ∧ θ i < t.upper i) → t.transform (t.inverse θ) = θ) ∧
    (∀ z w i, z i < w i → t.transform z i < t.transform w i) ∧
    (∀ z w i, z i = w i → t.transform z i = t.transform w i) := by
  have hr : ∀ i, 0 < t.range i := fun i => sub_pos.2 (hb i)
  refine ⟨?_, ?_, ?_, ?_, ?_⟩
  · intro z i
    have h1 := sigmoid_pos (z i)
    have h2 := sigmoid_lt_one (z i)
    have h3 := hr i
    unfold Bounded.transform
    constructor
    · have := mul_pos h1 h3; linarith
    · have : sigmoid (z i) * t.range i < 1 * t.range i := mul_lt_mul_of_pos_right h2 h3
      unfold Bounded.range at this ⊢
      linarith
  · intro z
    funext i
    unfold Bounded.inverse Bounded.transform
    have h3 := (hr i).ne'
    have : (t.lower i + sigmoid (z i) * t.range i - t.lower i) / t.range i = sigmoid (z i) := by
      field_simp; ring
    rw [this, logit_sigmoid]
  · intro θ h
    funext i
    unfold Bounded.inverse Bounded.transform
    have h3 := hr i
    obtain ⟨h1, h2⟩ := h i
    rw [sigmoid_logit]
    · field_simp; ring
    · exact div_pos (sub_pos.2 h1) h3
    · rw [div_lt_one h3]; unfold Bounded.range; linarith
  · intro z w i h
    unfold Bounded.transform
    have := mul_lt_mul_of_pos_right (sigmoid_strictMono h) (hr i)
    linarith
  · intro z w i h
    unfold Bounded.transform
    rw [h]

example : ∀ i, (⟨fun _ => 0, fun _ => 2⟩ : Bounded 3).lower i <
    (⟨fun _ => 0, fun _ => 2⟩ : Bounded 3).upper i := by intro i; norm_num

/-! ## C30 -/

theorem sigmoid_hasDerivAt (x : ℝ) :
    HasDerivAt sigmoid (sigmoid x * (1 - sigmoid x)) x := by
  have hpos : 0 < 1 + Real.exp (-x) := by positivity
  have h1 : HasDerivAt (fun x => 1 + Real.exp (-x)) (-Real.exp (-x)) x := by
    exact hdc (((hasDerivAt_neg x).exp).const_add 1) (fun _ => rfl) (by simp)
  have h2 := h1.inv hpos.ne'
  refine hdc h2 (fun y => ?_) ?_
  · simp [sigmoid]
  · unfold sigmoid
    field_simp
    ring

theorem sigmoidGrad_eq (z : ℝ) : sigmoidGrad z = sigmoid z * (1 - sigmoid z) := by
  unfold sigmoidGrad sigmoid
  rw [Real.cosh_eq]
  set u := Real.exp (0.5 * z) with hu
  have hu0 : 0 < u := Real.exp_pos _
  have h1 : Real.exp (-(0.5 * z)) = u⁻¹ := Real.exp_neg _
  have h2 : Real.exp (-z) = u⁻¹ ^ 2 := by
    rw [← h1, sq, ← Real.exp_add]; congr 1; ring
  rw [h1, h2]
  have h3 : 0 < u ^ 2 + 1 := by positivity
  have h4 : u + u⁻¹ ≠ 0 := by positivity
  field_simp
  ring

theorem sigmoidGrad_pos (z : ℝ) : 0 < sigmoidGrad z := by
  rw [sigmoidGrad_eq]
  exact mul_pos (sigmoid_pos z) (sub_pos.2 (sigmoid_lt_one z))

theorem transform_hasDerivAt (t : Bounded n) (z : Fin n → ℝ) (i : Fin n) :
    HasDerivAt (fun x => t.transform (Function.update z i x) i) (t.jacobian z i) (z i) := by
  have h := ((sigmoid_hasDerivAt (z i)).mul_const (t.range i)).const_add (t.lower i)
  refine hdc h (fun x => ?_) ?_
  · simp [Bounded.transform]
  · unfold Bounded.jacobian
    rw [sigmoidGrad_eq]; ring

theorem transform_off_diag (t : Bounded n) (z : Fin n → ℝ) (i j : Fin n) (h : i ≠ j) (x : ℝ) :
    t.transform (Function.update z j x) i = t.transform z i := by
  simp [Bounded.transform, Function.update_of_ne h]

/-- The matrix of true partial derivatives of the transform: specification. -/
noncomputable def jacMatrix (t : Bounded n) (z : Fin n → ℝ) : Matrix (Fin n) (Fin n) ℝ :=
  Matrix.of fun i j => deriv (fun x => t.transform (Function.update z j x) i) (z j)

/-- C30: the reported Jacobian is the diagonal of the matrix of true partial derivatives, whose
other entries vanish; the reported log determinant is the logarithm of the absolute value of its
determinant. -/
theorem C30_jacobian (t : Bounded n) (z : Fin n → ℝ) :
    jacMatrix t z = Matrix.diagonal (t.jacobian z) ∧
    t.lndetjac z = Real.log |(jacMatrix t z).det| ∧
    (∀ i, HasDerivAt (fun x => t.transform (Function.update z i x) i) (t.jacobian z i) (z i)) := by
  have h1 : jacMatrix t z = Matrix.diagonal (t.jacobian z) := by
    ext i j
    unfold jacMatrix
    rw [Matrix.of_apply]
    by_cases h : i = j
    · subst h
      rw [Matrix.diagonal_apply_eq, (transform_hasDerivAt t z i).deriv]
    · rw [Matrix.diagonal_apply_ne _ h]
      have : (fun x => t.transform (Function.update z j x) i) = fun _ => t.transform z i := by
        funext x; exact transform_off_diag t z i j h x
      rw [this, deriv_const]
  refine ⟨h1, ?_, transform_hasDerivAt t z⟩
  rw [h1, Matrix.det_diagonal]
  rfl

theorem log_sigmoidGrad_hasDerivAt (x : ℝ) :
    HasDerivAt (fun x => Real.log (sigmoidGrad x)) (1 - 2 * sigmoid x) x := by
  have e : (fun x => Real.log (sigmoidGrad x)) =
      fun x => Real.log (sigmoid x) + Real.log (1 - sigmoid x) := by
    funext y
    rw [sigmoidGrad_eq, Real.log_mul (sigmoid_pos y).ne' (sub_pos.2 (sigmoid_lt_one y)).ne']
  rw [e]
  have hs := sigmoid_hasDerivAt x
  have h0 := (sigmoid_pos x).ne'
  have h1 := (sub_pos.2 (sigmoid_lt_one x)).ne'
  refine hdc ((hs.log h0).add ((hs.const_sub 1).log h1)) (fun _ => rfl) ?_
  field_simp
  ring

theorem lndetjac_split (t : Bounded n) (hb : ∀ i, t.lower i ≠ t.upper i) (z : Fin n → ℝ)
    (i : Fin n) (x : ℝ) :
    t.lndetjac (Function.update z i x) =
      Real.log (sigmoidGrad x) +
        (Real.log |t.range i| + ∑ j ∈ Finset.univ.erase i, Real.log |t.jacobian z j|) := by
  have hr : ∀ j, t.range j ≠ 0 := fun j => sub_ne_zero.2 (hb j).symm
  have hj : ∀ (w : Fin n → ℝ) (j : Fin n), t.jacobian w j ≠ 0 := fun w j =>
    mul_ne_zero (hr j) (sigmoidGrad_pos _).ne'
  unfold Bounded.lndetjac
  rw [Finset.abs_prod, Real.log_prod (fun j _ => abs_ne_zero.2 (hj _ j)),
    ← Finset.add_sum_erase _ _ (Finset.mem_univ i)]
  have h1 : t.jacobian (Function.update z i x) i = t.range i * sigmoidGrad x := by
    simp [Bounded.jacobian]
  rw [h1, abs_mul, Real.log_mul (abs_ne_zero.2 (hr i)) (abs_ne_zero.2 (sigmoidGrad_pos x).ne'),
    abs_of_pos (sigmoidGrad_pos x)]
  have h2 : ∑ j ∈ Finset.univ.erase i, Real.log |t.jacobian (Function.update z i x) j| =
      ∑ j ∈ Finset.univ.erase i, Real.log |t.jacobian z j| := by
    apply Finset.sum_congr rfl
    intro j hj'
    have : j ≠ i := (Finset.mem_erase.1 hj').1
    simp [Bounded.jacobian, Function.update_of_ne this]
  rw [h2]
  ring

/-- C30: the reported gradient of the log determinant is its true gradient. -/
theorem C30_lndetjac_grad (t : Bounded n) (hb : ∀ i, t.lower i ≠ t.upper i) (z : Fin n → ℝ)
    (i : Fin n) :
    HasDerivAt (fun x => t.lndetjac (Function.update z i x)) (t.lndetjacGrad z i) (z i) := by
  have e : (fun x => t.lndetjac (Function.update z i x)) = fun x => Real.log (sigmoidGrad x) +
        (Real.log |t.range i| + ∑ j ∈ Finset.univ.erase i, Real.log |t.jacobian z j|) := by
    funext x; exact lndetjac_split t hb z i x
  rw [e]
  have := (log_sigmoidGrad_hasDerivAt (z i)).add_const
    (Real.log |t.range i| + ∑ j ∈ Finset.univ.erase i, Real.log |t.jacobian z j|)
  refine hdc this (fun _ => rfl) ?_
  unfold Bounded.lndetjacGrad
  norm_num

/-- C30 for the base class: identity map, unit Jacobian, constant log determinant. -/
theorem C30_plain (t : Plain n) (z : Fin n → ℝ) (i : Fin n) :
    HasDerivAt (fun x => t.transform (Function.update z i x) i) (t.jacobian z i) (z i) ∧
    t.lndetjac z = 0 ∧
    HasDerivAt (fun x => t.lndetjac (Function.update z i x)) (t.lndetjacGrad z i) (z i) := by
  refine ⟨?_, ?_, ?_⟩
  · have e : (fun x => t.transform (Function.update z i x) i) = fun x => x := by
      funext x; simp [Plain.transform]
    rw [e]; exact hasDerivAt_id _
  · simp [Plain.lndetjac, Plain.jacobian]
  · have e : (fun x => t.lndetjac (Function.update z i x)) = fun _ => (0 : ℝ) := by
      funext x; simp [Plain.lndetjac, Plain.jacobian]
    rw [e]; exact hasDerivAt_const _ _

/-! ## C31 -/

theorem transform_update (t : Bounded n) (z : Fin n → ℝ) (i : Fin n) (x : ℝ) :
    t.transform (Function.update z i x) =
      Function.update (t.transform z) i (t.transform (Function.update z i x) i) := by
  funext j
  by_cases h : j = i
  · subst h; simp
  · rw [Function.update_of_ne h, transform_off_diag t z j i h]

/-- C31: if the kernel's and the prior's derivatives are the true partial derivatives of their
functions at the transformed point, the reported gradient is the true gradient of the reported
log-probability, in both modes. -/
theorem C31_gradient (g : Ingredients n) (t : Bounded n) (hb : ∀ i, t.lower i ≠ t.upper i)
    (sampling : Bool) (z : Fin n → ℝ) (i : Fin n)
    (hchi : HasDerivAt (fun x => (g.chi2 (Function.update (t.transform z) i x)).sum)
      (g.dchi2 (t.transform z) i) (t.transform z i))
    (hpr : HasDerivAt (fun x => g.lnprior (Function.update (t.transform z) i x))
      (g.lnpriorGrad (t.transform z) i) (t.transform z i)) :
    HasDerivAt (fun x => lnp g t sampling (Function.update z i x))
      (lnpGrad g t sampling z i) (z i) := by
  have hT := transform_hasDerivAt t z i
  have h0 : t.transform (Function.update z i (z i)) i = t.transform z i := by simp
  have hc : HasDerivAt (fun x => (g.chi2 (t.transform (Function.update z i x))).sum)
      (g.dchi2 (t.transform z) i * t.jacobian z i) (z i) := by
    have := HasDerivAt.comp (h₂ := fun y => (g.chi2 (Function.update (t.transform z) i y)).sum)
      (z i) (by rw [h0]; exact hchi) hT
    refine hdc this (fun x => ?_) rfl
    simp only [Function.comp]
    rw [← transform_update]
  have hp : HasDerivAt (fun x => g.lnprior (t.transform (Function.update z i x)))
      (g.lnpriorGrad (t.transform z) i * t.jacobian z i) (z i) := by
    have := HasDerivAt.comp (h₂ := fun y => g.lnprior (Function.update (t.transform z) i y))
      (z i) (by rw [h0]; exact hpr) hT
    refine hdc this (fun x => ?_) rfl
    simp only [Function.comp]
    rw [← transform_update]
  have hbase := (hc.const_mul (-0.5)).add hp
  cases sampling with
  | false =>
    simp only [lnp, lnpGrad, Bool.false_eq_true, if_false]
    exact hdc hbase (fun _ => rfl) (by ring)
  | true =>
    simp only [lnp, lnpGrad, if_true]
    exact hdc (hbase.add (C30_lndetjac_grad t hb z i)) (fun _ => rfl) (by ring)

/-- C31: the cache-free evaluation of the posterior object of C26, assembled from the same
ingredients, returns the log-probability whose gradient is the returned gradient. -/
theorem C31_object (g : Ingredients n) (t : Bounded n) (hb : ∀ i, t.lower i ≠ t.upper i)
    (hchi : ∀ q i, HasDerivAt (fun x => (g.chi2 (Function.update q i x)).sum) (g.dchi2 q i) (q i))
    (hpr : ∀ q i, HasDerivAt (fun x => g.lnprior (Function.update q i x)) (g.lnpriorGrad q i) (q i))
    (sampling : Bool) (z : Fin n → ℝ) :
    ∀ i, HasDerivAt (fun x => lnp g t sampling (Function.update z i x))
      (lnpGrad g t sampling z i) (z i) :=
  fun i => C31_gradient g t hb sampling z i (hchi _ i) (hpr _ i)

/-- A concrete case: one parameter, chi-square `q²`, prior `-q`. -/
noncomputable def toyIngredients : Ingredients 1 where
  chi2 := fun q => [q 0 ^ 2]
  dchi2 := fun q _ => 2 * q 0
  lnprior := fun q => - q 0
  lnpriorGrad := fun _ _ => -1

example (q : Fin 1 → ℝ) (i : Fin 1) :
    HasDerivAt (fun x => (toyIngredients.chi2 (Function.update q i x)).sum)
      (toyIngredients.dchi2 q i) (q i) ∧
    HasDerivAt (fun x => toyIngredients.lnprior (Function.update q i x))
      (toyIngredients.lnpriorGrad q i) (q i) := by
  have hi : i = 0 := Subsingleton.elim _ _
  subst hi
  constructor
  · exact hdc ((hasDerivAt_id (q 0)).pow 2) (fun y => by simp [toyIngredients])
      (by simp [toyIngredients])
  · exact hdc (hasDerivAt_id (q 0)).neg (fun y => by simp [toyIngredients])
      (by simp [toyIngredients])

/-! ### The stacked kernel output is the gradient of the total chi-square -/

theorem sum_map_range (f : Nat → ℝ) (m : Nat) :
    ((List.range m).map f).sum = ∑ b ∈ Finset.range m, f b := by
  induction m with
  | zero => simp
  | succ m ih => rw [List.range_succ, List.map_append, List.sum_append, ih,
      Finset.sum_range_succ]; simp

/-- C31, kernel side: suppose each band's chi-square depends on the fluxes of its own band and on
the shape parameters only, with the kernel's derivatives correct for that band.  Then the stacked
vector is the gradient of the summed chi-square, at every parameter. -/
theorem C31_stacked (nsrc nb : Nat) (chi2 : Nat → (Nat → ℝ) → ℝ) (d : Nat → Nat → Nat → ℝ)
    (q : Nat → ℝ)
    (hflux : ∀ s b, s < nsrc → b < nb →
      HasDerivAt (fun x => chi2 b (Function.update q (s * (nb + 6) + b) x)) (d b s 0)
        (q (s * (nb + 6) + b)))
    (hother : ∀ s b b', s < nsrc → b < nb → b' < nb → b ≠ b' →
      HasDerivAt (fun x => chi2 b (Function.update q (s * (nb + 6) + b') x)) 0
        (q (s * (nb + 6) + b')))
    (hshape : ∀ s b k, s < nsrc → b < nb → k < 6 →
      HasDerivAt (fun x => chi2 b (Function.update q (s * (nb + 6) + (nb + k)) x)) (d b s (k + 1))
        (q (s * (nb + 6) + (nb + k)))) :
    ∀ p, p < nsrc * (nb + 6) → ∃ g,
      (Posterior.Stack.stackGrad nsrc nb ((List.range nb).map d))[p]? = some g ∧
      HasDerivAt (fun x => ∑ b ∈ Finset.range nb, chi2 b (Function.update q p x)) g (q p) := by
  intro p hp
  obtain ⟨_, h2, h3⟩ := Posterior.Stack.C28_layout nsrc nb ((List.range nb).map d) (by simp)
  set s := p / (nb + 6) with hs
  set j := p % (nb + 6) with hj
  have hps : p = s * (nb + 6) + j := by
    rw [hs, hj, Nat.mul_comm]; exact (Nat.div_add_mod p (nb + 6)).symm
  have hsl : s < nsrc := by
    rw [hs, Nat.div_lt_iff_lt_mul (by omega)]; exact hp
  have hjl : j < nb + 6 := Nat.mod_lt _ (by omega)
  by_cases hjb : j < nb
  · refine ⟨d j s 0, ?_, ?_⟩
    · rw [hps]
      exact h2 s j (d j) hsl (by simp [hjb])
    · have : HasDerivAt (fun x => ∑ b ∈ Finset.range nb, chi2 b (Function.update q p x))
          (∑ b ∈ Finset.range nb, if b = j then d j s 0 else 0) (q p) := by
        apply HasDerivAt.fun_sum
        intro b hb
        rw [Finset.mem_range] at hb
        by_cases hbj : b = j
        · rw [if_pos hbj, hps, hbj]
          exact hflux s j hsl hjb
        · rw [if_neg hbj, hps]
          exact hother s b j hsl hb hjb hbj
      rw [Finset.sum_ite_eq' (Finset.range nb) j (fun _ => d j s 0)] at this
      rw [if_pos (by rw [Finset.mem_range]; exact hjb)] at this
      exact this
  · obtain ⟨k, hk⟩ : ∃ k, j = nb + k := ⟨j - nb, by omega⟩
    have hk6 : k < 6 := by omega
    refine ⟨((List.range nb).map fun b => d b s (k + 1)).sum, ?_, ?_⟩
    · rw [hps, hk, h3 s k hsl hk6, List.map_map]
      rfl
    · have : HasDerivAt (fun x => ∑ b ∈ Finset.range nb, chi2 b (Function.update q p x))
          (∑ b ∈ Finset.range nb, d b s (k + 1)) (q p) := by
        apply HasDerivAt.fun_sum
        intro b hb
        rw [Finset.mem_range] at hb
        rw [hps, hk]
        exact hshape s b k hsl hb hk6
      refine hdc this (fun _ => rfl) ?_
      exact sum_map_range _ _

end Forcepho.Transform

namespace Forcepho.Transform.Bounce

variable {K : Type} [Field K] [LinearOrder K] [IsStrictOrderedRing K]

/-- Distance outside the box. -/
def excess (c : Cell K) : K := max (max (c.theta - c.upper) (c.lower - c.theta)) 0

/-- `y` is reached from `x` by reflections at the two walls, an even number of them when
`sign = 1` and an odd number when `sign = -1`: specification.  `2 * (u - l)` is the period of the
unfolded trajectory. -/
def Reflected (l u x y sign : K) : Prop :=
  (sign = 1 ∧ ∃ k : ℤ, y = x + k * (2 * (u - l))) ∨
  (sign = -1 ∧ ∃ k : ℤ, y = (2 * u - x) + k * (2 * (u - l)))

theorem Reflected.upper {l u x y s : K} (h : Reflected l u x y s) :
    Reflected l u x (2 * u - y) (s * (-1)) := by
  rcases h with ⟨rfl, k, rfl⟩ | ⟨rfl, k, rfl⟩
  · refine Or.inr ⟨by ring, -k, ?_⟩
    push_cast; ring
  · refine Or.inl ⟨by ring, -k, ?_⟩
    push_cast; ring

theorem Reflected.lower {l u x y s : K} (h : Reflected l u x y s) :
    Reflected l u x (2 * l - y) (s * (-1)) := by
  rcases h with ⟨rfl, k, rfl⟩ | ⟨rfl, k, rfl⟩
  · refine Or.inr ⟨by ring, -k - 1, ?_⟩
    push_cast; ring
  · refine Or.inl ⟨by ring, -k - 1, ?_⟩
    push_cast; ring

theorem pass_bounds (c : Cell K) :
    (pass c).1.lower = c.lower ∧ (pass c).1.upper = c.upper := by
  unfold pass
  by_cases h1 : c.upper < c.theta
  · by_cases h2 : 2 * c.upper - c.theta < c.lower <;> simp [h1, h2]
  · by_cases h2 : c.theta < c.lower <;> simp [h1, h2]

theorem pass_reflected (c : Cell K) (x : K) (h : Reflected c.lower c.upper x c.theta c.sign) :
    Reflected c.lower c.upper x (pass c).1.theta (pass c).1.sign := by
  unfold pass
  by_cases h1 : c.upper < c.theta
  · by_cases h2 : 2 * c.upper - c.theta < c.lower
    · simpa [h1, h2] using h.upper.lower
    · simpa [h1, h2] using h.upper
  · by_cases h2 : c.theta < c.lower
    · simpa [h1, h2] using h.lower
    · simpa [h1, h2] using h

/-- The flag of a pass is raised exactly when the element was outside; otherwise nothing
changes. -/
theorem pass_flag (c : Cell K) (hb : c.lower ≤ c.upper) :
    ((pass c).2 = false ↔ c.lower ≤ c.theta ∧ c.theta ≤ c.upper) := by
  unfold pass
  by_cases h1 : c.upper < c.theta
  · simp [h1]
  · by_cases h2 : c.theta < c.lower
    · simp [h1, h2]
    · simp [h1, h2, not_lt.1 h1, not_lt.1 h2]

theorem pass_same (c : Cell K) (h : (pass c).2 = false) : (pass c).1 = c := by
  unfold pass at h ⊢
  by_cases h1 : c.upper < c.theta
  · simp [h1] at h
  · by_cases h2 : c.theta < c.lower
    · simp [h1, h2] at h
    · simp [h1, h2]

theorem pass_excess (c : Cell K) (hb : c.lower < c.upper) :
    excess (pass c).1 ≤ max (excess c - (c.upper - c.lower)) 0 := by
  unfold pass excess
  by_cases h1 : c.upper < c.theta
  · by_cases h2 : 2 * c.upper - c.theta < c.lower
    · simp only [h1, h2, decide_true, if_true]
      have e : max (max (c.theta - c.upper) (c.lower - c.theta)) 0 = c.theta - c.upper := by
        have e1 : max (c.theta - c.upper) (c.lower - c.theta) = c.theta - c.upper :=
          max_eq_left (by linarith)
        rw [e1]; exact max_eq_left (by linarith)
      rw [e]
      apply max_le (max_le _ _) (le_max_right _ _)
      · exact le_max_of_le_left (by linarith)
      · exact le_max_of_le_right (by linarith)
    · simp only [h1, h2, decide_true, decide_false, if_true, Bool.false_eq_true, if_false]
      apply max_le (max_le _ _) (le_max_right _ _)
      · exact le_max_of_le_right (by linarith)
      · exact le_max_of_le_right (by linarith [not_lt.1 h2])
  · by_cases h2 : c.theta < c.lower
    · simp only [h1, h2, decide_true, decide_false, if_true, Bool.false_eq_true, if_false]
      have e : max (max (c.theta - c.upper) (c.lower - c.theta)) 0 = c.lower - c.theta := by
        have e1 : max (c.theta - c.upper) (c.lower - c.theta) = c.lower - c.theta :=
          max_eq_right (by linarith [not_lt.1 h1])
        rw [e1]; exact max_eq_left (by linarith)
      rw [e]
      apply max_le (max_le _ _) (le_max_right _ _)
      · exact le_max_of_le_left (by linarith)
      · exact le_max_of_le_right (by linarith)
    · simp only [h1, h2, decide_false, Bool.false_eq_true, if_false]
      apply max_le (max_le _ _) (le_max_right _ _)
      · exact le_max_of_le_right (by linarith [not_lt.1 h1])
      · exact le_max_of_le_right (by linarith [not_lt.1 h2])

theorem excess_zero_iff (c : Cell K) : excess c ≤ 0 ↔ c.lower ≤ c.theta ∧ c.theta ≤ c.upper := by
  unfold excess
  rw [max_le_iff, max_le_iff]
  constructor
  · rintro ⟨⟨h1, h2⟩, _⟩; exact ⟨by linarith, by linarith⟩
  · rintro ⟨h1, h2⟩; exact ⟨⟨by linarith, by linarith⟩, le_refl _⟩

theorem loop_succ (fuel : Nat) (cs : List (Cell K)) :
    loop (fuel + 1) cs = if (cs.map pass).any (·.2) then loop fuel ((cs.map pass).map (·.1))
      else some ((cs.map pass).map (·.1)) := rfl

/-- More fuel does not change the outcome. -/
theorem loop_mono : ∀ (fuel : Nat) (cs out : List (Cell K)), loop fuel cs = some out →
    ∀ m, loop (fuel + m) cs = some out := by
  intro fuel
  induction fuel with
  | zero => intro cs out h; cases h
  | succ f ih =>
    intro cs out h m
    rw [show f + 1 + m = (f + m) + 1 by omega, loop_succ]
    rw [loop_succ] at h
    split at h
    · rename_i hc; rw [if_pos hc]; exact ih _ _ h m
    · rename_i hc; rw [if_neg hc]; exact h

/-- The loop terminates if every excess is at most `N` box widths. -/
theorem loop_terminates : ∀ (N : Nat) (cs : List (Cell K)),
    (∀ c ∈ cs, c.lower < c.upper ∧ excess c ≤ N * (c.upper - c.lower)) →
    ∃ out, loop (N + 1) cs = some out := by
  intro N
  induction N with
  | zero =>
    intro cs h
    refine ⟨(cs.map pass).map (·.1), ?_⟩
    rw [loop_succ, if_neg]
    simp only [List.any_map, List.any_eq_true, Function.comp_apply, not_exists, not_and]
    intro c hc
    obtain ⟨h1, h2⟩ := h c hc
    have := (excess_zero_iff c).1 (by simpa using h2)
    simp [(pass_flag c h1.le).2 this]
  | succ N ih =>
    intro cs h
    rw [loop_succ]
    split
    · apply ih
      intro c hc
      simp only [List.map_map, List.mem_map, Function.comp_apply] at hc
      obtain ⟨c0, hc0, rfl⟩ := hc
      obtain ⟨h1, h2⟩ := h c0 hc0
      obtain ⟨b1, b2⟩ := pass_bounds c0
      rw [b1, b2]
      refine ⟨h1, (pass_excess c0 h1).trans ?_⟩
      have hw : 0 < c0.upper - c0.lower := sub_pos.2 h1
      apply max_le
      · push_cast at h2
        linarith
      · positivity
    · exact ⟨_, rfl⟩

/-- A terminated loop has applied some number of passes to each element and left none outside. -/
theorem loop_iterate : ∀ (fuel : Nat) (cs out : List (Cell K)), loop fuel cs = some out →
    ∃ k : Nat, out = cs.map ((fun c => (pass c).1)^[k]) ∧ ∀ c ∈ out, (pass c).2 = false := by
  intro fuel
  induction fuel with
  | zero => intro cs out h; cases h
  | succ f ih =>
    intro cs out h
    rw [loop_succ] at h
    split at h
    · obtain ⟨k, h1, h2⟩ := ih _ _ h
      refine ⟨k + 1, ?_, h2⟩
      rw [h1, List.map_map, List.map_map]
      rfl
    · rename_i hc
      have hflag : ∀ c ∈ cs, (pass c).2 = false := by
        intro c hc'
        by_contra hne
        exact hc (List.any_eq_true.2 ⟨pass c, List.mem_map_of_mem hc', by simpa using hne⟩)
      have hsame : (cs.map pass).map (·.1) = cs := by
        rw [List.map_map]
        conv_rhs => rw [← List.map_id cs]
        apply List.map_congr_left
        intro c hc'
        exact pass_same c (hflag c hc')
      rw [hsame] at h
      cases h
      exact ⟨0, by simp, hflag⟩

theorem iterate_spec (x : K) (k : Nat) : ∀ (c : Cell K),
    Reflected c.lower c.upper x c.theta c.sign →
    ((fun c : Cell K => (pass c).1)^[k] c).lower = c.lower ∧
    ((fun c : Cell K => (pass c).1)^[k] c).upper = c.upper ∧
    Reflected c.lower c.upper x ((fun c : Cell K => (pass c).1)^[k] c).theta
      ((fun c : Cell K => (pass c).1)^[k] c).sign ∧
    ((pass c).2 = false → (fun c : Cell K => (pass c).1)^[k] c = c) := by
  induction k with
  | zero => intro c h; exact ⟨rfl, rfl, h, fun _ => rfl⟩
  | succ k ih =>
    intro c h
    obtain ⟨b1, b2⟩ := pass_bounds c
    have h' := pass_reflected c x h
    obtain ⟨i1, i2, i3, i4⟩ := ih (pass c).1 (by rw [b1, b2]; exact h')
    rw [Function.iterate_succ_apply]
    rw [b1, b2] at i3
    refine ⟨i1.trans b1, i2.trans b2, i3, ?_⟩
    intro hf
    have hs := pass_same c hf
    have : (pass (pass c).1).2 = false := by rw [hs]; exact hf
    rw [i4 this, hs]

/-- C32: for bounds with positive width the reflection loop terminates (with an outcome that does
not depend on when one stops counting); every component ends inside its closed interval, is
obtained from the start by reflections at the walls whose parity is the returned sign, and
components already inside are unchanged with sign one. -/
theorem C32_reflection [Archimedean K] (bounds : List (K × K)) (theta : List K)
    (hlen : bounds.length = theta.length) (hb : ∀ p ∈ bounds, p.1 < p.2) :
    ∃ fuel out, (∀ m, checkConstrained (fuel + m) bounds theta = some out) ∧
      out.length = theta.length ∧
      ∀ (i : Nat) (l u x : K), bounds[i]? = some (l, u) → theta[i]? = some x →
        ∃ c, out[i]? = some c ∧ l ≤ c.theta ∧ c.theta ≤ u ∧ Reflected l u x c.theta c.sign ∧
          (l ≤ x → x ≤ u → c.theta = x ∧ c.sign = 1) := by
  set cs : List (Cell K) := (bounds.zip theta).map fun p => ⟨p.1.1, p.1.2, p.2, 1⟩ with hcs
  have hpos : ∀ c ∈ cs, c.lower < c.upper := by
    intro c hc
    rw [hcs, List.mem_map] at hc
    obtain ⟨p, hp, rfl⟩ := hc
    exact hb p.1 (List.of_mem_zip hp).1
  have hN : ∃ N : Nat, ∀ c ∈ cs, excess c ≤ N * (c.upper - c.lower) := by
    clear_value cs
    clear hcs
    induction cs with
    | nil => exact ⟨0, by simp⟩
    | cons c t ih =>
      obtain ⟨N, hN⟩ := ih (fun x hx => hpos x (by simp [hx]))
      have hw : 0 < c.upper - c.lower := sub_pos.2 (hpos c (by simp))
      obtain ⟨M, hM⟩ := Archimedean.arch (excess c) hw
      rw [nsmul_eq_mul] at hM
      refine ⟨max N M, ?_⟩
      intro d hd
      rcases List.mem_cons.1 hd with rfl | hd
      · refine hM.trans ?_
        have : (M : K) ≤ (max N M : ℕ) := by exact_mod_cast le_max_right N M
        exact mul_le_mul_of_nonneg_right this hw.le
      · have hw' : 0 < d.upper - d.lower := sub_pos.2 (hpos d (by simp [hd]))
        refine (hN d hd).trans ?_
        have : (N : K) ≤ (max N M : ℕ) := by exact_mod_cast le_max_left N M
        exact mul_le_mul_of_nonneg_right this hw'.le
  obtain ⟨N, hN⟩ := hN
  obtain ⟨out, hout⟩ := loop_terminates N cs (fun c hc => ⟨hpos c hc, hN c hc⟩)
  obtain ⟨k, hk, hflag⟩ := loop_iterate _ _ _ hout
  refine ⟨N + 1, out, fun m => loop_mono _ _ _ hout m, ?_, ?_⟩
  · rw [hk, List.length_map, hcs, List.length_map, List.length_zip, hlen, Nat.min_self]
  · intro i l u x h1 h2
    have hci : cs[i]? = some ⟨l, u, x, 1⟩ := by
      have hz : (bounds.zip theta)[i]? = some ((l, u), x) :=
        List.getElem?_zip_eq_some.2 ⟨h1, h2⟩
      rw [hcs, List.getElem?_map, hz]
      rfl
    have hoi : out[i]? = some ((fun c : Cell K => (pass c).1)^[k] ⟨l, u, x, 1⟩) := by
      rw [hk, List.getElem?_map, hci]
      rfl
    have hr : Reflected l u x x 1 := Or.inl ⟨rfl, 0, by simp⟩
    obtain ⟨s1, s2, s3, s4⟩ := iterate_spec x k (⟨l, u, x, 1⟩ : Cell K) hr
    have hlu : l < u := hb (l, u) (List.mem_of_getElem? h1)
    have hf := hflag _ (List.mem_of_getElem? hoi)
    rw [pass_flag _ (by rw [s1, s2]; exact hlu.le), s1, s2] at hf
    refine ⟨_, hoi, hf.1, hf.2, s3, ?_⟩
    intro hlx hxu
    rw [s4 ((pass_flag (⟨l, u, x, 1⟩ : Cell K) hlu.le).2 ⟨hlx, hxu⟩)]
    exact ⟨rfl, rfl⟩

/-- C32, without positive width the loop never ends: a component outside an interval of width
zero is reflected back and forth forever. -/
theorem C32_degenerate (l x : K) (hx : x ≠ l) : ∀ fuel, checkConstrained fuel [(l, l)] [x] = none := by
  have key : ∀ (fuel : Nat) (c : Cell K), c.lower = l → c.upper = l → c.theta ≠ l →
      loop fuel [c] = none := by
    intro fuel
    induction fuel with
    | zero => intro c _ _ _; rfl
    | succ f ih =>
      intro c h1 h2 h3
      rw [loop_succ]
      have hflag : (pass c).2 = true := by
        by_contra hne
        have := (pass_flag c (by rw [h1, h2])).1 (by simpa using hne)
        rw [h1, h2] at this
        exact h3 (le_antisymm this.2 this.1)
      rw [if_pos (by simp [hflag])]
      obtain ⟨b1, b2⟩ := pass_bounds c
      apply ih (pass c).1 (b1.trans h1) (b2.trans h2)
      unfold pass
      rw [h1, h2]
      by_cases g1 : l < c.theta
      · have g2 : 2 * l - c.theta < l := by linarith
        simp only [g1, decide_true, if_true, h1, g2]
        intro e; apply h3; linarith
      · have g2 : c.theta < l := lt_of_le_of_ne (not_lt.1 g1) h3
        simp only [g1, decide_false, Bool.false_eq_true, if_false, h1, g2, decide_true, if_true]
        intro e; apply h3; linarith
  intro fuel
  exact key fuel _ rfl rfl hx

example : (checkConstrained 10 [((0 : ℚ), 1), (0, 1)] [17/4, 1/2]).map
    (fun l => l.map fun c => (c.theta, c.sign)) = some [(1/4, 1), (1/2, 1)] := by decide +kernel

end Forcepho.Transform.Bounce
