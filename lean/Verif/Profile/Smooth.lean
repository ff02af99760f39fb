import Mathlib.LinearAlgebra.Vandermonde
import Mathlib.LinearAlgebra.Matrix.NonsingularInverse
import Mathlib.Analysis.SpecialFunctions.Exponential
import Mathlib.Analysis.Real.Sqrt
import Mathlib.Algebra.BigOperators.Field

/-!
# C104: the smoothness prior on mixture amplitudes

Models `get_kernel` (`forcepho/mixtures/sersic_mix_twod.py:144-168`), the covariance matrix handed to
a multivariate normal distribution.
-/

set_option autoImplicit false
set_option linter.unusedSectionVars false

namespace Forcepho.Profile

open Matrix

noncomputable section

/-! ## Model -/

/-- `d * np.diag(ones(n)) + o * np.diag(ones(n-1), -1) + o * np.diag(ones(n-1), +1)`
(`sersic_mix_twod.py:148-150`, `:153-155`). -/
def band (n : Nat) (d o : ℝ) : Matrix (Fin n) (Fin n) ℝ := fun i j =>
  d * (if i.val = j.val then 1 else 0) + o * (if i.val = j.val + 1 then 1 else 0)
    + o * (if i.val + 1 = j.val then 1 else 0)

/-- `np.linalg.inv`, raising on a singular matrix. -/
def npInv {n : Nat} (M : Matrix (Fin n) (Fin n) ℝ) : Option (Matrix (Fin n) (Fin n) ℝ) :=
  if M.det = 0 then none else some M⁻¹

/-- `Sigma` before the normalisation; an unknown name leaves it undefined
(`sersic_mix_twod.py:146-162`).  `np.abs(i-j)` is squared. -/
def rawKernel (n : Nat) (prior : String) (scale : ℝ) : Option (Matrix (Fin n) (Fin n) ℝ) :=
  if prior = "triangular" then some (band n 2 scale)
  else if prior = "finite-difference" then npInv ((band n 2 (-scale))ᵀ * band n 2 (-scale))
  else if prior = "exp-squared" then
    some fun i j => Real.exp (-|(i.val : ℝ) - (j.val : ℝ)| ^ 2 / (2 * scale ^ 2))
  else none

/-- `s = np.diag(np.sqrt(np.diag(Sigma)))`, `sinv = inv(s)`, `dot(sinv, dot(Sigma, sinv))`
(`sersic_mix_twod.py:164-166`). -/
def normalise {n : Nat} (S : Matrix (Fin n) (Fin n) ℝ) : Option (Matrix (Fin n) (Fin n) ℝ) :=
  match npInv (Matrix.diagonal fun i => Real.sqrt (S i i)) with
  | none => none
  | some sinv => some (sinv * (S * sinv))

/-- `get_kernel(ngauss, prior, scale)`; `none` when the call raises. -/
def getKernel (n : Nat) (prior : String) (scale : ℝ) : Option (Matrix (Fin n) (Fin n) ℝ) :=
  match rawKernel n prior scale with
  | none => none
  | some S => normalise S

/-! ## Specification -/

/-- A correlation matrix: symmetric, ones on the diagonal and positive definite. -/
def Correlation {n : Nat} (M : Matrix (Fin n) (Fin n) ℝ) : Prop :=
  (∀ i j, M i j = M j i) ∧ (∀ i, M i i = 1) ∧
    ∀ x : Fin n → ℝ, x ≠ 0 → 0 < ∑ i, ∑ j, x i * M i j * x j

/-- Positive definite. -/
def PosQuad {n : Nat} (M : Matrix (Fin n) (Fin n) ℝ) : Prop :=
  ∀ x : Fin n → ℝ, x ≠ 0 → 0 < ∑ i, ∑ j, x i * M i j * x j

/-! ## Normalisation -/

theorem posQuad_diag {n : Nat} {S : Matrix (Fin n) (Fin n) ℝ} (h : PosQuad S) (i : Fin n) :
    0 < S i i := by
  have := h (Pi.single i 1) (by
    intro k
    have := congrFun k i
    simp at this)
  simpa [Pi.single_apply, Finset.sum_ite_eq'] using this

theorem normalise_eq {n : Nat} {S : Matrix (Fin n) (Fin n) ℝ} (hd : ∀ i, 0 < S i i) :
    normalise S = some fun i j => S i j / (Real.sqrt (S i i) * Real.sqrt (S j j)) := by
  have hs : ∀ i, 0 < Real.sqrt (S i i) := fun i => Real.sqrt_pos.mpr (hd i)
  have hdet : (Matrix.diagonal fun i => Real.sqrt (S i i)).det ≠ 0 := by
    rw [Matrix.det_diagonal]
    exact Finset.prod_ne_zero_iff.mpr fun i _ => (hs i).ne'
  have hinv : (Matrix.diagonal fun i => Real.sqrt (S i i))⁻¹
      = Matrix.diagonal fun i => 1 / Real.sqrt (S i i) := by
    apply Matrix.inv_eq_right_inv
    rw [Matrix.diagonal_mul_diagonal]
    ext i j
    by_cases k : i = j
    · subst k; simp [(hs i).ne']
    · simp [k]
  unfold normalise npInv
  rw [if_neg hdet]
  simp only
  congr 1
  ext i j
  rw [hinv, Matrix.diagonal_mul, Matrix.mul_diagonal]
  have := hs i
  have := hs j
  field_simp

theorem correlation_of_posQuad {n : Nat} {S : Matrix (Fin n) (Fin n) ℝ} (hS : ∀ i j, S i j = S j i)
    (h : PosQuad S) : ∃ M, normalise S = some M ∧ Correlation M ∧
      ∀ i j, M i j = S i j / (Real.sqrt (S i i) * Real.sqrt (S j j)) := by
  have hd := posQuad_diag h
  have hs : ∀ i, 0 < Real.sqrt (S i i) := fun i => Real.sqrt_pos.mpr (hd i)
  refine ⟨_, normalise_eq hd, ⟨?_, ?_, ?_⟩, fun _ _ => rfl⟩
  · intro i j
    dsimp only
    rw [hS i j, mul_comm]
  · intro i
    dsimp only
    rw [Real.mul_self_sqrt (hd i).le, div_self (hd i).ne']
  · intro x hx
    have := h (fun i => x i / Real.sqrt (S i i)) (by
      intro k
      apply hx
      funext i
      have := congrFun k i
      simpa [(hs i).ne'] using this)
    refine this.trans_eq ?_
    refine Finset.sum_congr rfl fun i _ => Finset.sum_congr rfl fun j _ => ?_
    have := (hs i).ne'
    have := (hs j).ne'
    field_simp

/-! ## The three kernels -/

theorem expSquared_pos (n : Nat) {scale : ℝ} (hs : scale ≠ 0) :
    PosQuad (fun i j : Fin n =>
      Real.exp (-|(i.val : ℝ) - (j.val : ℝ)| ^ 2 / (2 * scale ^ 2))) := by
  intro x hx
  -- weights and nodes
  let a : Fin n → ℝ := fun i => Real.exp (-(i.val : ℝ) ^ 2 / (2 * scale ^ 2))
  let f : Fin n → ℝ := fun i => (i.val : ℝ) / scale
  let y : Fin n → ℝ := fun i => x i * a i
  have entry : ∀ i j : Fin n,
      Real.exp (-|(i.val : ℝ) - (j.val : ℝ)| ^ 2 / (2 * scale ^ 2))
        = a i * a j * Real.exp (f i * f j) := by
    intro i j
    simp only [a, f]
    rw [← Real.exp_add, ← Real.exp_add, sq_abs]
    congr 1
    field_simp
    ring
  have series : ∀ t : ℝ, HasSum (fun m : ℕ => t ^ m / m.factorial) (Real.exp t) := by
    intro t
    rw [Real.exp_eq_exp_ℝ]
    exact NormedSpace.expSeries_div_hasSum_exp t
  have total : HasSum (fun m : ℕ => (∑ i, y i * f i ^ m) ^ 2 / m.factorial)
      (∑ i, ∑ j, x i * Real.exp (-|(i.val : ℝ) - (j.val : ℝ)| ^ 2 / (2 * scale ^ 2)) * x j) := by
    have h1 : HasSum (fun m : ℕ => ∑ i, ∑ j, y i * y j * ((f i * f j) ^ m / m.factorial))
        (∑ i, ∑ j, y i * y j * Real.exp (f i * f j)) :=
      hasSum_sum fun i _ => hasSum_sum fun j _ => (series (f i * f j)).mul_left _
    have e2 : (∑ i, ∑ j, y i * y j * Real.exp (f i * f j))
        = ∑ i, ∑ j, x i * Real.exp (-|(i.val : ℝ) - (j.val : ℝ)| ^ 2 / (2 * scale ^ 2)) * x j := by
      refine Finset.sum_congr rfl fun i _ => Finset.sum_congr rfl fun j _ => ?_
      rw [entry i j]
      simp only [y]
      ring
    rw [← e2]
    refine h1.congr_fun ?_
    intro m
    rw [sq, Finset.sum_mul_sum, Finset.sum_div]
    refine Finset.sum_congr rfl fun i _ => ?_
    rw [Finset.sum_div]
    refine Finset.sum_congr rfl fun j _ => ?_
    rw [mul_pow]
    ring
  have nonneg : ∀ m : ℕ, 0 ≤ (∑ i, y i * f i ^ m) ^ 2 / (m.factorial : ℝ) := fun m => by positivity
  rcases (total.nonneg nonneg).lt_or_eq with h | h
  · exact h
  exfalso
  rw [← h] at total
  have z := (hasSum_zero_iff_of_nonneg nonneg).mp total
  have hf : Function.Injective f := by
    intro i j k
    simp only [f] at k
    have : (i.val : ℝ) = (j.val : ℝ) := by field_simp at k; exact k
    exact Fin.ext (by exact_mod_cast this)
  have hy : y = 0 := Matrix.eq_zero_of_forall_pow_sum_mul_pow_eq_zero hf fun m => by
    have := congrFun z m.val
    have k : ((m.val.factorial : ℕ) : ℝ) ≠ 0 := by positivity
    have h0 : (∑ i, y i * f i ^ m.val) ^ 2 / (m.val.factorial : ℝ) = 0 := this
    rw [div_eq_zero_iff] at h0
    rcases h0 with h0 | h0
    · exact pow_eq_zero_iff two_ne_zero |>.mp h0
    · exact absurd h0 k
  apply hx
  funext i
  have := congrFun hy i
  simp only [y, a, Pi.zero_apply, mul_eq_zero, Real.exp_ne_zero, or_false] at this
  simpa using this

theorem band_symm {n : Nat} (d o : ℝ) (i j : Fin n) : band n d o i j = band n d o j i := by
  unfold band
  have e1 : (i.val = j.val) = (j.val = i.val) := propext eq_comm
  have e2 : (i.val = j.val + 1) = (j.val + 1 = i.val) := propext eq_comm
  have e3 : (i.val + 1 = j.val) = (j.val = i.val + 1) := propext eq_comm
  simp only [e1, e2, e3]
  ring

/-- The quadratic form of the inverse of `Dᵀ D`. -/
theorem finiteDifference_pos {n : Nat} {D : Matrix (Fin n) (Fin n) ℝ} (hD : D.det ≠ 0) :
    PosQuad ((Dᵀ * D)⁻¹) ∧ ∀ i j, (Dᵀ * D)⁻¹ i j = (Dᵀ * D)⁻¹ j i := by
  have hu : IsUnit D.det := isUnit_iff_ne_zero.mpr hD
  have e : (Dᵀ * D)⁻¹ = D⁻¹ * (D⁻¹)ᵀ := by
    rw [Matrix.mul_inv_rev, Matrix.transpose_nonsing_inv]
  constructor
  · intro x hx
    let z : Fin n → ℝ := fun k => ∑ i, x i * D⁻¹ i k
    have hq : ∑ i, ∑ j, x i * (Dᵀ * D)⁻¹ i j * x j = ∑ k, z k ^ 2 := by
      rw [e]
      simp only [Matrix.mul_apply, Matrix.transpose_apply, z]
      simp_rw [Finset.mul_sum, Finset.sum_mul, sq, Finset.sum_mul_sum]
      rw [show (∑ i, ∑ j, ∑ k, x i * (D⁻¹ i k * D⁻¹ j k) * x j)
          = ∑ i, ∑ k, ∑ j, x i * (D⁻¹ i k * D⁻¹ j k) * x j from
        Finset.sum_congr rfl fun i _ => Finset.sum_comm]
      rw [Finset.sum_comm]
      refine Finset.sum_congr rfl fun k _ => Finset.sum_congr rfl fun i _ =>
        Finset.sum_congr rfl fun j _ => by ring
    rw [hq]
    have hz : z ≠ 0 := by
      intro hz
      apply hx
      have h1 : x ᵥ* D⁻¹ = 0 := by
        funext k
        have := congrFun hz k
        simpa [z, Matrix.vecMul, dotProduct] using this
      have h2 : (x ᵥ* D⁻¹) ᵥ* D = x := by
        rw [Matrix.vecMul_vecMul, Matrix.nonsing_inv_mul D hu, Matrix.vecMul_one]
      rw [← h2, h1, Matrix.zero_vecMul]
    obtain ⟨k, hk⟩ := Function.ne_iff.mp hz
    exact Finset.sum_pos' (fun k _ => sq_nonneg _) ⟨k, Finset.mem_univ _, by
      have : z k ≠ 0 := hk
      positivity⟩
  · intro i j
    rw [e]
    simp only [Matrix.mul_apply, Matrix.transpose_apply]
    exact Finset.sum_congr rfl fun k _ => mul_comm _ _

theorem sum_next_le {n : Nat} (x : Fin n → ℝ) :
    (∑ i : Fin n, ∑ j : Fin n, if i.val + 1 = j.val then x j ^ 2 else 0) ≤ ∑ i, x i ^ 2 ∧
    (∑ i : Fin n, ∑ j : Fin n, if i.val + 1 = j.val then x i ^ 2 else 0) ≤ ∑ i, x i ^ 2 := by
  constructor
  · rw [Finset.sum_comm]
    refine Finset.sum_le_sum fun j _ => ?_
    by_cases h : ∃ i : Fin n, i.val + 1 = j.val
    · obtain ⟨i, hi⟩ := h
      rw [Finset.sum_eq_single i]
      · rw [if_pos hi]
      · intro k _ hk
        rw [if_neg fun e => hk (Fin.ext (by omega))]
      · intro k; exact absurd (Finset.mem_univ _) k
    · rw [Finset.sum_eq_zero fun i _ => if_neg fun e => h ⟨i, e⟩]
      positivity
  · refine Finset.sum_le_sum fun i _ => ?_
    by_cases h : ∃ j : Fin n, i.val + 1 = j.val
    · obtain ⟨j, hj⟩ := h
      rw [Finset.sum_eq_single j]
      · rw [if_pos hj]
      · intro k _ hk
        rw [if_neg fun e => hk (Fin.ext (by omega))]
      · intro k; exact absurd (Finset.mem_univ _) k
    · rw [Finset.sum_eq_zero fun j _ => if_neg fun e => h ⟨j, e⟩]
      positivity

theorem band_quad {n : Nat} (d o : ℝ) (x : Fin n → ℝ) :
    ∑ i, ∑ j, x i * band n d o i j * x j
      = d * ∑ i, x i ^ 2
        + 2 * o * ∑ i : Fin n, ∑ j : Fin n, if i.val + 1 = j.val then x i * x j else 0 := by
  have e : ∀ i j : Fin n, x i * band n d o i j * x j
      = d * (if i = j then x i * x j else 0) + o * (if j.val + 1 = i.val then x j * x i else 0)
        + o * (if i.val + 1 = j.val then x i * x j else 0) := by
    intro i j
    unfold band
    have e1 : (i.val = j.val) = (i = j) := propext ⟨Fin.ext, congrArg _⟩
    have e2 : (i.val = j.val + 1) = (j.val + 1 = i.val) := propext eq_comm
    simp only [e1, e2]
    split_ifs <;> ring
  simp_rw [e, Finset.sum_add_distrib, ← Finset.mul_sum]
  have e3 : (∑ i : Fin n, ∑ j : Fin n, if j.val + 1 = i.val then x j * x i else 0)
      = ∑ i : Fin n, ∑ j : Fin n, if i.val + 1 = j.val then x i * x j else 0 := Finset.sum_comm
  have e4 : (∑ i : Fin n, ∑ j : Fin n, if i = j then x i * x j else 0) = ∑ i, x i ^ 2 := by
    refine Finset.sum_congr rfl fun i _ => ?_
    rw [Finset.sum_ite_eq, if_pos (Finset.mem_univ _), sq]
  rw [e3, e4]
  ring

theorem band_pos {n : Nat} {o : ℝ} (ho : |o| < 1) : PosQuad (band n 2 o) := by
  intro x hx
  rw [band_quad]
  obtain ⟨h1, h2⟩ := sum_next_le x
  have hpos : 0 < ∑ i, x i ^ 2 := by
    obtain ⟨k, hk⟩ := Function.ne_iff.mp hx
    exact Finset.sum_pos' (fun k _ => sq_nonneg _) ⟨k, Finset.mem_univ _, by
      have : x k ≠ 0 := hk
      positivity⟩
  have h3 : -(|o| * ((∑ i : Fin n, ∑ j : Fin n, if i.val + 1 = j.val then x j ^ 2 else 0)
        + ∑ i : Fin n, ∑ j : Fin n, if i.val + 1 = j.val then x i ^ 2 else 0))
      ≤ 2 * o * ∑ i : Fin n, ∑ j : Fin n, if i.val + 1 = j.val then x i * x j else 0 := by
    rw [← Finset.sum_add_distrib, Finset.mul_sum, Finset.mul_sum, ← Finset.sum_neg_distrib]
    refine Finset.sum_le_sum fun i _ => ?_
    rw [← Finset.sum_add_distrib, Finset.mul_sum, Finset.mul_sum, ← Finset.sum_neg_distrib]
    refine Finset.sum_le_sum fun j _ => ?_
    split_ifs
    · rcases abs_cases o with ⟨ha, hb⟩ | ⟨ha, hb⟩
      · rw [ha]; nlinarith [sq_nonneg (x i + x j)]
      · rw [ha]; nlinarith [sq_nonneg (x i - x j)]
    · simp
  have h4 : |o| * ((∑ i : Fin n, ∑ j : Fin n, if i.val + 1 = j.val then x j ^ 2 else 0)
        + ∑ i : Fin n, ∑ j : Fin n, if i.val + 1 = j.val then x i ^ 2 else 0)
      ≤ |o| * (2 * ∑ i, x i ^ 2) := mul_le_mul_of_nonneg_left (by linarith) (abs_nonneg _)
  nlinarith

/-! ## Theorems -/

/-- **C104, the default kernel.**  For every number of gaussians and every scale other than zero the
"exp-squared" kernel is a correlation matrix, with entry `exp (-(i-j)²/(2 scale²))`. -/
theorem C104_exp_squared (n : Nat) {scale : ℝ} (hs : scale ≠ 0) :
    ∃ M, getKernel n "exp-squared" scale = some M ∧ Correlation M ∧
      ∀ i j, M i j = Real.exp (-((i.val : ℝ) - (j.val : ℝ)) ^ 2 / (2 * scale ^ 2)) := by
  have e : rawKernel n "exp-squared" scale = some fun i j =>
      Real.exp (-|(i.val : ℝ) - (j.val : ℝ)| ^ 2 / (2 * scale ^ 2)) := by
    unfold rawKernel
    rw [if_neg (by decide), if_neg (by decide), if_pos rfl]
    rfl
  obtain ⟨M, h1, h2, h3⟩ := correlation_of_posQuad
    (S := fun i j : Fin n => Real.exp (-|(i.val : ℝ) - (j.val : ℝ)| ^ 2 / (2 * scale ^ 2)))
    (fun i j => by simp only [abs_sub_comm]) (expSquared_pos n hs)
  refine ⟨M, ?_, h2, ?_⟩
  · unfold getKernel
    rw [e]
    exact h1
  · intro i j
    rw [h3]
    simp

/-- **C104, the other kernels.**  "triangular" gives a correlation matrix for scales between -1 and
1; "finite-difference" whenever its difference operator is invertible. -/
theorem C104_valid_partial (n : Nat) (scale : ℝ) :
    (|scale| < 1 → ∃ M, getKernel n "triangular" scale = some M ∧ Correlation M ∧
      ∀ i j : Fin n, M i j = if i = j then 1
        else if i.val = j.val + 1 ∨ j.val = i.val + 1 then scale / 2 else 0) ∧
    ((band n 2 (-scale)).det ≠ 0 →
      ∃ M, getKernel n "finite-difference" scale = some M ∧ Correlation M) := by
  constructor
  · intro hs
    obtain ⟨M, h1, h2, h3⟩ := correlation_of_posQuad (band_symm 2 scale) (band_pos (n := n) hs)
    refine ⟨M, ?_, h2, ?_⟩
    · unfold getKernel rawKernel
      rw [if_pos rfl]
      exact h1
    · intro i j
      rw [h3]
      have ed : ∀ i : Fin n, band n 2 scale i i = 2 := by intro i; simp [band]
      rw [ed, ed, Real.mul_self_sqrt (by norm_num)]
      unfold band
      by_cases k : i = j
      · subst k; simp
      · have k' : ¬ i.val = j.val := fun e => k (Fin.ext e)
        by_cases k1 : i.val = j.val + 1
        · have k2 : ¬ i.val + 1 = j.val := by omega
          rw [if_neg k', if_neg k2, if_pos k1, if_neg k, if_pos (Or.inl k1)]
          ring
        · by_cases k2 : i.val + 1 = j.val
          · rw [if_neg k', if_neg k1, if_pos k2, if_neg k, if_pos (Or.inr k2.symm)]
            ring
          · rw [if_neg k', if_neg k1, if_neg k2, if_neg k, if_neg (by omega)]
            ring
  · intro hD
    obtain ⟨hp, hsym⟩ := finiteDifference_pos hD
    obtain ⟨M, h1, h2, _⟩ := correlation_of_posQuad hsym hp
    refine ⟨M, ?_, h2⟩
    unfold getKernel rawKernel npInv
    have k : ¬ ((band n 2 (-scale))ᵀ * band n 2 (-scale)).det = 0 := by
      rw [Matrix.det_mul, Matrix.det_transpose]
      exact mul_ne_zero hD hD
    rw [if_neg (by decide), if_pos rfl, if_neg k]
    exact h1

/-- **C104 fails for "triangular" at the default scale.**  For every scale above two, in particular
the default `kernel_scale=3` of the model, and two or more gaussians, the returned matrix has
correlations above one and is not positive definite. -/
theorem C104_triangular_refuted {n : Nat} (hn : 2 ≤ n) {scale : ℝ} (hs : 2 < scale) :
    ∃ M, getKernel n "triangular" scale = some M ∧
      (∃ i j, 1 < M i j) ∧ ∃ x : Fin n → ℝ, x ≠ 0 ∧ ∑ i, ∑ j, x i * M i j * x j < 0 := by
  have ed : ∀ i : Fin n, band n 2 scale i i = 2 := by intro i; simp [band]
  have hM := normalise_eq (S := band n 2 scale) (fun i => by rw [ed]; norm_num)
  have hK : getKernel n "triangular" scale = some fun i j =>
      band n 2 scale i j / (Real.sqrt (band n 2 scale i i) * Real.sqrt (band n 2 scale j j)) := by
    unfold getKernel rawKernel
    rw [if_pos rfl]
    exact hM
  refine ⟨_, hK, ⟨⟨0, by omega⟩, ⟨1, by omega⟩, ?_⟩, ?_⟩
  · rw [ed, ed, Real.mul_self_sqrt (by norm_num)]
    simp [band]
    linarith
  · let x : Fin n → ℝ := fun i => if i.val = 0 then 1 else if i.val = 1 then -1 else 0
    refine ⟨x, ?_, ?_⟩
    · intro k
      have := congrFun k ⟨0, by omega⟩
      simp [x] at this
    · have e : ∑ i, ∑ j, x i * (band n 2 scale i j
            / (Real.sqrt (band n 2 scale i i) * Real.sqrt (band n 2 scale j j))) * x j
          = (∑ i, ∑ j, x i * band n 2 scale i j * x j) / 2 := by
        rw [Finset.sum_div]
        refine Finset.sum_congr rfl fun i _ => ?_
        rw [Finset.sum_div]
        refine Finset.sum_congr rfl fun j _ => ?_
        rw [ed, ed, Real.mul_self_sqrt (by norm_num)]
        ring
      rw [e, band_quad]
      obtain ⟨m, rfl⟩ : ∃ m, n = m + 2 := ⟨n - 2, by omega⟩
      have s1 : ∑ i, x i ^ 2 = 2 := by
        rw [Fin.sum_univ_succ, Fin.sum_univ_succ]
        simp [x]
        norm_num
      have s2 : (∑ i : Fin (m + 2), ∑ j : Fin (m + 2), if i.val + 1 = j.val then x i * x j else 0)
          = -1 := by
        rw [Fin.sum_univ_succ, Finset.sum_eq_zero (s := Finset.univ)
          (f := fun i : Fin (m + 1) => ∑ j : Fin (m + 2),
            if i.succ.val + 1 = j.val then x i.succ * x j else 0)]
        · rw [Fin.sum_univ_succ, Fin.sum_univ_succ]
          simp [x]
        · intro i _
          refine Finset.sum_eq_zero fun j _ => ?_
          split_ifs with h
          · have : x j = 0 := by
              simp only [x]
              rw [if_neg (by omega), if_neg (by simp at h; omega)]
            rw [this, mul_zero]
          · rfl
      rw [s1, s2]
      linarith

/-- C104, unknown names raise. -/
theorem C104_unknown (n : Nat) (prior : String) (scale : ℝ) (h1 : prior ≠ "triangular")
    (h2 : prior ≠ "finite-difference") (h3 : prior ≠ "exp-squared") :
    getKernel n prior scale = none := by
  simp [getKernel, rawKernel, h1, h2, h3]

/-! ## Concrete case -/

/-- The finite difference operator of two gaussians at the default scale is invertible. -/
example : (band 2 2 (-3)).det ≠ 0 := by
  rw [Matrix.det_fin_two]
  norm_num [band]

end

end Forcepho.Profile
