import Verif.Shear.Model
import Verif.Kernel.Props
import Verif.Transform.Props
import Mathlib.Analysis.SpecialFunctions.Complex.LogDeriv
import Mathlib.Analysis.SpecialFunctions.ExpDeriv
import Mathlib.Analysis.Calculus.Deriv.Prod
import Mathlib.Analysis.Calculus.Deriv.Abs
import Mathlib.Tactic.FieldSimp
import Mathlib.Tactic.Linarith
import Mathlib.Tactic.Positivity
import Mathlib.Tactic.LinearCombination

/-! # Property C54 -/

set_option autoImplicit false
set_option linter.unusedSectionVars false

namespace Forcepho.Shear

lemma hypot_nonneg (ep ec : ℝ) : 0 ≤ hypot ep ec := Real.sqrt_nonneg _

lemma hypot_sq (ep ec : ℝ) : hypot ep ec ^ 2 = ep ^ 2 + ec ^ 2 := Real.sq_sqrt (by positivity)

lemma hypot_pos {ep ec : ℝ} (h : ep ≠ 0 ∨ ec ≠ 0) : 0 < hypot ep ec := by
  apply Real.sqrt_pos.mpr
  rcases h with h | h
  · have := sq_pos_of_ne_zero h; positivity
  · have := sq_pos_of_ne_zero h; positivity

lemma norm_mk (ep ec : ℝ) : ‖(⟨ep, ec⟩ : ℂ)‖ = hypot ep ec := by
  rw [Complex.norm_def, Complex.normSq_mk, hypot]
  congr 1; ring

/-- `ep = η cos 2pa`, `ec = η sin 2pa`. -/
lemma polar (ep ec : ℝ) : hypot ep ec * Real.cos (2 * paOf ep ec) = ep ∧
    hypot ep ec * Real.sin (2 * paOf ep ec) = ec := by
  have h1 := Complex.norm_mul_cos_arg (⟨ep, ec⟩ : ℂ)
  have h2 := Complex.norm_mul_sin_arg (⟨ep, ec⟩ : ℂ)
  rw [norm_mk] at h1 h2
  have : 2 * paOf ep ec = Complex.arg ⟨ep, ec⟩ := by unfold paOf arctan2; ring
  rw [this]
  exact ⟨h1, h2⟩

lemma hypot_polar (r t : ℝ) : hypot (r * Real.cos t) (r * Real.sin t) = |r| := by
  unfold hypot
  rw [show (r * Real.cos t) ^ 2 + (r * Real.sin t) ^ 2 = r ^ 2 by
    linear_combination r ^ 2 * Real.sin_sq_add_cos_sq t]
  exact Real.sqrt_sq_eq_abs r

lemma arctan2_polar {r : ℝ} (hr : 0 < r) (t : ℝ) :
    ∃ k : ℤ, arctan2 (r * Real.sin t) (r * Real.cos t) = t + k * (2 * Real.pi) := by
  unfold arctan2
  have : (⟨r * Real.cos t, r * Real.sin t⟩ : ℂ) = (r : ℂ) * (Complex.cos t + Complex.sin t * Complex.I) := by
    apply Complex.ext <;> simp [← Complex.ofReal_cos, ← Complex.ofReal_sin]
  rw [this, Complex.arg_mul_cos_add_sin_mul_I_eq_toIocMod hr]
  refine ⟨-toIocDiv Real.two_pi_pos (-Real.pi) t, ?_⟩
  have h := toIocMod_add_toIocDiv_zsmul Real.two_pi_pos (-Real.pi) t
  rw [zsmul_eq_mul] at h
  push_cast
  linarith

lemma qOf_etas {q : ℝ} (hq : 0 < q) (hq1 : q ≤ 1) (phi : ℝ) :
    qOf (etas q phi).1 (etas q phi).2 = q := by
  unfold qOf etas
  simp only
  rw [hypot_polar, Real.log_pow, abs_of_nonneg]
  · rw [show -(-(((2 : ℕ) : ℝ) * Real.log q)) / 2 = Real.log q by push_cast; ring, Real.exp_log hq]
  · have := Real.log_nonpos hq.le hq1
    push_cast; linarith

/-- C54 (round trip). Converting the root axis ratio `q` and the position angle to conformal shear
and back returns `q` exactly and the position angle up to a multiple of `π`, exactly when it lies in
`(-π/2, π/2]`. -/
theorem C54_roundtrip (q : ℝ) (hq : 0 < q) (hq1 : q < 1) (phi : ℝ) :
    qOf (etas q phi).1 (etas q phi).2 = q ∧
    (∃ k : ℤ, paOf (etas q phi).1 (etas q phi).2 = phi + k * Real.pi) ∧
    (-(Real.pi / 2) < phi → phi ≤ Real.pi / 2 → paOf (etas q phi).1 (etas q phi).2 = phi) := by
  refine ⟨qOf_etas hq hq1.le phi, ?_, ?_⟩
  · have hr : 0 < -Real.log (q ^ 2) := by
      rw [neg_pos]; exact Real.log_neg (by positivity) (by nlinarith)
    obtain ⟨k, hk⟩ := arctan2_polar hr (phi * 2)
    refine ⟨k, ?_⟩
    unfold paOf etas
    simp only
    rw [hk]; ring
  · intro h1 h2
    have hr : 0 < -Real.log (q ^ 2) := by
      rw [neg_pos]; exact Real.log_neg (by positivity) (by nlinarith)
    obtain ⟨k, hk⟩ := arctan2_polar hr (phi * 2)
    have hm := Complex.arg_mem_Ioc (⟨-Real.log (q ^ 2) * Real.cos (phi * 2), -Real.log (q ^ 2) *
      Real.sin (phi * 2)⟩ : ℂ)
    rw [show Complex.arg (⟨-Real.log (q ^ 2) * Real.cos (phi * 2), -Real.log (q ^ 2) *
      Real.sin (phi * 2)⟩ : ℂ) = _ from hk] at hm
    have hpi := Real.pi_pos
    have hk0 : k = 0 := by
      have a1 : (k : ℝ) < 1 := by
        by_contra hc
        push Not at hc
        nlinarith [hm.2]
      have a2 : (-1 : ℝ) < k := by
        by_contra hc
        push Not at hc
        nlinarith [hm.1]
      have b1 : k < 1 := by exact_mod_cast a1
      have b2 : -1 < k := by exact_mod_cast a2
      omega
    unfold paOf etas
    simp only
    rw [hk, hk0]; push_cast; ring

/-- C54 (round trip, other direction). Every shear vector, including the round one, is recovered from
the axis ratio and position angle it stands for; the ratio is in `(0, 1]` and the angle in
`(-π/2, π/2]`. -/
theorem C54_shear_roundtrip (ep ec : ℝ) :
    etas (qOf ep ec) (paOf ep ec) = (ep, ec) ∧ 0 < qOf ep ec ∧ qOf ep ec ≤ 1 ∧
      -(Real.pi / 2) < paOf ep ec ∧ paOf ep ec ≤ Real.pi / 2 := by
  obtain ⟨h1, h2⟩ := polar ep ec
  refine ⟨?_, Real.exp_pos _, ?_, ?_, ?_⟩
  · unfold etas
    simp only
    have hl : -Real.log (qOf ep ec ^ 2) = hypot ep ec := by
      rw [Real.log_pow, qOf, Real.log_exp]; push_cast; ring
    rw [hl, mul_comm (paOf ep ec) 2, h1, h2]
  · unfold qOf
    rw [Real.exp_le_one_iff]
    linarith [hypot_nonneg ep ec]
  · have := (Complex.arg_mem_Ioc (⟨ep, ec⟩ : ℂ)).1
    unfold paOf arctan2; linarith
  · have := (Complex.arg_mem_Ioc (⟨ep, ec⟩ : ℂ)).2
    unfold paOf arctan2; linarith

/-- A round source keeps its axis ratio and loses its (meaningless) position angle. -/
theorem C54_round (phi : ℝ) : etas 1 phi = (0, 0) ∧ qOf 0 0 = 1 ∧ paOf 0 0 = 0 := by
  refine ⟨?_, ?_, ?_⟩
  · simp [etas]
  · simp [qOf, hypot]
  · have : (⟨0, 0⟩ : ℂ) = 0 := rfl
    simp [paOf, arctan2, this]

/-! ## The shape of the source -/

/-- The covariance shape of a source in the celestial plane: the unit circle stretched and rotated. -/
noncomputable def shapeCov (q pa : ℝ) : Matrix (Fin 2) (Fin 2) ℝ :=
  Kernel.shape 1 q pa * (Kernel.shape 1 q pa).transpose

lemma shapeCov_eq (q pa : ℝ) : shapeCov q pa =
    !![((1 / q ^ 2 + q ^ 2) + (1 / q ^ 2 - q ^ 2) * Real.cos (2 * pa)) / 2,
        (1 / q ^ 2 - q ^ 2) * Real.sin (2 * pa) / 2;
       (1 / q ^ 2 - q ^ 2) * Real.sin (2 * pa) / 2,
        ((1 / q ^ 2 + q ^ 2) - (1 / q ^ 2 - q ^ 2) * Real.cos (2 * pa)) / 2] := by
  unfold shapeCov Kernel.shape
  have hs := Real.sin_sq_add_cos_sq pa
  rw [Real.sin_two_mul, Real.cos_two_mul']
  ext i j
  fin_cases i <;> fin_cases j <;>
    simp [Matrix.mul_apply, Fin.sum_univ_two]
  · linear_combination (1 / 2) * (q⁻¹ ^ 2 + q ^ 2) * hs
  · ring
  · ring
  · linear_combination (1 / 2) * (q⁻¹ ^ 2 + q ^ 2) * hs

/-- The shape as a function of the shear vector, without angles. -/
lemma shapeCov_shear (ep ec : ℝ) : shapeCov (qOf ep ec) (paOf ep ec) =
    !![Real.cosh (hypot ep ec) + Real.sinh (hypot ep ec) * Real.cos (2 * paOf ep ec),
        Real.sinh (hypot ep ec) * Real.sin (2 * paOf ep ec);
       Real.sinh (hypot ep ec) * Real.sin (2 * paOf ep ec),
        Real.cosh (hypot ep ec) - Real.sinh (hypot ep ec) * Real.cos (2 * paOf ep ec)] := by
  have h1 : qOf ep ec ^ 2 = Real.exp (-hypot ep ec) := by
    rw [qOf, ← Real.exp_nat_mul]; congr 1; push_cast; ring
  have h2 : 1 / qOf ep ec ^ 2 = Real.exp (hypot ep ec) := by
    rw [h1, Real.exp_neg]; simp
  rw [shapeCov_eq, h2, h1, Real.cosh_eq, Real.sinh_eq]
  ext i j
  fin_cases i <;> fin_cases j <;> simp <;> ring

/-- C54 (the same ellipse). For every positive `q`, also above one, and every angle, the converted
parameters describe the same ellipse. -/
theorem C54_shape (q : ℝ) (hq : 0 < q) (phi : ℝ) :
    shapeCov (qOf (etas q phi).1 (etas q phi).2) (paOf (etas q phi).1 (etas q phi).2) =
      shapeCov q phi := by
  rw [shapeCov_shear, shapeCov_eq]
  obtain ⟨p1, p2⟩ := polar (etas q phi).1 (etas q phi).2
  obtain ⟨η, hη⟩ : ∃ η, η = -Real.log (q ^ 2) := ⟨_, rfl⟩
  have e1 : (etas q phi).1 = η * Real.cos (2 * phi) := by rw [hη, mul_comm 2 phi]; rfl
  have e2 : (etas q phi).2 = η * Real.sin (2 * phi) := by rw [hη, mul_comm 2 phi]; rfl
  have hh : hypot (etas q phi).1 (etas q phi).2 = |η| := by rw [e1, e2]; exact hypot_polar _ _
  rw [hh] at p1 p2 ⊢
  have p1' := p1.trans e1
  have p2' := p2.trans e2
  have hq2 : q ^ 2 = Real.exp (-η) := by
    rw [hη, neg_neg, Real.exp_log (by positivity)]
  have hq3 : 1 / q ^ 2 = Real.exp η := by rw [hq2, Real.exp_neg]; simp
  have k : ∀ u v : ℝ, |η| * u = η * v → Real.sinh |η| * u = Real.sinh η * v := by
    intro u v huv
    rcases lt_trichotomy η 0 with hn | hn | hn
    · rw [abs_of_neg hn] at huv ⊢
      rw [Real.sinh_neg]
      have : u = -v := by
        apply mul_left_cancel₀ (ne_of_gt (neg_pos.mpr hn)); linarith
      rw [this]; ring
    · simp [hn]
    · rw [abs_of_pos hn] at huv ⊢
      rw [mul_left_cancel₀ hn.ne' huv]
  rw [Real.cosh_abs, k _ _ p1', k _ _ p2', hq3, hq2, Real.cosh_eq, Real.sinh_eq]
  ext i j
  fin_cases i <;> fin_cases j <;> simp <;> ring

/-! ## The Jacobian -/

lemma dsDeta_eq {ep ec : ℝ} (h : ep ≠ 0 ∨ ec ≠ 0) : dsDeta ep ec =
    !![-(qOf ep ec * ep / (2 * hypot ep ec)), -(ec / (2 * hypot ep ec ^ 2));
       -(qOf ep ec * ec / (2 * hypot ep ec)), ep / (2 * hypot ep ec ^ 2)] := by
  have hp := hypot_pos h
  obtain ⟨h1, h2⟩ := polar ep ec
  have hc : Real.cos (2 * paOf ep ec) = ep / hypot ep ec := by
    field_simp; linarith
  have hs : Real.sin (2 * paOf ep ec) = ec / hypot ep ec := by
    field_simp; linarith
  have hl : Real.log (qOf ep ec ^ 2) = -hypot ep ec := by
    rw [Real.log_pow, qOf, Real.log_exp]; push_cast; ring
  have hq : qOf ep ec ≠ 0 := (Real.exp_pos _).ne'
  unfold dsDeta
  simp only [hc, hs, hl]
  ext i j
  fin_cases i <;> fin_cases j <;>
    simp only [Matrix.mul_apply, Fin.sum_univ_two, Matrix.transpose_apply] <;> simp <;> field_simp

lemma hypot_deriv1 {ep ec : ℝ} (h : ep ≠ 0 ∨ ec ≠ 0) :
    HasDerivAt (fun t => hypot t ec) (ep / hypot ep ec) ep := by
  have hp := hypot_pos h
  have hne : ep ^ 2 + ec ^ 2 ≠ 0 := by rw [← hypot_sq]; positivity
  have h1 : HasDerivAt (fun t : ℝ => t ^ 2 + ec ^ 2) (2 * ep) ep := by
    have := (hasDerivAt_pow 2 ep).add_const (ec ^ 2)
    exact Transform.hdc this (fun _ => rfl) (by push_cast; ring)
  refine Transform.hdc (h1.sqrt hne) (fun _ => rfl) ?_
  unfold hypot
  rw [mul_div_mul_left _ _ two_ne_zero]

lemma hypot_comm (ep ec : ℝ) : hypot ep ec = hypot ec ep := by unfold hypot; rw [add_comm]

lemma hypot_deriv2 {ep ec : ℝ} (h : ep ≠ 0 ∨ ec ≠ 0) :
    HasDerivAt (fun t => hypot ep t) (ec / hypot ep ec) ec := by
  refine Transform.hdc (hypot_deriv1 h.symm) (fun _ => hypot_comm _ _) ?_
  rw [hypot_comm]

lemma q_deriv {f : ℝ → ℝ} {f' t : ℝ} (hf : HasDerivAt f f' t) :
    HasDerivAt (fun s => Real.exp (-(f s) / 2)) (-(Real.exp (-(f t) / 2) * f' / 2)) t := by
  refine Transform.hdc ((hf.neg.div_const 2).exp) (fun _ => rfl) ?_
  simp only [Pi.neg_apply]
  ring

lemma arg_deriv {z : ℝ → ℂ} {z' : ℂ} {t : ℝ} (hz : HasDerivAt z z' t) (hs : z t ∈ Complex.slitPlane) :
    HasDerivAt (fun s => Complex.arg (z s)) (z' / z t).im t := by
  have h1 := hz.clog_real hs
  have h2 := Complex.imCLM.hasFDerivAt.comp_hasDerivAt t h1
  exact Transform.hdc h2 (fun s => by simp [Complex.log_im]) (by simp)

/-- The angle, continued across the branch cut: with `σ = 1` it is `pa`, with `σ = -1` it is the
angle of the opposite vector plus a quarter turn.  Both agree modulo `π`. -/
noncomputable def paBranch (σ : ℝ) (ep ec : ℝ) : ℝ := Complex.arg ⟨σ * ep, σ * ec⟩ / 2

lemma paBranch_deriv {ep ec σ : ℝ} (hσ : σ ^ 2 = 1)
    (hs : (⟨σ * ep, σ * ec⟩ : ℂ) ∈ Complex.slitPlane) (h : ep ≠ 0 ∨ ec ≠ 0) :
    HasDerivAt (fun t => paBranch σ t ec) (-(ec / (2 * hypot ep ec ^ 2))) ep ∧
    HasDerivAt (fun t => paBranch σ ep t) (ep / (2 * hypot ep ec ^ 2)) ec := by
  have hne : ep ^ 2 + ec ^ 2 ≠ 0 := by rw [← hypot_sq]; have := hypot_pos h; positivity
  rw [hypot_sq]
  have e1 : ∀ a b : ℝ, (⟨σ * a, σ * b⟩ : ℂ) = (σ * a : ℂ) + (σ * b : ℂ) * Complex.I := by
    intro a b; apply Complex.ext <;> simp
  have hid : ∀ t : ℝ, HasDerivAt (fun s : ℝ => (s : ℂ)) 1 t := fun t => Complex.ofRealCLM.hasDerivAt
  constructor
  · have hz : HasDerivAt (fun t : ℝ => (⟨σ * t, σ * ec⟩ : ℂ)) (σ : ℂ) ep := by
      have := ((hid ep).const_mul (σ : ℂ)).add_const ((σ * ec : ℂ) * Complex.I)
      rw [mul_one] at this
      have hf : (fun t : ℝ => (⟨σ * t, σ * ec⟩ : ℂ)) = fun t : ℝ => (σ : ℂ) * t + (σ * ec : ℂ) * Complex.I :=
        funext fun t => e1 t ec
      rw [hf]; exact this
    have := (arg_deriv hz hs).div_const 2
    refine Transform.hdc this (fun _ => rfl) ?_
    rw [Complex.div_im]
    simp only [Complex.ofReal_re, Complex.ofReal_im, Complex.normSq_mk]
    rw [show σ * ep * (σ * ep) + σ * ec * (σ * ec) = ep ^ 2 + ec ^ 2 by linear_combination (ep^2+ec^2) * hσ]
    field_simp
    linear_combination ec * hσ
  · have hz : HasDerivAt (fun t : ℝ => (⟨σ * ep, σ * t⟩ : ℂ)) ((σ : ℂ) * Complex.I) ec := by
      have := (((hid ec).const_mul (σ : ℂ)).mul_const Complex.I).const_add (σ * ep : ℂ)
      rw [mul_one] at this
      have hf : (fun t : ℝ => (⟨σ * ep, σ * t⟩ : ℂ)) = fun t : ℝ => (σ * ep : ℂ) + (σ : ℂ) * t * Complex.I :=
        funext fun t => e1 ep t
      rw [hf]; exact this
    have := (arg_deriv hz hs).div_const 2
    refine Transform.hdc this (fun _ => rfl) ?_
    rw [Complex.div_im]
    simp only [Complex.mul_re, Complex.mul_im, Complex.ofReal_re, Complex.ofReal_im, Complex.normSq_mk,
      Complex.I_re, Complex.I_im]
    rw [show σ * ep * (σ * ep) + σ * ec * (σ * ec) = ep ^ 2 + ec ^ 2 by linear_combination (ep^2+ec^2) * hσ]
    field_simp
    linear_combination -ep * hσ

/-- C54 (Jacobian). Away from round sources and from the jump of the angle at `ec = 0, ep < 0`, the
reported matrix holds the partial derivatives of `q` (first column) and `pa` (second column) with
respect to the two shear components (rows). -/
theorem C54_jacobian (ep ec : ℝ) (h : 0 < ep ∨ ec ≠ 0) :
    HasDerivAt (fun t => qOf t ec) (dsDeta ep ec 0 0) ep ∧
    HasDerivAt (fun t => qOf ep t) (dsDeta ep ec 1 0) ec ∧
    HasDerivAt (fun t => paOf t ec) (dsDeta ep ec 0 1) ep ∧
    HasDerivAt (fun t => paOf ep t) (dsDeta ep ec 1 1) ec := by
  have hne : ep ≠ 0 ∨ ec ≠ 0 := h.imp ne_of_gt id
  rw [dsDeta_eq hne]
  obtain ⟨d1, d2⟩ := paBranch_deriv (ep := ep) (ec := ec) (σ := 1) (by norm_num)
    (by rw [one_mul, one_mul]; exact Complex.mem_slitPlane_iff.mpr h) hne
  refine ⟨?_, ?_, ?_, ?_⟩
  · refine Transform.hdc (q_deriv (hypot_deriv1 hne)) (fun _ => rfl) ?_
    show -(qOf ep ec * ep / (2 * hypot ep ec)) = -(qOf ep ec * (ep / hypot ep ec) / 2)
    have := (hypot_pos hne).ne'
    field_simp
  · refine Transform.hdc (q_deriv (hypot_deriv2 hne)) (fun _ => rfl) ?_
    show -(qOf ep ec * ec / (2 * hypot ep ec)) = -(qOf ep ec * (ec / hypot ep ec) / 2)
    have := (hypot_pos hne).ne'
    field_simp
  · exact Transform.hdc d1 (fun t => by simp [paBranch, paOf, arctan2]) rfl
  · exact Transform.hdc d2 (fun t => by simp [paBranch, paOf, arctan2]) rfl

lemma arg_neg_mod (a b : ℝ) (h : a ≠ 0 ∨ b ≠ 0) :
    ∃ k : ℤ, paOf a b = paBranch (-1) a b + Real.pi / 2 + k * Real.pi := by
  have hp := hypot_pos h
  obtain ⟨p1, p2⟩ := polar (-1 * a) (-1 * b)
  have hh : hypot (-1 * a) (-1 * b) = hypot a b := by unfold hypot; ring_nf
  rw [hh] at p1 p2
  obtain ⟨k, hk⟩ := arctan2_polar hp (2 * paOf (-1 * a) (-1 * b) + Real.pi)
  rw [Real.sin_add_pi, Real.cos_add_pi, mul_neg, mul_neg, p1, p2] at hk
  refine ⟨k, ?_⟩
  have e : paBranch (-1) a b = paOf (-1 * a) (-1 * b) := rfl
  rw [e]
  unfold paOf at hk ⊢
  simp only [neg_mul, one_mul, neg_neg] at hk ⊢
  rw [hk]; ring

lemma periodic_int {F : ℝ × ℝ → ℝ} (hF : ∀ q p, F (q, p + Real.pi) = F (q, p)) (q p : ℝ) (k : ℤ) :
    F (q, p + k * Real.pi) = F (q, p) := by
  have h : Function.Periodic (fun p => F (q, p)) Real.pi := fun p => hF q p
  exact h.int_mul k p

/-- C54 (gradients). Let `F` be any quantity computed from `q` and `pa` that does not change when the
position angle changes by `π`, differentiable at the current shape. Then for every source that is not
round, the converted gradients are the derivatives of `F` with respect to the shear components; the
jump of the angle does not matter. -/
theorem C54_gradient (F : ℝ × ℝ → ℝ) (hF : ∀ q p, F (q, p + Real.pi) = F (q, p))
    (ep ec : ℝ) (h : ep ≠ 0 ∨ ec ≠ 0) (F' : ℝ × ℝ →L[ℝ] ℝ)
    (hd : HasFDerivAt F F' (qOf ep ec, paOf ep ec)) :
    HasDerivAt (fun t => F (qOf t ec, paOf t ec))
      (convertGrad ep ec (F' (1, 0)) (F' (0, 1))).1 ep ∧
    HasDerivAt (fun t => F (qOf ep t, paOf ep t))
      (convertGrad ep ec (F' (1, 0)) (F' (0, 1))).2 ec := by
  have hlin : ∀ a b : ℝ, F' (a, b) = a * F' (1, 0) + b * F' (0, 1) := by
    intro a b
    have : ((a, b) : ℝ × ℝ) = a • ((1 : ℝ), (0 : ℝ)) + b • ((0 : ℝ), (1 : ℝ)) := by simp
    rw [this, map_add, map_smul, map_smul, smul_eq_mul, smul_eq_mul]
  have hq1 : HasDerivAt (fun t => qOf t ec) (dsDeta ep ec 0 0) ep := by
    rw [dsDeta_eq h]
    refine Transform.hdc (q_deriv (hypot_deriv1 h)) (fun _ => rfl) ?_
    show -(qOf ep ec * ep / (2 * hypot ep ec)) = -(qOf ep ec * (ep / hypot ep ec) / 2)
    have := (hypot_pos h).ne'
    field_simp
  have hq2 : HasDerivAt (fun t => qOf ep t) (dsDeta ep ec 1 0) ec := by
    rw [dsDeta_eq h]
    refine Transform.hdc (q_deriv (hypot_deriv2 h)) (fun _ => rfl) ?_
    show -(qOf ep ec * ec / (2 * hypot ep ec)) = -(qOf ep ec * (ec / hypot ep ec) / 2)
    have := (hypot_pos h).ne'
    field_simp
  have c1 : (convertGrad ep ec (F' (1, 0)) (F' (0, 1))).1 =
      F' (dsDeta ep ec 0 0, dsDeta ep ec 0 1) := by
    rw [hlin (dsDeta _ _ _ _)]; simp [convertGrad, Matrix.mulVec, dotProduct, Fin.sum_univ_two]
  have c2 : (convertGrad ep ec (F' (1, 0)) (F' (0, 1))).2 =
      F' (dsDeta ep ec 1 0, dsDeta ep ec 1 1) := by
    rw [hlin (dsDeta _ _ _ _)]; simp [convertGrad, Matrix.mulVec, dotProduct, Fin.sum_univ_two]
  rw [c1, c2]
  by_cases hs : 0 < ep ∨ ec ≠ 0
  · obtain ⟨_, _, j3, j4⟩ := C54_jacobian ep ec hs
    exact ⟨hd.comp_hasDerivAt ep (hq1.prodMk j3), hd.comp_hasDerivAt ec (hq2.prodMk j4)⟩
  · push Not at hs
    obtain ⟨hs1, hs2⟩ := hs
    have hep : ep < 0 := lt_of_le_of_ne hs1 (h.resolve_right (by simp [hs2]))
    obtain ⟨d1, d2⟩ := paBranch_deriv (ep := ep) (ec := ec) (σ := -1) (by norm_num)
      (Complex.mem_slitPlane_iff.mpr (Or.inl (by simpa using hep))) h
    have e1 : dsDeta ep ec 0 1 = -(ec / (2 * hypot ep ec ^ 2)) := by rw [dsDeta_eq h]; rfl
    have e2 : dsDeta ep ec 1 1 = ep / (2 * hypot ep ec ^ 2) := by rw [dsDeta_eq h]; rfl
    have hper : ∀ a b : ℝ, (a ≠ 0 ∨ b ≠ 0) →
        F (qOf a b, paOf a b) = F (qOf a b, paBranch (-1) a b + Real.pi / 2) := by
      intro a b hab
      obtain ⟨k, hk⟩ := arg_neg_mod a b hab
      rw [hk]; exact periodic_int hF _ _ k
    have hd' : HasFDerivAt F F' (qOf ep ec, paBranch (-1) ep ec + Real.pi / 2) := by
      obtain ⟨k, hk⟩ := arg_neg_mod ep ec h
      have hsh : (fun x : ℝ × ℝ => F (x + (0, (k : ℝ) * Real.pi))) = F := by
        funext x
        have := periodic_int hF x.1 x.2 k
        have e : x + (0, (k : ℝ) * Real.pi) = (x.1, x.2 + k * Real.pi) := by
          apply Prod.ext <;> simp
        show F (x + _) = F x
        rw [e, this]
      rw [hk] at hd
      have hc : HasFDerivAt (fun x : ℝ × ℝ => x + (0, (k : ℝ) * Real.pi)) (ContinuousLinearMap.id ℝ (ℝ × ℝ))
          (qOf ep ec, paBranch (-1) ep ec + Real.pi / 2) := (hasFDerivAt_id _).add_const _
      have hcomp := HasFDerivAt.comp (qOf ep ec, paBranch (-1) ep ec + Real.pi / 2)
        (g := F) (f := fun x : ℝ × ℝ => x + (0, (k : ℝ) * Real.pi))
        (by simpa using hd) hc
      rw [ContinuousLinearMap.comp_id] at hcomp
      have : F ∘ (fun x : ℝ × ℝ => x + (0, (k : ℝ) * Real.pi)) = F := hsh
      rwa [this] at hcomp
    constructor
    · have := hd'.comp_hasDerivAt ep (hq1.prodMk (d1.add_const (Real.pi / 2)))
      rw [e1]
      refine this.congr_of_eventuallyEq ?_
      filter_upwards [Iio_mem_nhds hep] with t ht
      exact hper t ec (Or.inl (ne_of_lt ht))
    · have := hd'.comp_hasDerivAt ec (hq2.prodMk (d2.add_const (Real.pi / 2)))
      rw [e2]
      refine this.congr_of_eventuallyEq ?_
      filter_upwards with t
      exact hper ep t (Or.inl (ne_of_lt hep))

/-- The restriction to sources that are not round is necessary: there the axis ratio has a kink, and
the reported matrix divides by `log 1 = 0`. -/
theorem C54_round_singular :
    ¬ DifferentiableAt ℝ (fun t => qOf t 0) 0 ∧ 2 * Real.log (qOf 0 0 ^ 2) = 0 := by
  constructor
  · intro h
    have h0 : qOf 0 0 ≠ 0 := (Real.exp_pos _).ne'
    have h1 := (h.log h0).const_mul (-2)
    apply not_differentiableAt_abs_zero
    have : (fun y => -2 * Real.log (qOf y 0)) = fun y : ℝ => |y| := by
      funext y
      rw [qOf, Real.log_exp, hypot]
      rw [show y ^ 2 + (0 : ℝ) ^ 2 = y ^ 2 by ring, Real.sqrt_sq_eq_abs]
      ring
    rw [this] at h1
    exact h1
  · simp [qOf, hypot]

/-- A quantity satisfying the hypotheses of `C54_gradient`: the first entry of the covariance shape,
at the jump of the angle. -/
example : ∃ F' : ℝ × ℝ →L[ℝ] ℝ,
    HasFDerivAt (fun x : ℝ × ℝ => x.1 * Real.cos (2 * x.2)) F' (qOf (-1) 0, paOf (-1) 0) ∧
    (∀ q p : ℝ, q * Real.cos (2 * (p + Real.pi)) = q * Real.cos (2 * p)) ∧ F' (1, 0) = -1 := by
  have hpa : paOf (-1) 0 = Real.pi / 2 := by
    have : (⟨-1, 0⟩ : ℂ) = -1 := by apply Complex.ext <;> simp
    unfold paOf arctan2; rw [this, Complex.arg_neg_one]
  have h1 : HasFDerivAt (fun x : ℝ × ℝ => x.1) (ContinuousLinearMap.fst ℝ ℝ ℝ) (qOf (-1) 0, paOf (-1) 0) :=
    hasFDerivAt_fst
  have h2 : HasFDerivAt (fun x : ℝ × ℝ => x.2) (ContinuousLinearMap.snd ℝ ℝ ℝ) (qOf (-1) 0, paOf (-1) 0) :=
    hasFDerivAt_snd
  refine ⟨_, h1.mul ((h2.const_mul 2).cos), ?_, ?_⟩
  · intro q p
    rw [mul_add, Real.cos_add_two_pi]
  · simp [hpa, mul_div_cancel₀]

end Forcepho.Shear
