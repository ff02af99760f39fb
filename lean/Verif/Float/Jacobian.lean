import Verif.Float.Gradient

/-! # The Jacobian of an image gaussian in single precision

The second part of `GetGaussianAndJacobian` (common_kernel.cc:198-239), every operation rounded to 24 bits, against the
derivatives of the shape and amplitude of `Verif.Float.Build`, over the reals.  Overflow and underflow are left out.  The
oracle `c` says which products are fused with the addition that uses them, as in `Verif.Float.Gradient`. -/

set_option autoImplicit false

namespace Forcepho.Float

/-- `scale_matrix_deriv` (matrix22.cc:85-88). -/
noncomputable def scaleD (q : ℝ) : Mat := ⟨fl 24 (-1 / fl 24 (q * q)), 0, 0, 1⟩

/-- `rotation_matrix_deriv` (matrix22.cc:75-79). -/
def rotD (cs sn : ℝ → ℝ) (pa : ℝ) : Mat := ⟨-sn pa, -cs pa, cs pa, -sn pa⟩

/-- `sersicgauss.dT_dq = D * R * dS_dq` (compute_gaussians_kernel.cc:88). -/
noncomputable def tqM (fma : Bool) (cs sn : ℝ → ℝ) (i : Parts) : Mat :=
  mulM fma (mulM fma i.D (rotM cs sn i.pa)) (scaleD i.q)

/-- `sersicgauss.dT_dpa = D * dR_dpa * S` (compute_gaussians_kernel.cc:89). -/
noncomputable def tpaM (fma : Bool) (cs sn : ℝ → ℝ) (i : Parts) : Mat :=
  mulM fma (mulM fma i.D (rotD cs sn i.pa)) (scaleM i.q)

/-- `symABt` (matrix22.cc:164-167). -/
noncomputable def symM (c : Nat → Bool) (A B : Mat) : Mat :=
  let tmp := fl 24 (fl 24 (dot c 0 A.v11 A.v12 B.v21 B.v22 + rd c 2 (A.v21 * B.v11)) + rd c 3 (A.v22 * B.v12))
  ⟨fl 24 (2 * dot c 4 A.v11 A.v12 B.v11 B.v12), tmp, tmp, fl 24 (2 * dot c 6 A.v21 A.v22 B.v21 B.v22)⟩

/-- A product of three factors that is added to something. -/
noncomputable def tri (c : Nat → Bool) (k : Nat) (x y z : ℝ) : ℝ := rd c k (fl 24 (x * y) * z)

/-- Four numbers added from the left. -/
noncomputable def add4 (x y z w : ℝ) : ℝ := fl 24 (fl 24 (fl 24 (x + y) + z) + w)

/-- `ABA` (matrix22.cc:144-150). -/
noncomputable def abaM (c : Nat → Bool) (A B : Mat) : Mat :=
  ⟨add4 (tri c 8 A.v11 A.v11 B.v11) (tri c 9 A.v11 A.v21 B.v12) (tri c 10 A.v11 A.v12 B.v21) (tri c 11 A.v12 A.v21 B.v22),
    add4 (tri c 12 A.v11 A.v12 B.v11) (tri c 13 A.v11 A.v22 B.v12) (tri c 14 A.v12 A.v12 B.v21) (tri c 15 A.v12 A.v22 B.v22),
    add4 (tri c 16 A.v11 A.v21 B.v11) (tri c 17 A.v21 A.v21 B.v12) (tri c 18 A.v11 A.v22 B.v21) (tri c 19 A.v21 A.v22 B.v22),
    add4 (tri c 20 A.v12 A.v21 B.v11) (tri c 21 A.v21 A.v22 B.v12) (tri c 22 A.v12 A.v22 B.v21) (tri c 23 A.v22 A.v22 B.v22)⟩

/-- `dF_dq` and `dF_dpa` (common_kernel.cc:200-206): `X` is the derivative of `T`. -/
noncomputable def dfM (fma : Bool) (c : Nat → Bool) (cs sn : ℝ → ℝ) (i : Parts) (X : Mat) : Mat :=
  smulM (-1) (abaM c (invM fma (covM fma cs sn i)) (smulM i.rad2 (symM c (tM fma cs sn i) X)))

/-- `0.5f*gauss.amp * (covar * dF).trace()` (common_kernel.cc:215-216). -/
noncomputable def ampD (c : Nat → Bool) (amp : ℝ) (S F : Mat) : ℝ :=
  fl 24 (fl 24 (1 / 2 * amp) * fl 24 (dot c 24 S.v11 S.v12 F.v11 F.v21 + dot c 26 S.v21 S.v22 F.v12 F.v22))

/-- The factor `tmp` of the amplitude (common_kernel.cc:194). -/
noncomputable def ampTmp (fma : Bool) (cs sn : ℝ → ℝ) (i : Parts) : ℝ :=
  fl 24 (fl 24 (fl 24 (i.G * i.pamp) * fl 24 (Real.sqrt (detM fma (invM fma (covM fma cs sn i))))) * invTwoPi)

/-- The Jacobian (common_kernel.cc:198-239): `dn` and `dr` are the derivatives of the weight of the component with
index and radius, `CW` the matrix from sky to pixels. -/
noncomputable def buildJac (fma : Bool) (c : Nat → Bool) (cs sn : ℝ → ℝ) (i : Parts) (dn dr : ℝ) (CW : Mat) : Jac :=
  let dq := dfM fma c cs sn i (tqM fma cs sn i)
  let dpa := dfM fma (fun n => c (n + 32)) cs sn i (tpaM fma cs sn i)
  let tmp := ampTmp fma cs sn i
  let amp := fl 24 (fl 24 (tmp * i.flux) * i.samp)
  { aFlux := fl 24 (tmp * i.samp)
    xAlpha := CW.v11
    yAlpha := CW.v21
    xDelta := CW.v12
    yDelta := CW.v22
    aQ := ampD c amp (covM fma cs sn i) dq
    fxxQ := dq.v11
    fyyQ := dq.v22
    fxyQ := dq.v21
    aPA := ampD (fun n => c (n + 32)) amp (covM fma cs sn i) dpa
    fxxPA := dpa.v11
    fyyPA := dpa.v22
    fxyPA := dpa.v21
    aSersic := fl 24 (fl 24 (tmp * i.flux) * dn)
    aRh := fl 24 (fl 24 (tmp * i.flux) * dr) }

/-! ## Specification -/

/-- The size of the terms of the derivative of the shape with axis ratio. -/
noncomputable def sizeTq (i : Parts) : Matrix (Fin 2) (Fin 2) ℝ :=
  !![|i.D.v11|, |i.D.v12|; |i.D.v21|, |i.D.v22|] *
    !![|Real.cos i.pa|, |Real.sin i.pa|; |Real.sin i.pa|, |Real.cos i.pa|] * !![1 / i.q ^ 2, 0; 0, 1]

/-- The size of the terms of the derivative of the shape with position angle. -/
noncomputable def sizeTpa (i : Parts) : Matrix (Fin 2) (Fin 2) ℝ :=
  !![|i.D.v11|, |i.D.v12|; |i.D.v21|, |i.D.v22|] *
    !![|Real.sin i.pa|, |Real.cos i.pa|; |Real.cos i.pa|, |Real.sin i.pa|] * !![1 / i.q, 0; 0, i.q]

/-- The size of the terms of the derivative of the covariance, in units of the covariance. -/
noncomputable def spread (i : Parts) (X : Matrix (Fin 2) (Fin 2) ℝ) : ℝ :=
  form (i.rad2 • (sizeT i * X.transpose + X * (sizeT i).transpose))
    (Real.sqrt ((trueCov i)⁻¹ 0 0)) (Real.sqrt ((trueCov i)⁻¹ 1 1))

/-- The size of the terms of the covariance, in the same units. -/
noncomputable def covSize (i : Parts) : ℝ :=
  form (sizeCov i) (Real.sqrt ((trueCov i)⁻¹ 0 0)) (Real.sqrt ((trueCov i)⁻¹ 1 1))

/-! ## Derivatives of the exact gaussian -/

/-- The derivative of the inverse of a symmetric matrix. -/
lemma inv_deriv {a b c : ℝ → ℝ} {a' b' c' t : ℝ} (ha : HasDerivAt a a' t) (hb : HasDerivAt b b' t)
    (hc : HasDerivAt c c' t) (hd : a t * c t - b t ^ 2 ≠ 0) (f11 f12 f22 : ℝ)
    (h11 : f11 = c t / (a t * c t - b t ^ 2)) (h12 : f12 = -b t / (a t * c t - b t ^ 2))
    (h22 : f22 = a t / (a t * c t - b t ^ 2)) :
    HasDerivAt (fun s => c s / (a s * c s - b s ^ 2))
      (-(f11 * f11 * a' + 2 * (f11 * f12 * b') + f12 * f12 * c')) t ∧
    HasDerivAt (fun s => -b s / (a s * c s - b s ^ 2))
      (-(f11 * f12 * a' + (f11 * f22 + f12 * f12) * b' + f12 * f22 * c')) t ∧
    HasDerivAt (fun s => a s / (a s * c s - b s ^ 2))
      (-(f12 * f12 * a' + 2 * (f12 * f22 * b') + f22 * f22 * c')) t := by
  have hD := (ha.mul hc).sub (hb.pow 2)
  refine ⟨?_, ?_, ?_⟩
  · refine Transform.hdc (hc.div hD hd) (fun _ => rfl) ?_
    subst h11 h12 h22
    simp only [Pi.mul_apply, Pi.sub_apply, Pi.pow_apply]
    field_simp
    ring
  · refine Transform.hdc (hb.neg.div hD hd) (fun _ => rfl) ?_
    subst h11 h12 h22
    simp only [Pi.mul_apply, Pi.sub_apply, Pi.pow_apply, Pi.neg_apply]
    field_simp
    ring
  · refine Transform.hdc (ha.div hD hd) (fun _ => rfl) ?_
    subst h11 h12 h22
    simp only [Pi.mul_apply, Pi.sub_apply, Pi.pow_apply]
    field_simp
    ring

/-- The trace of the covariance with the derivative of its inverse. -/
lemma trace_eq {a b c a' b' c' D : ℝ} (hD : a * c - b ^ 2 = D) (h0 : D ≠ 0) :
    (a * -(c / D * (c / D) * a' + 2 * (c / D * (-b / D) * b') + -b / D * (-b / D) * c') +
      b * -(c / D * (-b / D) * a' + (c / D * (a / D) + -b / D * (-b / D)) * b' + -b / D * (a / D) * c')) +
    (b * -(c / D * (-b / D) * a' + (c / D * (a / D) + -b / D * (-b / D)) * b' + -b / D * (a / D) * c') +
      c * -(-b / D * (-b / D) * a' + 2 * (-b / D * (a / D) * b') + a / D * (a / D) * c')) =
    -((a' * c + a * c' - 2 * b * b') / D) := by
  subst hD
  field_simp
  ring

/-- The derivative of a number over the square root of the determinant. -/
lemma amp_deriv {a b c : ℝ → ℝ} {a' b' c' t : ℝ} (ha : HasDerivAt a a' t) (hb : HasDerivAt b b' t)
    (hc : HasDerivAt c c' t) (hd : 0 < a t * c t - b t ^ 2) (k f11 f12 f22 g11 g12 g22 : ℝ)
    (h11 : f11 = c t / (a t * c t - b t ^ 2)) (h12 : f12 = -b t / (a t * c t - b t ^ 2))
    (h22 : f22 = a t / (a t * c t - b t ^ 2))
    (e11 : g11 = -(f11 * f11 * a' + 2 * (f11 * f12 * b') + f12 * f12 * c'))
    (e12 : g12 = -(f11 * f12 * a' + (f11 * f22 + f12 * f12) * b' + f12 * f22 * c'))
    (e22 : g22 = -(f12 * f12 * a' + 2 * (f12 * f22 * b') + f22 * f22 * c')) :
    HasDerivAt (fun s => k / (2 * Real.pi * Real.sqrt (a s * c s - b s ^ 2)))
      (1 / 2 * (k / (2 * Real.pi * Real.sqrt (a t * c t - b t ^ 2))) *
        ((a t * g11 + b t * g12) + (b t * g12 + c t * g22))) t := by
  have hD := (ha.mul hc).sub (hb.pow 2)
  have hp := Real.pi_pos
  have sp := Real.sqrt_pos.2 hd
  have ss := Real.sq_sqrt hd.le
  have hs := (hD.sqrt hd.ne').const_mul (2 * Real.pi)
  have hne : 2 * Real.pi * Real.sqrt (a t * c t - b t ^ 2) ≠ 0 := by positivity
  refine Transform.hdc ((hasDerivAt_const t k).div hs hne) (fun _ => rfl) ?_
  subst e11 e12 e22
  subst h11 h12 h22
  simp only [Pi.mul_apply, Pi.sub_apply, Pi.pow_apply]
  generalize hD' : a t * c t - b t ^ 2 = D at *
  rw [trace_eq hD' hd.ne']
  generalize Real.sqrt D = r at *
  subst ss
  field_simp
  ring

/-- Inverse covariance and amplitude along a curve of parameters. -/
lemma curve_deriv (j : ℝ → Parts) (k t : ℝ) {A B C : ℝ → ℝ} (hj : ∀ s, trueCov (j s) = !![A s, B s; B s, C s])
    (hk : ∀ s, (j s).flux * (j s).G * (j s).samp * (j s).pamp = k) {a' b' c' : ℝ} (ha : HasDerivAt A a' t)
    (hb : HasDerivAt B b' t) (hc : HasDerivAt C c' t) (hd : 0 < A t * C t - B t ^ 2) (f11 f12 f22 g11 g12 g22 : ℝ)
    (h11 : f11 = C t / (A t * C t - B t ^ 2)) (h12 : f12 = -B t / (A t * C t - B t ^ 2))
    (h22 : f22 = A t / (A t * C t - B t ^ 2))
    (e11 : g11 = -(f11 * f11 * a' + 2 * (f11 * f12 * b') + f12 * f12 * c'))
    (e12 : g12 = -(f11 * f12 * a' + (f11 * f22 + f12 * f12) * b' + f12 * f22 * c'))
    (e22 : g22 = -(f12 * f12 * a' + 2 * (f12 * f22 * b') + f22 * f22 * c')) :
    (∀ r s, HasDerivAt (fun u => (trueCov (j u))⁻¹ r s) ((!![g11, g12; g12, g22] : Matrix (Fin 2) (Fin 2) ℝ) r s) t) ∧
    HasDerivAt (fun u => trueAmp (j u))
      (1 / 2 * trueAmp (j t) * ((A t * g11 + B t * g12) + (B t * g12 + C t * g22))) t := by
  obtain ⟨d1, d2, d3⟩ := inv_deriv ha hb hc hd.ne' f11 f12 f22 h11 h12 h22
  have d4 := amp_deriv ha hb hc hd k f11 f12 f22 g11 g12 g22 h11 h12 h22 e11 e12 e22
  rw [← e11] at d1
  rw [← e12] at d2
  rw [← e22] at d3
  have hA : ∀ u, trueAmp (j u) = k / (2 * Real.pi * Real.sqrt (A u * C u - B u ^ 2)) := by
    intro u
    rw [trueAmp, hj, hk, Matrix.det_fin_two_of, sq]
  refine ⟨fun r s => ?_, ?_⟩
  · simp only [hj, inv_eq]
    fin_cases r <;> fin_cases s
    · exact d1
    · exact d2
    · exact d2
    · exact d3
  · simp only [hA]
    exact d4

/-! ## Rounding -/

lemma Ap.tri {r s t x' x X y' y Y z' z Z : ℝ} (c : Nat → Bool) (k : Nat) (hx : Ap r x' x X) (hy : Ap s y' y Y)
    (hz : Ap t z' z Z) : Ap (r * s * t * w1 ^ 2) (tri c k x' y' z') (x * y * z) (X * Y * Z) :=
  (((hx.mul hy).fl1.mul hz).rd c k).to (by ring)

lemma Ap.add4 {r x' x X y' y Y z' z Z w' w W : ℝ} (hx : Ap r x' x X) (hy : Ap r y' y Y) (hz : Ap r z' z Z)
    (hw : Ap r w' w W) : Ap (r * w1 ^ 3) (add4 x' y' z' w') (x + y + z + w) (X + Y + Z + W) := by
  have h0 : 0 ≤ r := by have := hx.1; linarith
  have h1 := ((hx.add hy).fl1).to (show _ = r * w1 ^ 1 by ring)
  have hz1 := (hz.to (show r = r * w1 ^ 0 by ring)).up (l := 1) (by norm_num) h0
  have h2 := ((h1.add hz1).fl1).to (show _ = r * w1 ^ 2 by ring)
  have hw1 := (hw.to (show r = r * w1 ^ 0 by ring)).up (l := 2) (by norm_num) h0
  exact ((h2.add hw1).fl1).to (by ring)

lemma Ap.of_eq {r x' x y X Y : ℝ} (h : Ap r x' x X) (e : x = y) (e' : X = Y) : Ap r x' y Y := e ▸ e' ▸ h

lemma aba_ap (c : Nat → Bool) (f S : Mat) {ρ σ F11 F12 F22 b1 b2 d11 d12 d22 z11 z12 z22 : ℝ}
    (h11 : Ap ρ f.v11 F11 (b1 * b1)) (h12 : Ap ρ f.v12 F12 (b1 * b2)) (h21 : Ap ρ f.v21 F12 (b1 * b2))
    (h22 : Ap ρ f.v22 F22 (b2 * b2)) (s11 : Ap σ S.v11 d11 z11) (s12 : Ap σ S.v12 d12 z12) (s21 : Ap σ S.v21 d12 z12)
    (s22 : Ap σ S.v22 d22 z22) :
    Ap (ρ ^ 2 * σ * w1 ^ 5) (abaM c f S).v11 (F11 * F11 * d11 + 2 * (F11 * F12 * d12) + F12 * F12 * d22)
      (b1 * b1 * (z11 * b1 ^ 2 + 2 * z12 * b1 * b2 + z22 * b2 ^ 2)) ∧
    Ap (ρ ^ 2 * σ * w1 ^ 5) (abaM c f S).v12 (F11 * F12 * d11 + (F11 * F22 + F12 * F12) * d12 + F12 * F22 * d22)
      (b1 * b2 * (z11 * b1 ^ 2 + 2 * z12 * b1 * b2 + z22 * b2 ^ 2)) ∧
    Ap (ρ ^ 2 * σ * w1 ^ 5) (abaM c f S).v21 (F11 * F12 * d11 + (F11 * F22 + F12 * F12) * d12 + F12 * F22 * d22)
      (b1 * b2 * (z11 * b1 ^ 2 + 2 * z12 * b1 * b2 + z22 * b2 ^ 2)) ∧
    Ap (ρ ^ 2 * σ * w1 ^ 5) (abaM c f S).v22 (F12 * F12 * d11 + 2 * (F12 * F22 * d12) + F22 * F22 * d22)
      (b2 * b2 * (z11 * b1 ^ 2 + 2 * z12 * b1 * b2 + z22 * b2 ^ 2)) := by
  refine ⟨?_, ?_, ?_, ?_⟩
  · exact ((Ap.add4 (Ap.tri c 8 h11 h11 s11) (Ap.tri c 9 h11 h21 s12) (Ap.tri c 10 h11 h12 s21)
      (Ap.tri c 11 h12 h21 s22)).to (by ring)).of_eq (by ring) (by ring)
  · exact ((Ap.add4 (Ap.tri c 12 h11 h12 s11) (Ap.tri c 13 h11 h22 s12) (Ap.tri c 14 h12 h12 s21)
      (Ap.tri c 15 h12 h22 s22)).to (by ring)).of_eq (by ring) (by ring)
  · exact ((Ap.add4 (Ap.tri c 16 h11 h21 s11) (Ap.tri c 17 h21 h21 s12) (Ap.tri c 18 h11 h22 s21)
      (Ap.tri c 19 h21 h22 s22)).to (by ring)).of_eq (by ring) (by ring)
  · exact ((Ap.add4 (Ap.tri c 20 h12 h21 s11) (Ap.tri c 21 h21 h22 s12) (Ap.tri c 22 h12 h22 s21)
      (Ap.tri c 23 h22 h22 s22)).to (by ring)).of_eq (by ring) (by ring)

/-- The derivative of the covariance: 25 roundings. -/
lemma sym_ap (c : Nat → Bool) (T X : Mat) {rad t11 t12 t21 t22 z11 z12 z21 z22 x11 x12 x21 x22 y11 y12 y21 y22 : ℝ}
    (hr : 0 ≤ rad)
    (h11 : Ap (w1 ^ 9) T.v11 t11 z11) (h12 : Ap (w1 ^ 9) T.v12 t12 z12) (h21 : Ap (w1 ^ 9) T.v21 t21 z21)
    (h22 : Ap (w1 ^ 9) T.v22 t22 z22) (k11 : Ap (w1 ^ 11) X.v11 x11 y11) (k12 : Ap (w1 ^ 11) X.v12 x12 y12)
    (k21 : Ap (w1 ^ 11) X.v21 x21 y21) (k22 : Ap (w1 ^ 11) X.v22 x22 y22) :
    Ap (w1 ^ 25) (smulM rad (symM c T X)).v11 (rad * (2 * (t11 * x11 + t12 * x12))) (rad * (2 * (z11 * y11 + z12 * y12))) ∧
    Ap (w1 ^ 25) (smulM rad (symM c T X)).v12 (rad * (t11 * x21 + t12 * x22 + t21 * x11 + t22 * x12))
      (rad * (z11 * y21 + z12 * y22 + z21 * y11 + z22 * y12)) ∧
    Ap (w1 ^ 25) (smulM rad (symM c T X)).v22 (rad * (2 * (t21 * x21 + t22 * x22))) (rad * (2 * (z21 * y21 + z22 * y22))) := by
  have r2 : Ap 1 rad rad rad := by
    have := Ap.refl rad
    rwa [abs_of_nonneg hr] at this
  have t2 : Ap 1 (2 : ℝ) 2 2 := by
    have := Ap.refl (2 : ℝ)
    rwa [abs_of_nonneg (by norm_num)] at this
  have w0 : (0 : ℝ) ≤ 1 := zero_le_one
  refine ⟨?_, ?_, ?_⟩
  · have h := ((t2.mul (Ap.dot c 4 h11 h12 k11 k12)).fl1).to (show _ = 1 * w1 ^ 23 by ring)
    have h := h.up (l := 24) (by norm_num) w0
    exact ((r2.mul h).fl1).to (by ring)
  · have e1 := (Ap.dot c 0 h11 h12 k21 k22).to (show _ = 1 * w1 ^ 22 by ring)
    have e2 := (((h21.mul k11).rd c 2).to (show _ = 1 * w1 ^ 21 by ring)).up (l := 22) (by norm_num) w0
    have e3 := (((h22.mul k12).rd c 3).to (show _ = 1 * w1 ^ 21 by ring)).up (l := 23) (by norm_num) w0
    have e4 := ((e1.add e2).fl1).to (show _ = 1 * w1 ^ 23 by ring)
    have e5 := ((e4.add e3).fl1).to (show _ = 1 * w1 ^ 24 by ring)
    exact ((r2.mul e5).fl1).to (by ring)
  · have h := ((t2.mul (Ap.dot c 6 h21 h22 k21 k22)).fl1).to (show _ = 1 * w1 ^ 23 by ring)
    have h := h.up (l := 24) (by norm_num) w0
    exact ((r2.mul h).fl1).to (by ring)

/-- Entries of a form that is close to another in every direction. -/
lemma pol {a b c a' b' c' t b1 b2 : ℝ} (p1 : 0 < b1) (p2 : 0 < b2) (e1 : b1 * b1 = a) (e2 : b2 * b2 = c) (hb : b ^ 2 ≤ a * c)
    (t0 : 0 ≤ t) (h : ∀ x y, |frm a' b' c' x y - frm a b c x y| ≤ t * frm a b c x y) :
    Ap (1 + t) a' a (b1 * b1) ∧ Ap (1 + t) b' b (b1 * b2) ∧ Ap (1 + t) c' c (b2 * b2) := by
  have q1 := mul_pos p1 p1
  have q2 := mul_pos p2 p2
  refine ⟨⟨by linarith, ?_, ?_⟩, ⟨by linarith, ?_, ?_⟩, ⟨by linarith, ?_, ?_⟩⟩
  · have := h 1 0
    simp only [frm] at this
    rw [e1]
    convert this using 2 <;> ring_nf
  · rw [e1, abs_of_nonneg (by linarith)]
  · have u := abs_le.1 (h b2 b1)
    have v := abs_le.1 (h b2 (-b1))
    simp only [frm] at u v
    have p := mul_pos p1 p2
    rw [abs_le]
    subst e1 e2
    constructor
    · refine le_of_mul_le_mul_left (a := 4 * (b1 * b2)) ?_ (by linarith)
      linarith [u.1, v.2]
    · refine le_of_mul_le_mul_left (a := 4 * (b1 * b2)) ?_ (by linarith)
      linarith [u.2, v.1]
  · apply abs_le_of_sq_le_sq _ (mul_pos p1 p2).le
    calc b ^ 2 ≤ a * c := hb
      _ = (b1 * b2) ^ 2 := by rw [← e1, ← e2]; ring
  · have := h 0 1
    simp only [frm] at this
    rw [e2]
    convert this using 2 <;> ring_nf
  · rw [e2, abs_of_nonneg (by linarith)]

lemma num_df {K : ℝ} (K1 : 1 ≤ K) (hK : K ≤ 2 ^ 10) : (1 + K / 2 ^ 19) ^ 2 * w1 ^ 25 * w1 ^ 5 * w1 ≤ 1 + 3 * K / 2 ^ 19 := by
  have e : (1 + K / 2 ^ 19) ^ 2 * w1 ^ 25 * w1 ^ 5 * w1 = (1 + K / 2 ^ 19) ^ 2 * w1 ^ 31 := by ring
  have w : w1 ^ 31 ≤ 1 + 311 / 10 / 2 ^ 24 := by rw [w1]; norm_num
  have h1 : (1 + K / 2 ^ 19) ^ 2 ≤ 1 + 641 / 10 / 2 ^ 24 * K := by nlinarith
  have h2 := mul_le_mul h1 w (by rw [w1]; positivity) (by positivity)
  rw [e]
  nlinarith

lemma num_da {K : ℝ} (K1 : 1 ≤ K) (hK : K ≤ 2 ^ 10) :
    (1 + 3 * K / 2 ^ 20) * (w1 ^ 22 * (1 + 3 * K / 2 ^ 19)) * w1 ^ 5 ≤ 1 + 11 * K / 2 ^ 20 := by
  have e : (1 + 3 * K / 2 ^ 20) * (w1 ^ 22 * (1 + 3 * K / 2 ^ 19)) * w1 ^ 5 =
    (1 + 3 * K / 2 ^ 20) * (1 + 3 * K / 2 ^ 19) * w1 ^ 27 := by ring
  have w : w1 ^ 27 ≤ 1 + 271 / 10 / 2 ^ 24 := by rw [w1]; norm_num
  have h1 : (1 + 3 * K / 2 ^ 20) * (1 + 3 * K / 2 ^ 19) ≤ 1 + 145 / 2 ^ 24 * K := by nlinarith
  have h2 := mul_le_mul h1 w (by rw [w1]; positivity) (by positivity)
  rw [e]
  nlinarith

lemma trueT_eq (i : Parts) : trueT i = !![(i.D.v11 * Real.cos i.pa + i.D.v12 * Real.sin i.pa) * (1 / i.q) +
      (i.D.v11 * -Real.sin i.pa + i.D.v12 * Real.cos i.pa) * 0, (i.D.v11 * Real.cos i.pa + i.D.v12 * Real.sin i.pa) * 0 +
      (i.D.v11 * -Real.sin i.pa + i.D.v12 * Real.cos i.pa) * i.q;
      (i.D.v21 * Real.cos i.pa + i.D.v22 * Real.sin i.pa) * (1 / i.q) +
      (i.D.v21 * -Real.sin i.pa + i.D.v22 * Real.cos i.pa) * 0, (i.D.v21 * Real.cos i.pa + i.D.v22 * Real.sin i.pa) * 0 +
      (i.D.v21 * -Real.sin i.pa + i.D.v22 * Real.cos i.pa) * i.q] := by
  rw [trueT, Mat.toMatrix, Matrix.mul_fin_two, Matrix.mul_fin_two]

lemma sizeT_eq (i : Parts) : sizeT i = !![(|i.D.v11| * |Real.cos i.pa| + |i.D.v12| * |Real.sin i.pa|) * (1 / i.q) +
      (|i.D.v11| * |Real.sin i.pa| + |i.D.v12| * |Real.cos i.pa|) * 0, (|i.D.v11| * |Real.cos i.pa| + |i.D.v12| * |Real.sin i.pa|) * 0 +
      (|i.D.v11| * |Real.sin i.pa| + |i.D.v12| * |Real.cos i.pa|) * i.q;
      (|i.D.v21| * |Real.cos i.pa| + |i.D.v22| * |Real.sin i.pa|) * (1 / i.q) +
      (|i.D.v21| * |Real.sin i.pa| + |i.D.v22| * |Real.cos i.pa|) * 0, (|i.D.v21| * |Real.cos i.pa| + |i.D.v22| * |Real.sin i.pa|) * 0 +
      (|i.D.v21| * |Real.sin i.pa| + |i.D.v22| * |Real.cos i.pa|) * i.q] := by
  rw [sizeT, Matrix.mul_fin_two, Matrix.mul_fin_two]

/-- The matrices from the unit circle to pixels, and their derivatives. -/
lemma tM_ap (fma : Bool) (cs sn : ℝ → ℝ) (ht : TrigOk cs sn) (i : Parts) (hq : 0 < i.q) :
    (Ap (w1 ^ 9) (tM fma cs sn i).v11 (trueT i 0 0) (sizeT i 0 0) ∧ Ap (w1 ^ 9) (tM fma cs sn i).v12 (trueT i 0 1) (sizeT i 0 1) ∧
      Ap (w1 ^ 9) (tM fma cs sn i).v21 (trueT i 1 0) (sizeT i 1 0) ∧ Ap (w1 ^ 9) (tM fma cs sn i).v22 (trueT i 1 1) (sizeT i 1 1)) := by
  have hw := w1_ge
  have pow1 : ∀ n : Nat, (1 : ℝ) ≤ w1 ^ n := fun n => one_le_pow₀ hw
  obtain ⟨hc, hsn⟩ := trig_ap cs sn ht i.pa
  have hns := hsn.neg
  have q1 : Ap (w1 ^ 1) (fl 24 (1 / i.q)) (1 / i.q) (1 / i.q) := by
    have := (Ap.refl (1 / i.q)).fl
    rw [abs_of_pos (by positivity)] at this
    exact this.mono (le_of_eq (by rw [w1]; ring)) le_rfl
  have q2 : Ap (w1 ^ 1) i.q i.q i.q := by
    have := (Ap.refl i.q).mono (pow1 1) le_rfl
    rwa [abs_of_pos hq] at this
  have q0 : Ap (w1 ^ 1) (0 : ℝ) 0 0 := by
    have := (Ap.refl (0 : ℝ)).mono (pow1 1) le_rfl
    rwa [abs_zero] at this
  have m11 := Ap.av fma (Ap.refl i.D.v11) (Ap.refl i.D.v12) hc hsn
  have m12 := Ap.av fma (Ap.refl i.D.v11) (Ap.refl i.D.v12) hns hc
  have m21 := Ap.av fma (Ap.refl i.D.v21) (Ap.refl i.D.v22) hc hsn
  have m22 := Ap.av fma (Ap.refl i.D.v21) (Ap.refl i.D.v22) hns hc
  rw [trueT_eq, sizeT_eq]
  exact ⟨(Ap.av fma m11 m12 q1 q0).to (by ring), (Ap.av fma m11 m12 q0 q2).to (by ring),
    (Ap.av fma m21 m22 q1 q0).to (by ring), (Ap.av fma m21 m22 q0 q2).to (by ring)⟩

/-- The derivative of the shape with axis ratio. -/
noncomputable def trueTq (i : Parts) : Matrix (Fin 2) (Fin 2) ℝ :=
  i.D.toMatrix * !![Real.cos i.pa, -Real.sin i.pa; Real.sin i.pa, Real.cos i.pa] * !![-1 / i.q ^ 2, 0; 0, 1]

/-- The derivative of the shape with position angle. -/
noncomputable def trueTpa (i : Parts) : Matrix (Fin 2) (Fin 2) ℝ :=
  i.D.toMatrix * !![-Real.sin i.pa, -Real.cos i.pa; Real.cos i.pa, -Real.sin i.pa] * !![1 / i.q, 0; 0, i.q]

lemma scaleD_ap (q : ℝ) (hq : 0 < q) : Ap (w1 ^ 3) (scaleD q).v11 (-1 / q ^ 2) (1 / q ^ 2) := by
  have q2 : 0 < q ^ 2 := by positivity
  have h := fl_err 24 (q * q)
  rw [← sq, abs_of_pos q2] at h
  obtain ⟨P, hP⟩ : ∃ P, P = fl 24 (q ^ 2) := ⟨_, rfl⟩
  rw [← hP] at h
  have hl := abs_le.1 h
  have P0 : 0 < P := by linarith
  have h1 : Ap (w1 ^ 2) (-1 / P) (-1 / q ^ 2) (1 / q ^ 2) := by
    refine ⟨one_le_pow₀ w1_ge, ?_, ?_⟩
    · have e : -1 / P - -1 / q ^ 2 = (P - q ^ 2) / (P * q ^ 2) := by field_simp; ring
      rw [e, abs_div, abs_of_pos (mul_pos P0 q2), div_le_iff₀ (mul_pos P0 q2)]
      have e2 : (w1 ^ 2 - 1) * (1 / q ^ 2) * (P * q ^ 2) = (w1 ^ 2 - 1) * P := by field_simp
      rw [e2]
      have hw : (2 : ℝ) / 2 ^ 24 ≤ w1 ^ 2 - 1 := by rw [w1]; norm_num
      have := mul_le_mul_of_nonneg_right hw P0.le
      linarith
    · rw [neg_div, abs_neg, abs_of_pos (by positivity)]
  have e : (scaleD q).v11 = fl 24 (-1 / P) := by rw [scaleD, hP, sq]
  rw [e]
  exact h1.fl1.to (by ring)

lemma tqM_ap (fma : Bool) (cs sn : ℝ → ℝ) (ht : TrigOk cs sn) (i : Parts) (hq : 0 < i.q) :
    (Ap (w1 ^ 11) (tqM fma cs sn i).v11 (trueTq i 0 0) (sizeTq i 0 0) ∧ Ap (w1 ^ 11) (tqM fma cs sn i).v12 (trueTq i 0 1) (sizeTq i 0 1) ∧
      Ap (w1 ^ 11) (tqM fma cs sn i).v21 (trueTq i 1 0) (sizeTq i 1 0) ∧ Ap (w1 ^ 11) (tqM fma cs sn i).v22 (trueTq i 1 1) (sizeTq i 1 1)) := by
  have hw := w1_ge
  have pow1 : ∀ n : Nat, (1 : ℝ) ≤ w1 ^ n := fun n => one_le_pow₀ hw
  obtain ⟨hc, hsn⟩ := trig_ap cs sn ht i.pa
  have hns := hsn.neg
  have q1 := scaleD_ap i.q hq
  have q2 : Ap (w1 ^ 3) (1 : ℝ) 1 1 := by
    have := (Ap.refl (1 : ℝ)).mono (pow1 3) le_rfl
    rwa [abs_of_pos one_pos] at this
  have q0 : Ap (w1 ^ 3) (0 : ℝ) 0 0 := by
    have := (Ap.refl (0 : ℝ)).mono (pow1 3) le_rfl
    rwa [abs_zero] at this
  have m11 := Ap.av fma (Ap.refl i.D.v11) (Ap.refl i.D.v12) hc hsn
  have m12 := Ap.av fma (Ap.refl i.D.v11) (Ap.refl i.D.v12) hns hc
  have m21 := Ap.av fma (Ap.refl i.D.v21) (Ap.refl i.D.v22) hc hsn
  have m22 := Ap.av fma (Ap.refl i.D.v21) (Ap.refl i.D.v22) hns hc
  rw [trueTq, sizeTq, Mat.toMatrix, Matrix.mul_fin_two, Matrix.mul_fin_two, Matrix.mul_fin_two, Matrix.mul_fin_two]
  exact ⟨(Ap.av fma m11 m12 q1 q0).to (by ring), (Ap.av fma m11 m12 q0 q2).to (by ring),
    (Ap.av fma m21 m22 q1 q0).to (by ring), (Ap.av fma m21 m22 q0 q2).to (by ring)⟩

lemma tpaM_ap (fma : Bool) (cs sn : ℝ → ℝ) (ht : TrigOk cs sn) (i : Parts) (hq : 0 < i.q) :
    (Ap (w1 ^ 11) (tpaM fma cs sn i).v11 (trueTpa i 0 0) (sizeTpa i 0 0) ∧ Ap (w1 ^ 11) (tpaM fma cs sn i).v12 (trueTpa i 0 1) (sizeTpa i 0 1) ∧
      Ap (w1 ^ 11) (tpaM fma cs sn i).v21 (trueTpa i 1 0) (sizeTpa i 1 0) ∧ Ap (w1 ^ 11) (tpaM fma cs sn i).v22 (trueTpa i 1 1) (sizeTpa i 1 1)) := by
  have hw := w1_ge
  have pow1 : ∀ n : Nat, (1 : ℝ) ≤ w1 ^ n := fun n => one_le_pow₀ hw
  obtain ⟨hc, hsn⟩ := trig_ap cs sn ht i.pa
  have hns := hsn.neg
  have hnc := hc.neg
  have q1 : Ap (w1 ^ 3) (fl 24 (1 / i.q)) (1 / i.q) (1 / i.q) := by
    have := (Ap.refl (1 / i.q)).fl1
    rw [abs_of_pos (by positivity)] at this
    exact this.mono (by rw [w1]; norm_num) le_rfl
  have q2 : Ap (w1 ^ 3) i.q i.q i.q := by
    have := (Ap.refl i.q).mono (pow1 3) le_rfl
    rwa [abs_of_pos hq] at this
  have q0 : Ap (w1 ^ 3) (0 : ℝ) 0 0 := by
    have := (Ap.refl (0 : ℝ)).mono (pow1 3) le_rfl
    rwa [abs_zero] at this
  have m11 := Ap.av fma (Ap.refl i.D.v11) (Ap.refl i.D.v12) hns hc
  have m12 := Ap.av fma (Ap.refl i.D.v11) (Ap.refl i.D.v12) hnc hns
  have m21 := Ap.av fma (Ap.refl i.D.v21) (Ap.refl i.D.v22) hns hc
  have m22 := Ap.av fma (Ap.refl i.D.v21) (Ap.refl i.D.v22) hnc hns
  rw [trueTpa, sizeTpa, Mat.toMatrix, Matrix.mul_fin_two, Matrix.mul_fin_two, Matrix.mul_fin_two, Matrix.mul_fin_two]
  exact ⟨(Ap.av fma m11 m12 q1 q0).to (by ring), (Ap.av fma m11 m12 q0 q2).to (by ring),
    (Ap.av fma m21 m22 q1 q0).to (by ring), (Ap.av fma m21 m22 q0 q2).to (by ring)⟩

/-- Covariance and inverse in memory. -/
lemma core2 (fma : Bool) (cs sn : ℝ → ℝ) (ht : TrigOk cs sn) (i : Parts) (hv : Valid i) (K : ℝ) (hK : K ≤ 2 ^ 10)
    (hc : Cond K i) :
    ∃ a b c Z1 Z2 Z3 b1 b2 : ℝ, trueCov i = !![a, b; b, c] ∧ sizeCov i = !![Z1, Z2; Z2, Z3] ∧ 0 < a ∧ 0 < a * c - b ^ 2 ∧
      1 ≤ K ∧ b1 = Real.sqrt (c / (a * c - b ^ 2)) ∧ b2 = Real.sqrt (a / (a * c - b ^ 2)) ∧ 0 < b1 ∧ 0 < b2 ∧
      b1 * b1 = c / (a * c - b ^ 2) ∧ b2 * b2 = a / (a * c - b ^ 2) ∧
      (covM fma cs sn i).v12 = (covM fma cs sn i).v21 ∧
      Ap (w1 ^ 22) (covM fma cs sn i).v11 a Z1 ∧ Ap (w1 ^ 22) (covM fma cs sn i).v21 b Z2 ∧
      Ap (w1 ^ 22) (covM fma cs sn i).v22 c Z3 ∧
      (invM fma (covM fma cs sn i)).v12 = (invM fma (covM fma cs sn i)).v21 ∧
      Ap (1 + K / 2 ^ 19) (invM fma (covM fma cs sn i)).v11 (c / (a * c - b ^ 2)) (b1 * b1) ∧
      Ap (1 + K / 2 ^ 19) (invM fma (covM fma cs sn i)).v21 (-b / (a * c - b ^ 2)) (b1 * b2) ∧
      Ap (1 + K / 2 ^ 19) (invM fma (covM fma cs sn i)).v22 (a / (a * c - b ^ 2)) (b2 * b2) := by
  obtain ⟨a', b', c', Z1, Z2, Z3, e1', e2, hs, h1, h2, h3, -, -⟩ := covM_ap fma cs sn ht i hv.1 hv.2.1
  obtain ⟨a, b, c, e1, ha, hd, K1, hJ, r1, r2, r3⟩ := core fma cs sn ht i hv K hK hc
  have ee := e1'.symm.trans e1
  have ea : a' = a := congrFun (congrFun ee 0) 0
  have eb : b' = b := congrFun (congrFun ee 0) 1
  have ec : c' = c := congrFun (congrFun ee 1) 1
  subst ea eb ec
  have hcp := pos_c ha hd
  have p1 : 0 < c' / (a' * c' - b' ^ 2) := div_pos hcp hd
  have p2 : 0 < a' / (a' * c' - b' ^ 2) := div_pos ha hd
  have s1 := Real.mul_self_sqrt p1.le
  have s2 := Real.mul_self_sqrt p2.le
  obtain ⟨u1, u2, u3⟩ := pol (Real.sqrt_pos.2 p1) (Real.sqrt_pos.2 p2) s1 s2
    (by have := det_inv hd; have : 0 < 1 / (a' * c' - b' ^ 2) := by positivity
        linarith) (by positivity) r3
  exact ⟨a', b', c', Z1, Z2, Z3, _, _, e1, e2, ha, hd, K1, rfl, rfl, Real.sqrt_pos.2 p1, Real.sqrt_pos.2 p2, s1, s2, hs, h1, h2, h3, r1, u1, u2, u3⟩

lemma spread_eq (i : Parts) (X : Matrix (Fin 2) (Fin 2) ℝ) : spread i X =
    i.rad2 * (2 * (sizeT i 0 0 * X 0 0 + sizeT i 0 1 * X 0 1)) * Real.sqrt ((trueCov i)⁻¹ 0 0) ^ 2 +
    2 * (i.rad2 * (sizeT i 0 0 * X 1 0 + sizeT i 0 1 * X 1 1 + sizeT i 1 0 * X 0 0 + sizeT i 1 1 * X 0 1)) *
      Real.sqrt ((trueCov i)⁻¹ 0 0) * Real.sqrt ((trueCov i)⁻¹ 1 1) +
    i.rad2 * (2 * (sizeT i 1 0 * X 1 0 + sizeT i 1 1 * X 1 1)) * Real.sqrt ((trueCov i)⁻¹ 1 1) ^ 2 := by
  simp [spread, form, dotProduct, Matrix.mulVec, Fin.sum_univ_two, Matrix.mul_apply]
  ring

/-- The Jacobian in one direction. -/
lemma direction (fma : Bool) (o : Nat → Bool) (cs sn : ℝ → ℝ) (ht : TrigOk cs sn) (i : Parts) (hv : Valid i) (K : ℝ)
    (hK : K ≤ 2 ^ 10) (hc : Cond K i) (X : Mat) (x y : Matrix (Fin 2) (Fin 2) ℝ)
    (hX : Ap (w1 ^ 11) X.v11 (x 0 0) (y 0 0) ∧ Ap (w1 ^ 11) X.v12 (x 0 1) (y 0 1) ∧ Ap (w1 ^ 11) X.v21 (x 1 0) (y 1 0) ∧
      Ap (w1 ^ 11) X.v22 (x 1 1) (y 1 1))
    (j : ℝ → Parts) (t : ℝ) (hjt : j t = i) {A B C : ℝ → ℝ} (hj : ∀ s, trueCov (j s) = !![A s, B s; B s, C s])
    (hk : ∀ s, (j s).flux * (j s).G * (j s).samp * (j s).pamp = i.flux * i.G * i.samp * i.pamp)
    (hA : HasDerivAt A (i.rad2 * (2 * (trueT i 0 0 * x 0 0 + trueT i 0 1 * x 0 1))) t)
    (hB : HasDerivAt B (i.rad2 * (trueT i 0 0 * x 1 0 + trueT i 0 1 * x 1 1 + trueT i 1 0 * x 0 0 + trueT i 1 1 * x 0 1)) t)
    (hC : HasDerivAt C (i.rad2 * (2 * (trueT i 1 0 * x 1 0 + trueT i 1 1 * x 1 1))) t) (amp : ℝ)
    (hamp : |amp - trueAmp i| ≤ 3 * K / 2 ^ 20 * |trueAmp i|) :
    ∃ (g : Matrix (Fin 2) (Fin 2) ℝ) (l : ℝ),
      (∀ r s, HasDerivAt (fun u => (trueCov (j u))⁻¹ r s) (g r s) t) ∧ HasDerivAt (fun u => trueAmp (j u)) l t ∧
      Ap (1 + 3 * K / 2 ^ 19) (dfM fma o cs sn i X).v11 (g 0 0) ((trueCov i)⁻¹ 0 0 * spread i y) ∧
      Ap (1 + 3 * K / 2 ^ 19) (dfM fma o cs sn i X).v22 (g 1 1) ((trueCov i)⁻¹ 1 1 * spread i y) ∧
      Ap (1 + 3 * K / 2 ^ 19) (dfM fma o cs sn i X).v21 (g 1 0)
        (Real.sqrt ((trueCov i)⁻¹ 0 0) * Real.sqrt ((trueCov i)⁻¹ 1 1) * spread i y) ∧
      Ap (1 + 11 * K / 2 ^ 20) (ampD o amp (covM fma cs sn i) (dfM fma o cs sn i X)) l
        (|trueAmp i| / 2 * spread i y * covSize i) := by
  obtain ⟨a, b, c, Z1, Z2, Z3, b1, b2, e1, e2, ha, hd, K1, eb1, eb2, p1, p2, s1, s2, hs, c1, c2, c3, r1, u1, u2, u3⟩ :=
    core2 fma cs sn ht i hv K hK hc
  have ee := (hj t).symm.trans (hjt ▸ e1)
  have ea : A t = a := congrFun (congrFun ee 0) 0
  have eb : B t = b := congrFun (congrFun ee 0) 1
  have ec : C t = c := congrFun (congrFun ee 1) 1
  obtain ⟨t1, t2, t3, t4⟩ := tM_ap fma cs sn ht i hv.1
  obtain ⟨x1, x2, x3, x4⟩ := hX
  obtain ⟨v1, v2, v3⟩ := sym_ap o (tM fma cs sn i) X hv.2.1 t1 t2 t3 t4 x1 x2 x3 x4
  have v2' : Ap (w1 ^ 25) (smulM i.rad2 (symM o (tM fma cs sn i) X)).v21 _ _ := v2
  have u2' := u2
  rw [← r1] at u2'
  have F00 : (trueCov i)⁻¹ 0 0 = c / (a * c - b ^ 2) := by rw [e1, inv_eq]; rfl
  have F11 : (trueCov i)⁻¹ 1 1 = a / (a * c - b ^ 2) := by rw [e1, inv_eq]; rfl
  have sp := spread_eq i y
  rw [F00, F11, ← eb1, ← eb2] at sp
  obtain ⟨w1', w2', w3', w4'⟩ := aba_ap o (invM fma (covM fma cs sn i)) _ u1 u2' u2 u3 v1 v2 v2' v3
  rw [← sp] at w1' w2' w3' w4'
  have one : Ap 1 (-1 : ℝ) (-1) 1 := by
    have := Ap.refl (-1 : ℝ)
    rwa [abs_neg, abs_one] at this
  have fin : ∀ {z' z Z : ℝ}, Ap ((1 + K / 2 ^ 19) ^ 2 * w1 ^ 25 * w1 ^ 5) z' z Z →
      Ap (1 + 3 * K / 2 ^ 19) (fl 24 (-1 * z')) (-z) Z := fun h =>
    (((one.mul h).fl1).of_eq (by ring) (by ring)).mono (le_trans (le_of_eq (by ring)) (num_df K1 hK)) le_rfl
  have f1 := fin w1'
  have f2 := fin w2'
  have f3 := fin w3'
  have f4 := fin w4'
  obtain ⟨d1, d2⟩ := curve_deriv j _ t hj hk hA hB hC (by rw [ea, eb, ec]; exact hd) _ _ _ _ _ _ rfl rfl rfl rfl rfl rfl
  rw [ea, eb, ec] at d1 d2
  refine ⟨_, _, d1, d2, ?_, ?_, ?_, ?_⟩
  · rw [F00]
    exact f1.of_eq rfl (by rw [s1])
  · rw [F11]
    exact f4.of_eq rfl (by rw [s2])
  · rw [F00, F11, ← eb1, ← eb2]
    exact f3
  · have g1 : Ap (1 + 3 * K / 2 ^ 19) (dfM fma o cs sn i X).v11 _ _ := f1
    have g2 : Ap (1 + 3 * K / 2 ^ 19) (dfM fma o cs sn i X).v12 _ _ := f2
    have g3 : Ap (1 + 3 * K / 2 ^ 19) (dfM fma o cs sn i X).v21 _ _ := f3
    have g4 : Ap (1 + 3 * K / 2 ^ 19) (dfM fma o cs sn i X).v22 _ _ := f4
    have c2' := c2
    rw [← hs] at c2'
    have q1 := Ap.dot o 24 c1 c2' g1 g3
    have q2 := Ap.dot o 26 c2 c3 g2 g4
    have q3 := (q1.add q2).fl1
    have A0 : Ap (1 + 3 * K / 2 ^ 20) amp (trueAmp i) |trueAmp i| :=
      ⟨by have : 0 ≤ 3 * K / 2 ^ 20 := by positivity
          linarith, hamp.trans (le_of_eq (by ring)), le_rfl⟩
    have half : Ap 1 (1 / 2 : ℝ) (1 / 2) (1 / 2) := by
      have := Ap.refl (1 / 2 : ℝ)
      rwa [abs_of_pos (by norm_num)] at this
    have q4 := ((half.mul A0).fl1.mul q3).fl1
    have q5 := q4.mono (le_trans (le_of_eq (by ring)) (num_da K1 hK)) le_rfl
    have cse : covSize i = Z1 * b1 ^ 2 + 2 * Z2 * b1 * b2 + Z3 * b2 ^ 2 := by
      rw [covSize, e2, F00, F11, ← eb1, ← eb2, form_eq, frm]
    rw [cse, hjt]
    exact q5.of_eq rfl (by ring)

/-! ## Theorems -/

lemma axis_ap (fma : Bool) (o : Nat → Bool) (cs sn : ℝ → ℝ) (ht : TrigOk cs sn) (i : Parts) (hv : Valid i) (K : ℝ)
    (hK : K ≤ 2 ^ 10) (hc : Cond K i) (dn dr : ℝ) (CW : Mat) :
    ∃ (g : Matrix (Fin 2) (Fin 2) ℝ) (l : ℝ),
      (∀ r s, HasDerivAt (fun u => (trueCov { i with q := u })⁻¹ r s) (g r s) i.q) ∧
      HasDerivAt (fun u => trueAmp { i with q := u }) l i.q ∧
      Ap (1 + 3 * K / 2 ^ 19) (buildJac fma o cs sn i dn dr CW).fxxQ (g 0 0) ((trueCov i)⁻¹ 0 0 * spread i (sizeTq i)) ∧
      Ap (1 + 3 * K / 2 ^ 19) (buildJac fma o cs sn i dn dr CW).fyyQ (g 1 1) ((trueCov i)⁻¹ 1 1 * spread i (sizeTq i)) ∧
      Ap (1 + 3 * K / 2 ^ 19) (buildJac fma o cs sn i dn dr CW).fxyQ (g 1 0) (Real.sqrt ((trueCov i)⁻¹ 0 0) * Real.sqrt ((trueCov i)⁻¹ 1 1) * spread i (sizeTq i)) ∧
      Ap (1 + 11 * K / 2 ^ 20) (buildJac fma o cs sn i dn dr CW).aQ l (|trueAmp i| / 2 * spread i (sizeTq i) * covSize i) := by
  have hq := hv.1
  have hT := trueT_eq i
  have d1 : HasDerivAt (fun u : ℝ => 1 / u) (-1 / i.q ^ 2) i.q :=
    Transform.hdc ((hasDerivAt_id i.q).inv hq.ne') (fun _ => by simp) (by simp [id])
  have d2 := hasDerivAt_id' i.q
  have d0 := hasDerivAt_const i.q (0 : ℝ)
  have ent : ∀ m n : ℝ, HasDerivAt (fun u : ℝ => m * (1 / u) + n * 0) (m * (-1 / i.q ^ 2) + n * 0) i.q ∧
      HasDerivAt (fun u : ℝ => m * 0 + n * u) (m * 0 + n * 1) i.q := fun m n =>
    ⟨Transform.hdc ((d1.const_mul m).add (d0.const_mul n)) (fun _ => rfl) (by simp),
      Transform.hdc ((d0.const_mul m).add (d2.const_mul n)) (fun _ => rfl) (by simp)⟩
  obtain ⟨a1, a2⟩ := ent (i.D.v11 * Real.cos i.pa + i.D.v12 * Real.sin i.pa) (i.D.v11 * -Real.sin i.pa + i.D.v12 * Real.cos i.pa)
  obtain ⟨a3, a4⟩ := ent (i.D.v21 * Real.cos i.pa + i.D.v22 * Real.sin i.pa) (i.D.v21 * -Real.sin i.pa + i.D.v22 * Real.cos i.pa)
  refine direction fma o cs sn ht i hv K hK hc _ (trueTq i) (sizeTq i) (tqM_ap fma cs sn ht i hq) (fun u => { i with q := u }) i.q rfl
    (fun u => trueCov_eq { i with q := u } _ _ _ _ rfl rfl rfl rfl) (fun _ => rfl) ?_ ?_ ?_ _
    (C138_amplitude fma cs sn ht i hv K hK hc 0 0)
  · refine Transform.hdc ((((a1.mul a1).add (a2.mul a2)).const_mul i.rad2).add_const i.cxx) (fun _ => rfl) ?_
    rw [hT, trueTq, Mat.toMatrix, Matrix.mul_fin_two, Matrix.mul_fin_two]
    simp only [Matrix.of_apply, Matrix.cons_val', Matrix.cons_val_zero, Matrix.cons_val_one, Matrix.cons_val_fin_one]
    ring
  · refine Transform.hdc ((((a1.mul a3).add (a2.mul a4)).const_mul i.rad2).add_const i.cxy) (fun _ => rfl) ?_
    rw [hT, trueTq, Mat.toMatrix, Matrix.mul_fin_two, Matrix.mul_fin_two]
    simp only [Matrix.of_apply, Matrix.cons_val', Matrix.cons_val_zero, Matrix.cons_val_one, Matrix.cons_val_fin_one]
    ring
  · refine Transform.hdc ((((a3.mul a3).add (a4.mul a4)).const_mul i.rad2).add_const i.cyy) (fun _ => rfl) ?_
    rw [hT, trueTq, Mat.toMatrix, Matrix.mul_fin_two, Matrix.mul_fin_two]
    simp only [Matrix.of_apply, Matrix.cons_val', Matrix.cons_val_zero, Matrix.cons_val_one, Matrix.cons_val_fin_one]
    ring

/-- C145 (axis ratio): the derivatives with axis ratio in memory, of shape and amplitude. -/
theorem C145_axis (fma : Bool) (o : Nat → Bool) (cs sn : ℝ → ℝ) (ht : TrigOk cs sn) (i : Parts) (hv : Valid i) (K : ℝ)
    (hK : K ≤ 2 ^ 10) (hc : Cond K i) (dn dr : ℝ) (CW : Mat) :
    ∃ (g : Matrix (Fin 2) (Fin 2) ℝ) (l : ℝ),
      (∀ r s, HasDerivAt (fun u => (trueCov { i with q := u })⁻¹ r s) (g r s) i.q) ∧
      HasDerivAt (fun u => trueAmp { i with q := u }) l i.q ∧
      |(buildJac fma o cs sn i dn dr CW).fxxQ - g 0 0| ≤ 3 * K / 2 ^ 19 * ((trueCov i)⁻¹ 0 0 * spread i (sizeTq i)) ∧
      |(buildJac fma o cs sn i dn dr CW).fyyQ - g 1 1| ≤ 3 * K / 2 ^ 19 * ((trueCov i)⁻¹ 1 1 * spread i (sizeTq i)) ∧
      |(buildJac fma o cs sn i dn dr CW).fxyQ - g 1 0| ≤
        3 * K / 2 ^ 19 * (Real.sqrt ((trueCov i)⁻¹ 0 0) * Real.sqrt ((trueCov i)⁻¹ 1 1) * spread i (sizeTq i)) ∧
      |(buildJac fma o cs sn i dn dr CW).aQ - l| ≤
        11 * K / 2 ^ 20 * (|trueAmp i| / 2 * spread i (sizeTq i) * covSize i) := by
  obtain ⟨g, l, h1, h2, h3, h4, h5, h6⟩ := axis_ap fma o cs sn ht i hv K hK hc dn dr CW
  refine ⟨g, l, h1, h2, ?_, ?_, ?_, ?_⟩
  · exact h3.2.1.trans (le_of_eq (by ring))
  · exact h4.2.1.trans (le_of_eq (by ring))
  · exact h5.2.1.trans (le_of_eq (by ring))
  · exact h6.2.1.trans (le_of_eq (by ring))

lemma angle_ap (fma : Bool) (o : Nat → Bool) (cs sn : ℝ → ℝ) (ht : TrigOk cs sn) (i : Parts) (hv : Valid i) (K : ℝ)
    (hK : K ≤ 2 ^ 10) (hc : Cond K i) (dn dr : ℝ) (CW : Mat) :
    ∃ (g : Matrix (Fin 2) (Fin 2) ℝ) (l : ℝ),
      (∀ r s, HasDerivAt (fun u => (trueCov { i with pa := u })⁻¹ r s) (g r s) i.pa) ∧
      HasDerivAt (fun u => trueAmp { i with pa := u }) l i.pa ∧
      Ap (1 + 3 * K / 2 ^ 19) (buildJac fma o cs sn i dn dr CW).fxxPA (g 0 0) ((trueCov i)⁻¹ 0 0 * spread i (sizeTpa i)) ∧
      Ap (1 + 3 * K / 2 ^ 19) (buildJac fma o cs sn i dn dr CW).fyyPA (g 1 1) ((trueCov i)⁻¹ 1 1 * spread i (sizeTpa i)) ∧
      Ap (1 + 3 * K / 2 ^ 19) (buildJac fma o cs sn i dn dr CW).fxyPA (g 1 0) (Real.sqrt ((trueCov i)⁻¹ 0 0) * Real.sqrt ((trueCov i)⁻¹ 1 1) * spread i (sizeTpa i)) ∧
      Ap (1 + 11 * K / 2 ^ 20) (buildJac fma o cs sn i dn dr CW).aPA l (|trueAmp i| / 2 * spread i (sizeTpa i) * covSize i) := by
  have hq := hv.1
  have hT := trueT_eq i
  have c1 := Real.hasDerivAt_cos i.pa
  have s1 := Real.hasDerivAt_sin i.pa
  have ent : ∀ m n : ℝ, HasDerivAt (fun u : ℝ => (m * Real.cos u + n * Real.sin u) * (1 / i.q) + (m * -Real.sin u + n * Real.cos u) * 0)
        ((m * -Real.sin i.pa + n * Real.cos i.pa) * (1 / i.q) + (m * -Real.cos i.pa + n * -Real.sin i.pa) * 0) i.pa ∧
      HasDerivAt (fun u : ℝ => (m * Real.cos u + n * Real.sin u) * 0 + (m * -Real.sin u + n * Real.cos u) * i.q)
        ((m * -Real.sin i.pa + n * Real.cos i.pa) * 0 + (m * -Real.cos i.pa + n * -Real.sin i.pa) * i.q) i.pa := fun m n =>
    ⟨(((c1.const_mul m).add (s1.const_mul n)).mul_const (1 / i.q)).add
        (((s1.neg.const_mul m).add (c1.const_mul n)).mul_const 0),
      (((c1.const_mul m).add (s1.const_mul n)).mul_const 0).add
        (((s1.neg.const_mul m).add (c1.const_mul n)).mul_const i.q)⟩
  obtain ⟨a1, a2⟩ := ent i.D.v11 i.D.v12
  obtain ⟨a3, a4⟩ := ent i.D.v21 i.D.v22
  refine direction fma (fun n => o (n + 32)) cs sn ht i hv K hK hc _ (trueTpa i) (sizeTpa i) (tpaM_ap fma cs sn ht i hq)
    (fun u => { i with pa := u }) i.pa rfl
    (fun u => trueCov_eq { i with pa := u } _ _ _ _ rfl rfl rfl rfl) (fun _ => rfl) ?_ ?_ ?_ _
    (C138_amplitude fma cs sn ht i hv K hK hc 0 0)
  · refine Transform.hdc ((((a1.mul a1).add (a2.mul a2)).const_mul i.rad2).add_const i.cxx) (fun _ => rfl) ?_
    rw [hT, trueTpa, Mat.toMatrix, Matrix.mul_fin_two, Matrix.mul_fin_two]
    simp only [Matrix.of_apply, Matrix.cons_val', Matrix.cons_val_zero, Matrix.cons_val_one, Matrix.cons_val_fin_one]
    ring
  · refine Transform.hdc ((((a1.mul a3).add (a2.mul a4)).const_mul i.rad2).add_const i.cxy) (fun _ => rfl) ?_
    rw [hT, trueTpa, Mat.toMatrix, Matrix.mul_fin_two, Matrix.mul_fin_two]
    simp only [Matrix.of_apply, Matrix.cons_val', Matrix.cons_val_zero, Matrix.cons_val_one, Matrix.cons_val_fin_one]
    ring
  · refine Transform.hdc ((((a3.mul a3).add (a4.mul a4)).const_mul i.rad2).add_const i.cyy) (fun _ => rfl) ?_
    rw [hT, trueTpa, Mat.toMatrix, Matrix.mul_fin_two, Matrix.mul_fin_two]
    simp only [Matrix.of_apply, Matrix.cons_val', Matrix.cons_val_zero, Matrix.cons_val_one, Matrix.cons_val_fin_one]
    ring

/-- C145 (position angle): the same with position angle. -/
theorem C145_angle (fma : Bool) (o : Nat → Bool) (cs sn : ℝ → ℝ) (ht : TrigOk cs sn) (i : Parts) (hv : Valid i) (K : ℝ)
    (hK : K ≤ 2 ^ 10) (hc : Cond K i) (dn dr : ℝ) (CW : Mat) :
    ∃ (g : Matrix (Fin 2) (Fin 2) ℝ) (l : ℝ),
      (∀ r s, HasDerivAt (fun u => (trueCov { i with pa := u })⁻¹ r s) (g r s) i.pa) ∧
      HasDerivAt (fun u => trueAmp { i with pa := u }) l i.pa ∧
      |(buildJac fma o cs sn i dn dr CW).fxxPA - g 0 0| ≤ 3 * K / 2 ^ 19 * ((trueCov i)⁻¹ 0 0 * spread i (sizeTpa i)) ∧
      |(buildJac fma o cs sn i dn dr CW).fyyPA - g 1 1| ≤ 3 * K / 2 ^ 19 * ((trueCov i)⁻¹ 1 1 * spread i (sizeTpa i)) ∧
      |(buildJac fma o cs sn i dn dr CW).fxyPA - g 1 0| ≤
        3 * K / 2 ^ 19 * (Real.sqrt ((trueCov i)⁻¹ 0 0) * Real.sqrt ((trueCov i)⁻¹ 1 1) * spread i (sizeTpa i)) ∧
      |(buildJac fma o cs sn i dn dr CW).aPA - l| ≤
        11 * K / 2 ^ 20 * (|trueAmp i| / 2 * spread i (sizeTpa i) * covSize i) := by
  obtain ⟨g, l, h1, h2, h3, h4, h5, h6⟩ := angle_ap fma o cs sn ht i hv K hK hc dn dr CW
  refine ⟨g, l, h1, h2, ?_, ?_, ?_, ?_⟩
  · exact h3.2.1.trans (le_of_eq (by ring))
  · exact h4.2.1.trans (le_of_eq (by ring))
  · exact h5.2.1.trans (le_of_eq (by ring))
  · exact h6.2.1.trans (le_of_eq (by ring))

/-- The factor of the amplitude that has no flux and no weight in it. -/
lemma tmp_ap (fma : Bool) (cs sn : ℝ → ℝ) (ht : TrigOk cs sn) (i : Parts) (hv : Valid i) (K : ℝ) (hK : K ≤ 2 ^ 10)
    (hc : Cond K i) :
    Ap (w1 ^ 7 * (1 + 342 / 10 / 2 ^ 24 * K)) (ampTmp fma cs sn i)
      (i.G * i.pamp * (1 / Real.sqrt (trueCov i).det) * (1 / (2 * Real.pi)))
      |i.G * i.pamp * (1 / Real.sqrt (trueCov i).det) * (1 / (2 * Real.pi))| ∧ 1 ≤ K := by
  obtain ⟨a, b, c, e1, ha, hd, K1, hJ, h1, h2, h3⟩ := core fma cs sn ht i hv K hK hc
  have hsq := sqrt_close fma (invM fma (covM fma cs sn i)) h1 K1 hK (div_pos (pos_c ha hd) hd)
    (by rw [det_inv hd]; positivity) (anti_flip ha hd hJ) h3
  rw [det_inv hd] at hsq
  have hdet : (trueCov i).det = a * c - b ^ 2 := by rw [e1, Matrix.det_fin_two_of, sq]
  rw [← hdet] at hsq hd
  have sD : 0 < Real.sqrt (trueCov i).det := Real.sqrt_pos.2 hd
  have hS : Real.sqrt (1 / (trueCov i).det) = 1 / Real.sqrt (trueCov i).det := by
    rw [Real.sqrt_div zero_le_one, Real.sqrt_one]
  rw [hS] at hsq
  have sp : 0 < 1 / Real.sqrt (trueCov i).det := by positivity
  have A1 : Ap (1 + 342 / 10 / 2 ^ 24 * K) (Real.sqrt (detM fma (invM fma (covM fma cs sn i)))) (1 / Real.sqrt (trueCov i).det)
      (1 / Real.sqrt (trueCov i).det) := ⟨by nlinarith, hsq.trans (le_of_eq (by ring)), by rw [abs_of_pos sp]⟩
  have A2 := (Ap.mul (Ap.mul (Ap.mul (Ap.refl i.G) (Ap.refl i.pamp)).fl1 A1.fl1).fl1 invTwoPi_ap).fl1
  have hp := Real.pi_pos
  refine ⟨(A2.to (by ring)).of_eq rfl ?_, K1⟩
  rw [abs_mul, abs_mul, abs_mul, abs_of_pos sp, abs_of_pos (show 0 < 1 / (2 * Real.pi) by positivity)]

lemma num_tmp {K : ℝ} (K1 : 1 ≤ K) : w1 ^ 9 * (1 + 342 / 10 / 2 ^ 24 * K) - 1 ≤ 3 * K / 2 ^ 20 := by
  have w9 : w1 ^ 9 ≤ 1 + 91 / 10 / 2 ^ 24 := by rw [w1]; norm_num
  have := mul_le_mul_of_nonneg_right w9 (show 0 ≤ 1 + 342 / 10 / 2 ^ 24 * K by positivity)
  linarith

/-- C145 (flux): the derivative of the amplitude with flux. -/
theorem C145_flux (fma : Bool) (o : Nat → Bool) (cs sn : ℝ → ℝ) (ht : TrigOk cs sn) (i : Parts) (hv : Valid i) (K : ℝ)
    (hK : K ≤ 2 ^ 10) (hc : Cond K i) (dn dr : ℝ) (CW : Mat) :
    ∃ l : ℝ, HasDerivAt (fun u => trueAmp { i with flux := u }) l i.flux ∧
      |(buildJac fma o cs sn i dn dr CW).aFlux - l| ≤ 3 * K / 2 ^ 20 * |l| := by
  obtain ⟨h, K1⟩ := tmp_ap fma cs sn ht i hv K hK hc
  have hp := Real.pi_pos
  have k := (h.mul (Ap.refl i.samp)).fl1
  rw [← abs_mul] at k
  refine ⟨_, ?_, k.2.1.trans (mul_le_mul_of_nonneg_right ?_ (abs_nonneg _))⟩
  · refine Transform.hdc ((hasDerivAt_id' i.flux).mul_const _) (fun u => ?_) (one_mul _).symm
    have e : trueCov { i with flux := u } = trueCov i := rfl
    rw [trueAmp, e]
    simp only [one_div, div_eq_mul_inv, mul_inv]
    ring
  · refine le_trans (sub_le_sub_right ?_ 1) (num_tmp K1)
    have w0 := w1_ge
    calc w1 ^ 7 * (1 + 342 / 10 / 2 ^ 24 * K) * 1 * w1 = w1 ^ 8 * (1 + 342 / 10 / 2 ^ 24 * K) := by ring
      _ ≤ w1 ^ 9 * (1 + 342 / 10 / 2 ^ 24 * K) :=
        mul_le_mul_of_nonneg_right (pow_le_pow_right₀ w0 (by norm_num)) (by positivity)

/-- The derivative of the amplitude with what the weight of the component depends on. -/
lemma weight_ap (fma : Bool) (cs sn : ℝ → ℝ) (ht : TrigOk cs sn) (i : Parts) (hv : Valid i) (K : ℝ)
    (hK : K ≤ 2 ^ 10) (hc : Cond K i) (d : ℝ) (s : ℝ → ℝ) (n : ℝ) (hs : HasDerivAt s d n) :
    ∃ l : ℝ, HasDerivAt (fun u => trueAmp { i with samp := s u }) l n ∧
      |fl 24 (fl 24 (ampTmp fma cs sn i * i.flux) * d) - l| ≤ 3 * K / 2 ^ 20 * |l| := by
  obtain ⟨h, K1⟩ := tmp_ap fma cs sn ht i hv K hK hc
  have hp := Real.pi_pos
  have k := ((h.mul (Ap.refl i.flux)).fl1.mul (Ap.refl d)).fl1
  rw [← abs_mul, ← abs_mul] at k
  refine ⟨_, ?_, k.2.1.trans (mul_le_mul_of_nonneg_right ?_ (abs_nonneg _))⟩
  · refine Transform.hdc (hs.const_mul _) (fun u => ?_) rfl
    have e : trueCov { i with samp := s u } = trueCov i := rfl
    rw [trueAmp, e]
    simp only [one_div, div_eq_mul_inv, mul_inv]
    ring
  · exact le_trans (sub_le_sub_right (le_of_eq (by ring)) 1) (num_tmp K1)

/-- C145 (index and radius): when the weight of the component has the derivatives that were given, the derivatives of the
amplitude with index and radius. -/
theorem C145_weight (fma : Bool) (o : Nat → Bool) (cs sn : ℝ → ℝ) (ht : TrigOk cs sn) (i : Parts) (hv : Valid i) (K : ℝ)
    (hK : K ≤ 2 ^ 10) (hc : Cond K i) (dn dr : ℝ) (CW : Mat) (sn' sr : ℝ → ℝ) (n r : ℝ) (hn : HasDerivAt sn' dn n)
    (hr : HasDerivAt sr dr r) :
    (∃ l : ℝ, HasDerivAt (fun u => trueAmp { i with samp := sn' u }) l n ∧
      |(buildJac fma o cs sn i dn dr CW).aSersic - l| ≤ 3 * K / 2 ^ 20 * |l|) ∧
    (∃ l : ℝ, HasDerivAt (fun u => trueAmp { i with samp := sr u }) l r ∧
      |(buildJac fma o cs sn i dn dr CW).aRh - l| ≤ 3 * K / 2 ^ 20 * |l|) :=
  ⟨weight_ap fma cs sn ht i hv K hK hc dn sn' n hn, weight_ap fma cs sn ht i hv K hK hc dr sr r hr⟩

/-- C145 (position): the derivatives of the centre in pixels are those of the linear map from sky to pixels. -/
theorem C145_centre (fma : Bool) (o : Nat → Bool) (cs sn : ℝ → ℝ) (i : Parts) (dn dr : ℝ) (CW : Mat) (ra dec ra0 dec0 : ℝ)
    (x0 y0 : ℝ) :
    HasDerivAt (fun u => CW.toMatrix.mulVec ![u - ra0, dec - dec0] 0 + x0) (buildJac fma o cs sn i dn dr CW).xAlpha ra ∧
    HasDerivAt (fun u => CW.toMatrix.mulVec ![u - ra0, dec - dec0] 1 + y0) (buildJac fma o cs sn i dn dr CW).yAlpha ra ∧
    HasDerivAt (fun u => CW.toMatrix.mulVec ![ra - ra0, u - dec0] 0 + x0) (buildJac fma o cs sn i dn dr CW).xDelta dec ∧
    HasDerivAt (fun u => CW.toMatrix.mulVec ![ra - ra0, u - dec0] 1 + y0) (buildJac fma o cs sn i dn dr CW).yDelta dec := by
  have h1 := (hasDerivAt_id' ra).sub_const ra0
  have h2 := (hasDerivAt_id' dec).sub_const dec0
  refine ⟨?_, ?_, ?_, ?_⟩
  · exact Transform.hdc (((h1.const_mul CW.v11).add_const (CW.v12 * (dec - dec0))).add_const x0)
      (fun u => by simp [Mat.toMatrix, Matrix.mulVec, dotProduct, Fin.sum_univ_two]) (by simp [buildJac])
  · exact Transform.hdc (((h1.const_mul CW.v21).add_const (CW.v22 * (dec - dec0))).add_const y0)
      (fun u => by simp [Mat.toMatrix, Matrix.mulVec, dotProduct, Fin.sum_univ_two]) (by simp [buildJac])
  · exact Transform.hdc (((h2.const_mul CW.v12).const_add (CW.v11 * (ra - ra0))).add_const x0)
      (fun u => by simp [Mat.toMatrix, Matrix.mulVec, dotProduct, Fin.sum_univ_two]) (by simp [buildJac])
  · exact Transform.hdc (((h2.const_mul CW.v22).const_add (CW.v21 * (ra - ra0))).add_const y0)
      (fun u => by simp [Mat.toMatrix, Matrix.mulVec, dotProduct, Fin.sum_univ_two]) (by simp [buildJac])

/-- The form of the covariance in its own units, in the direction in which the terms cancel. -/
lemma cross_le {a b c b1 b2 : ℝ} (hd : 0 < a * c - b ^ 2) (p1 : 0 < b1) (p2 : 0 < b2)
    (s1 : b1 * b1 = c / (a * c - b ^ 2)) (s2 : b2 * b2 = a / (a * c - b ^ 2)) :
    a * b1 ^ 2 - 2 * |b| * b1 * b2 + c * b2 ^ 2 ≤ 2 := by
  obtain ⟨D, hD⟩ : ∃ D, D = a * c - b ^ 2 := ⟨_, rfl⟩
  rw [← hD] at hd s1 s2
  have p := mul_pos p1 p2
  have h1 : |b| ≤ b1 * b2 * D := by
    apply abs_le_of_sq_le_sq _ (mul_pos p hd).le
    have e : (b1 * b2 * D) ^ 2 = a * c := by
      calc (b1 * b2 * D) ^ 2 = (b1 * b1) * (b2 * b2) * D ^ 2 := by ring
        _ = a * c := by rw [s1, s2]; field_simp
    rw [e]
    linarith
  have h2 : b ^ 2 ≤ |b| * (b1 * b2 * D) := by
    rw [← sq_abs, sq]
    exact mul_le_mul_of_nonneg_left h1 (abs_nonneg b)
  have e1 : b1 ^ 2 * D = c := by rw [sq, s1]; field_simp
  have e2 : b2 ^ 2 * D = a := by rw [sq, s2]; field_simp
  refine le_of_mul_le_mul_right (a := D) ?_ hd
  have e : (a * b1 ^ 2 - 2 * |b| * b1 * b2 + c * b2 ^ 2) * D =
    a * (b1 ^ 2 * D) - 2 * (|b| * (b1 * b2 * D)) + c * (b2 ^ 2 * D) := by ring
  rw [e, e1, e2]
  linarith

/-- C145 (size of the bounds): the sizes in the bounds above in terms of `K` and of the axis ratio. -/
theorem C145_size (i : Parts) (hv : Valid i) (K : ℝ) (hK : K ≤ 2 ^ 10) (hc : Cond K i) :
    covSize i ≤ 2 * K ∧ spread i (sizeTq i) ≤ 4 * K / i.q ∧ spread i (sizeTpa i) ≤ 2 * K * (i.q ^ 2 + 1 / i.q ^ 2) := by
  have ht : TrigOk Real.cos Real.sin := fun x => by simp; exact ⟨by positivity, by positivity⟩
  obtain ⟨a, b, c, Z1, Z2, Z3, b1, b2, e1, e2, ha, hd, K1, eb1, eb2, p1, p2, s1, s2, -⟩ :=
    core2 false Real.cos Real.sin ht i hv K hK hc
  have hq := hv.1
  have F00 : (trueCov i)⁻¹ 0 0 = c / (a * c - b ^ 2) := by rw [e1, inv_eq]; rfl
  have F11 : (trueCov i)⁻¹ 1 1 = a / (a * c - b ^ 2) := by rw [e1, inv_eq]; rfl
  have hx := cross_le hd p1 p2 s1 s2
  have S : covSize i ≤ 2 * K := by
    rw [covSize, F00, F11, ← eb1, ← eb2]
    rcases le_total 0 b with hb | hb
    · have := hc b1 (-b2)
      rw [abs_neg, abs_of_pos p1, abs_of_pos p2] at this
      refine this.trans ?_
      rw [e1, form_eq, frm]
      rw [abs_of_nonneg hb] at hx
      have := mul_le_mul_of_nonneg_left hx (show 0 ≤ K by linarith)
      linarith
    · have := hc b1 b2
      rw [abs_of_pos p1, abs_of_pos p2] at this
      refine this.trans ?_
      rw [e1, form_eq, frm]
      rw [abs_of_nonpos hb] at hx
      have := mul_le_mul_of_nonneg_left hx (show 0 ≤ K by linarith)
      linarith
  have e3 := sizeCov_eq i _ _ _ _ rfl rfl rfl rfl
  have sq' := spread_eq i (sizeTq i)
  have sp' := spread_eq i (sizeTpa i)
  obtain ⟨Q, hQ⟩ : ∃ Q, Q = spread i (sizeTq i) := ⟨_, rfl⟩
  obtain ⟨P, hP⟩ : ∃ P, P = spread i (sizeTpa i) := ⟨_, rfl⟩
  rw [← hQ] at sq'
  rw [← hP] at sp'
  rw [sizeT_eq, sizeTq, Matrix.mul_fin_two, Matrix.mul_fin_two] at sq'
  rw [sizeT_eq, sizeTpa, Matrix.mul_fin_two, Matrix.mul_fin_two] at sp'
  simp only [Matrix.of_apply, Matrix.cons_val', Matrix.cons_val_zero, Matrix.cons_val_one, Matrix.cons_val_fin_one] at sq' sp'
  rw [F00, F11, ← eb1, ← eb2] at sq' sp'
  obtain ⟨u, hu⟩ : ∃ u, u = (|i.D.v11| * |Real.cos i.pa| + |i.D.v12| * |Real.sin i.pa|) * b1 +
    (|i.D.v21| * |Real.cos i.pa| + |i.D.v22| * |Real.sin i.pa|) * b2 := ⟨_, rfl⟩
  obtain ⟨v, hv'⟩ : ∃ v, v = (|i.D.v11| * |Real.sin i.pa| + |i.D.v12| * |Real.cos i.pa|) * b1 +
    (|i.D.v21| * |Real.sin i.pa| + |i.D.v22| * |Real.cos i.pa|) * b2 := ⟨_, rfl⟩
  have g0 : covSize i = i.rad2 * (u ^ 2 / i.q ^ 2 + v ^ 2 * i.q ^ 2) +
      (|i.cxx| * b1 ^ 2 + 2 * |i.cxy| * b1 * b2 + |i.cyy| * b2 ^ 2) := by
    rw [covSize, e3, form_eq, frm, F00, F11, ← eb1, ← eb2, hu, hv']
    ring
  have g1 : Q = 2 / i.q * (i.rad2 * (u ^ 2 / i.q ^ 2 + v ^ 2 * i.q ^ 2)) := by
    rw [sq', hu, hv']
    field_simp
    ring
  have g2 : P = (i.q ^ 2 + 1 / i.q ^ 2) * (i.rad2 * (2 * u * v)) := by
    rw [sp', hu, hv']
    field_simp
    ring
  have n0 : 0 ≤ |i.cxx| * b1 ^ 2 + 2 * |i.cxy| * b1 * b2 + |i.cyy| * b2 ^ 2 := by positivity
  have g3 : i.rad2 * (u ^ 2 / i.q ^ 2 + v ^ 2 * i.q ^ 2) ≤ 2 * K := by linarith
  rw [← hQ, ← hP]
  refine ⟨S, ?_, ?_⟩
  · rw [g1]
    have := mul_le_mul_of_nonneg_left g3 (show 0 ≤ 2 / i.q by positivity)
    refine this.trans (le_of_eq (by ring))
  · rw [g2]
    have h1 : 2 * u * v ≤ u ^ 2 / i.q ^ 2 + v ^ 2 * i.q ^ 2 := by
      have e : u ^ 2 / i.q ^ 2 + v ^ 2 * i.q ^ 2 - 2 * u * v = (u / i.q - v * i.q) ^ 2 := by
        field_simp
        ring
      have := sq_nonneg (u / i.q - v * i.q)
      linarith
    have h2 := (mul_le_mul_of_nonneg_left h1 hv.2.1).trans g3
    have := mul_le_mul_of_nonneg_left h2 (show 0 ≤ i.q ^ 2 + 1 / i.q ^ 2 by positivity)
    exact this.trans (le_of_eq (by ring))

/-- A source along the axes of the image, with a round PSF gaussian. -/
noncomputable def upright : Parts := ⟨⟨40, 0, 0, 40⟩, 1 / 2, 0, 1 / 16, 1, 0, 1, 2, 3 / 4, 5, 1 / 4⟩

/-- The hypotheses of C145 are met by `upright`, with `K = 1`, and by the source `inclined` of C138, with `K = 34`; for the
first, the derivative of the shape that is in memory is right to seven digits. -/
theorem C145_witness (fma : Bool) (o : Nat → Bool) (dn dr : ℝ) (CW : Mat) :
    TrigOk Real.cos Real.sin ∧ (Valid inclined ∧ Cond 34 inclined) ∧ Valid upright ∧ Cond 1 upright ∧
    (trueCov upright)⁻¹ 0 0 = 1 / 401 ∧
    |(buildJac fma o Real.cos Real.sin upright dn dr CW).fxxQ - 1600 / 401 ^ 2| ≤ 24 / 2 ^ 19 / 401 := by
  obtain ⟨h1, -, h3, h4, -⟩ := C138_witness fma 0 0 0 0 0
  have v : Valid upright := by norm_num [Valid, upright]
  have hcov : ∀ q : ℝ, trueCov { upright with q := q } = !![100 * (1 / q) ^ 2 + 1, 0; 0, 100 * q ^ 2 + 1] := by
    intro q
    rw [trueCov_eq { upright with q := q } _ _ _ _ rfl rfl rfl rfl]
    simp only [upright, Real.cos_zero, Real.sin_zero]
    congr 1
    ext r s
    fin_cases r <;> fin_cases s <;> simp <;> ring
  have hc0 : trueCov upright = !![401, 0; 0, 26] := by
    have := hcov (1 / 2)
    rw [show ({ upright with q := 1 / 2 } : Parts) = upright from rfl] at this
    rw [this]
    norm_num
  have hs0 : sizeCov upright = !![401, 0; 0, 26] := by
    rw [sizeCov_eq upright _ _ _ _ rfl rfl rfl rfl]
    simp only [upright, Real.cos_zero, Real.sin_zero]
    norm_num
  have hC : Cond 1 upright := by
    intro x y
    rw [hc0, hs0, form_eq, form_eq, frm, frm, sq_abs, sq_abs]
    linarith
  have F : (trueCov upright)⁻¹ 0 0 = 1 / 401 := by
    rw [hc0, inv_eq]
    norm_num
  refine ⟨h1, ⟨h3, h4⟩, v, hC, F, ?_⟩
  obtain ⟨g, l, d, -, hb, -⟩ := C145_axis fma o _ _ h1 upright v 1 (by norm_num) hC dn dr CW
  have dx : HasDerivAt (fun u => (trueCov { upright with q := u })⁻¹ 0 0) (1600 / 401 ^ 2) (1 / 2) := by
    have d1 : HasDerivAt (fun u : ℝ => 1 / u) (-4) (1 / 2) :=
      Transform.hdc ((hasDerivAt_id (1 / 2 : ℝ)).inv (by norm_num)) (fun _ => by simp) (by norm_num)
    have d2 := ((d1.pow 2).const_mul 100).add_const 1
    have hne : ∀ u : ℝ, 100 * (1 / u) ^ 2 + 1 ≠ 0 := fun u => by positivity
    have hne' : ∀ u : ℝ, 100 * u ^ 2 + 1 ≠ 0 := fun u => by positivity
    refine Transform.hdc (d2.inv (hne _)) (fun u => ?_) (by norm_num)
    rw [hcov, inv_eq]
    have h5 := hne u
    have h6 := hne' u
    show (100 * u ^ 2 + 1) / ((100 * (1 / u) ^ 2 + 1) * (100 * u ^ 2 + 1) - 0 ^ 2) = (100 * (1 / u) ^ 2 + 1)⁻¹
    generalize 100 * (1 / u) ^ 2 + 1 = A at *
    generalize 100 * u ^ 2 + 1 = B at *
    simp
    field_simp
  have e : g 0 0 = 1600 / 401 ^ 2 := (d 0 0).unique dx
  have hs := (C145_size upright v 1 (by norm_num) hC).2.1
  have q2 : 4 * 1 / upright.q = 8 := by norm_num [upright]
  rw [q2] at hs
  rw [e, F] at hb
  refine hb.trans ?_
  linarith

end Forcepho.Float
