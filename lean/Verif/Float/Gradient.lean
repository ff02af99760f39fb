import Verif.Float.Whole
import Mathlib.Analysis.Calculus.Deriv.Inv
import Mathlib.Analysis.SpecialFunctions.ExpDeriv
import Mathlib.Tactic.FinCases

/-! # Gradients in single precision

The derivatives of chi-square as the compiled kernel accumulates them (common_kernel.cc:95-143,
compute_gaussians_kernel.cc:262-304), every sum rounded to 24 bits, every product rounded or not: a compiler may fuse any
product with the sum it enters, so the choice is a parameter.  They are compared with the derivative, over the reals, of
the pixel values of the gaussians in memory along the directions the Jacobian in memory gives. -/

set_option autoImplicit false

namespace Forcepho.Float

/-- The part of an image gaussian that enters derivatives only (common_kernel.cc:30-46). -/
structure Jac where
  aFlux : ℝ
  xAlpha : ℝ
  yAlpha : ℝ
  xDelta : ℝ
  yDelta : ℝ
  aQ : ℝ
  fxxQ : ℝ
  fyyQ : ℝ
  fxyQ : ℝ
  aPA : ℝ
  fxxPA : ℝ
  fyyPA : ℝ
  fxyPA : ℝ
  aSersic : ℝ
  aRh : ℝ

/-- A product, rounded unless it is fused with the operation that uses it. -/
noncomputable def rd (c : Nat → Bool) (i : Nat) (x : ℝ) : ℝ := if c i then x else fl 24 x

/-- `a*v + b*w`. -/
noncomputable def dot (c : Nat → Bool) (i : Nat) (a b v w : ℝ) : ℝ := fl 24 (rd c i (a * v) + rd c (i + 1) (b * w))

/-- `vx` (common_kernel.cc:102-104). -/
noncomputable def vX (c : Nat → Bool) (g : Gauss) (xp yp : ℝ) : ℝ :=
  dot c 0 g.fxx g.fxy (fl 24 (xp - g.xcen)) (fl 24 (yp - g.ycen))

/-- `vy` (common_kernel.cc:102-105). -/
noncomputable def vY (c : Nat → Bool) (g : Gauss) (xp yp : ℝ) : ℝ :=
  dot c 2 g.fyy g.fxy (fl 24 (yp - g.ycen)) (fl 24 (xp - g.xcen))

/-- `exparg` (common_kernel.cc:107). -/
noncomputable def eArg (c : Nat → Bool) (g : Gauss) (xp yp : ℝ) : ℝ :=
  dot c 4 (fl 24 (xp - g.xcen)) (fl 24 (yp - g.ycen)) (vX c g xp yp) (vY c g xp yp)

/-- `H` (common_kernel.cc:111): multiplied by the constant `1.0f/24.0f`, unlike in the residual. -/
noncomputable def hF (c : Nat → Bool) (g : Gauss) (xp yp : ℝ) : ℝ :=
  let vx := vX c g xp yp
  let vy := vY c g xp yp
  fl 24 (1 + rd c 8 (fl 24 (fl 24 (dot c 6 vx vy vx vy - g.fxx) - g.fyy) * fl 24 (1 / 24)))

/-- `-2.f*residual_ierr2 * Gp` (common_kernel.cc:110, 118). -/
noncomputable def dA0 (c : Nat → Bool) (ex : ℝ → ℝ) (g : Gauss) (xp yp r : ℝ) : ℝ :=
  rd c 9 (fl 24 (-2 * r) * ex (fl 24 (-(1 / 2) * eArg c g xp yp)))

/-- `c_h` (common_kernel.cc:119). -/
noncomputable def cH (c : Nat → Bool) (ex : ℝ → ℝ) (g : Gauss) (xp yp r : ℝ) : ℝ := rd c 10 (dA0 c ex g xp yp r * g.amp)

/-- `dC_dA` (common_kernel.cc:120). -/
noncomputable def gA (c : Nat → Bool) (ex : ℝ → ℝ) (g : Gauss) (xp yp r : ℝ) : ℝ :=
  rd c 11 (dA0 c ex g xp yp r * hF c g xp yp)

/-- `C` (common_kernel.cc:121). -/
noncomputable def gC (c : Nat → Bool) (ex : ℝ → ℝ) (g : Gauss) (xp yp r : ℝ) : ℝ :=
  rd c 12 (cH c ex g xp yp r * hF c g xp yp)

/-- `dC_dx` (common_kernel.cc:122, 128). -/
noncomputable def gX (c : Nat → Bool) (ex : ℝ → ℝ) (g : Gauss) (xp yp r : ℝ) : ℝ :=
  let vx := vX c g xp yp
  let vy := vY c g xp yp
  fl 24 (rd c 13 (gC c ex g xp yp r * vx) - rd c 14 (rd c 15 (cH c ex g xp yp r * dot c 16 g.fxx g.fxy vx vy) * fl 24 (1 / 12)))

/-- `dC_dy` (common_kernel.cc:123, 129). -/
noncomputable def gY (c : Nat → Bool) (ex : ℝ → ℝ) (g : Gauss) (xp yp r : ℝ) : ℝ :=
  let vx := vX c g xp yp
  let vy := vY c g xp yp
  fl 24 (rd c 18 (gC c ex g xp yp r * vy) - rd c 19 (rd c 20 (cH c ex g xp yp r * dot c 21 g.fyy g.fxy vy vx) * fl 24 (1 / 12)))

/-- `dC_dfx` (common_kernel.cc:124, 130). -/
noncomputable def gFx (c : Nat → Bool) (ex : ℝ → ℝ) (g : Gauss) (xp yp r : ℝ) : ℝ :=
  let dx := fl 24 (xp - g.xcen)
  fl 24 (rd c 23 (rd c 24 (rd c 25 (-(1 / 2) * gC c ex g xp yp r) * dx) * dx) -
    rd c 26 (rd c 27 (cH c ex g xp yp r * fl 24 (1 - rd c 28 (rd c 29 (2 * dx) * vX c g xp yp))) * fl 24 (1 / 24)))

/-- `dC_dfy` (common_kernel.cc:125, 131). -/
noncomputable def gFy (c : Nat → Bool) (ex : ℝ → ℝ) (g : Gauss) (xp yp r : ℝ) : ℝ :=
  let dy := fl 24 (yp - g.ycen)
  fl 24 (rd c 30 (rd c 31 (rd c 32 (-(1 / 2) * gC c ex g xp yp r) * dy) * dy) -
    rd c 33 (rd c 34 (cH c ex g xp yp r * fl 24 (1 - rd c 35 (rd c 36 (2 * dy) * vY c g xp yp))) * fl 24 (1 / 24)))

/-- `dC_dfxy` (common_kernel.cc:126, 132). -/
noncomputable def gFxy (c : Nat → Bool) (ex : ℝ → ℝ) (g : Gauss) (xp yp r : ℝ) : ℝ :=
  let dx := fl 24 (xp - g.xcen)
  let dy := fl 24 (yp - g.ycen)
  fl 24 (rd c 37 (rd c 38 (rd c 39 (-1 * gC c ex g xp yp r) * dx) * dy) +
    rd c 40 (rd c 41 (cH c ex g xp yp r * dot c 42 dy dx (vX c g xp yp) (vY c g xp yp)) * fl 24 (1 / 12)))

/-- The terms with the shape (common_kernel.cc:138-139): `a*dC_dA + dC_dfx*fxx + dC_dfxy*fxy + dC_dfy*fyy`. -/
noncomputable def shapeTerm (c : Nat → Bool) (i : Nat) (a fxx fxy fyy A Fx Fxy Fy : ℝ) : ℝ :=
  fl 24 (fl 24 (dot c i a Fx A fxx + rd c (i + 2) (Fxy * fxy)) + rd c (i + 3) (Fy * fyy))

/-- What a gaussian adds to each of the seven derivatives (common_kernel.cc:135-141). -/
noncomputable def gradTerm (c : Nat → Bool) (ex : ℝ → ℝ) (g : Gauss) (J : Jac) (xp yp r : ℝ) : Fin 7 → ℝ
  | 0 => rd c 44 (J.aFlux * gA c ex g xp yp r)
  | 1 => dot c 45 J.xAlpha J.yAlpha (gX c ex g xp yp r) (gY c ex g xp yp r)
  | 2 => dot c 47 J.xDelta J.yDelta (gX c ex g xp yp r) (gY c ex g xp yp r)
  | 3 => shapeTerm c 49 J.aQ J.fxxQ J.fxyQ J.fyyQ (gA c ex g xp yp r) (gFx c ex g xp yp r) (gFxy c ex g xp yp r)
      (gFy c ex g xp yp r)
  | 4 => shapeTerm c 53 J.aPA J.fxxPA J.fxyPA J.fyyPA (gA c ex g xp yp r) (gFx c ex g xp yp r) (gFxy c ex g xp yp r)
      (gFy c ex g xp yp r)
  | 5 => rd c 57 (J.aSersic * gA c ex g xp yp r)
  | 6 => rd c 58 (J.aRh * gA c ex g xp yp r)

/-- One turn of the loop over the gaussians of a source (common_kernel.cc:99-142). -/
noncomputable def gradOne (c : Nat → Bool) (ex : ℝ → ℝ) (xp yp r : ℝ) (d : Fin 7 → ℝ) (g : Gauss × Jac) : Fin 7 → ℝ :=
  if 36 < eArg c g.1 xp yp then d else fun j => fl 24 (d j + gradTerm c ex g.1 g.2 xp yp r j)

/-- `ComputeGaussianDerivative` (common_kernel.cc:95-143), from the zeros of compute_gaussians_kernel.cc:298. -/
noncomputable def sourceGrad (c : Nat → Bool) (ex : ℝ → ℝ) (gs : List (Gauss × Jac)) (xp yp r : ℝ) : Fin 7 → ℝ :=
  gs.foldl (gradOne c ex xp yp r) fun _ => 0

/-! ## Specification -/

/-- The value of a gaussian in a pixel. -/
noncomputable def pixVal (g : Gauss) (xp yp : ℝ) : ℝ := value g (xp - g.xcen) (yp - g.ycen)

/-- How amplitude, centre and shape of a gaussian change with each parameter of its source, in the order flux, right
ascension, declination, axis ratio, position angle, index, radius. -/
def Jac.column (J : Jac) : Fin 7 → Gauss
  | 0 => ⟨J.aFlux, 0, 0, 0, 0, 0⟩
  | 1 => ⟨0, J.xAlpha, J.yAlpha, 0, 0, 0⟩
  | 2 => ⟨0, J.xDelta, J.yDelta, 0, 0, 0⟩
  | 3 => ⟨J.aQ, 0, 0, J.fxxQ, J.fyyQ, J.fxyQ⟩
  | 4 => ⟨J.aPA, 0, 0, J.fxxPA, J.fyyPA, J.fxyPA⟩
  | 5 => ⟨J.aSersic, 0, 0, 0, 0, 0⟩
  | 6 => ⟨J.aRh, 0, 0, 0, 0, 0⟩

/-- The gaussian after a step `s` in the direction `v`. -/
def Gauss.move (g v : Gauss) (s : ℝ) : Gauss :=
  ⟨g.amp + s * v.amp, g.xcen + s * v.xcen, g.ycen + s * v.ycen, g.fxx + s * v.fxx, g.fyy + s * v.fyy, g.fxy + s * v.fxy⟩

/-- The scale of the effect of a direction on a gaussian. -/
noncomputable def Gauss.effect (g v : Gauss) : ℝ :=
  |v.amp| + |g.amp| * (|v.xcen| + |v.ycen| + |v.fxx| / g.fxx + |v.fyy| / g.fyy + |v.fxy| * (1 / g.fxx + 1 / g.fyy))

/-! ## The derivative -/

/-- The derivative of the value of a gaussian in a pixel. -/
noncomputable def slope (g v : Gauss) (dx dy : ℝ) : ℝ :=
  let E := Real.exp (-quad g dx dy / 2)
  let vx := g.fxx * dx + g.fxy * dy
  let vy := g.fyy * dy + g.fxy * dx
  let H := 1 + (vx ^ 2 + vy ^ 2 - g.fxx - g.fyy) / 24
  v.amp * (E * H) + v.xcen * (g.amp * E * (H * vx - (g.fxx * vx + g.fxy * vy) / 12)) +
    v.ycen * (g.amp * E * (H * vy - (g.fyy * vy + g.fxy * vx) / 12)) +
    v.fxx * (g.amp * E * (-(1 / 2) * H * dx * dx - (1 - 2 * dx * vx) / 24)) +
    v.fyy * (g.amp * E * (-(1 / 2) * H * dy * dy - (1 - 2 * dy * vy) / 24)) +
    v.fxy * (g.amp * E * (-1 * H * dx * dy + (dy * vx + dx * vy) / 12))

lemma hasDeriv (g v : Gauss) (xp yp : ℝ) :
    HasDerivAt (fun s => pixVal (g.move v s) xp yp) (slope g v (xp - g.xcen) (yp - g.ycen)) 0 := by
  have lin : ∀ a b : ℝ, HasDerivAt (fun s : ℝ => a + s * b) b 0 := fun a b =>
    Transform.hdc (((hasDerivAt_id (0 : ℝ)).mul_const b).const_add a) (fun _ => rfl) (by simp)
  have hx : HasDerivAt (fun s => xp - (g.xcen + s * v.xcen)) (-v.xcen) 0 := (lin _ _).const_sub xp
  have hy : HasDerivAt (fun s => yp - (g.ycen + s * v.ycen)) (-v.ycen) 0 := (lin _ _).const_sub yp
  have ha := lin g.amp v.amp
  have hxx := lin g.fxx v.fxx
  have hyy := lin g.fyy v.fyy
  have hxy := lin g.fxy v.fxy
  have hvx := (hxx.mul hx).add (hxy.mul hy)
  have hvy := (hyy.mul hy).add (hxy.mul hx)
  have hq := ((hxx.mul (hx.pow 2)).add (((hxy.const_mul 2).mul hx).mul hy)).add (hyy.mul (hy.pow 2))
  have hE := ((hq.neg).div_const 2).exp
  have hH := ((((hvx.pow 2).add (hvy.pow 2)).sub hxx).sub hyy).div_const 24 |>.const_add 1
  have h := (ha.mul hE).mul hH
  refine Transform.hdc h (fun s => rfl) ?_
  simp only [slope, quad, Pi.add_apply, Pi.mul_apply, Pi.pow_apply, Pi.sub_apply, Pi.neg_apply, zero_mul, add_zero]
  ring

/-! ## Roundings -/

lemma Ap.rd {r x' x A : ℝ} (c : Nat → Bool) (i : Nat) (h : Ap r x' x A) : Ap (r * w1) (rd c i x') x A := by
  rw [Float.rd]
  have h0 := h.1
  split
  · refine h.mono ?_ le_rfl
    have := w1_ge
    nlinarith
  · exact h.fl

lemma Ap.fl1 {r x' x A : ℝ} (h : Ap r x' x A) : Ap (r * w1) (Float.fl 24 x') x A := h.fl

lemma Ap.up {r x' x A : ℝ} {k l : Nat} (h : Ap (r * w1 ^ k) x' x A) (hkl : k ≤ l) (hr : 0 ≤ r) : Ap (r * w1 ^ l) x' x A :=
  h.mono (mul_le_mul_of_nonneg_left (pow_le_pow_right₀ w1_ge hkl) hr) le_rfl

lemma Ap.to {r s x' x A : ℝ} (h : Ap r x' x A) (e : r = s) : Ap s x' x A := e ▸ h

lemma Ap.dot {r s a b v w A B V W a' b' v' w' : ℝ} (c : Nat → Bool) (i : Nat) (ha : Ap r a' a A) (hb : Ap r b' b B)
    (hv : Ap s v' v V) (hw : Ap s w' w W) : Ap (r * s * w1 ^ 2) (dot c i a' b' v' w') (a * v + b * w) (A * V + B * W) :=
  ((((ha.mul hv).rd c i).add ((hb.mul hw).rd c (i + 1))).fl1).to (by ring)

lemma Ap.const {x : ℝ} (h : 0 ≤ x) : Ap w1 (Float.fl 24 x) x x := by
  have := (Ap.refl x).fl1
  rw [abs_of_nonneg h, one_mul] at this
  exact this

/-- Sizes. -/
def sX (g : Gauss) (dx dy : ℝ) : ℝ := |g.fxx| * |dx| + |g.fxy| * |dy|

/-- The size of the other component. -/
def sY (g : Gauss) (dx dy : ℝ) : ℝ := |g.fyy| * |dy| + |g.fxy| * |dx|

lemma vX_ap (c : Nat → Bool) (g : Gauss) (xp yp : ℝ) : Ap (w1 ^ 3) (vX c g xp yp)
    (g.fxx * (xp - g.xcen) + g.fxy * (yp - g.ycen)) (sX g (xp - g.xcen) (yp - g.ycen)) :=
  (Ap.dot c 0 (Ap.refl g.fxx) (Ap.refl g.fxy) (dx_ap xp g.xcen) (dx_ap yp g.ycen)).to (by ring)

lemma vY_ap (c : Nat → Bool) (g : Gauss) (xp yp : ℝ) : Ap (w1 ^ 3) (vY c g xp yp)
    (g.fyy * (yp - g.ycen) + g.fxy * (xp - g.xcen)) (sY g (xp - g.xcen) (yp - g.ycen)) :=
  (Ap.dot c 2 (Ap.refl g.fyy) (Ap.refl g.fxy) (dx_ap yp g.ycen) (dx_ap xp g.xcen)).to (by ring)

lemma eArg_ap (c : Nat → Bool) (g : Gauss) (xp yp : ℝ) :
    Ap (w1 ^ 6) (eArg c g xp yp) (quad g (xp - g.xcen) (yp - g.ycen)) (sizeQ g (xp - g.xcen) (yp - g.ycen)) := by
  have := Ap.dot c 4 (dx_ap xp g.xcen) (dx_ap yp g.ycen) (vX_ap c g xp yp) (vY_ap c g xp yp)
  have e : quad g (xp - g.xcen) (yp - g.ycen) =
      (xp - g.xcen) * (g.fxx * (xp - g.xcen) + g.fxy * (yp - g.ycen)) +
      (yp - g.ycen) * (g.fyy * (yp - g.ycen) + g.fxy * (xp - g.xcen)) := by
    rw [quad]; ring
  rw [e]
  exact this.to (by ring)

lemma hF_ap (c : Nat → Bool) (g : Gauss) (xp yp : ℝ) :
    Ap (w1 ^ 13) (hF c g xp yp)
      (1 + ((g.fxx * (xp - g.xcen) + g.fxy * (yp - g.ycen)) ^ 2 + (g.fyy * (yp - g.ycen) + g.fxy * (xp - g.xcen)) ^ 2
        - g.fxx - g.fyy) / 24) (sizeH g (xp - g.xcen) (yp - g.ycen)) := by
  have h1 := vX_ap c g xp yp
  have h2 := vY_ap c g xp yp
  have pow1 : ∀ n : Nat, (1 : ℝ) ≤ w1 ^ n := fun n => one_le_pow₀ w1_ge
  have h3 := (Ap.dot c 6 h1 h2 h1 h2).to (show w1 ^ 3 * w1 ^ 3 * w1 ^ 2 = w1 ^ 8 by ring)
  have h4 := (h3.sub ((Ap.refl g.fxx).mono (pow1 8) le_rfl)).fl1.to (show _ = w1 ^ 9 by ring)
  have h5 := (h4.sub ((Ap.refl g.fyy).mono (pow1 9) le_rfl)).fl1.to (show _ = w1 ^ 10 by ring)
  have h6 := ((h5.mul (Ap.const (show (0 : ℝ) ≤ 1 / 24 by norm_num))).rd c 8).to (show _ = w1 ^ 12 by ring)
  have h7 := (((Ap.refl 1).mono (pow1 12) le_rfl).add h6).fl1.to (show _ = w1 ^ 13 by ring)
  generalize ev : g.fxx * (xp - g.xcen) + g.fxy * (yp - g.ycen) = v at h7 ⊢
  generalize ew : g.fyy * (yp - g.ycen) + g.fxy * (xp - g.xcen) = w at h7 ⊢
  have e1 : 1 + (v * v + w * w - g.fxx - g.fyy) * (1 / 24) = 1 + (v ^ 2 + w ^ 2 - g.fxx - g.fyy) / 24 := by ring
  rw [e1] at h7
  refine h7.mono le_rfl (le_of_eq ?_)
  rw [sizeH, abs_one, sX, sY]
  ring

lemma eHalf (c : Nat → Bool) (g : Gauss) (xp yp : ℝ) :
    fl 24 (-(1 / 2) * eArg c g xp yp) = -(1 / 2) * eArg c g xp yp :=
  fl_rep 24 (by norm_num) _ (rep_half _ (by rw [eArg, dot]; exact fl_isRep 24 (by norm_num) _))

/-- The factors of the derivatives, up to roundings; `ρ` is the factor of the exponential `E`. -/
lemma parts_ap (c : Nat → Bool) (ex : ℝ → ℝ) (g : Gauss) (xp yp r ρ E : ℝ)
    (hE : Ap ρ (ex (-(1 / 2) * eArg c g xp yp)) E E) :
    let dx := xp - g.xcen
    let dy := yp - g.ycen
    let vx := g.fxx * dx + g.fxy * dy
    let vy := g.fyy * dy + g.fxy * dx
    let H := 1 + (vx ^ 2 + vy ^ 2 - g.fxx - g.fyy) / 24
    Ap (ρ * w1 ^ 23) (gA c ex g xp yp r) (-2 * r * (E * H)) (2 * |r| * E * sizeH g dx dy) ∧
    Ap (ρ * w1 ^ 23) (gX c ex g xp yp r) (-2 * r * (g.amp * E * (H * vx - (g.fxx * vx + g.fxy * vy) / 12)))
      (2 * |r| * E * (|g.amp| * (sizeH g dx dy * sX g dx dy + (|g.fxx| * sX g dx dy + |g.fxy| * sY g dx dy) / 12))) ∧
    Ap (ρ * w1 ^ 23) (gY c ex g xp yp r) (-2 * r * (g.amp * E * (H * vy - (g.fyy * vy + g.fxy * vx) / 12)))
      (2 * |r| * E * (|g.amp| * (sizeH g dx dy * sY g dx dy + (|g.fyy| * sY g dx dy + |g.fxy| * sX g dx dy) / 12))) ∧
    Ap (ρ * w1 ^ 23) (gFx c ex g xp yp r) (-2 * r * (g.amp * E * (-(1 / 2) * H * dx * dx - (1 - 2 * dx * vx) / 24)))
      (2 * |r| * E * (|g.amp| * (1 / 2 * sizeH g dx dy * |dx| * |dx| + (1 + 2 * |dx| * sX g dx dy) / 24))) ∧
    Ap (ρ * w1 ^ 23) (gFy c ex g xp yp r) (-2 * r * (g.amp * E * (-(1 / 2) * H * dy * dy - (1 - 2 * dy * vy) / 24)))
      (2 * |r| * E * (|g.amp| * (1 / 2 * sizeH g dx dy * |dy| * |dy| + (1 + 2 * |dy| * sY g dx dy) / 24))) ∧
    Ap (ρ * w1 ^ 23) (gFxy c ex g xp yp r) (-2 * r * (g.amp * E * (-1 * H * dx * dy + (dy * vx + dx * vy) / 12)))
      (2 * |r| * E * (|g.amp| * (sizeH g dx dy * |dx| * |dy| + (|dy| * sX g dx dy + |dx| * sY g dx dy) / 12))) := by
  intro dx dy vx vy H
  have hρ : 0 ≤ ρ := by linarith [hE.1]
  have pow1 : ∀ n : Nat, (1 : ℝ) ≤ w1 ^ n := fun n => one_le_pow₀ w1_ge
  have hx : Ap w1 (fl 24 (xp - g.xcen)) dx |dx| := dx_ap xp g.xcen
  have hy : Ap w1 (fl 24 (yp - g.ycen)) dy |dy| := dx_ap yp g.ycen
  have hvx : Ap (w1 ^ 3) (vX c g xp yp) vx (sX g dx dy) := vX_ap c g xp yp
  have hvy : Ap (w1 ^ 3) (vY c g xp yp) vy (sY g dx dy) := vY_ap c g xp yp
  have hH : Ap (w1 ^ 13) (hF c g xp yp) H (sizeH g dx dy) := hF_ap c g xp yp
  have two : |(-2 : ℝ) * r| = 2 * |r| := by rw [abs_mul]; norm_num
  have hr := (Ap.refl (-2 * r)).fl1
  rw [two] at hr
  have h12 : Ap w1 (fl 24 (1 / 12)) (1 / 12) (1 / 12) := Ap.const (by norm_num)
  have h24 : Ap w1 (fl 24 (1 / 24)) (1 / 24) (1 / 24) := Ap.const (by norm_num)
  have h0 : Ap (ρ * w1 ^ 2) (dA0 c ex g xp yp r) (-2 * r * E) (2 * |r| * E) := by
    rw [dA0, eHalf]
    exact ((hr.mul hE).rd c 9).to (by ring)
  have hh : Ap (ρ * w1 ^ 3) (cH c ex g xp yp r) (-2 * r * E * g.amp) (2 * |r| * E * |g.amp|) :=
    ((h0.mul (Ap.refl g.amp)).rd c 10).to (by ring)
  have hA : Ap (ρ * w1 ^ 16) (gA c ex g xp yp r) (-2 * r * E * H) (2 * |r| * E * sizeH g dx dy) :=
    ((h0.mul hH).rd c 11).to (by ring)
  have hC : Ap (ρ * w1 ^ 17) (gC c ex g xp yp r) (-2 * r * E * g.amp * H) (2 * |r| * E * |g.amp| * sizeH g dx dy) :=
    ((hh.mul hH).rd c 12).to (by ring)
  -- a derivative of the centre
  have hpos : ∀ (i j k l : Nat) (f h v w v' w' V W : ℝ), Ap (w1 ^ 3) v' v V → Ap (w1 ^ 3) w' w W →
      Ap (ρ * w1 ^ 23) (fl 24 (rd c i (gC c ex g xp yp r * v') -
        rd c j (rd c k (cH c ex g xp yp r * dot c l f h v' w') * fl 24 (1 / 12))))
        (-2 * r * E * g.amp * H * v - -2 * r * E * g.amp * (f * v + h * w) * (1 / 12))
        (2 * |r| * E * |g.amp| * sizeH g dx dy * V + 2 * |r| * E * |g.amp| * (|f| * V + |h| * W) * (1 / 12)) := by
    intro i j k l f h v w v' w' V W hv hw
    have a1 : Ap (ρ * w1 ^ 21) _ _ _ := ((hC.mul hv).rd c i).to (by ring)
    have a2 := (Ap.dot c l (Ap.refl f) (Ap.refl h) hv hw)
    have a3 : Ap (ρ * w1 ^ 11) _ _ _ := ((((hh.mul a2).rd c k).mul h12).rd c j).to (by ring)
    exact ((a1.sub (a3.up (by norm_num) hρ)).fl1.to (show _ = ρ * w1 ^ 22 by ring)).up (by norm_num) hρ
  -- a derivative of the diagonal of the shape
  have hdia : ∀ (i j k l m n o : Nat) (d d' v v' V : ℝ), Ap w1 d' d |d| → Ap (w1 ^ 3) v' v V →
      Ap (ρ * w1 ^ 23) (fl 24 (rd c i (rd c j (rd c k (-(1 / 2) * gC c ex g xp yp r) * d') * d') -
        rd c l (rd c m (cH c ex g xp yp r * fl 24 (1 - rd c n (rd c o (2 * d') * v'))) * fl 24 (1 / 24))))
        (-(1 / 2) * (-2 * r * E * g.amp * H) * d * d - -2 * r * E * g.amp * (1 - 2 * d * v) * (1 / 24))
        (1 / 2 * (2 * |r| * E * |g.amp| * sizeH g dx dy) * |d| * |d| +
          2 * |r| * E * |g.amp| * (1 + 2 * |d| * V) * (1 / 24)) := by
    intro i j k l m n o d d' v v' V hd hv
    have half := Ap.refl (-(1 / 2) : ℝ)
    rw [show |(-(1 / 2) : ℝ)| = 1 / 2 by rw [abs_neg]; norm_num] at half
    have t2 := Ap.refl (2 : ℝ)
    rw [show |(2 : ℝ)| = 2 by norm_num] at t2
    have t1 := Ap.refl (1 : ℝ)
    rw [show |(1 : ℝ)| = 1 by norm_num] at t1
    have a1 : Ap (ρ * w1 ^ 22) _ _ _ :=
      ((((((half.mul hC).rd c k).mul hd).rd c j).mul hd).rd c i).to (by ring)
    have b1 : Ap (w1 ^ 6) _ _ _ := ((((t2.mul hd).rd c o).mul hv).rd c n).to (by ring)
    have b2 : Ap (w1 ^ 7) _ _ _ := ((t1.mono (pow1 6) le_rfl).sub b1).fl1.to (by ring)
    have b3 : Ap (ρ * w1 ^ 13) _ _ _ := ((((hh.mul b2).rd c m).mul h24).rd c l).to (by ring)
    exact (a1.sub (b3.up (by norm_num) hρ)).fl1.to (by ring)
  refine ⟨?_, ?_, ?_, ?_, ?_, ?_⟩
  · have := hA.up (show 16 ≤ 23 by norm_num) hρ
    rwa [show -2 * r * E * H = -2 * r * (E * H) by ring] at this
  · have := hpos 13 14 15 16 g.fxx g.fxy vx vy _ _ _ _ hvx hvy
    rw [show -2 * r * E * g.amp * H * vx - -2 * r * E * g.amp * (g.fxx * vx + g.fxy * vy) * (1 / 12) =
      -2 * r * (g.amp * E * (H * vx - (g.fxx * vx + g.fxy * vy) / 12)) by ring] at this
    exact this.mono le_rfl (le_of_eq (by ring))
  · have := hpos 18 19 20 21 g.fyy g.fxy vy vx _ _ _ _ hvy hvx
    rw [show -2 * r * E * g.amp * H * vy - -2 * r * E * g.amp * (g.fyy * vy + g.fxy * vx) * (1 / 12) =
      -2 * r * (g.amp * E * (H * vy - (g.fyy * vy + g.fxy * vx) / 12)) by ring] at this
    exact this.mono le_rfl (le_of_eq (by ring))
  · have := hdia 23 24 25 26 27 28 29 dx _ vx _ _ hx hvx
    rw [show -(1 / 2) * (-2 * r * E * g.amp * H) * dx * dx - -2 * r * E * g.amp * (1 - 2 * dx * vx) * (1 / 24) =
      -2 * r * (g.amp * E * (-(1 / 2) * H * dx * dx - (1 - 2 * dx * vx) / 24)) by ring] at this
    exact this.mono le_rfl (le_of_eq (by ring))
  · have := hdia 30 31 32 33 34 35 36 dy _ vy _ _ hy hvy
    rw [show -(1 / 2) * (-2 * r * E * g.amp * H) * dy * dy - -2 * r * E * g.amp * (1 - 2 * dy * vy) * (1 / 24) =
      -2 * r * (g.amp * E * (-(1 / 2) * H * dy * dy - (1 - 2 * dy * vy) / 24)) by ring] at this
    exact this.mono le_rfl (le_of_eq (by ring))
  · have one := Ap.refl (-1 : ℝ)
    rw [show |(-1 : ℝ)| = 1 by norm_num] at one
    have a1 : Ap (ρ * w1 ^ 22) _ _ _ :=
      ((((((one.mul hC).rd c 39).mul hx).rd c 38).mul hy).rd c 37).to (by ring)
    have b1 := Ap.dot c 42 hy hx hvx hvy
    have b3 : Ap (ρ * w1 ^ 12) _ _ _ := ((((hh.mul b1).rd c 41).mul h12).rd c 40).to (by ring)
    have := (a1.add (b3.up (by norm_num) hρ)).fl1.to (show _ = ρ * w1 ^ 23 by ring)
    rw [show -1 * (-2 * r * E * g.amp * H) * dx * dy + -2 * r * E * g.amp * (dy * vx + dx * vy) * (1 / 12) =
      -2 * r * (g.amp * E * (-1 * H * dx * dy + (dy * vx + dx * vy) / 12)) by ring] at this
    exact this.mono le_rfl (le_of_eq (by ring))

/-- The size of the terms of the derivative in a direction. -/
noncomputable def sizeG (g v : Gauss) (dx dy : ℝ) : ℝ :=
  |v.amp| * sizeH g dx dy +
    |v.xcen| * (|g.amp| * (sizeH g dx dy * sX g dx dy + (|g.fxx| * sX g dx dy + |g.fxy| * sY g dx dy) / 12)) +
    |v.ycen| * (|g.amp| * (sizeH g dx dy * sY g dx dy + (|g.fyy| * sY g dx dy + |g.fxy| * sX g dx dy) / 12)) +
    |v.fxx| * (|g.amp| * (1 / 2 * sizeH g dx dy * |dx| * |dx| + (1 + 2 * |dx| * sX g dx dy) / 24)) +
    |v.fyy| * (|g.amp| * (1 / 2 * sizeH g dx dy * |dy| * |dy| + (1 + 2 * |dy| * sY g dx dy) / 24)) +
    |v.fxy| * (|g.amp| * (sizeH g dx dy * |dx| * |dy| + (|dy| * sX g dx dy + |dx| * sY g dx dy) / 12))

lemma one_ap {ρ A' A S : ℝ} (c : Nat → Bool) (i : Nat) (a : ℝ) (hρ : 0 ≤ ρ) (hA : Ap (ρ * w1 ^ 23) A' A S) :
    Ap (ρ * w1 ^ 27) (rd c i (a * A')) (a * A) (|a| * S) :=
  ((((Ap.refl a).mul hA).rd c i).to (show _ = ρ * w1 ^ 24 by ring)).up (by norm_num) hρ

lemma two_ap {ρ X' X S Y' Y T : ℝ} (c : Nat → Bool) (i : Nat) (a b : ℝ) (hρ : 0 ≤ ρ) (hX : Ap (ρ * w1 ^ 23) X' X S)
    (hY : Ap (ρ * w1 ^ 23) Y' Y T) : Ap (ρ * w1 ^ 27) (dot c i a b X' Y') (a * X + b * Y) (|a| * S + |b| * T) :=
  ((Ap.dot c i (Ap.refl a) (Ap.refl b) hX hY).to (show _ = ρ * w1 ^ 25 by ring)).up (by norm_num) hρ

lemma four_ap {ρ A' A S X' X T Z' Z U Y' Y V : ℝ} (c : Nat → Bool) (i : Nat) (a fxx fxy fyy : ℝ) (hρ : 0 ≤ ρ)
    (hA : Ap (ρ * w1 ^ 23) A' A S) (hFx : Ap (ρ * w1 ^ 23) X' X T) (hFxy : Ap (ρ * w1 ^ 23) Z' Z U)
    (hFy : Ap (ρ * w1 ^ 23) Y' Y V) : Ap (ρ * w1 ^ 27) (shapeTerm c i a fxx fxy fyy A' X' Z' Y')
      (a * A + X * fxx + Z * fxy + Y * fyy) (|a| * S + T * |fxx| + U * |fxy| + V * |fyy|) := by
  have p1 := ((Ap.refl a).mul hA).rd c i
  have p2 := (hFx.mul (Ap.refl fxx)).rd c (i + 1)
  have p3 := (hFxy.mul (Ap.refl fxy)).rd c (i + 2)
  have p4 := (hFy.mul (Ap.refl fyy)).rd c (i + 3)
  have q1 := ((p1.to (show _ = ρ * w1 ^ 24 by ring)).add (p2.to (show _ = ρ * w1 ^ 24 by ring))).fl1.to
    (show _ = ρ * w1 ^ 25 by ring)
  have q2 := (q1.add ((p3.to (show _ = ρ * w1 ^ 24 by ring)).up (by norm_num) hρ)).fl1.to (show _ = ρ * w1 ^ 26 by ring)
  exact (q2.add ((p4.to (show _ = ρ * w1 ^ 24 by ring)).up (by norm_num) hρ)).fl1.to (by ring)

/-- C141 (in general): each term is the derivative times the residual, up to 27 roundings and the error of the
exponential, relative to the size of its terms. -/
lemma term_ap (c : Nat → Bool) (ex : ℝ → ℝ) (g : Gauss) (J : Jac) (xp yp r ρ : ℝ)
    (hE : Ap ρ (ex (-(1 / 2) * eArg c g xp yp)) (Real.exp (-quad g (xp - g.xcen) (yp - g.ycen) / 2))
      (Real.exp (-quad g (xp - g.xcen) (yp - g.ycen) / 2))) (j : Fin 7) :
    Ap (ρ * w1 ^ 27) (gradTerm c ex g J xp yp r j) (-2 * r * slope g (J.column j) (xp - g.xcen) (yp - g.ycen))
      (2 * |r| * Real.exp (-quad g (xp - g.xcen) (yp - g.ycen) / 2) *
        sizeG g (J.column j) (xp - g.xcen) (yp - g.ycen)) := by
  have hρ : 0 ≤ ρ := by linarith [hE.1]
  obtain ⟨hA, hX, hY, hFx, hFy, hFxy⟩ := parts_ap c ex g xp yp r ρ _ hE
  have one := fun (i : Nat) (a : ℝ) => one_ap c i a hρ hA
  have two := fun (i : Nat) (a b : ℝ) => two_ap c i a b hρ hX hY
  have four := fun (i : Nat) (a fxx fxy fyy : ℝ) => four_ap c i a fxx fxy fyy hρ hA hFx hFxy hFy
  have fin : ∀ {r x' x A y B : ℝ}, Ap r x' x A → x = y → A = B → Ap r x' y B := fun h e1 e2 => e1 ▸ e2 ▸ h
  fin_cases j
  · exact fin (one 44 J.aFlux) (by simp only [slope, Jac.column]; ring) (by simp only [sizeG, Jac.column, abs_zero]; ring)
  · exact fin (two 45 J.xAlpha J.yAlpha) (by simp only [slope, Jac.column]; ring)
      (by simp only [sizeG, Jac.column, abs_zero]; ring)
  · exact fin (two 47 J.xDelta J.yDelta) (by simp only [slope, Jac.column]; ring)
      (by simp only [sizeG, Jac.column, abs_zero]; ring)
  · exact fin (four 49 J.aQ J.fxxQ J.fxyQ J.fyyQ) (by simp only [slope, Jac.column]; ring)
      (by simp only [sizeG, Jac.column, abs_zero]; ring)
  · exact fin (four 53 J.aPA J.fxxPA J.fxyPA J.fyyPA) (by simp only [slope, Jac.column]; ring)
      (by simp only [sizeG, Jac.column, abs_zero]; ring)
  · exact fin (one 57 J.aSersic) (by simp only [slope, Jac.column]; ring) (by simp only [sizeG, Jac.column, abs_zero]; ring)
  · exact fin (one 58 J.aRh) (by simp only [slope, Jac.column]; ring) (by simp only [sizeG, Jac.column, abs_zero]; ring)

/-! ## Gaussians of ordinary shape -/

lemma sXY_le (g : Gauss) (h : Ordinary g) (dx dy : ℝ) :
    sX g dx dy ≤ 4 + quad g dx dy ∧ sY g dx dy ≤ 4 + quad g dx dy ∧ |g.fxy| ≤ 2 := by
  have q := quad_ge g h dx dy
  have hn := quad_nonneg g h dx dy
  obtain ⟨h1, h2, h3, h4, h5⟩ := h
  rw [← sq_abs g.fxy] at h5
  rw [sX, sY, abs_of_nonneg h1, abs_of_nonneg h3]
  generalize |dx| = X at *
  generalize |dy| = Y at *
  have hC : 0 ≤ |g.fxy| := abs_nonneg _
  generalize |g.fxy| = C at *
  generalize g.fxx = a at *
  generalize g.fyy = b at *
  generalize quad g dx dy = Q at *
  have e1 : a * (a * X ^ 2) ≤ 4 * (a * X ^ 2) := mul_le_mul_of_nonneg_right h2 (by positivity)
  have e2 : b * (b * Y ^ 2) ≤ 4 * (b * Y ^ 2) := mul_le_mul_of_nonneg_right h4 (by positivity)
  have e5 : 4 * C ^ 2 * X ^ 2 ≤ a * b * X ^ 2 := mul_le_mul_of_nonneg_right h5 (by positivity)
  have e6 : 4 * C ^ 2 * Y ^ 2 ≤ a * b * Y ^ 2 := mul_le_mul_of_nonneg_right h5 (by positivity)
  have e7 : b * (a * X ^ 2) ≤ 4 * (a * X ^ 2) := mul_le_mul_of_nonneg_right h4 (by positivity)
  have e8 : a * (b * Y ^ 2) ≤ 4 * (b * Y ^ 2) := mul_le_mul_of_nonneg_right h2 (by positivity)
  refine ⟨?_, ?_, ?_⟩
  · refine (abs_le_of_sq_le_sq' ?_ (by linarith)).2
    nlinarith [sq_nonneg (a * X - C * Y), sq_nonneg (Q - 4)]
  · refine (abs_le_of_sq_le_sq' ?_ (by linarith)).2
    nlinarith [sq_nonneg (b * Y - C * X), sq_nonneg (Q - 4)]
  · refine (abs_le_of_sq_le_sq' ?_ (by norm_num)).2
    nlinarith [mul_le_mul h2 h4 h3 (by norm_num : (0 : ℝ) ≤ 4)]

lemma pos_num {Q S C f u w : ℝ} (hn : 0 ≤ Q) (hH0 : 0 ≤ S) (hH : S ≤ 4 / 3 + 3 / 4 * Q) (hC0 : 0 ≤ C) (hC : C ≤ 2)
    (f0 : 0 ≤ f) (f4 : f ≤ 4) (u0 : 0 ≤ u) (w0 : 0 ≤ w) (hu : u ≤ 4 + Q) (hw : w ≤ 4 + Q) :
    S * u + (f * u + C * w) / 12 ≤ (4 + Q) * (2 + Q) := by
  have e1 : S * u ≤ (4 / 3 + 3 / 4 * Q) * (4 + Q) := mul_le_mul hH hu u0 (by positivity)
  have e2 : f * u ≤ 4 * (4 + Q) := mul_le_mul f4 hu u0 (by norm_num)
  have e3 : C * w ≤ 2 * (4 + Q) := mul_le_mul hC hw w0 (by norm_num)
  have e4 : (4 / 3 + 3 / 4 * Q) * (4 + Q) + (4 * (4 + Q) + 2 * (4 + Q)) / 12 ≤ (4 + Q) * (2 + Q) := by
    nlinarith [mul_nonneg hn hn]
  linarith

lemma dia_num {Q S f u d : ℝ} (hn : 0 ≤ Q) (hH0 : 0 ≤ S) (hH : S ≤ 4 / 3 + 3 / 4 * Q) (f0 : 0 < f) (f4 : 1 ≤ 4 / f)
    (hd : d ^ 2 ≤ 2 * Q / f) (hu : d * u ≤ 5 / 2 * Q) :
    1 / 2 * S * d * d + (1 + 2 * d * u) / 24 ≤ (4 + Q) * (2 + Q) / f := by
  have i0 : (0 : ℝ) ≤ 1 / f := by positivity
  have e1 : S * d ^ 2 ≤ (4 / 3 + 3 / 4 * Q) * (2 * Q / f) := mul_le_mul hH hd (by positivity) (by positivity)
  have e2 : (1 + 2 * d * u) ≤ (1 + 5 * Q) * (4 / f) := by
    have : (1 + 5 * Q) * 1 ≤ (1 + 5 * Q) * (4 / f) := mul_le_mul_of_nonneg_left f4 (by positivity)
    have : 1 + 2 * d * u = 1 + 2 * (d * u) := by ring
    linarith
  have e3 : 1 / 2 * ((4 / 3 + 3 / 4 * Q) * (2 * Q / f)) + (1 + 5 * Q) * (4 / f) / 24 =
      (1 / f) * ((4 / 3 + 3 / 4 * Q) * Q + (1 + 5 * Q) / 6) := by ring
  have e4 : (1 / f) * ((4 / 3 + 3 / 4 * Q) * Q + (1 + 5 * Q) / 6) ≤ (1 / f) * ((4 + Q) * (2 + Q)) :=
    mul_le_mul_of_nonneg_left (by nlinarith [mul_nonneg hn hn]) i0
  have e5 : (1 / f) * ((4 + Q) * (2 + Q)) = (4 + Q) * (2 + Q) / f := by ring
  have e6 : 1 / 2 * S * d * d = 1 / 2 * (S * d ^ 2) := by ring
  linarith

lemma off_num {Q S a b C1 C2 : ℝ} (hn : 0 ≤ Q) (hH : S ≤ 4 / 3 + 3 / 4 * Q) (hS : 0 ≤ S) (ha : 0 < a) (hb : 0 < b)
    (h2 : a ≤ 4) (h4 : b ≤ 4) {X Y : ℝ} (hZ : 0 ≤ X * Y) (XY : X * Y ≤ Q / a + Q / b) (hC1 : C1 ≤ 4 * Q / b)
    (hC2 : C2 ≤ 4 * Q / a) :
    S * X * Y + ((a + b) * (X * Y) + C1 + C2) / 12 ≤ (4 + Q) * (2 + Q) * (1 / a + 1 / b) := by
  have e1 : S * (X * Y) ≤ (4 / 3 + 3 / 4 * Q) * (Q / a + Q / b) := mul_le_mul hH XY hZ (by positivity)
  have e3 : (a + b) * (X * Y) ≤ 8 * (Q / a + Q / b) := mul_le_mul (by linarith) XY hZ (by norm_num)
  have e4 : (4 / 3 + 3 / 4 * Q) * (Q / a + Q / b) + (8 * (Q / a + Q / b) + 4 * Q / b + 4 * Q / a) / 12 =
      ((4 / 3 + 3 / 4 * Q) * Q + Q) * (1 / a + 1 / b) := by ring
  have e5 : ((4 / 3 + 3 / 4 * Q) * Q + Q) * (1 / a + 1 / b) ≤ (4 + Q) * (2 + Q) * (1 / a + 1 / b) :=
    mul_le_mul_of_nonneg_right (by nlinarith [mul_nonneg hn hn]) (by positivity)
  have e6 : S * X * Y = S * (X * Y) := by ring
  linarith

/-- The size of a derivative: a polynomial in the exponent. -/
lemma sizeG_le (g v : Gauss) (h : Ordinary g) (hx : 0 < g.fxx) (hy : 0 < g.fyy) (dx dy : ℝ) :
    sizeG g v dx dy ≤ (4 + quad g dx dy) * (2 + quad g dx dy) * g.effect v := by
  have hX := sXY_le g h dx dy
  have hH := sizeH_le g h dx dy
  have hq := quad_ge g h dx dy
  have hn := quad_nonneg g h dx dy
  have hcr := cross g h |dx| |dy| (abs_nonneg _) (abs_nonneg _)
  have hsX : sX g dx dy = g.fxx * |dx| + |g.fxy| * |dy| := by rw [sX, abs_of_pos hx]
  have hsY : sY g dx dy = g.fyy * |dy| + |g.fxy| * |dx| := by rw [sY, abs_of_pos hy]
  have hH0 : 0 ≤ sizeH g dx dy := by rw [sizeH]; positivity
  have hX0 : 0 ≤ sX g dx dy := by rw [sX]; positivity
  have hY0 : 0 ≤ sY g dx dy := by rw [sY]; positivity
  obtain ⟨-, h2, -, h4, h5⟩ := h
  obtain ⟨hXl, hYl, hC⟩ := hX
  have hC0 : 0 ≤ |g.fxy| := abs_nonneg _
  rw [sizeG, Gauss.effect, abs_of_pos hx, abs_of_pos hy]
  have hdx : 0 ≤ |dx| := abs_nonneg _
  have hdy : 0 ≤ |dy| := abs_nonneg _
  generalize |dx| = X at *
  generalize |dy| = Y at *
  generalize quad g dx dy = Q at *
  generalize sizeH g dx dy = S at *
  generalize sX g dx dy = U at *
  generalize sY g dx dy = V at *
  generalize |g.fxy| = C at *
  generalize g.fxx = a at *
  generalize g.fyy = b at *
  have hP : 0 ≤ (4 + Q) * (2 + Q) := by positivity
  have aX : a * X ^ 2 ≤ 2 * Q := by linarith [mul_nonneg hy.le (sq_nonneg Y)]
  have bY : b * Y ^ 2 ≤ 2 * Q := by linarith [mul_nonneg hx.le (sq_nonneg X)]
  have CXY : C * X * Y ≤ Q / 2 := by linarith
  have X2 : X ^ 2 ≤ 2 * Q / a := by rw [le_div_iff₀ hx]; linarith
  have Y2 : Y ^ 2 ≤ 2 * Q / b := by rw [le_div_iff₀ hy]; linarith
  have ia : 1 ≤ 4 / a := by rw [le_div_iff₀ hx]; linarith
  have ib : 1 ≤ 4 / b := by rw [le_div_iff₀ hy]; linarith
  have Y2' : C * Y ^ 2 ≤ 4 * Q / b := by
    calc C * Y ^ 2 ≤ 2 * (2 * Q / b) := mul_le_mul hC Y2 (by positivity) (by norm_num)
      _ = 4 * Q / b := by ring
  have X2' : C * X ^ 2 ≤ 4 * Q / a := by
    calc C * X ^ 2 ≤ 2 * (2 * Q / a) := mul_le_mul hC X2 (by positivity) (by norm_num)
      _ = 4 * Q / a := by ring
  have XY : X * Y ≤ Q / a + Q / b := by
    have : X * Y ≤ (X ^ 2 + Y ^ 2) / 2 := by linarith [two_mul_le_add_sq X Y]
    have e : (2 * Q / a + 2 * Q / b) / 2 = Q / a + Q / b := by ring
    linarith
  -- the amplitude
  have k1 : S ≤ (4 + Q) * (2 + Q) := by
    have : (4 + Q) * (2 + Q) = 8 + 6 * Q + Q * Q := by ring
    linarith [mul_nonneg hn hn]
  have k2 := pos_num hn hH0 hH hC0 hC hx.le h2 hX0 hY0 hXl hYl
  have k3 := pos_num hn hH0 hH hC0 hC hy.le h4 hY0 hX0 hYl hXl
  have dX : X * U ≤ 5 / 2 * Q := by
    rw [hsX]
    have : X * (a * X + C * Y) = a * X ^ 2 + C * X * Y := by ring
    linarith
  have dY : Y * V ≤ 5 / 2 * Q := by
    rw [hsY]
    have : Y * (b * Y + C * X) = b * Y ^ 2 + C * X * Y := by ring
    linarith
  have k4 := dia_num hn hH0 hH hx ia X2 dX
  have k5 := dia_num hn hH0 hH hy ib Y2 dY
  have k6 : S * X * Y + (Y * U + X * V) / 12 ≤ (4 + Q) * (2 + Q) * (1 / a + 1 / b) := by
    have e2 : Y * U + X * V = (a + b) * (X * Y) + C * Y ^ 2 + C * X ^ 2 := by rw [hsX, hsY]; ring
    rw [e2]
    exact off_num hn hH hH0 hx hy h2 h4 (by positivity) XY Y2' X2'
  have m : ∀ {x y z w : ℝ}, y ≤ z → |x| * (|w| * y) ≤ |x| * (|w| * z) := fun hyz =>
    mul_le_mul_of_nonneg_left (mul_le_mul_of_nonneg_left hyz (abs_nonneg _)) (abs_nonneg _)
  have t := add_le_add (add_le_add (add_le_add (add_le_add (add_le_add
    (mul_le_mul_of_nonneg_left k1 (abs_nonneg v.amp)) (m (x := v.xcen) (w := g.amp) k2)) (m (x := v.ycen) (w := g.amp) k3))
    (m (x := v.fxx) (w := g.amp) k4)) (m (x := v.fyy) (w := g.amp) k5)) (m (x := v.fxy) (w := g.amp) k6)
  refine t.trans (le_of_eq ?_)
  ring

lemma exp_quart (x : ℝ) (hx : 0 ≤ x) : 1 + x + x ^ 2 / 2 + x ^ 3 / 6 + x ^ 4 / 24 ≤ Real.exp x := by
  have := Real.sum_le_exp_of_nonneg hx 5
  simp only [Finset.sum_range_succ, Finset.sum_range_zero] at this
  norm_num [Nat.factorial] at this
  linarith

lemma poly_num (x : ℝ) (hx : 0 ≤ x) :
    (33 + 20 * x) * ((4 + 2 * x) * (2 + 2 * x)) ≤ 512 * (1 + x + x ^ 2 / 2 + x ^ 3 / 6 + x ^ 4 / 24) := by
  have h3 : 0 ≤ x ^ 3 := by positivity
  nlinarith [sq_nonneg (x ^ 2 - 27 / 10), sq_nonneg (x - 8 / 5), mul_nonneg hx (sq_nonneg (x - 8 / 5))]

/-- The error of a term that is kept. -/
lemma kept_grad {R Q S G L : ℝ} (hR : 0 ≤ R) (hQ : 0 ≤ Q) (hQ2 : Q ≤ 37) (hS : S ≤ 3 * Q) (hS0 : 0 ≤ S)
    (hG : G ≤ (4 + Q) * (2 + Q) * L) (hG0 : 0 ≤ G) (hL : 0 ≤ L) :
    ((1 + 1 / 2 ^ 22) * Real.exp ((w1 ^ 6 - 1) * S / 2) * w1 ^ 27 - 1) * (2 * R * Real.exp (-Q / 2) * G) ≤
      R * L / 2 ^ 14 := by
  have g6' : w1 ^ 6 - 1 ≤ 61 / 10 / 2 ^ 24 := g6
  have g60 : (0 : ℝ) ≤ w1 ^ 6 - 1 := by rw [w1]; norm_num
  have z4 : w1 ^ 27 * (1 + 1 / 2 ^ 22) ≤ 1 + 312 / 10 / 2 ^ 24 := by rw [w1]; norm_num
  have z40 : 0 ≤ w1 ^ 27 * (1 + 1 / 2 ^ 22) := by rw [w1]; norm_num
  generalize w1 ^ 6 - 1 = W at *
  generalize w1 ^ 27 = K at *
  have z0 : 0 ≤ W * S / 2 := by positivity
  have z1 : W * S / 2 ≤ 183 / 20 / 2 ^ 24 * Q := by
    have : W * S ≤ (61 / 10 / 2 ^ 24) * (3 * Q) := mul_le_mul g6' hS hS0 (by positivity)
    linarith
  have z2 := exp_small _ (show W * S / 2 ≤ 1 / 2 ^ 10 by
    refine z1.trans ?_
    calc 183 / 20 / 2 ^ 24 * Q ≤ 183 / 20 / 2 ^ 24 * 37 := by gcongr
      _ ≤ _ := by norm_num) z0
  have z3 : Real.exp (W * S / 2) ≤ 1 + 92 / 10 / 2 ^ 24 * Q := by
    have a1 : 1001 / 1000 * (W * S / 2) ≤ 1001 / 1000 * (183 / 20 / 2 ^ 24 * Q) := by gcongr
    have a2 : 1001 / 1000 * (183 / 20 / 2 ^ 24 * Q) ≤ 92 / 10 / 2 ^ 24 * Q := by
      have := mul_le_mul_of_nonneg_right (show (1001 / 1000 * (183 / 20 / 2 ^ 24) : ℝ) ≤ 92 / 10 / 2 ^ 24 by norm_num) hQ
      linarith
    linarith
  have z5 : (1 + 1 / 2 ^ 22) * Real.exp (W * S / 2) * K - 1 ≤ (33 + 10 * Q) / 2 ^ 24 := by
    have e : (1 + 1 / 2 ^ 22) * Real.exp (W * S / 2) * K = K * (1 + 1 / 2 ^ 22) * Real.exp (W * S / 2) := by ring
    rw [e]
    have := mul_le_mul z4 z3 (Real.exp_pos _).le (by norm_num)
    refine (sub_le_sub_right this 1).trans ?_
    nlinarith
  have hp := Real.exp_pos (-Q / 2)
  have z6 : (0 : ℝ) ≤ (33 + 10 * Q) / 2 ^ 24 := by positivity
  have s1 : 2 * R * Real.exp (-Q / 2) * G ≤ 2 * R * Real.exp (-Q / 2) * ((4 + Q) * (2 + Q) * L) :=
    mul_le_mul_of_nonneg_left hG (by positivity)
  refine (mul_le_mul z5 s1 (by positivity) z6).trans ?_
  have hE := exp_quart (Q / 2) (by positivity)
  have hP := poly_num (Q / 2) (by positivity)
  have key : (33 + 10 * Q) * ((4 + Q) * (2 + Q)) ≤ 512 * Real.exp (Q / 2) := by
    have e : (33 + 20 * (Q / 2)) * ((4 + 2 * (Q / 2)) * (2 + 2 * (Q / 2))) = (33 + 10 * Q) * ((4 + Q) * (2 + Q)) := by ring
    rw [e] at hP
    linarith
  have inv : Real.exp (-Q / 2) * Real.exp (Q / 2) = 1 := by rw [← Real.exp_add]; norm_num; ring
  have k2 : Real.exp (-Q / 2) * ((33 + 10 * Q) * ((4 + Q) * (2 + Q))) ≤ 512 := by
    have := mul_le_mul_of_nonneg_left key hp.le
    calc _ ≤ _ := this
      _ = 512 * (Real.exp (-Q / 2) * Real.exp (Q / 2)) := by ring
      _ = 512 := by rw [inv, mul_one]
  have e : (33 + 10 * Q) / 2 ^ 24 * (2 * R * Real.exp (-Q / 2) * ((4 + Q) * (2 + Q) * L)) =
      R * L / 2 ^ 23 * (Real.exp (-Q / 2) * ((33 + 10 * Q) * ((4 + Q) * (2 + Q)))) := by ring
  rw [e]
  calc R * L / 2 ^ 23 * (Real.exp (-Q / 2) * ((33 + 10 * Q) * ((4 + Q) * (2 + Q)))) ≤ R * L / 2 ^ 23 * 512 :=
        mul_le_mul_of_nonneg_left k2 (by positivity)
    _ = R * L / 2 ^ 14 := by ring

/-- The size of a term that is left out. -/
lemma skipped_grad {R Q G L : ℝ} (hR : 0 ≤ R) (hQ : 359 / 10 ≤ Q) (hG : G ≤ (4 + Q) * (2 + Q) * L) (hL : 0 ≤ L) :
    2 * R * Real.exp (-Q / 2) * G ≤ R * L / 2 ^ 14 := by
  have hp := Real.exp_pos (-Q / 2)
  have e1 : 1 + (Q / 2 - 17) + (Q / 2 - 17) ^ 2 / 2 ≤ Real.exp (Q / 2 - 17) := exp_sq _ (by linarith)
  have e2 : Real.exp (Q / 2) = Real.exp 17 * Real.exp (Q / 2 - 17) := by rw [← Real.exp_add]; congr 1; ring
  have e3 : 24000000 * (1 + (Q / 2 - 17) + (Q / 2 - 17) ^ 2 / 2) ≤ Real.exp (Q / 2) := by
    rw [e2]
    exact mul_le_mul exp17 e1 (by nlinarith) (Real.exp_pos _).le
  have key : (4 + Q) * (2 + Q) * 2 ^ 15 ≤ Real.exp (Q / 2) := by nlinarith
  have inv : Real.exp (-Q / 2) * Real.exp (Q / 2) = 1 := by rw [← Real.exp_add]; norm_num; ring
  have k : Real.exp (-Q / 2) * ((4 + Q) * (2 + Q)) ≤ 1 / 2 ^ 15 := by
    have := mul_le_mul_of_nonneg_left key hp.le
    rw [inv] at this
    rw [le_div_iff₀ (by norm_num)]
    linarith
  calc 2 * R * Real.exp (-Q / 2) * G ≤ 2 * R * Real.exp (-Q / 2) * ((4 + Q) * (2 + Q) * L) :=
        mul_le_mul_of_nonneg_left hG (by positivity)
    _ = 2 * (R * L) * (Real.exp (-Q / 2) * ((4 + Q) * (2 + Q))) := by ring
    _ ≤ 2 * (R * L) * (1 / 2 ^ 15) := mul_le_mul_of_nonneg_left k (by positivity)
    _ = _ := by ring

lemma cut_grad (c : Nat → Bool) (g : Gauss) (h : Ordinary g) (xp yp : ℝ) :
    0 ≤ eArg c g xp yp ∧ (eArg c g xp yp ≤ 36 → quad g (xp - g.xcen) (yp - g.ycen) ≤ 37) ∧
    (36 < eArg c g xp yp → 359 / 10 ≤ quad g (xp - g.xcen) (yp - g.ycen)) := by
  have hq := (eArg_ap c g xp yp).2.1
  have hs := sizeQ_le g h (xp - g.xcen) (yp - g.ycen)
  have h0 := (eArg_ap c g xp yp).size
  have g6' := g6
  rw [← w1] at g6'
  have hn := quad_nonneg g h (xp - g.xcen) (yp - g.ycen)
  have hq' : |eArg c g xp yp - quad g (xp - g.xcen) (yp - g.ycen)| ≤
      1 / 2 ^ 18 * quad g (xp - g.xcen) (yp - g.ycen) := by
    refine hq.trans ((mul_le_mul g6' hs h0 (by positivity)).trans ?_)
    nlinarith
  have := abs_le.1 hq'
  refine ⟨by nlinarith, fun _ => by nlinarith, fun _ => by nlinarith⟩

lemma effect_nonneg (g v : Gauss) (hx : 0 < g.fxx) (hy : 0 < g.fyy) : 0 ≤ g.effect v := by
  rw [Gauss.effect]; positivity

/-- C141 (one gaussian): what a gaussian of ordinary shape adds to a derivative is minus twice the residual over the
variance times the derivative of its value in the pixel along the direction in the Jacobian, up to `2^-14` of the
residual over the variance times the effect of the direction, whether the gaussian is cut off there or not and whichever
products the compiler fuses. -/
theorem C141_term (c : Nat → Bool) (ex : ℝ → ℝ) (hex : ExpOk ex) (g : Gauss) (J : Jac)
    (h : 0 < g.fxx ∧ g.fxx ≤ 4 ∧ 0 < g.fyy ∧ g.fyy ≤ 4 ∧ 4 * g.fxy ^ 2 ≤ g.fxx * g.fyy) (xp yp r : ℝ) (j : Fin 7) :
    ∃ t, |t - -2 * r * deriv (fun s => pixVal (g.move (J.column j) s) xp yp) 0| ≤ |r| * g.effect (J.column j) / 2 ^ 14 ∧
      ∀ d : Fin 7 → ℝ, gradOne c ex xp yp r d (g, J) j = fl 24 (d j + t) ∨ t = 0 ∧ gradOne c ex xp yp r d (g, J) j = d j := by
  have hO : Ordinary g := ⟨h.1.le, h.2.1, h.2.2.1.le, h.2.2.2.1, h.2.2.2.2⟩
  have hc := cut_grad c g hO xp yp
  have hs := sizeQ_le g hO (xp - g.xcen) (yp - g.ycen)
  have hn := quad_nonneg g hO (xp - g.xcen) (yp - g.ycen)
  have hG := sizeG_le g (J.column j) hO h.1 h.2.2.1 (xp - g.xcen) (yp - g.ycen)
  have hL := effect_nonneg g (J.column j) h.1 h.2.2.1
  have hq := eArg_ap c g xp yp
  rw [(hasDeriv g (J.column j) xp yp).deriv]
  have hG0 : 0 ≤ sizeG g (J.column j) (xp - g.xcen) (yp - g.ycen) := by
    rw [sizeG, sX, sY, sizeH]
    positivity
  by_cases hk : 36 < eArg c g xp yp
  · refine ⟨0, ?_, fun d => .inr ⟨rfl, by rw [gradOne, if_pos hk]⟩⟩
    have hE := exp_ap (eArg c g xp yp) _ _ 0 (Real.exp (-(1 / 2) * eArg c g xp yp)) hq.2.1 le_rfl (by simp)
    have ht := (term_ap c Real.exp g J xp yp r _ hE j).2.2
    rw [zero_sub, abs_neg]
    exact ht.trans (skipped_grad (abs_nonneg r) (hc.2.2 hk) hG hL)
  · push Not at hk
    have hE := exp_ap (eArg c g xp yp) _ _ (1 / 2 ^ 22) _ hq.2.1 (by norm_num)
      (hex (-(1 / 2) * eArg c g xp yp) (by linarith) (by linarith [hc.1]))
    refine ⟨gradTerm c ex g J xp yp r j, ?_, fun d => .inl (by rw [gradOne, if_neg (not_lt.mpr hk)])⟩
    refine (term_ap c ex g J xp yp r _ hE j).2.1.trans ?_
    exact kept_grad (abs_nonneg r) hn (hc.2.1 hk) hs hq.size hG hG0 hL

/-! ## The gaussians of a source -/

/-- C141 (one source): the derivatives of a source in a pixel. -/
theorem C141_source (c : Nat → Bool) (ex : ℝ → ℝ) (hex : ExpOk ex) (gs : List (Gauss × Jac))
    (h : ∀ g ∈ gs, 0 < g.1.fxx ∧ g.1.fxx ≤ 4 ∧ 0 < g.1.fyy ∧ g.1.fyy ≤ 4 ∧ 4 * g.1.fxy ^ 2 ≤ g.1.fxx * g.1.fyy)
    (xp yp r : ℝ) (j : Fin 7) :
    |sourceGrad c ex gs xp yp r j - -2 * r * (gs.map fun g => deriv (fun s => pixVal (g.1.move (g.2.column j) s) xp yp) 0).sum| ≤
      |r| * ((gs.map fun g => g.1.effect (g.2.column j) / 2 ^ 14).sum + ((1 + 1 / 2 ^ 24) ^ gs.length - 1) *
        (gs.map fun g => 2 * |deriv (fun s => pixVal (g.1.move (g.2.column j) s) xp yp) 0| +
          g.1.effect (g.2.column j) / 2 ^ 14).sum) := by
  have key : ∀ (gs : List (Gauss × Jac)) (_ : ∀ g ∈ gs, 0 < g.1.fxx ∧ g.1.fxx ≤ 4 ∧ 0 < g.1.fyy ∧ g.1.fyy ≤ 4 ∧
      4 * g.1.fxy ^ 2 ≤ g.1.fxx * g.1.fyy) (k : Nat) (d : Fin 7 → ℝ) (e V : ℝ), Ap (w1 ^ k) (d j) e V →
      ∃ T Z, Ap (w1 ^ (k + gs.length)) (gs.foldl (gradOne c ex xp yp r) d j) (e + T) (V + Z) ∧
        |T - -2 * r * (gs.map fun g => deriv (fun s => pixVal (g.1.move (g.2.column j) s) xp yp) 0).sum| ≤
          |r| * (gs.map fun g => g.1.effect (g.2.column j) / 2 ^ 14).sum ∧
        Z ≤ |r| * (gs.map fun g => 2 * |deriv (fun s => pixVal (g.1.move (g.2.column j) s) xp yp) 0| +
          g.1.effect (g.2.column j) / 2 ^ 14).sum := by
    intro gs
    induction gs with
    | nil =>
      intro _ k d e V hd
      refine ⟨0, 0, by simpa using hd, by simp, by simp⟩
    | cons g gs ih =>
      intro ho k d e V hd
      obtain ⟨t, ht, hs⟩ := C141_term c ex hex g.1 g.2 (ho g (by simp)) xp yp r j
      have hw := w1_ge
      have hstep : Ap (w1 ^ (k + 1)) (gradOne c ex xp yp r d g j) (e + t) (V + |t|) := by
        rcases hs d with hs | ⟨h0, hs⟩
        · rw [hs]
          exact ((hd.add ((Ap.refl t).mono (one_le_pow₀ hw) le_rfl)).fl1).to (by ring)
        · rw [hs, h0]
          exact (show Ap (w1 ^ k) (d j) (e + 0) (V + |0|) by simpa using hd).mono (pow_le_pow_right₀ hw (by omega)) le_rfl
      obtain ⟨T, Z, h1, h2, h3⟩ := ih (fun x hx => ho x (by simp [hx])) (k + 1) _ _ _ hstep
      simp only [List.map_cons, List.sum_cons, List.length_cons, List.foldl_cons, mul_add] at h1 h2 h3 ⊢
      generalize deriv (fun s => pixVal (g.1.move (g.2.column j) s) xp yp) 0 = D at *
      refine ⟨t + T, |t| + Z, ?_, ?_, ?_⟩
      · rw [show k + (gs.length + 1) = k + 1 + gs.length by omega, ← add_assoc, ← add_assoc]
        exact h1
      · refine add_close (ht.trans (le_of_eq ?_)) h2
        ring
      · refine add_le_add ?_ h3
        have a := abs_add_le (t - -2 * r * D) (-2 * r * D)
        rw [sub_add_cancel, abs_mul (-2 * r), abs_mul (-2) r, show |(-2 : ℝ)| = 2 by norm_num] at a
        have e : |r| * (g.1.effect (g.2.column j) / 2 ^ 14) = |r| * g.1.effect (g.2.column j) / 2 ^ 14 := by ring
        rw [e]
        linarith
  obtain ⟨T, Z, h1, h2, h3⟩ := key gs h 0 (fun _ => 0) 0 0 ⟨by norm_num, by simp, by simp⟩
  rw [zero_add, zero_add, zero_add] at h1
  have hw : (0 : ℝ) ≤ w1 ^ gs.length - 1 := sub_nonneg.2 h1.1
  have h5 := h1.2.1.trans (mul_le_mul_of_nonneg_left h3 hw)
  have t := abs_sub_le (gs.foldl (gradOne c ex xp yp r) (fun _ => 0) j) T
    (-2 * r * (gs.map fun g => deriv (fun s => pixVal (g.1.move (g.2.column j) s) xp yp) 0).sum)
  rw [sourceGrad, ← w1]
  refine t.trans ((add_le_add h5 h2).trans (le_of_eq ?_))
  ring

/-! ## The derivatives of a band -/

/-- The gaussians of an exposure, source by source, and its pixels. -/
abbrev Expo := List (List (Gauss × Jac)) × List Pix

/-- `res*ierr^2` (compute_gaussians_kernel.cc:279, 286, 294): the residual from all sources, divided by the variance in two
steps. -/
noncomputable def weighted (fma : Bool) (ex : ℝ → ℝ) (gs : List (List (Gauss × Jac))) (p : Pix) : ℝ :=
  fl 24 (fl 24 (residual fma ex (gs.flatten.map Prod.fst) p.x p.y p.data * p.ierr) * p.ierr)

/-- The derivative of chi-square of a band with parameter `j` of source `k` on the CPU (compute_gaussians_kernel.cc:262-304):
in single precision, pixel by pixel. -/
noncomputable def bandGrad (fma : Bool) (c : Nat → Bool) (ex : ℝ → ℝ) (es : List Expo) (k : Nat) (j : Fin 7) : ℝ :=
  (cpuSum (es.map fun e => e.2.map fun p =>
    (⟨sourceGrad c ex (e.1.getD k []) p.x p.y (weighted fma ex e.1 p) j⟩ : Fl 24)) ⟨0⟩).val

/-! ### Specification -/

/-- The gaussians of an exposure after a step `s` in parameter `j` of source `k`. -/
def step (gs : List (List (Gauss × Jac))) (k : Nat) (j : Fin 7) (s : ℝ) : List (List Gauss) :=
  gs.mapIdx fun i l => l.map fun g => if i = k then g.1.move (g.2.column j) s else g.1

/-- The exact residual of a pixel. -/
noncomputable def exactRes (gs : List (List Gauss)) (p : Pix) : ℝ := p.data - (gs.flatten.map fun g => pixVal g p.x p.y).sum

/-- The exact chi-square of a band after that step, less that of the data alone. -/
noncomputable def exactChi2 (es : List Expo) (k : Nat) (j : Fin 7) (s : ℝ) : ℝ :=
  (es.map fun e => (e.2.map fun p => (exactRes (step e.1 k j s) p ^ 2 - p.data ^ 2) * p.ierr ^ 2).sum).sum

/-- The tolerance for the residual of a pixel, as in C135. -/
noncomputable def resTol (gs : List (List (Gauss × Jac))) (p : Pix) : ℝ :=
  (gs.flatten.map fun g => |g.1.amp| / 2 ^ 18).sum + ((1 + 1 / 2 ^ 24) ^ gs.flatten.length - 1) *
    (|p.data| + (gs.flatten.map fun g => |pixVal g.1 p.x p.y| + |g.1.amp| / 2 ^ 18).sum)

/-- The tolerance for the residual over the variance: two roundings more. -/
noncomputable def weightTol (gs : List (List (Gauss × Jac))) (p : Pix) : ℝ :=
  (resTol gs p + ((1 + 1 / 2 ^ 24) ^ 2 - 1) * (|exactRes (gs.map (·.map Prod.fst)) p| + resTol gs p)) * p.ierr ^ 2

/-- The change of the value of a source in a pixel. -/
noncomputable def srcDeriv (l : List (Gauss × Jac)) (j : Fin 7) (p : Pix) : ℝ :=
  (l.map fun g => deriv (fun s => pixVal (g.1.move (g.2.column j) s) p.x p.y) 0).sum

/-- The tolerance for the derivative in a pixel. -/
noncomputable def gradTol (gs : List (List (Gauss × Jac))) (k : Nat) (j : Fin 7) (p : Pix) : ℝ :=
  2 * |srcDeriv (gs.getD k []) j p| * weightTol gs p +
    (|exactRes (gs.map (·.map Prod.fst)) p| * p.ierr ^ 2 + weightTol gs p) *
      (((gs.getD k []).map fun g => g.1.effect (g.2.column j) / 2 ^ 14).sum + ((1 + 1 / 2 ^ 24) ^ (gs.getD k []).length - 1) *
        ((gs.getD k []).map fun g => 2 * |deriv (fun s => pixVal (g.1.move (g.2.column j) s) p.x p.y) 0| +
          g.1.effect (g.2.column j) / 2 ^ 14).sum)

/-- The exact derivative of the contribution of a pixel. -/
noncomputable def exactGrad (gs : List (List (Gauss × Jac))) (k : Nat) (j : Fin 7) (p : Pix) : ℝ :=
  -2 * (exactRes (gs.map (·.map Prod.fst)) p * p.ierr ^ 2) * srcDeriv (gs.getD k []) j p

/-! ### Proofs -/

lemma list_hasDeriv {α : Type} (l : List α) (f : α → ℝ → ℝ) (f' : α → ℝ) (h : ∀ a ∈ l, HasDerivAt (f a) (f' a) 0) :
    HasDerivAt (fun s => (l.map fun a => f a s).sum) (l.map f').sum 0 := by
  induction l with
  | nil => simpa using hasDerivAt_const (0 : ℝ) (0 : ℝ)
  | cons a l ih =>
    have := (h a (by simp)).add (ih fun x hx => h x (by simp [hx]))
    exact Transform.hdc this (fun s => by simp) (by simp)

lemma move_zero (g v : Gauss) : g.move v 0 = g := by
  simp [Gauss.move]

lemma src_hasDeriv (l : List (Gauss × Jac)) (j : Fin 7) (p : Pix) :
    HasDerivAt (fun s => (l.map fun g => pixVal (g.1.move (g.2.column j) s) p.x p.y).sum) (srcDeriv l j p) 0 := by
  rw [srcDeriv]
  refine list_hasDeriv l (fun g s => pixVal (g.1.move (g.2.column j) s) p.x p.y) _ fun g _ => ?_
  rw [(hasDeriv g.1 (g.2.column j) p.x p.y).deriv]
  exact hasDeriv g.1 (g.2.column j) p.x p.y

lemma step_sum (gs : List (List (Gauss × Jac))) : ∀ (k : Nat) (j : Fin 7) (p : Pix) (s : ℝ),
    ((step gs k j s).flatten.map fun g => pixVal g p.x p.y).sum =
      ((gs.map (·.map Prod.fst)).flatten.map fun g => pixVal g p.x p.y).sum +
      (((gs.getD k []).map fun g => pixVal (g.1.move (g.2.column j) s) p.x p.y).sum -
        ((gs.getD k []).map fun g => pixVal g.1 p.x p.y).sum) := by
  induction gs with
  | nil => intro k j p s; simp [step]
  | cons l t ih =>
    intro k j p s
    rcases k with _ | k
    · have e : ∀ u : List (List (Gauss × Jac)), (u.mapIdx fun i l => l.map fun g =>
          if i + 1 = 0 then g.1.move (g.2.column j) s else g.1) = u.map (·.map Prod.fst) := by
        intro u
        rw [List.mapIdx_eq_iff]
        intro i
        simp
      rw [step, List.mapIdx_cons, e]
      simp only [if_true, List.flatten_cons, List.map_append, List.sum_append, List.map_cons, List.map_map,
        Function.comp_def, List.getD_cons_zero]
      ring
    · have e := ih k j p s
      rw [step] at e
      rw [step, List.mapIdx_cons]
      simp only [Nat.add_right_cancel_iff, List.flatten_cons, List.map_append, List.sum_append, List.map_cons, e,
        List.getD_cons_succ]
      simp [List.map_map, Function.comp_def]
      ring

lemma pix_hasDeriv (gs : List (List (Gauss × Jac))) (k : Nat) (j : Fin 7) (p : Pix) :
    HasDerivAt (fun s => (exactRes (step gs k j s) p ^ 2 - p.data ^ 2) * p.ierr ^ 2) (exactGrad gs k j p) 0 := by
  have h1 := (src_hasDeriv (gs.getD k []) j p)
  have h2 : HasDerivAt (fun s => exactRes (step gs k j s) p) (-srcDeriv (gs.getD k []) j p) 0 := by
    have := ((h1.sub_const ((gs.getD k []).map fun g => pixVal g.1 p.x p.y).sum).const_add
      ((gs.map (·.map Prod.fst)).flatten.map fun g => pixVal g p.x p.y).sum).const_sub p.data
    refine Transform.hdc this (fun s => ?_) rfl
    rw [exactRes, step_sum]
  have h0 : exactRes (step gs k j 0) p = exactRes (gs.map (·.map Prod.fst)) p := by
    rw [exactRes, step_sum, exactRes]
    simp only [move_zero]
    ring
  have h3 := ((h2.pow 2).sub_const (p.data ^ 2)).mul_const (p.ierr ^ 2)
  refine Transform.hdc h3 (fun _ => rfl) ?_
  rw [exactGrad, h0]
  simp only [Nat.cast_ofNat, Nat.add_one_sub_one, pow_one]
  ring

lemma two_roundings {r R δ ie : ℝ} (hr' : |r - R| ≤ δ) :
    |fl 24 (fl 24 (r * ie) * ie) - R * ie ^ 2| ≤ (δ + ((1 + 1 / 2 ^ 24) ^ 2 - 1) * (|R| + δ)) * ie ^ 2 := by
  have a := (((((Ap.refl r).mul (Ap.refl ie)).fl1).mul (Ap.refl ie)).fl1).2.1
  have e1 : r * ie * ie = r * ie ^ 2 := by ring
  have e2 : |r| * |ie| * |ie| = |r| * ie ^ 2 := by rw [← sq_abs ie]; ring
  rw [e1, e2] at a
  have t := abs_sub_le (fl 24 (fl 24 (r * ie) * ie)) (r * ie ^ 2) (R * ie ^ 2)
  have b : |r * ie ^ 2 - R * ie ^ 2| ≤ δ * ie ^ 2 := by
    rw [← sub_mul, abs_mul, abs_of_nonneg (sq_nonneg ie)]
    exact mul_le_mul_of_nonneg_right hr' (sq_nonneg _)
  have hr2 : |r| ≤ |R| + δ := by
    have := abs_add_le (r - R) R
    rw [sub_add_cancel] at this
    linarith
  have d : (1 * 1 * w1 * 1 * w1 - 1) * (|r| * ie ^ 2) ≤ ((1 + 1 / 2 ^ 24) ^ 2 - 1) * ((|R| + δ) * ie ^ 2) := by
    have e : 1 * 1 * w1 * 1 * w1 - 1 = (1 + 1 / 2 ^ 24) ^ 2 - 1 := by rw [w1]; ring
    rw [e]
    exact mul_le_mul_of_nonneg_left (mul_le_mul_of_nonneg_right hr2 (sq_nonneg _)) (by norm_num)
  refine t.trans ((add_le_add (a.trans d) b).trans (le_of_eq ?_))
  ring

lemma weighted_near (fma : Bool) (ex : ℝ → ℝ) (hex : ExpOk ex) (gs : List (List (Gauss × Jac)))
    (h : ∀ l ∈ gs, ∀ g ∈ l, 0 < g.1.fxx ∧ g.1.fxx ≤ 4 ∧ 0 < g.1.fyy ∧ g.1.fyy ≤ 4 ∧ 4 * g.1.fxy ^ 2 ≤ g.1.fxx * g.1.fyy)
    (p : Pix) : |weighted fma ex gs p - exactRes (gs.map (·.map Prod.fst)) p * p.ierr ^ 2| ≤ weightTol gs p := by
  have hr := C135_residual fma ex hex (gs.flatten.map Prod.fst) (by
    intro g hg
    obtain ⟨g', hg', rfl⟩ := List.mem_map.mp hg
    obtain ⟨l, hl, hgl⟩ := List.mem_flatten.mp hg'
    obtain ⟨h1, h2, h3, h4, h5⟩ := h l hl g' hgl
    exact ⟨h1.le, h2, h3.le, h4, h5⟩) p.x p.y p.data
  have eR : exactRes (gs.map (·.map Prod.fst)) p =
      p.data - ((gs.flatten.map Prod.fst).map fun g => value g (p.x - g.xcen) (p.y - g.ycen)).sum := by
    rw [exactRes, ← List.map_flatten]
    rfl
  rw [← eR] at hr
  simp only [List.map_map, List.length_map, Function.comp_def] at hr
  have hr' : |residual fma ex (gs.flatten.map Prod.fst) p.x p.y p.data - exactRes (gs.map (·.map Prod.fst)) p| ≤ resTol gs p := hr
  rw [weighted, weightTol]
  exact two_roundings hr'

lemma near_num {x w W D ε L : ℝ} (h1 : |x - -2 * w * D| ≤ |w| * L) (h2 : |w - W| ≤ ε) (hL : 0 ≤ L) :
    |x - -2 * W * D| ≤ 2 * |D| * ε + (|W| + ε) * L := by
  have t := abs_sub_le x (-2 * w * D) (-2 * W * D)
  have e : -2 * w * D - -2 * W * D = -2 * D * (w - W) := by ring
  rw [e, abs_mul (-2 * D), abs_mul (-2) D, show |(-2 : ℝ)| = 2 by norm_num] at t
  have a : 2 * |D| * |w - W| ≤ 2 * |D| * ε := mul_le_mul_of_nonneg_left h2 (by positivity)
  have b : |w| ≤ |W| + ε := by
    have := abs_add_le (w - W) W
    rw [sub_add_cancel] at this
    linarith
  have d : |w| * L ≤ (|W| + ε) * L := mul_le_mul_of_nonneg_right b hL
  linarith

lemma pixGrad_near (fma : Bool) (c : Nat → Bool) (ex : ℝ → ℝ) (hex : ExpOk ex) (gs : List (List (Gauss × Jac)))
    (h : ∀ l ∈ gs, ∀ g ∈ l, 0 < g.1.fxx ∧ g.1.fxx ≤ 4 ∧ 0 < g.1.fyy ∧ g.1.fyy ≤ 4 ∧ 4 * g.1.fxy ^ 2 ≤ g.1.fxx * g.1.fyy)
    (k : Nat) (j : Fin 7) (p : Pix) :
    |sourceGrad c ex (gs.getD k []) p.x p.y (weighted fma ex gs p) j - exactGrad gs k j p| ≤ gradTol gs k j p := by
  have hk : ∀ g ∈ gs.getD k [], 0 < g.1.fxx ∧ g.1.fxx ≤ 4 ∧ 0 < g.1.fyy ∧ g.1.fyy ≤ 4 ∧
      4 * g.1.fxy ^ 2 ≤ g.1.fxx * g.1.fyy := by
    intro g hg
    rw [List.getD_eq_getElem?_getD] at hg
    cases he : gs[k]? with
    | none => simp [he] at hg
    | some l =>
      rw [he] at hg
      exact h l (List.mem_of_getElem? he) g hg
  have h1 := C141_source c ex hex (gs.getD k []) hk p.x p.y (weighted fma ex gs p) j
  have h2 := weighted_near fma ex hex gs h p
  have hL : 0 ≤ ((gs.getD k []).map fun g => g.1.effect (g.2.column j) / 2 ^ 14).sum +
      ((1 + 1 / 2 ^ 24) ^ (gs.getD k []).length - 1) *
        ((gs.getD k []).map fun g => 2 * |deriv (fun s => pixVal (g.1.move (g.2.column j) s) p.x p.y) 0| +
          g.1.effect (g.2.column j) / 2 ^ 14).sum := by
    have e0 : ∀ g ∈ gs.getD k [], 0 ≤ g.1.effect (g.2.column j) / 2 ^ 14 := fun g hg =>
      div_nonneg (effect_nonneg _ _ (hk g hg).1 (hk g hg).2.2.1) (by norm_num)
    refine add_nonneg (List.sum_nonneg ?_) (mul_nonneg (sub_nonneg.2 (one_le_pow₀ (by norm_num))) (List.sum_nonneg ?_))
    · intro x hx
      obtain ⟨g, hg, rfl⟩ := List.mem_map.mp hx
      exact e0 g hg
    · intro x hx
      obtain ⟨g, hg, rfl⟩ := List.mem_map.mp hx
      have := e0 g hg
      positivity
  have hW : |exactRes (gs.map (·.map Prod.fst)) p| * p.ierr ^ 2 = |exactRes (gs.map (·.map Prod.fst)) p * p.ierr ^ 2| := by
    rw [abs_mul, abs_of_nonneg (sq_nonneg p.ierr)]
  rw [exactGrad, gradTol, hW]
  change |_ - -2 * weighted fma ex gs p * srcDeriv (gs.getD k []) j p| ≤ _ at h1
  exact near_num h1 h2 hL

lemma band_flat (f : List (List (Gauss × Jac)) → Pix → ℝ) (es : List Expo) :
    (es.map fun e => (e.2.map fun p => f e.1 p).sum).sum =
      ((es.map fun e => e.2.map fun p => (e.1, p)).flatten.map fun a => f a.1 a.2).sum := by
  induction es with
  | nil => rfl
  | cons e t ih =>
    simp only [List.map_cons, List.sum_cons, List.flatten_cons, List.map_append, List.sum_append, ih]
    simp [List.map_map, Function.comp_def]

lemma grad_flat (f : List (List (Gauss × Jac)) → Pix → ℝ) (u : ℝ → ℝ) (es : List Expo) :
    ((es.map fun e => e.2.map fun p => (⟨f e.1 p⟩ : Fl 24)).flatten.map fun x => u x.val) =
      (es.map fun e => e.2.map fun p => (e.1, p)).flatten.map fun a => u (f a.1 a.2) := by
  induction es with
  | nil => rfl
  | cons e t ih =>
    simp only [List.map_cons, List.flatten_cons, List.map_append, ih]
    simp [List.map_map, Function.comp_def]

/-- The numbers that are accumulated. -/
noncomputable def gradList (fma : Bool) (c : Nat → Bool) (ex : ℝ → ℝ) (es : List Expo) (k : Nat) (j : Fin 7) :
    List (List (Fl 24)) :=
  es.map fun e => e.2.map fun p => ⟨sourceGrad c ex (e.1.getD k []) p.x p.y (weighted fma ex e.1 p) j⟩

lemma band_any (fma : Bool) (c : Nat → Bool) (ex : ℝ → ℝ) (hex : ExpOk ex) (es : List Expo)
    (h : ∀ e ∈ es, ∀ l ∈ e.1, ∀ g ∈ l, 0 < g.1.fxx ∧ g.1.fxx ≤ 4 ∧ 0 < g.1.fyy ∧ g.1.fyy ≤ 4 ∧
      4 * g.1.fxy ^ 2 ≤ g.1.fxx * g.1.fyy) (k : Nat) (j : Fin 7) (x κ : ℝ) (hκ : 0 ≤ κ)
    (hx : |x - ((gradList fma c ex es k j).flatten.map (·.val)).sum| ≤
      κ * ((gradList fma c ex es k j).flatten.map fun y => |y.val|).sum) :
    DifferentiableAt ℝ (fun s => exactChi2 es k j s) 0 ∧
    |x - deriv (fun s => exactChi2 es k j s) 0| ≤
      (es.map fun e => (e.2.map fun p => gradTol e.1 k j p).sum).sum +
      κ * (es.map fun e => (e.2.map fun p => |exactGrad e.1 k j p| + gradTol e.1 k j p).sum).sum := by
  have hd : HasDerivAt (fun s => exactChi2 es k j s) (es.map fun e => (e.2.map fun p => exactGrad e.1 k j p).sum).sum 0 :=
    list_hasDeriv es (fun e s => (e.2.map fun p => (exactRes (step e.1 k j s) p ^ 2 - p.data ^ 2) * p.ierr ^ 2).sum) _
      fun e _ => list_hasDeriv e.2 (fun p s => (exactRes (step e.1 k j s) p ^ 2 - p.data ^ 2) * p.ierr ^ 2) _
        fun p _ => pix_hasDeriv e.1 k j p
  refine ⟨hd.differentiableAt, ?_⟩
  rw [hd.deriv]
  have hpix : ∀ a ∈ (es.map fun e => e.2.map fun p => (e.1, p)).flatten,
      |sourceGrad c ex (a.1.getD k []) a.2.x a.2.y (weighted fma ex a.1 a.2) j - exactGrad a.1 k j a.2| ≤
        gradTol a.1 k j a.2 := by
    intro a ha
    obtain ⟨l, hl, hal⟩ := List.mem_flatten.mp ha
    obtain ⟨e, he, rfl⟩ := List.mem_map.mp hl
    obtain ⟨p, -, rfl⟩ := List.mem_map.mp hal
    exact pixGrad_near fma c ex hex e.1 (h e he) k j p
  obtain ⟨s1, s2⟩ := sums_near _ _ _ _ hpix
  have f1 := grad_flat (fun gs p => sourceGrad c ex (gs.getD k []) p.x p.y (weighted fma ex gs p) j) (fun x => x) es
  have f2 := grad_flat (fun gs p => sourceGrad c ex (gs.getD k []) p.x p.y (weighted fma ex gs p) j) (fun x => |x|) es
  rw [gradList, f1, f2] at hx
  rw [band_flat (fun gs p => exactGrad gs k j p), band_flat (fun gs p => gradTol gs k j p),
    band_flat (fun gs p => |exactGrad gs k j p| + gradTol gs k j p)]
  generalize (es.map fun e => e.2.map fun p => (e.1, p)).flatten = L at *
  have h3 := hx.trans (mul_le_mul_of_nonneg_left s2 hκ)
  refine (abs_sub_le _ _ _).trans ((add_le_add h3 s1).trans (le_of_eq ?_))
  ring

lemma gradList_length (fma : Bool) (c : Nat → Bool) (ex : ℝ → ℝ) (es : List Expo) (k : Nat) (j : Fin 7) :
    (gradList fma c ex es k j).flatten.length = (es.map fun e => e.2.length).sum := by
  rw [gradList, List.length_flatten, List.map_map]
  congr 1
  refine List.map_congr_left fun e _ => ?_
  simp

/-- C141 (a band): the derivative that the CPU returns for a parameter of a source is the derivative, over the reals, of
the exact chi-square of the gaussians in memory when those of the source move along their Jacobians, up to the tolerances
of the pixels and, for `n` pixels, `2 n` units of `2^-24` of the sum of the sizes. -/
theorem C141_band (fma : Bool) (c : Nat → Bool) (ex : ℝ → ℝ) (hex : ExpOk ex) (es : List Expo)
    (h : ∀ e ∈ es, ∀ l ∈ e.1, ∀ g ∈ l, 0 < g.1.fxx ∧ g.1.fxx ≤ 4 ∧ 0 < g.1.fyy ∧ g.1.fyy ≤ 4 ∧
      4 * g.1.fxy ^ 2 ≤ g.1.fxx * g.1.fyy) (k : Nat) (j : Fin 7)
    (n : Nat) (hn : (es.map fun e => e.2.length).sum = n) (hn' : n ≤ 2 ^ 24) :
    DifferentiableAt ℝ (fun s => exactChi2 es k j s) 0 ∧
    |bandGrad fma c ex es k j - deriv (fun s => exactChi2 es k j s) 0| ≤
      (es.map fun e => (e.2.map fun p => gradTol e.1 k j p).sum).sum +
      2 * n / 2 ^ 24 * (es.map fun e => (e.2.map fun p => |exactGrad e.1 k j p| + gradTol e.1 k j p).sum).sum := by
  refine band_any fma c ex hex es h k j _ (2 * n / 2 ^ 24) (by positivity) ?_
  have hc := (cpu_close (gradList fma c ex es k j) ⟨0⟩ 0 0 0 close_zero).1
  rw [gradList_length, hn] at hc
  simp only [zero_add, total, size] at hc
  refine hc.trans (mul_le_mul_of_nonneg_right (growth 24 n hn') (List.sum_nonneg ?_))
  intro x hx
  obtain ⟨y, -, rfl⟩ := List.mem_map.mp hx
  exact abs_nonneg _

/-- C141 (a band on the GPU): the same for every order in which the warps add their sums. -/
theorem C141_band_gpu (fma : Bool) (c : Nat → Bool) (ex : ℝ → ℝ) (hex : ExpOk ex) (B : Nat) (hB : 0 < B) (hB32 : 32 ∣ B)
    (es : List Expo) (h : ∀ e ∈ es, ∀ l ∈ e.1, ∀ g ∈ l, 0 < g.1.fxx ∧ g.1.fxx ≤ 4 ∧ 0 < g.1.fyy ∧ g.1.fyy ≤ 4 ∧
      4 * g.1.fxy ^ 2 ≤ g.1.fxx * g.1.fyy) (hpad : ∀ e ∈ es, 32 ∣ e.2.length) (k : Nat) (j : Fin 7)
    (n : Nat) (hn : (es.map fun e => e.2.length).sum = n) (hn' : n + 5 ≤ 2 ^ 24) (x : Fl 24)
    (hx : GpuSum B (es.map fun e => e.2.map fun p =>
      ⟨sourceGrad c ex (e.1.getD k []) p.x p.y (weighted fma ex e.1 p) j⟩) ⟨0⟩ x) :
    |x.val - deriv (fun s => exactChi2 es k j s) 0| ≤
      (es.map fun e => (e.2.map fun p => gradTol e.1 k j p).sum).sum +
      (n / 16 + 10) / 2 ^ 24 * (es.map fun e => (e.2.map fun p => |exactGrad e.1 k j p| + gradTol e.1 k j p).sum).sum := by
  refine (band_any fma c ex hex es h k j x.val ((n / 16 + 10) / 2 ^ 24) (by positivity) ?_).2
  refine (C131_agree 24 B hB hB32 (gradList fma c ex es k j) ?_ n (by rw [gradList_length, hn]) hn' x hx).2.1
  intro e he
  obtain ⟨e', he', rfl⟩ := List.mem_map.mp he
  rw [List.length_map]
  exact hpad e' he'

/-- One source with one gaussian, one pixel. -/
noncomputable def oneExpo : Expo := ([[(⟨3, 10, 20, 1, 2, 1 / 2⟩, ⟨1, 0, 0, 0, 0, 0, 0, 0, 0, 0, 0, 0, 0, 0, 0⟩)]], [⟨11, 20, 5, 1⟩])

/-- C141 (a case): the hypotheses are met, and more flux lowers the chi-square of a pixel that is brighter than the model:
the derivative is minus twice the residual times the profile. -/
theorem C141_witness : ExpOk Real.exp ∧
    (∀ e ∈ [oneExpo], ∀ l ∈ e.1, ∀ g ∈ l, 0 < g.1.fxx ∧ g.1.fxx ≤ 4 ∧ 0 < g.1.fyy ∧ g.1.fyy ≤ 4 ∧
      4 * g.1.fxy ^ 2 ≤ g.1.fxx * g.1.fyy) ∧
    deriv (fun s => exactChi2 [oneExpo] 0 0 s) 0 =
      -2 * (5 - 3 * Real.exp (-1 / 2) * (89 / 96)) * (Real.exp (-1 / 2) * (89 / 96)) := by
  refine ⟨?_, ?_, ?_⟩
  · intro x _ _
    rw [sub_self, abs_zero]
    positivity
  · intro e he l hl g hg
    simp only [List.mem_singleton] at he
    subst he
    simp only [oneExpo, List.mem_singleton] at hl
    subst hl
    simp only [List.mem_singleton] at hg
    subst hg
    norm_num
  · have hd := pix_hasDeriv oneExpo.1 0 0 ⟨11, 20, 5, 1⟩
    have e : (fun s => exactChi2 [oneExpo] 0 0 s) =
        fun s => (exactRes (step oneExpo.1 0 0 s) ⟨11, 20, 5, 1⟩ ^ 2 - (5 : ℝ) ^ 2) * (1 : ℝ) ^ 2 := by
      funext s
      simp [exactChi2, oneExpo]
    rw [e, hd.deriv]
    have q : quad ⟨3, 10, 20, 1, 2, 1 / 2⟩ (11 - 10) (20 - 20) = 1 := by norm_num [quad]
    simp only [exactGrad, exactRes, oneExpo, srcDeriv, List.getD_cons_zero, List.map_cons, List.map_nil, List.sum_cons,
      List.sum_nil, List.flatten_cons, List.flatten_nil, List.append_nil, (hasDeriv _ _ _ _).deriv]
    simp only [slope, pixVal, value, Jac.column, q]
    norm_num

end Forcepho.Float
