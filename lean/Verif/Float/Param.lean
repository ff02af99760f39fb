import Verif.Float.Jacobian

/-! # Derivatives with the parameters of a source in single precision

The gaussian of `Verif.Float.Build` and the Jacobian of `Verif.Float.Jacobian`, put into the accumulation of
`Verif.Float.Gradient`, against the derivative of the exact value in the pixel with each parameter of the source. -/

set_option autoImplicit false

namespace Forcepho.Float

/-! ## Specification -/

/-- The exact value in a pixel as one parameter of the source changes by `u`, in the order flux, right ascension,
declination, axis ratio, position angle, index, radius.  `wn` and `wr` are the weight of the component as a function of
index and radius. -/
noncomputable def paramValue (i : Parts) (CW : Mat) (wn wr : ℝ → ℝ) (x y xp yp : ℝ) : Fin 7 → ℝ → ℝ
  | 0 => fun u => trueValue { i with flux := i.flux + u } (xp - x) (yp - y)
  | 1 => fun u => trueValue i (xp - (x + CW.v11 * u)) (yp - (y + CW.v21 * u))
  | 2 => fun u => trueValue i (xp - (x + CW.v12 * u)) (yp - (y + CW.v22 * u))
  | 3 => fun u => trueValue { i with q := i.q + u } (xp - x) (yp - y)
  | 4 => fun u => trueValue { i with pa := i.pa + u } (xp - x) (yp - y)
  | 5 => fun u => trueValue { i with samp := wn u } (xp - x) (yp - y)
  | 6 => fun u => trueValue { i with samp := wr u } (xp - x) (yp - y)

/-- The sizes of the changes of amplitude, centre and shape with each parameter. -/
noncomputable def paramScale (i : Parts) (CW : Mat) (dn dr : ℝ) : Fin 7 → ℝ
  | 0 => |trueAmp { i with flux := 1 }|
  | 1 => |trueAmp i| * (|CW.v11| + |CW.v21|)
  | 2 => |trueAmp i| * (|CW.v12| + |CW.v22|)
  | 3 => |trueAmp i| * (spread i (sizeTq i) * (covSize i / 2 + 2 +
      Real.sqrt ((trueCov i)⁻¹ 0 0) * Real.sqrt ((trueCov i)⁻¹ 1 1) * (1 / (trueCov i)⁻¹ 0 0 + 1 / (trueCov i)⁻¹ 1 1)))
  | 4 => |trueAmp i| * (spread i (sizeTpa i) * (covSize i / 2 + 2 +
      Real.sqrt ((trueCov i)⁻¹ 0 0) * Real.sqrt ((trueCov i)⁻¹ 1 1) * (1 / (trueCov i)⁻¹ 0 0 + 1 / (trueCov i)⁻¹ 1 1)))
  | 5 => |trueAmp { i with samp := dn }|
  | 6 => |trueAmp { i with samp := dr }|

/-! ## The derivative along a curve of gaussians -/

lemma curve_slope {A X Y P Q R : ℝ → ℝ} (v : Gauss) (t xp yp : ℝ) (ha : HasDerivAt A v.amp t) (hX : HasDerivAt X v.xcen t)
    (hY : HasDerivAt Y v.ycen t) (hxx : HasDerivAt P v.fxx t) (hyy : HasDerivAt Q v.fyy t) (hxy : HasDerivAt R v.fxy t) :
    HasDerivAt (fun u => pixVal ⟨A u, X u, Y u, P u, Q u, R u⟩ xp yp)
      (slope ⟨A t, X t, Y t, P t, Q t, R t⟩ v (xp - X t) (yp - Y t)) t := by
  have hx := hX.const_sub xp
  have hy := hY.const_sub yp
  have hvx := (hxx.mul hx).add (hxy.mul hy)
  have hvy := (hyy.mul hy).add (hxy.mul hx)
  have hq := ((hxx.mul (hx.pow 2)).add (((hxy.const_mul 2).mul hx).mul hy)).add (hyy.mul (hy.pow 2))
  have hE := ((hq.neg).div_const 2).exp
  have hH := ((((hvx.pow 2).add (hvy.pow 2)).sub hxx).sub hyy).div_const 24 |>.const_add 1
  have h := (ha.mul hE).mul hH
  refine Transform.hdc h (fun s => rfl) ?_
  simp only [slope, quad, Pi.add_apply, Pi.mul_apply, Pi.pow_apply, Pi.sub_apply, Pi.neg_apply]
  ring

/-! ## Gaussians and directions that are close -/

lemma Ap.of3 {r x' x y' y X Y : ℝ} (h : Ap r x' x X) (e' : x' = y') (e : x = y) (E : X = Y) : Ap r y' y Y :=
  e' ▸ e ▸ E ▸ h

/-- The derivative in a direction, for a gaussian and a direction that are known up to factors. -/
lemma slope_ap (g g' h v v' V : Gauss) {ρ r s E : ℝ} (dx dy : ℝ) (r1 : 1 ≤ r)
    (ha : Ap r g'.amp g.amp |h.amp|) (hxx : Ap r g'.fxx g.fxx |h.fxx|) (hyy : Ap r g'.fyy g.fyy |h.fyy|)
    (hxy : Ap r g'.fxy g.fxy |h.fxy|) (va : Ap s v'.amp v.amp |V.amp|) (vxc : Ap s v'.xcen v.xcen |V.xcen|)
    (vyc : Ap s v'.ycen v.ycen |V.ycen|) (vxx : Ap s v'.fxx v.fxx |V.fxx|) (vyy : Ap s v'.fyy v.fyy |V.fyy|)
    (vxy : Ap s v'.fxy v.fxy |V.fxy|) (hE' : E = Real.exp (-quad g dx dy / 2))
    (hE : Ap ρ (Real.exp (-quad g' dx dy / 2)) E E) :
    Ap (ρ * s * r ^ 4) (slope g' v' dx dy) (slope g v dx dy) (E * sizeG h V dx dy) := by
  have r0 : 0 ≤ r := by linarith
  have s0 : 0 ≤ s := by linarith [va.1]
  have ρ0 : 0 ≤ ρ := by linarith [hE.1]
  have pw : ∀ {k l : Nat}, k ≤ l → r ^ k ≤ r ^ l := fun h => pow_le_pow_right₀ r1 h
  have X := Ap.refl dx
  have Y := Ap.refl dy
  have hvx : Ap r (g'.fxx * dx + g'.fxy * dy) (g.fxx * dx + g.fxy * dy) (sX h dx dy) :=
    ((hxx.mul X).add (hxy.mul Y)).mono (le_of_eq (by ring)) le_rfl
  have hvy : Ap r (g'.fyy * dy + g'.fxy * dx) (g.fyy * dy + g.fxy * dx) (sY h dx dy) :=
    ((hyy.mul Y).add (hxy.mul X)).mono (le_of_eq (by ring)) le_rfl
  have c : ∀ z : ℝ, 0 ≤ z → Ap 1 z z z := fun z hz => by
    have := Ap.refl z
    rwa [abs_of_nonneg hz] at this
  have r12 : 1 ≤ r ^ 2 := one_le_pow₀ r1
  have rr2 : r ≤ r ^ 2 := by nlinarith
  have r23 : r ^ 2 ≤ r ^ 3 := pw (by norm_num)
  have hH : Ap (r ^ 2) (1 + ((g'.fxx * dx + g'.fxy * dy) ^ 2 + (g'.fyy * dy + g'.fxy * dx) ^ 2 - g'.fxx - g'.fyy) / 24)
      (1 + ((g.fxx * dx + g.fxy * dy) ^ 2 + (g.fyy * dy + g.fxy * dx) ^ 2 - g.fxx - g.fyy) / 24) (sizeH h dx dy) := by
    have a1 := ((hvx.mul hvx).to (show _ = r ^ 2 by ring)).add ((hvy.mul hvy).to (show _ = r ^ 2 by ring))
    have a2 := ((a1.sub (hxx.mono rr2 le_rfl)).sub (hyy.mono rr2 le_rfl)).div24
    have a3 := ((c 1 zero_le_one).mono r12 le_rfl).add a2
    have e : ∀ a b p q : ℝ, 1 + (a * a + b * b - p - q) / 24 = 1 + (a ^ 2 + b ^ 2 - p - q) / 24 := fun a b p q => by ring
    rw [e, e] at a3
    refine a3.mono le_rfl (le_of_eq ?_)
    rw [sizeH, sX, sY]
    ring
  rw [slope, slope, sizeG]
  rw [← hE']
  generalize Real.exp (-quad g' dx dy / 2) = E' at *
  generalize 1 + ((g'.fxx * dx + g'.fxy * dy) ^ 2 + (g'.fyy * dy + g'.fxy * dx) ^ 2 - g'.fxx - g'.fyy) / 24 = H' at *
  generalize 1 + ((g.fxx * dx + g.fxy * dy) ^ 2 + (g.fyy * dy + g.fxy * dx) ^ 2 - g.fxx - g.fyy) / 24 = H at *
  generalize g'.fxx * dx + g'.fxy * dy = vx' at *
  generalize g.fxx * dx + g.fxy * dy = vx at *
  generalize g'.fyy * dy + g'.fxy * dx = vy' at *
  generalize g.fyy * dy + g.fxy * dx = vy at *
  generalize sX h dx dy = Sx at *
  generalize sY h dx dy = Sy at *
  generalize sizeH h dx dy = SH at *
  clear hE'
  have tw : ∀ {x' x A : ℝ}, Ap (r ^ 2) x' x A → Ap (r ^ 3) (x' / 12) (x / 12) (A / 12) := fun {x' x A} k =>
    ((k.mul (c (1 / 12) (by norm_num))).mono (by rw [mul_one]; exact r23) le_rfl).of3 (by ring) (by ring) (by ring)
  have tf : ∀ {x' x A : ℝ}, Ap r x' x A → Ap (r ^ 2) ((1 - x') / 24) ((1 - x) / 24) ((1 + A) / 24) := fun {x' x A} k =>
    (((c 1 zero_le_one).mono r1 le_rfl).sub k).div24.mono rr2 le_rfl
  -- the factors of the five lines
  have k2 : Ap (r ^ 3) (H' * vx' - (g'.fxx * vx' + g'.fxy * vy') / 12) (H * vx - (g.fxx * vx + g.fxy * vy) / 12)
      (SH * Sx + (|h.fxx| * Sx + |h.fxy| * Sy) / 12) :=
    ((hH.mul hvx).to (by ring)).sub (tw (((hxx.mul hvx).add (hxy.mul hvy)).to (by ring)))
  have k3 : Ap (r ^ 3) (H' * vy' - (g'.fyy * vy' + g'.fxy * vx') / 12) (H * vy - (g.fyy * vy + g.fxy * vx) / 12)
      (SH * Sy + (|h.fyy| * Sy + |h.fxy| * Sx) / 12) :=
    ((hH.mul hvy).to (by ring)).sub (tw (((hyy.mul hvy).add (hxy.mul hvx)).to (by ring)))
  have sq : ∀ z vz' vz S : ℝ, Ap r vz' vz S → Ap (r ^ 3) (-(1 / 2) * H' * z * z - (1 - 2 * z * vz') / 24)
      (-(1 / 2) * H * z * z - (1 - 2 * z * vz) / 24) (1 / 2 * SH * |z| * |z| + (1 + 2 * |z| * S) / 24) := by
    intro z vz' vz S k
    have a1 := ((((c (1 / 2) (by norm_num)).mul hH).mul (Ap.refl z)).mul (Ap.refl z)).neg.to (show _ = r ^ 2 by ring)
    have a2 := tf ((((c 2 (by norm_num)).mul (Ap.refl z)).mul k).to (show _ = r by ring))
    exact ((a1.sub a2).mono r23 le_rfl).of3 (by ring) (by ring) rfl
  have k4 := sq dx vx' vx Sx hvx
  have k5 := sq dy vy' vy Sy hvy
  have k6 : Ap (r ^ 3) (-1 * H' * dx * dy + (dy * vx' + dx * vy') / 12) (-1 * H * dx * dy + (dy * vx + dx * vy) / 12)
      (SH * |dx| * |dy| + (|dy| * Sx + |dx| * Sy) / 12) := by
    have a1 := ((hH.mul X).mul Y).neg.mono (show r ^ 2 * 1 * 1 ≤ r ^ 3 by rw [mul_one, mul_one]; exact r23) le_rfl
    have a2 := tw ((((Y.mul hvx).add (X.mul hvy)).mono (show 1 * r ≤ r ^ 2 by rw [one_mul]; exact rr2) le_rfl))
    exact (a1.add a2).of3 (by ring) (by ring) rfl
  have ae := ha.mul hE
  have fin : ∀ {a' a A x' x B : ℝ}, Ap s a' a A → Ap (r ^ 3) x' x B →
      Ap (ρ * s * r ^ 4) (a' * (g'.amp * E' * x')) (a * (g.amp * E * x)) (A * (|h.amp| * E * B)) := fun k l =>
    (k.mul (ae.mul l)).to (by ring)
  have t1 : Ap (ρ * s * r ^ 4) (v'.amp * (E' * H')) (v.amp * (E * H)) (|V.amp| * (E * SH)) := by
    refine (va.mul (hE.mul hH)).mono ?_ le_rfl
    calc s * (ρ * r ^ 2) = ρ * s * r ^ 2 := by ring
      _ ≤ ρ * s * r ^ 4 := mul_le_mul_of_nonneg_left (pw (by norm_num)) (by positivity)
  exact (((((t1.add (fin vxc k2)).add (fin vyc k3)).add (fin vxx k4)).add (fin vyy k5)).add (fin vxy k6)).of3 rfl rfl
    (by ring)

/-- The gaussian of sizes is an ordinary one, and its exponent is at most that of the gaussian. -/
lemma sizeG_close (g V : Gauss) (b : ℝ) (hx : 0 < g.fxx) (hx4 : g.fxx ≤ 4) (hy : 0 < g.fyy) (hy4 : g.fyy ≤ 4)
    (hb2 : 4 * b ^ 2 ≤ g.fxx * g.fyy) (hgb : |g.fxy| ≤ b) (dx dy : ℝ) :
    0 ≤ quad g dx dy ∧ sizeG ⟨g.amp, 0, 0, g.fxx, g.fyy, b⟩ V dx dy ≤
      (4 + quad g dx dy) * (2 + quad g dx dy) * g.effect V := by
  obtain ⟨h, hh⟩ : ∃ h : Gauss, h = ⟨g.amp, 0, 0, g.fxx, g.fyy, b⟩ := ⟨_, rfl⟩
  have hO : Ordinary h := by rw [hh]; exact ⟨hx.le, hx4, hy.le, hy4, hb2⟩
  have h1 := sizeG_le h V hO (by rw [hh]; exact hx) (by rw [hh]; exact hy) |dx| (-|dy|)
  have h0 := quad_nonneg h hO |dx| (-|dy|)
  have hle : quad h |dx| (-|dy|) ≤ quad g dx dy := by
    rw [hh, quad, quad]
    dsimp only
    have e1 : |dx| ^ 2 = dx ^ 2 := sq_abs dx
    have e2 : (-|dy|) ^ 2 = dy ^ 2 := by rw [neg_sq, sq_abs]
    have e3 : -(b * (|dx| * |dy|)) ≤ g.fxy * (dx * dy) := by
      have := neg_abs_le (g.fxy * (dx * dy))
      rw [abs_mul, abs_mul] at this
      have := mul_le_mul_of_nonneg_right hgb (mul_nonneg (abs_nonneg dx) (abs_nonneg dy))
      linarith
    rw [e1, e2]
    linarith
  have heff : h.effect V = g.effect V := by rw [hh]; rfl
  have hs : sizeG h V |dx| (-|dy|) = sizeG h V dx dy := by
    simp only [sizeG, sX, sY, sizeH, abs_neg, abs_abs]
  rw [heff, hs] at h1
  rw [← hh]
  have he := effect_nonneg g V hx hy
  refine ⟨h0.trans hle, h1.trans (mul_le_mul_of_nonneg_right ?_ he)⟩
  exact mul_le_mul (by linarith) (by linarith) (by linarith) (by linarith)

lemma num_R {κ : ℝ} (h0 : 0 ≤ κ) (h1 : κ ≤ 1 / 2 ^ 10) : (1 + 11 * κ) * (1 + 4 * κ) ^ 4 ≤ 1 + 28 * κ := by
  have a : (1 + 4 * κ) ^ 2 ≤ 1 + 803 / 100 * κ := by nlinarith
  have b : (1 + 4 * κ) ^ 4 ≤ 1 + 163 / 10 * κ := by
    calc (1 + 4 * κ) ^ 4 = (1 + 4 * κ) ^ 2 * (1 + 4 * κ) ^ 2 := by ring
      _ ≤ (1 + 803 / 100 * κ) * (1 + 803 / 100 * κ) := mul_le_mul a a (by positivity) (by positivity)
      _ ≤ 1 + 163 / 10 * κ := by nlinarith
  calc (1 + 11 * κ) * (1 + 4 * κ) ^ 4 ≤ (1 + 11 * κ) * (1 + 163 / 10 * κ) := mul_le_mul_of_nonneg_left b (by positivity)
    _ ≤ 1 + 28 * κ := by nlinarith

lemma num_E {κ q : ℝ} (h0 : 0 ≤ κ) (h1 : κ ≤ 1 / 2 ^ 10) (hq : 0 ≤ q) :
    (Real.exp (κ * q) * (1 + 28 * κ) - 1) * (Real.exp (-q / 2) * ((4 + q) * (2 + q))) ≤ 360 * κ := by
  have e0 := Real.exp_pos (κ * q)
  have ex : Real.exp (κ * q) - 1 ≤ κ * q * Real.exp (κ * q) := by
    have := Real.add_one_le_exp (-(κ * q))
    have h := mul_le_mul_of_nonneg_right this e0.le
    rw [← Real.exp_add, neg_add_cancel, Real.exp_zero] at h
    linarith
  have a1 : Real.exp (κ * q) * (1 + 28 * κ) - 1 ≤ Real.exp (κ * q) * (κ * (q + 28)) := by
    calc Real.exp (κ * q) * (1 + 28 * κ) - 1 = (Real.exp (κ * q) - 1) + 28 * κ * Real.exp (κ * q) := by ring
      _ ≤ κ * q * Real.exp (κ * q) + 28 * κ * Real.exp (κ * q) := by linarith
      _ = Real.exp (κ * q) * (κ * (q + 28)) := by ring
  obtain ⟨x, hx⟩ : ∃ x, x = 499 / 1000 * q := ⟨_, rfl⟩
  have hx0 : 0 ≤ x := by rw [hx]; positivity
  have hxe : Real.exp (κ * q) * Real.exp (-q / 2) ≤ Real.exp (-x) := by
    rw [← Real.exp_add, Real.exp_le_exp, hx]
    nlinarith
  have hq2 : q = 1000 / 499 * x := by rw [hx]; ring
  have hp : (q + 28) * ((4 + q) * (2 + q)) ≤ 360 * Real.exp x := by
    refine le_trans ?_ (mul_le_mul_of_nonneg_left (exp_quart x hx0) (by norm_num))
    have x3 : 0 ≤ x ^ 3 := by positivity
    have x4 : 0 ≤ x ^ 4 := by positivity
    rw [hq2]
    nlinarith [sq_nonneg x]
  have p0 : 0 ≤ Real.exp (-q / 2) * ((4 + q) * (2 + q)) := by positivity
  calc _ ≤ Real.exp (κ * q) * (κ * (q + 28)) * (Real.exp (-q / 2) * ((4 + q) * (2 + q))) := mul_le_mul_of_nonneg_right a1 p0
    _ = κ * ((Real.exp (κ * q) * Real.exp (-q / 2)) * ((q + 28) * ((4 + q) * (2 + q)))) := by ring
    _ ≤ κ * (Real.exp (-x) * (360 * Real.exp x)) := by
        refine mul_le_mul_of_nonneg_left (mul_le_mul hxe hp (by positivity) (Real.exp_pos _).le) h0
    _ = 360 * κ * (Real.exp (-x) * Real.exp x) := by ring
    _ = 360 * κ := by rw [← Real.exp_add, neg_add_cancel, Real.exp_zero, mul_one]

/-- The derivatives in close directions of close gaussians. -/
lemma slope_close (g g' v v' V : Gauss) (K b : ℝ) (K1 : 1 ≤ K) (hK : K ≤ 2 ^ 10) (hx : 0 < g.fxx) (hx4 : g.fxx ≤ 4)
    (hy : 0 < g.fyy) (hy4 : g.fyy ≤ 4) (hb : 0 ≤ b) (hb2 : 4 * b ^ 2 = g.fxx * g.fyy) (hgb : |g.fxy| ≤ b)
    (ha : Ap (1 + 3 * K / 2 ^ 20) g'.amp g.amp |g.amp|) (hxx : Ap (1 + K / 2 ^ 19) g'.fxx g.fxx g.fxx)
    (hyy : Ap (1 + K / 2 ^ 19) g'.fyy g.fyy g.fyy) (hxy : Ap (1 + K / 2 ^ 19) g'.fxy g.fxy (2 * b))
    (va : Ap (1 + 11 * K / 2 ^ 20) v'.amp v.amp |V.amp|) (vx : Ap (1 + 11 * K / 2 ^ 20) v'.xcen v.xcen |V.xcen|)
    (vy : Ap (1 + 11 * K / 2 ^ 20) v'.ycen v.ycen |V.ycen|) (vxx : Ap (1 + 11 * K / 2 ^ 20) v'.fxx v.fxx |V.fxx|)
    (vyy : Ap (1 + 11 * K / 2 ^ 20) v'.fyy v.fyy |V.fyy|) (vxy : Ap (1 + 11 * K / 2 ^ 20) v'.fxy v.fxy |V.fxy|)
    (dx dy : ℝ) (hq : |quad g' dx dy - quad g dx dy| ≤ K / 2 ^ 19 * quad g dx dy) :
    |slope g' v' dx dy - slope g v dx dy| ≤ 360 * K / 2 ^ 20 * g.effect V := by
  obtain ⟨q0, hG⟩ := sizeG_close g V b hx hx4 hy hy4 hb2.le hgb dx dy
  obtain ⟨κ, hκ⟩ : ∃ κ, κ = K / 2 ^ 20 := ⟨_, rfl⟩
  have κ0 : 0 ≤ κ := by rw [hκ]; positivity
  have κ1 : κ ≤ 1 / 2 ^ 10 := by rw [hκ]; linarith
  have hE := exp_ap _ _ _ 0 _ hq le_rfl (by rw [sub_self, abs_zero, zero_mul] :
    |Real.exp (-(1 / 2) * quad g' dx dy) - Real.exp (-(1 / 2) * quad g' dx dy)| ≤ _)
  rw [show -(1 / 2) * quad g' dx dy = -quad g' dx dy / 2 by ring, add_zero, one_mul,
    show K / 2 ^ 19 * quad g dx dy / 2 = κ * quad g dx dy by rw [hκ]; ring] at hE
  have l3 : 1 + 3 * K / 2 ^ 20 ≤ 1 + 4 * κ := by rw [hκ]; linarith
  have l2 : 1 + K / 2 ^ 19 ≤ 1 + 4 * κ := by rw [hκ]; linarith
  have e11 : 1 + 11 * K / 2 ^ 20 = 1 + 11 * κ := by rw [hκ]; ring
  rw [e11] at va vx vy vxx vyy vxy
  have hxy' : Ap (1 + 4 * κ) g'.fxy g.fxy b := by
    refine ⟨by linarith, hxy.2.1.trans (le_of_eq ?_), hgb⟩
    rw [hκ]; ring
  have h := slope_ap g g' ⟨g.amp, 0, 0, g.fxx, g.fyy, b⟩ v v' V dx dy (show 1 ≤ 1 + 4 * κ by linarith)
    (ha.mono l3 le_rfl) (hxx.mono l2 (le_abs_self _)) (hyy.mono l2 (le_abs_self _)) (by rw [abs_of_nonneg hb]; exact hxy')
    va vx vy vxx vyy vxy rfl hE
  have he := effect_nonneg g V hx hy
  have ep := Real.exp_pos (κ * quad g dx dy)
  refine h.2.1.trans ?_
  have R := num_R κ0 κ1
  have hR : Real.exp (κ * quad g dx dy) * (1 + 11 * κ) * (1 + 4 * κ) ^ 4 - 1 ≤
      Real.exp (κ * quad g dx dy) * (1 + 28 * κ) - 1 := by
    have := mul_le_mul_of_nonneg_left R ep.le
    rw [mul_assoc]
    linarith
  have s0 : 0 ≤ Real.exp (-quad g dx dy / 2) * sizeG ⟨g.amp, 0, 0, g.fxx, g.fyy, b⟩ V dx dy := h.size
  have h28 : 0 ≤ Real.exp (κ * quad g dx dy) * (1 + 28 * κ) - 1 := le_trans (by linarith [h.1]) hR
  have hn := num_E κ0 κ1 q0
  calc _ ≤ (Real.exp (κ * quad g dx dy) * (1 + 28 * κ) - 1) *
        (Real.exp (-quad g dx dy / 2) * sizeG ⟨g.amp, 0, 0, g.fxx, g.fyy, b⟩ V dx dy) := mul_le_mul_of_nonneg_right hR s0
    _ ≤ (Real.exp (κ * quad g dx dy) * (1 + 28 * κ) - 1) *
        (Real.exp (-quad g dx dy / 2) * ((4 + quad g dx dy) * (2 + quad g dx dy) * g.effect V)) :=
      mul_le_mul_of_nonneg_left (mul_le_mul_of_nonneg_left hG (Real.exp_pos _).le) h28
    _ = (Real.exp (κ * quad g dx dy) * (1 + 28 * κ) - 1) *
        (Real.exp (-quad g dx dy / 2) * ((4 + quad g dx dy) * (2 + quad g dx dy))) * g.effect V := by ring
    _ ≤ 360 * κ * g.effect V := mul_le_mul_of_nonneg_right hn he
    _ = 360 * K / 2 ^ 20 * g.effect V := by rw [hκ]; ring

/-- A close gaussian has an ordinary shape too, and close directions have effects of the same size. -/
lemma effect_close (g g' v v' V : Gauss) (K b : ℝ) (K1 : 1 ≤ K) (hK : K ≤ 2 ^ 10) (hx : 0 < g.fxx) (hx4 : g.fxx ≤ 39 / 10)
    (hy : 0 < g.fyy) (hy4 : g.fyy ≤ 39 / 10) (hb : 0 ≤ b) (hb2 : 4 * b ^ 2 = g.fxx * g.fyy)
    (hgb : 5 * g.fxy ^ 2 ≤ g.fxx * g.fyy)
    (ha : Ap (1 + 3 * K / 2 ^ 20) g'.amp g.amp |g.amp|) (hxx : Ap (1 + K / 2 ^ 19) g'.fxx g.fxx g.fxx)
    (hyy : Ap (1 + K / 2 ^ 19) g'.fyy g.fyy g.fyy) (hxy : Ap (1 + K / 2 ^ 19) g'.fxy g.fxy (2 * b))
    (va : Ap (1 + 11 * K / 2 ^ 20) v'.amp v.amp |V.amp|) (vx : Ap (1 + 11 * K / 2 ^ 20) v'.xcen v.xcen |V.xcen|)
    (vy : Ap (1 + 11 * K / 2 ^ 20) v'.ycen v.ycen |V.ycen|) (vxx : Ap (1 + 11 * K / 2 ^ 20) v'.fxx v.fxx |V.fxx|)
    (vyy : Ap (1 + 11 * K / 2 ^ 20) v'.fyy v.fyy |V.fyy|) (vxy : Ap (1 + 11 * K / 2 ^ 20) v'.fxy v.fxy |V.fxy|) :
    (0 < g'.fxx ∧ g'.fxx ≤ 4 ∧ 0 < g'.fyy ∧ g'.fyy ≤ 4 ∧ 4 * g'.fxy ^ 2 ≤ g'.fxx * g'.fyy) ∧
      g'.effect v' ≤ 2 * g.effect V := by
  have l : K / 2 ^ 19 ≤ 1 / 512 := by linarith
  have near : ∀ {f' f : ℝ}, Ap (1 + K / 2 ^ 19) f' f f → 511 / 512 * f ≤ f' ∧ f' ≤ 513 / 512 * f := by
    intro f' f h
    have h0 := h.size
    have := abs_le.1 h.2.1
    have := mul_le_mul_of_nonneg_right l h0
    constructor <;> linarith
  obtain ⟨x1, x2⟩ := near hxx
  obtain ⟨y1, y2⟩ := near hyy
  have px : 0 < g'.fxx := by linarith
  have py : 0 < g'.fyy := by linarith
  have hF : |g.fxy| ≤ 9 / 10 * b := by
    apply abs_le_of_sq_le_sq _ (by positivity)
    nlinarith
  have hF' : |g'.fxy| ≤ 91 / 100 * b := by
    have h1 := hxy.2.1
    have h2 : |g'.fxy| ≤ |g'.fxy - g.fxy| + |g.fxy| := by
      have := abs_add_le (g'.fxy - g.fxy) g.fxy
      simpa using this
    have := mul_le_mul_of_nonneg_right l hb
    linarith
  refine ⟨⟨px, by linarith, py, by linarith, ?_⟩, ?_⟩
  · have h1 : g'.fxy ^ 2 ≤ (91 / 100 * b) ^ 2 := by
      rw [← sq_abs g'.fxy]
      exact pow_le_pow_left₀ (abs_nonneg _) hF' 2
    have h2 : 511 / 512 * g.fxx * (511 / 512 * g.fyy) ≤ g'.fxx * g'.fyy := mul_le_mul x1 y1 (by positivity) px.le
    have : 0 < g.fxx * g.fyy := mul_pos hx hy
    nlinarith
  · have c11 : (1 + 11 * K / 2 ^ 20) ≤ 103 / 100 := by linarith
    have up : ∀ {z' z Z : ℝ}, Ap (1 + 11 * K / 2 ^ 20) z' z |Z| → |z'| ≤ 103 / 100 * |Z| := fun h =>
      h.abs_le.trans (mul_le_mul_of_nonneg_right c11 (abs_nonneg _))
    have aa : |g'.amp| ≤ 103 / 100 * |g.amp| :=
      ha.abs_le.trans (mul_le_mul_of_nonneg_right (by linarith) (abs_nonneg _))
    have rx : 1 / g'.fxx ≤ 103 / 100 * (1 / g.fxx) := by
      rw [mul_one_div, div_le_div_iff₀ px hx]
      linarith
    have ry : 1 / g'.fyy ≤ 103 / 100 * (1 / g.fyy) := by
      rw [mul_one_div, div_le_div_iff₀ py hy]
      linarith
    have dv : ∀ {z Z f f' : ℝ}, 0 < f → 0 < f' → |z| ≤ 103 / 100 * |Z| → 1 / f' ≤ 103 / 100 * (1 / f) →
        |z| / f' ≤ 11 / 10 * (|Z| / f) := by
      intro z Z f f' p p' h1 h2
      have : |z| * (1 / f') ≤ 103 / 100 * |Z| * (103 / 100 * (1 / f)) :=
        mul_le_mul h1 h2 (by positivity) (by positivity)
      have q : 0 ≤ |Z| * (1 / f) := by positivity
      rw [div_eq_mul_one_div, div_eq_mul_one_div |Z|]
      linarith
    have d1 := dv hx px (up vxx) rx
    have d2 := dv hy py (up vyy) ry
    have d3 : |v'.fxy| * (1 / g'.fxx + 1 / g'.fyy) ≤ 11 / 10 * (|V.fxy| * (1 / g.fxx + 1 / g.fyy)) := by
      have : |v'.fxy| * (1 / g'.fxx + 1 / g'.fyy) ≤ 103 / 100 * |V.fxy| * (103 / 100 * (1 / g.fxx + 1 / g.fyy)) :=
        mul_le_mul (up vxy) (by linarith) (by positivity) (by positivity)
      have q : 0 ≤ |V.fxy| * (1 / g.fxx + 1 / g.fyy) := by positivity
      linarith
    have u0 := up va
    have u1 := up vx
    have u2 := up vy
    rw [Gauss.effect, Gauss.effect]
    have p1 : 0 ≤ |V.fxx| / g.fxx := by positivity
    have p2 : 0 ≤ |V.fyy| / g.fyy := by positivity
    have p3 : 0 ≤ |V.fxy| * (1 / g.fxx + 1 / g.fyy) := by positivity
    have p4 : 0 ≤ |v'.fxx| / g'.fxx := by positivity
    have p5 : 0 ≤ |v'.fyy| / g'.fyy := by positivity
    have p6 : 0 ≤ |v'.fxy| * (1 / g'.fxx + 1 / g'.fyy) := by positivity
    generalize |v'.fxx| / g'.fxx = a1 at *
    generalize |v'.fyy| / g'.fyy = a2 at *
    generalize |v'.fxy| * (1 / g'.fxx + 1 / g'.fyy) = a3 at *
    generalize |V.fxx| / g.fxx = b1 at *
    generalize |V.fyy| / g.fyy = b2 at *
    generalize |V.fxy| * (1 / g.fxx + 1 / g.fyy) = b3 at *
    have q1 := abs_nonneg V.xcen
    have q2 := abs_nonneg V.ycen
    have q3 := abs_nonneg V.amp
    have q4 := abs_nonneg v'.xcen
    have q5 := abs_nonneg v'.ycen
    have m : |g'.amp| * (|v'.xcen| + |v'.ycen| + a1 + a2 + a3) ≤
        103 / 100 * |g.amp| * (11 / 10 * (|V.xcen| + |V.ycen| + b1 + b2 + b3)) :=
      mul_le_mul aa (by linarith) (by linarith) (by positivity)
    have : 0 ≤ |g.amp| * (|V.xcen| + |V.ycen| + b1 + b2 + b3) := mul_nonneg (abs_nonneg _) (by linarith)
    linarith

/-! ## The gaussian of a source -/

/-- The exact gaussian. -/
noncomputable def trueGauss (i : Parts) (x y : ℝ) : Gauss :=
  ⟨trueAmp i, x, y, (trueCov i)⁻¹ 0 0, (trueCov i)⁻¹ 1 1, (trueCov i)⁻¹ 1 0⟩

lemma trueValue_pix (i : Parts) (x y xp yp : ℝ) : trueValue i (xp - x) (yp - y) = pixVal (trueGauss i x y) xp yp := by
  have h : (trueCov i)⁻¹ = !![(trueCov i)⁻¹ 0 0, (trueCov i)⁻¹ 1 0; (trueCov i)⁻¹ 1 0, (trueCov i)⁻¹ 1 1] := by
    rw [trueCov_eq i _ _ _ _ rfl rfl rfl rfl, inv_eq]
    rfl
  rw [trueValue_eq i _ _ _ _ _ h]
  rfl

/-- What is needed about the gaussian in memory. -/
lemma stored (fma : Bool) (cs sn : ℝ → ℝ) (ht : TrigOk cs sn) (i : Parts) (hv : Valid i) (K : ℝ) (hK : K ≤ 2 ^ 10)
    (hc : Cond K i) (x y : ℝ) :
    1 ≤ K ∧ 0 < (trueCov i)⁻¹ 0 0 ∧ 0 < (trueCov i)⁻¹ 1 1 ∧
      4 * (Real.sqrt ((trueCov i)⁻¹ 0 0) * Real.sqrt ((trueCov i)⁻¹ 1 1) / 2) ^ 2 = (trueCov i)⁻¹ 0 0 * (trueCov i)⁻¹ 1 1 ∧
      Ap (1 + 3 * K / 2 ^ 20) (buildGauss fma cs sn i x y).amp (trueAmp i) |trueAmp i| ∧
      Ap (1 + K / 2 ^ 19) (buildGauss fma cs sn i x y).fxx ((trueCov i)⁻¹ 0 0) ((trueCov i)⁻¹ 0 0) ∧
      Ap (1 + K / 2 ^ 19) (buildGauss fma cs sn i x y).fyy ((trueCov i)⁻¹ 1 1) ((trueCov i)⁻¹ 1 1) ∧
      Ap (1 + K / 2 ^ 19) (buildGauss fma cs sn i x y).fxy ((trueCov i)⁻¹ 1 0)
        (2 * (Real.sqrt ((trueCov i)⁻¹ 0 0) * Real.sqrt ((trueCov i)⁻¹ 1 1) / 2)) ∧
      ∀ dx dy, |quad (buildGauss fma cs sn i x y) dx dy - quad (trueGauss i x y) dx dy| ≤
        K / 2 ^ 19 * quad (trueGauss i x y) dx dy := by
  obtain ⟨a, b, c, Z1, Z2, Z3, b1, b2, e1, e2, ha, hd, K1, eb1, eb2, p1, p2, s1, s2, -, -, -, -, -, f1, f2, f3⟩ :=
    core2 fma cs sn ht i hv K hK hc
  have F00 : (trueCov i)⁻¹ 0 0 = c / (a * c - b ^ 2) := by rw [e1, inv_eq]; rfl
  have F11 : (trueCov i)⁻¹ 1 1 = a / (a * c - b ^ 2) := by rw [e1, inv_eq]; rfl
  have F10 : (trueCov i)⁻¹ 1 0 = -b / (a * c - b ^ 2) := by rw [e1, inv_eq]; rfl
  have hq := fun dx dy => (C138_shape fma cs sn ht i hv K hK hc x y dx dy).1
  have ef : ∀ dx dy, form (trueCov i)⁻¹ dx dy = quad (trueGauss i x y) dx dy := by
    intro dx dy
    rw [trueGauss, quad, F00, F11, F10, e1, inv_eq, form_eq, frm]
  have am := C138_amplitude fma cs sn ht i hv K hK hc x y
  refine ⟨K1, ?_, ?_, ?_, ⟨by linarith, am.trans (le_of_eq (by ring)), le_rfl⟩, ?_, ?_, ?_, fun dx dy => ?_⟩
  · rw [F00, ← s1]; positivity
  · rw [F11, ← s2]; positivity
  · rw [F00, F11, ← eb1, ← eb2, ← s1, ← s2]; ring
  · rw [F00]
    exact f1.of_eq rfl s1
  · rw [F11]
    exact f3.of_eq rfl s2
  · rw [F10, F00, F11, ← eb1, ← eb2]
    exact f2.of_eq rfl (by ring)
  · have := hq dx dy
    rw [ef] at this
    exact this

/-- One column of the Jacobian. -/
lemma column_close (fma : Bool) (o c : Nat → Bool) (cs sn : ℝ → ℝ) (ht : TrigOk cs sn) (ex : ℝ → ℝ) (hex : ExpOk ex) (i : Parts)
    (hv : Valid i) (K : ℝ) (hK : K ≤ 2 ^ 10) (hc : Cond K i) (hx4 : (trueCov i)⁻¹ 0 0 ≤ 39 / 10)
    (hy4 : (trueCov i)⁻¹ 1 1 ≤ 39 / 10) (hxy : 5 * ((trueCov i)⁻¹ 1 0) ^ 2 ≤ (trueCov i)⁻¹ 0 0 * (trueCov i)⁻¹ 1 1)
    (dn dr : ℝ) (CW : Mat) (x y xp yp r : ℝ) (j : Fin 7) (v V : Gauss) (v' : Gauss)
    (hv' : (buildJac fma o cs sn i dn dr CW).column j = v')
    (va : Ap (1 + 11 * K / 2 ^ 20) v'.amp v.amp |V.amp|) (vx : Ap (1 + 11 * K / 2 ^ 20) v'.xcen v.xcen |V.xcen|)
    (vy : Ap (1 + 11 * K / 2 ^ 20) v'.ycen v.ycen |V.ycen|) (vxx : Ap (1 + 11 * K / 2 ^ 20) v'.fxx v.fxx |V.fxx|)
    (vyy : Ap (1 + 11 * K / 2 ^ 20) v'.fyy v.fyy |V.fyy|) (vxy : Ap (1 + 11 * K / 2 ^ 20) v'.fxy v.fxy |V.fxy|) :
    ∃ t, |t - -2 * r * slope (trueGauss i x y) v (xp - x) (yp - y)| ≤ |r| * (K / 2 ^ 10 * (trueGauss i x y).effect V) ∧
      ∀ d : Fin 7 → ℝ,
        gradOne c ex xp yp r d (buildGauss fma cs sn i x y, buildJac fma o cs sn i dn dr CW) j = fl 24 (d j + t) ∨
        t = 0 ∧ gradOne c ex xp yp r d (buildGauss fma cs sn i x y, buildJac fma o cs sn i dn dr CW) j = d j := by
  obtain ⟨K1, px, py, b2, a1, a2, a3, a4, hq⟩ := stored fma cs sn ht i hv K hK hc x y
  obtain ⟨b, hb⟩ : ∃ b, b = Real.sqrt ((trueCov i)⁻¹ 0 0) * Real.sqrt ((trueCov i)⁻¹ 1 1) / 2 := ⟨_, rfl⟩
  have hb0 : 0 ≤ b := by rw [hb]; positivity
  rw [← hb] at b2 a4
  have hgb : |(trueCov i)⁻¹ 1 0| ≤ b := by
    apply abs_le_of_sq_le_sq _ hb0
    nlinarith [sq_nonneg ((trueCov i)⁻¹ 1 0)]
  have S := slope_close (trueGauss i x y) (buildGauss fma cs sn i x y) v v' V K b K1 hK px (hx4.trans (by norm_num)) py
    (hy4.trans (by norm_num)) hb0 b2 hgb a1 a2 a3 a4 va vx vy vxx vyy vxy (xp - x) (yp - y) (hq _ _)
  obtain ⟨O, e⟩ := effect_close (trueGauss i x y) (buildGauss fma cs sn i x y) v v' V K b K1 hK px hx4 py hy4 hb0 b2 hxy
    a1 a2 a3 a4 va vx vy vxx vyy vxy
  obtain ⟨t, h1, h2⟩ := C141_term c ex hex _ (buildJac fma o cs sn i dn dr CW) O xp yp r j
  refine ⟨t, ?_, h2⟩
  rw [(hasDeriv _ _ xp yp).deriv, hv'] at h1
  have he := effect_nonneg (trueGauss i x y) V px py
  have r0 := abs_nonneg r
  change |t - -2 * r * slope (buildGauss fma cs sn i x y) v' (xp - x) (yp - y)| ≤ _ at h1
  generalize slope (buildGauss fma cs sn i x y) v' (xp - x) (yp - y) = s' at *
  generalize slope (trueGauss i x y) v (xp - x) (yp - y) = s at *
  generalize (buildGauss fma cs sn i x y).effect v' = e' at *
  generalize (trueGauss i x y).effect V = E at *
  have k1 : |-2 * r * s' - -2 * r * s| ≤ 2 * |r| * (360 * K / 2 ^ 20 * E) := by
    rw [← mul_sub, abs_mul, abs_mul]
    norm_num
    exact mul_le_mul_of_nonneg_left (by norm_num at S; exact S) (by positivity)
  have k2 := mul_le_mul_of_nonneg_left e r0
  have k3 : 0 ≤ |r| * E := mul_nonneg r0 he
  have k4 : |r| * E ≤ K * (|r| * E) := le_mul_of_one_le_left k3 K1
  calc |t - -2 * r * s| ≤ |t - -2 * r * s'| + |-2 * r * s' - -2 * r * s| := abs_sub_le _ _ _
    _ ≤ |r| * e' / 2 ^ 14 + 2 * |r| * (360 * K / 2 ^ 20 * E) := add_le_add h1 k1
    _ ≤ |r| * (2 * E) / 2 ^ 14 + 2 * |r| * (360 * K / 2 ^ 20 * E) := by
        have : |r| * e' / 2 ^ 14 ≤ |r| * (2 * E) / 2 ^ 14 := div_le_div_of_nonneg_right k2 (by positivity)
        linarith
    _ = 128 / 2 ^ 20 * (|r| * E) + 720 / 2 ^ 20 * (K * (|r| * E)) := by ring
    _ ≤ 1 / 2 ^ 10 * (K * (|r| * E)) := by
        have : 0 ≤ K * (|r| * E) := k3.trans k4
        linarith
    _ = |r| * (K / 2 ^ 10 * E) := by ring

/-- The direction of a change of shape. -/
lemma shape_term (fma : Bool) (o c : Nat → Bool) (cs sn : ℝ → ℝ) (ht : TrigOk cs sn) (ex : ℝ → ℝ) (hex : ExpOk ex) (i : Parts)
    (hv : Valid i) (K : ℝ) (hK : K ≤ 2 ^ 10) (hc : Cond K i) (hx4 : (trueCov i)⁻¹ 0 0 ≤ 39 / 10)
    (hy4 : (trueCov i)⁻¹ 1 1 ≤ 39 / 10) (hxy : 5 * ((trueCov i)⁻¹ 1 0) ^ 2 ≤ (trueCov i)⁻¹ 0 0 * (trueCov i)⁻¹ 1 1)
    (dn dr : ℝ) (CW : Mat) (x y xp yp r : ℝ) (j : Fin 7) (a' f11' f22' f21' S : ℝ)
    (hv' : (buildJac fma o cs sn i dn dr CW).column j = ⟨a', 0, 0, f11', f22', f21'⟩) (I : ℝ → Parts) (t : ℝ) (hI : I t = i)
    (G : Matrix (Fin 2) (Fin 2) ℝ) (l : ℝ) (hG : ∀ m n, HasDerivAt (fun u => (trueCov (I u))⁻¹ m n) (G m n) t)
    (hl : HasDerivAt (fun u => trueAmp (I u)) l t)
    (h1 : Ap (1 + 3 * K / 2 ^ 19) f11' (G 0 0) ((trueCov i)⁻¹ 0 0 * S))
    (h2 : Ap (1 + 3 * K / 2 ^ 19) f22' (G 1 1) ((trueCov i)⁻¹ 1 1 * S))
    (h3 : Ap (1 + 3 * K / 2 ^ 19) f21' (G 1 0) (Real.sqrt ((trueCov i)⁻¹ 0 0) * Real.sqrt ((trueCov i)⁻¹ 1 1) * S))
    (h4 : Ap (1 + 11 * K / 2 ^ 20) a' l (|trueAmp i| / 2 * S * covSize i)) :
    ∃ D, HasDerivAt (fun u => trueValue (I u) (xp - x) (yp - y)) D t ∧
    ∃ w, |w - -2 * r * D| ≤ |r| * (K / 2 ^ 10 * (|trueAmp i| * (S * (covSize i / 2 + 2 +
        Real.sqrt ((trueCov i)⁻¹ 0 0) * Real.sqrt ((trueCov i)⁻¹ 1 1) *
          (1 / (trueCov i)⁻¹ 0 0 + 1 / (trueCov i)⁻¹ 1 1))))) ∧
      ∀ d : Fin 7 → ℝ,
        gradOne c ex xp yp r d (buildGauss fma cs sn i x y, buildJac fma o cs sn i dn dr CW) j = fl 24 (d j + w) ∨
        w = 0 ∧ gradOne c ex xp yp r d (buildGauss fma cs sn i x y, buildJac fma o cs sn i dn dr CW) j = d j := by
  obtain ⟨K1, px, py, -⟩ := stored fma cs sn ht i hv K hK hc x y
  have e0 : Ap (1 + 11 * K / 2 ^ 20) 0 0 |(0 : ℝ)| := (Ap.refl 0).mono (by linarith) le_rfl
  have up : ∀ {z' z Z : ℝ}, Ap (1 + 3 * K / 2 ^ 19) z' z Z → Ap (1 + 11 * K / 2 ^ 20) z' z |Z| := fun h =>
    h.mono (by linarith) (le_abs_self _)
  obtain ⟨w, w1, w2⟩ := column_close fma o c cs sn ht ex hex i hv K hK hc hx4 hy4 hxy dn dr CW x y xp yp r j
    ⟨l, 0, 0, G 0 0, G 1 1, G 1 0⟩
    ⟨|trueAmp i| / 2 * S * covSize i, 0, 0, (trueCov i)⁻¹ 0 0 * S, (trueCov i)⁻¹ 1 1 * S,
      Real.sqrt ((trueCov i)⁻¹ 0 0) * Real.sqrt ((trueCov i)⁻¹ 1 1) * S⟩ ⟨a', 0, 0, f11', f22', f21'⟩ hv'
    (h4.mono le_rfl (le_abs_self _)) e0 e0 (up h1) (up h2) (up h3)
  refine ⟨_, ?_, w, w1.trans (le_of_eq ?_), w2⟩
  · have h := curve_slope (A := fun u => trueAmp (I u)) (X := fun _ => x) (Y := fun _ => y)
      (P := fun u => (trueCov (I u))⁻¹ 0 0) (Q := fun u => (trueCov (I u))⁻¹ 1 1) (R := fun u => (trueCov (I u))⁻¹ 1 0)
      ⟨l, 0, 0, G 0 0, G 1 1, G 1 0⟩ t xp yp hl (hasDerivAt_const t x) (hasDerivAt_const t y) (hG 0 0) (hG 1 1) (hG 1 0)
    refine Transform.hdc h (fun u => trueValue_pix (I u) x y xp yp) ?_
    rw [hI]
    rfl
  · have S0 : 0 ≤ S := by
      have := h1.size
      exact nonneg_of_mul_nonneg_right this px
    have c0 := h4.size
    have q0 : 0 ≤ Real.sqrt ((trueCov i)⁻¹ 0 0) * Real.sqrt ((trueCov i)⁻¹ 1 1) * S := by positivity
    congr 2
    rw [Gauss.effect]
    dsimp only [trueGauss]
    rw [abs_of_nonneg c0, abs_of_nonneg h1.size, abs_of_nonneg h2.size, abs_of_nonneg q0, abs_zero, mul_div_right_comm,
      mul_div_right_comm, div_self px.ne', div_self py.ne']
    ring

/-- The direction of a change of amplitude. -/
lemma amp_close (fma : Bool) (o c : Nat → Bool) (cs sn : ℝ → ℝ) (ht : TrigOk cs sn) (ex : ℝ → ℝ) (hex : ExpOk ex) (i : Parts)
    (hv : Valid i) (K : ℝ) (hK : K ≤ 2 ^ 10) (hc : Cond K i) (hx4 : (trueCov i)⁻¹ 0 0 ≤ 39 / 10)
    (hy4 : (trueCov i)⁻¹ 1 1 ≤ 39 / 10) (hxy : 5 * ((trueCov i)⁻¹ 1 0) ^ 2 ≤ (trueCov i)⁻¹ 0 0 * (trueCov i)⁻¹ 1 1)
    (dn dr : ℝ) (CW : Mat) (x y xp yp r : ℝ) (j : Fin 7) (a' : ℝ)
    (hv' : (buildJac fma o cs sn i dn dr CW).column j = ⟨a', 0, 0, 0, 0, 0⟩) (I : ℝ → Parts) (t : ℝ)
    (hI : I t = i) (hC : ∀ u, trueCov (I u) = trueCov i) (l : ℝ)
    (hl : HasDerivAt (fun u => trueAmp (I u)) l t) (h4 : |a' - l| ≤ 3 * K / 2 ^ 20 * |l|) :
    ∃ D, HasDerivAt (fun u => trueValue (I u) (xp - x) (yp - y)) D t ∧
    ∃ w, |w - -2 * r * D| ≤ |r| * (K / 2 ^ 10 * |l|) ∧
      ∀ d : Fin 7 → ℝ,
        gradOne c ex xp yp r d (buildGauss fma cs sn i x y, buildJac fma o cs sn i dn dr CW) j = fl 24 (d j + w) ∨
        w = 0 ∧ gradOne c ex xp yp r d (buildGauss fma cs sn i x y, buildJac fma o cs sn i dn dr CW) j = d j := by
  obtain ⟨K1, px, py, -⟩ := stored fma cs sn ht i hv K hK hc x y
  have e0 : Ap (1 + 11 * K / 2 ^ 20) 0 0 |(0 : ℝ)| := (Ap.refl 0).mono (by linarith) le_rfl
  obtain ⟨w, w1, w2⟩ := column_close fma o c cs sn ht ex hex i hv K hK hc hx4 hy4 hxy dn dr CW x y xp yp r j
    ⟨l, 0, 0, 0, 0, 0⟩ ⟨l, 0, 0, 0, 0, 0⟩ ⟨a', 0, 0, 0, 0, 0⟩ hv'
    ⟨by linarith, h4.trans (mul_le_mul_of_nonneg_right (by linarith) (abs_nonneg _)), le_rfl⟩ e0 e0 e0 e0 e0
  refine ⟨_, ?_, w, w1.trans (le_of_eq ?_), w2⟩
  · have h := curve_slope (A := fun u => trueAmp (I u)) (X := fun _ => x) (Y := fun _ => y)
      (P := fun _ => (trueCov i)⁻¹ 0 0) (Q := fun _ => (trueCov i)⁻¹ 1 1) (R := fun _ => (trueCov i)⁻¹ 1 0)
      ⟨l, 0, 0, 0, 0, 0⟩ t xp yp hl (hasDerivAt_const t x) (hasDerivAt_const t y) (hasDerivAt_const t _)
      (hasDerivAt_const t _) (hasDerivAt_const t _)
    refine Transform.hdc h (fun u => ?_) ?_
    · rw [trueValue_pix (I u) x y xp yp, trueGauss, hC]
    · rw [hI]
      rfl
  · congr 2
    simp [Gauss.effect]

/-- The direction of a change of centre. -/
lemma centre_close (fma : Bool) (o c : Nat → Bool) (cs sn : ℝ → ℝ) (ht : TrigOk cs sn) (ex : ℝ → ℝ) (hex : ExpOk ex) (i : Parts)
    (hv : Valid i) (K : ℝ) (hK : K ≤ 2 ^ 10) (hc : Cond K i) (hx4 : (trueCov i)⁻¹ 0 0 ≤ 39 / 10)
    (hy4 : (trueCov i)⁻¹ 1 1 ≤ 39 / 10) (hxy : 5 * ((trueCov i)⁻¹ 1 0) ^ 2 ≤ (trueCov i)⁻¹ 0 0 * (trueCov i)⁻¹ 1 1)
    (dn dr : ℝ) (CW : Mat) (x y xp yp r : ℝ) (j : Fin 7) (mx my : ℝ)
    (hv' : (buildJac fma o cs sn i dn dr CW).column j = ⟨0, mx, my, 0, 0, 0⟩) :
    ∃ D, HasDerivAt (fun u => trueValue i (xp - (x + mx * u)) (yp - (y + my * u))) D 0 ∧
    ∃ w, |w - -2 * r * D| ≤ |r| * (K / 2 ^ 10 * (|trueAmp i| * (|mx| + |my|))) ∧
      ∀ d : Fin 7 → ℝ,
        gradOne c ex xp yp r d (buildGauss fma cs sn i x y, buildJac fma o cs sn i dn dr CW) j = fl 24 (d j + w) ∨
        w = 0 ∧ gradOne c ex xp yp r d (buildGauss fma cs sn i x y, buildJac fma o cs sn i dn dr CW) j = d j := by
  obtain ⟨K1, px, py, -⟩ := stored fma cs sn ht i hv K hK hc x y
  have e : ∀ z : ℝ, Ap (1 + 11 * K / 2 ^ 20) z z |z| := fun z => (Ap.refl z).mono (by linarith) le_rfl
  obtain ⟨w, w1, w2⟩ := column_close fma o c cs sn ht ex hex i hv K hK hc hx4 hy4 hxy dn dr CW x y xp yp r j
    ⟨0, mx, my, 0, 0, 0⟩ ⟨0, mx, my, 0, 0, 0⟩ ⟨0, mx, my, 0, 0, 0⟩ hv' (e 0) (e mx) (e my) (e 0) (e 0) (e 0)
  refine ⟨_, ?_, w, w1.trans (le_of_eq ?_), w2⟩
  · have lin : ∀ z m : ℝ, HasDerivAt (fun u : ℝ => z + m * u) m 0 := fun z m =>
      Transform.hdc (((hasDerivAt_id' (0 : ℝ)).const_mul m).const_add z) (fun _ => rfl) (by simp)
    have h := curve_slope (A := fun _ => trueAmp i) (X := fun u => x + mx * u) (Y := fun u => y + my * u)
      (P := fun _ => (trueCov i)⁻¹ 0 0) (Q := fun _ => (trueCov i)⁻¹ 1 1) (R := fun _ => (trueCov i)⁻¹ 1 0)
      ⟨0, mx, my, 0, 0, 0⟩ 0 xp yp (hasDerivAt_const _ _) (lin x mx) (lin y my) (hasDerivAt_const _ _)
      (hasDerivAt_const _ _) (hasDerivAt_const _ _)
    refine Transform.hdc h (fun u => trueValue_pix i (x + mx * u) (y + my * u) xp yp) ?_
    simp only [mul_zero, add_zero]
    rfl
  · congr 2
    simp [Gauss.effect, trueGauss]

/-- C146 (one gaussian): what a gaussian built in single precision adds to each of the seven derivatives of its source is
minus twice the residual over the variance times the derivative of the exact value in the pixel with that parameter, up
to `K / 2^10` of the size of the changes. -/
theorem C146_gradient (fma : Bool) (o c : Nat → Bool) (cs sn : ℝ → ℝ) (ht : TrigOk cs sn) (ex : ℝ → ℝ) (hex : ExpOk ex)
    (i : Parts) (hv : Valid i) (K : ℝ) (hK : K ≤ 2 ^ 10) (hc : Cond K i) (hx4 : (trueCov i)⁻¹ 0 0 ≤ 39 / 10)
    (hy4 : (trueCov i)⁻¹ 1 1 ≤ 39 / 10) (hxy : 5 * ((trueCov i)⁻¹ 1 0) ^ 2 ≤ (trueCov i)⁻¹ 0 0 * (trueCov i)⁻¹ 1 1)
    (dn dr : ℝ) (CW : Mat) (wn wr : ℝ → ℝ) (hn : wn 0 = i.samp) (hn' : HasDerivAt wn dn 0) (hr : wr 0 = i.samp)
    (hr' : HasDerivAt wr dr 0) (x y xp yp r : ℝ) (j : Fin 7) :
    ∃ D, HasDerivAt (paramValue i CW wn wr x y xp yp j) D 0 ∧
    ∃ w, |w - -2 * r * D| ≤ |r| * (K / 2 ^ 10 * paramScale i CW dn dr j) ∧
      ∀ d : Fin 7 → ℝ,
        gradOne c ex xp yp r d (buildGauss fma cs sn i x y, buildJac fma o cs sn i dn dr CW) j = fl 24 (d j + w) ∨
        w = 0 ∧ gradOne c ex xp yp r d (buildGauss fma cs sn i x y, buildJac fma o cs sn i dn dr CW) j = d j := by
  have am : ∀ k : Parts, trueCov k = trueCov i → trueAmp k = k.flux * (k.G * k.pamp) * k.samp / (2 * Real.pi * Real.sqrt (trueCov i).det) := by
    intro k hk
    rw [trueAmp, hk]
    ring
  have wt : ∀ (s : ℝ → ℝ) (d l : ℝ), HasDerivAt s d 0 → HasDerivAt (fun u => trueAmp { i with samp := s u }) l 0 →
      l = trueAmp { i with samp := d } := by
    intro s d l hs hl
    refine hl.unique ?_
    refine Transform.hdc (hs.const_mul (i.flux * (i.G * i.pamp) / (2 * Real.pi * Real.sqrt (trueCov i).det))) (fun u => ?_) ?_
    · rw [am { i with samp := s u } rfl]
      ring
    · rw [am { i with samp := d } rfl]
      ring
  have sh : ∀ {f : ℝ → ℝ} {f' a : ℝ}, HasDerivAt f f' a → HasDerivAt (fun u => f (a + u)) f' 0 := by
    intro f f' a h
    exact HasDerivAt.comp_const_add a 0 (by rwa [add_zero])
  have hC := C145_weight fma o cs sn ht i hv K hK hc dn dr CW wn wr 0 0 hn' hr'
  fin_cases j
  · obtain ⟨l, l1, l2⟩ := C145_flux fma o cs sn ht i hv K hK hc dn dr CW
    have el : l = trueAmp { i with flux := 1 } := by
      refine l1.unique ?_
      refine Transform.hdc ((hasDerivAt_id' i.flux).mul_const (i.G * i.pamp * i.samp / (2 * Real.pi * Real.sqrt (trueCov i).det)))
        (fun u => ?_) ?_
      · rw [am { i with flux := u } rfl]
        ring
      · rw [am { i with flux := 1 } rfl]
        ring
    have := amp_close fma o c cs sn ht ex hex i hv K hK hc hx4 hy4 hxy dn dr CW x y xp yp r 0 _ rfl
      (fun u => { i with flux := i.flux + u }) 0 (by simp) (fun _ => rfl) l (sh l1) l2
    rw [el] at this
    exact this
  · exact centre_close fma o c cs sn ht ex hex i hv K hK hc hx4 hy4 hxy dn dr CW x y xp yp r 1 _ _ rfl
  · exact centre_close fma o c cs sn ht ex hex i hv K hK hc hx4 hy4 hxy dn dr CW x y xp yp r 2 _ _ rfl
  · obtain ⟨G, l, g1, g2, g3, g4, g5, g6⟩ := axis_ap fma o cs sn ht i hv K hK hc dn dr CW
    exact shape_term fma o c cs sn ht ex hex i hv K hK hc hx4 hy4 hxy dn dr CW x y xp yp r 3 _ _ _ _ _ rfl
      (fun u => { i with q := i.q + u }) 0 (by simp) G l (fun m n => sh (g1 m n)) (sh g2) g3 g4 g5 g6
  · obtain ⟨G, l, g1, g2, g3, g4, g5, g6⟩ := angle_ap fma o cs sn ht i hv K hK hc dn dr CW
    exact shape_term fma o c cs sn ht ex hex i hv K hK hc hx4 hy4 hxy dn dr CW x y xp yp r 4 _ _ _ _ _ rfl
      (fun u => { i with pa := i.pa + u }) 0 (by simp) G l (fun m n => sh (g1 m n)) (sh g2) g3 g4 g5 g6
  · obtain ⟨l, l1, l2⟩ := hC.1
    have := amp_close fma o c cs sn ht ex hex i hv K hK hc hx4 hy4 hxy dn dr CW x y xp yp r 5 _ rfl
      (fun u => { i with samp := wn u }) 0 (by simp [hn]) (fun _ => rfl) l l1 l2
    rw [wt wn dn l hn' l1] at this
    exact this
  · obtain ⟨l, l1, l2⟩ := hC.2
    have := amp_close fma o c cs sn ht ex hex i hv K hK hc hx4 hy4 hxy dn dr CW x y xp yp r 6 _ rfl
      (fun u => { i with samp := wr u }) 0 (by simp [hr]) (fun _ => rfl) l l1 l2
    rw [wt wr dr l hr' l1] at this
    exact this

/-! ## A source, a band -/

/-- A gaussian of a source in an exposure: its parts, its centre in memory, the derivatives of its weight with index and
radius that were given and the weight as a function of them, the map from sky to pixels. -/
structure Made where
  parts : Parts
  x : ℝ
  y : ℝ
  dn : ℝ
  dr : ℝ
  CW : Mat
  wn : ℝ → ℝ
  wr : ℝ → ℝ

/-- The gaussian and its Jacobian in memory (common_kernel.cc:151-228). -/
noncomputable def Made.pair (fma : Bool) (o : Nat → Bool) (cs sn : ℝ → ℝ) (m : Made) : Gauss × Jac :=
  (buildGauss fma cs sn m.parts m.x m.y, buildJac fma o cs sn m.parts m.dn m.dr m.CW)

/-- Exposures as the kernel sees them. -/
noncomputable def inMemory (fma : Bool) (o : Nat → Bool) (cs sn : ℝ → ℝ) (es : List (List (List Made) × List Pix)) : List Expo :=
  es.map fun e => (e.1.map fun l => l.map (Made.pair fma o cs sn), e.2)

/-! ### Specification -/

/-- The conditions of `C146_gradient`. -/
def Made.Ok (K : ℝ) (m : Made) : Prop :=
  Valid m.parts ∧ Cond K m.parts ∧ (trueCov m.parts)⁻¹ 0 0 ≤ 39 / 10 ∧ (trueCov m.parts)⁻¹ 1 1 ≤ 39 / 10 ∧
  5 * ((trueCov m.parts)⁻¹ 1 0) ^ 2 ≤ (trueCov m.parts)⁻¹ 0 0 * (trueCov m.parts)⁻¹ 1 1 ∧
  m.wn 0 = m.parts.samp ∧ HasDerivAt m.wn m.dn 0 ∧ m.wr 0 = m.parts.samp ∧ HasDerivAt m.wr m.dr 0

/-- The exact value. -/
noncomputable def Made.value (m : Made) (p : Pix) : ℝ := trueValue m.parts (p.x - m.x) (p.y - m.y)

/-- The exact value after parameter `j` changes by `u`. -/
noncomputable def Made.moved (m : Made) (p : Pix) (j : Fin 7) (u : ℝ) : ℝ :=
  paramValue m.parts m.CW m.wn m.wr m.x m.y p.x p.y j u

/-- The exact chi-square of a band, less that of the data alone, after parameter `j` of source `k` changes by `u`. -/
noncomputable def bandAt (es : List (List (List Made) × List Pix)) (k : Nat) (j : Fin 7) (u : ℝ) : ℝ :=
  (es.map fun e => (e.2.map fun p =>
    ((p.data - (e.1.mapIdx fun i l => (l.map fun m => if i = k then m.moved p j u else m.value p).sum).sum) ^ 2 -
      p.data ^ 2) * p.ierr ^ 2).sum).sum

/-- The exact residual. -/
noncomputable def madeRes (gs : List (List Made)) (p : Pix) : ℝ := p.data - (gs.flatten.map fun m => m.value p).sum

/-- The tolerance for the residual over the variance: that of C138, and two roundings. -/
noncomputable def madeTol (K : ℝ) (gs : List (List Made)) (p : Pix) : ℝ :=
  let t := (gs.flatten.map fun m => K / 2 ^ 16 * |trueAmp m.parts|).sum + ((1 + 1 / 2 ^ 24) ^ gs.flatten.length - 1) *
    (|p.data| + (gs.flatten.map fun m => |m.value p| + K / 2 ^ 16 * |trueAmp m.parts|).sum)
  (t + ((1 + 1 / 2 ^ 24) ^ 2 - 1) * (|madeRes gs p| + t)) * p.ierr ^ 2

/-- The size of the changes with a parameter, times the tolerance of `C146_gradient`. -/
noncomputable def Made.tol (K : ℝ) (j : Fin 7) (m : Made) : ℝ := K / 2 ^ 10 * paramScale m.parts m.CW m.dn m.dr j

/-- The tolerance for the derivatives of a source in a pixel: that of its gaussians, and one rounding for each. -/
noncomputable def sourceTol (K : ℝ) (l : List Made) (j : Fin 7) (p : Pix) : ℝ :=
  (l.map fun m => m.tol K j).sum + ((1 + 1 / 2 ^ 24) ^ l.length - 1) *
    (l.map fun m => 2 * |deriv (m.moved p j) 0| + m.tol K j).sum

/-- The change of the exact value of a source in a pixel. -/
noncomputable def madeDeriv (l : List Made) (j : Fin 7) (p : Pix) : ℝ := (l.map fun m => deriv (m.moved p j) 0).sum

/-- The exact derivative of the contribution of a pixel. -/
noncomputable def madeGrad (gs : List (List Made)) (k : Nat) (j : Fin 7) (p : Pix) : ℝ :=
  -2 * (madeRes gs p * p.ierr ^ 2) * madeDeriv (gs.getD k []) j p

/-- The tolerance for it. -/
noncomputable def madeGradTol (K : ℝ) (gs : List (List Made)) (k : Nat) (j : Fin 7) (p : Pix) : ℝ :=
  2 * |madeDeriv (gs.getD k []) j p| * madeTol K gs p +
    (|madeRes gs p| * p.ierr ^ 2 + madeTol K gs p) * sourceTol K (gs.getD k []) j p

/-! ### Proofs -/

/-- The sum over the gaussians of a source, for any bound of a term. -/
lemma source_general {α : Type} (c : Nat → Bool) (ex : ℝ → ℝ) (b : α → Gauss × Jac) (D L : α → ℝ) (xp yp r : ℝ) (j : Fin 7)
    (gs : List α) (h : ∀ a ∈ gs, ∃ t, |t - -2 * r * D a| ≤ |r| * L a ∧
      ∀ d : Fin 7 → ℝ, gradOne c ex xp yp r d (b a) j = fl 24 (d j + t) ∨ t = 0 ∧ gradOne c ex xp yp r d (b a) j = d j) :
    |sourceGrad c ex (gs.map b) xp yp r j - -2 * r * (gs.map D).sum| ≤
      |r| * ((gs.map L).sum + ((1 + 1 / 2 ^ 24) ^ gs.length - 1) * (gs.map fun a => 2 * |D a| + L a).sum) := by
  have key : ∀ (gs : List α) (_ : ∀ a ∈ gs, ∃ t, |t - -2 * r * D a| ≤ |r| * L a ∧
      ∀ d : Fin 7 → ℝ, gradOne c ex xp yp r d (b a) j = fl 24 (d j + t) ∨ t = 0 ∧ gradOne c ex xp yp r d (b a) j = d j)
      (k : Nat) (d : Fin 7 → ℝ) (e V : ℝ), Ap (w1 ^ k) (d j) e V →
      ∃ T Z, Ap (w1 ^ (k + gs.length)) ((gs.map b).foldl (gradOne c ex xp yp r) d j) (e + T) (V + Z) ∧
        |T - -2 * r * (gs.map D).sum| ≤ |r| * (gs.map L).sum ∧ Z ≤ |r| * (gs.map fun a => 2 * |D a| + L a).sum := by
    intro gs
    induction gs with
    | nil =>
      intro _ k d e V hd
      exact ⟨0, 0, by simpa using hd, by simp, by simp⟩
    | cons g gs ih =>
      intro ho k d e V hd
      obtain ⟨t, ht, hs⟩ := ho g (by simp)
      have hw := w1_ge
      have hstep : Ap (w1 ^ (k + 1)) (gradOne c ex xp yp r d (b g) j) (e + t) (V + |t|) := by
        rcases hs d with hs | ⟨h0, hs⟩
        · rw [hs]
          exact ((hd.add ((Ap.refl t).mono (one_le_pow₀ hw) le_rfl)).fl1).to (by ring)
        · rw [hs, h0]
          exact (show Ap (w1 ^ k) (d j) (e + 0) (V + |0|) by simpa using hd).mono (pow_le_pow_right₀ hw (by omega)) le_rfl
      obtain ⟨T, Z, h1, h2, h3⟩ := ih (fun x hx => ho x (by simp [hx])) (k + 1) _ _ _ hstep
      simp only [List.map_cons, List.sum_cons, List.length_cons, List.foldl_cons, mul_add] at h1 h2 h3 ⊢
      refine ⟨t + T, |t| + Z, ?_, ?_, ?_⟩
      · rw [show k + (gs.length + 1) = k + 1 + gs.length by omega, ← add_assoc, ← add_assoc]
        exact h1
      · exact add_close ht h2
      · refine add_le_add ?_ h3
        have a := abs_add_le (t - -2 * r * D g) (-2 * r * D g)
        rw [sub_add_cancel, abs_mul (-2 * r), abs_mul (-2) r, show |(-2 : ℝ)| = 2 by norm_num] at a
        linarith
  obtain ⟨T, Z, h1, h2, h3⟩ := key gs h 0 (fun _ => 0) 0 0 ⟨by norm_num, by simp, by simp⟩
  rw [zero_add, zero_add, zero_add] at h1
  have hw : (0 : ℝ) ≤ w1 ^ gs.length - 1 := sub_nonneg.2 h1.1
  have h5 := h1.2.1.trans (mul_le_mul_of_nonneg_left h3 hw)
  have t := abs_sub_le ((gs.map b).foldl (gradOne c ex xp yp r) (fun _ => 0) j) T (-2 * r * (gs.map D).sum)
  rw [sourceGrad, ← w1]
  refine t.trans ((add_le_add h5 h2).trans (le_of_eq ?_))
  ring

lemma moved_zero (K : ℝ) (m : Made) (h : m.Ok K) (p : Pix) (j : Fin 7) : m.moved p j 0 = m.value p := by
  obtain ⟨-, -, -, -, -, h1, -, h2, -⟩ := h
  rw [Made.moved, Made.value]
  fin_cases j <;> simp [paramValue, h1, h2]

/-- C146 (one source): the derivatives of a source in a pixel, in terms of those of its exact gaussians. -/
theorem C146_source (fma : Bool) (o c : Nat → Bool) (cs sn : ℝ → ℝ) (ht : TrigOk cs sn) (ex : ℝ → ℝ) (hex : ExpOk ex) (K : ℝ)
    (hK : K ≤ 2 ^ 10) (l : List Made) (h : ∀ m ∈ l, m.Ok K) (p : Pix) (r : ℝ) (j : Fin 7) :
    (∀ m ∈ l, DifferentiableAt ℝ (m.moved p j) 0) ∧
    |sourceGrad c ex (l.map (Made.pair fma o cs sn)) p.x p.y r j - -2 * r * madeDeriv l j p| ≤ |r| * sourceTol K l j p := by
  have key : ∀ m ∈ l, DifferentiableAt ℝ (m.moved p j) 0 ∧
      ∃ w, |w - -2 * r * deriv (m.moved p j) 0| ≤ |r| * m.tol K j ∧
      ∀ d : Fin 7 → ℝ, gradOne c ex p.x p.y r d (m.pair fma o cs sn) j = fl 24 (d j + w) ∨
        w = 0 ∧ gradOne c ex p.x p.y r d (m.pair fma o cs sn) j = d j := by
    intro m hm
    obtain ⟨a1, a2, a3, a4, a5, a6, a7, a8, a9⟩ := h m hm
    obtain ⟨D, hD, w, w1, w2⟩ := C146_gradient fma o c cs sn ht ex hex m.parts a1 K hK a2 a3 a4 a5 m.dn m.dr m.CW m.wn m.wr
      a6 a7 a8 a9 m.x m.y p.x p.y r j
    have hD' : HasDerivAt (m.moved p j) D 0 := hD
    refine ⟨hD'.differentiableAt, w, ?_, w2⟩
    rw [hD'.deriv]
    exact w1
  exact ⟨fun m hm => (key m hm).1, source_general c ex _ _ _ p.x p.y r j l fun m hm => (key m hm).2⟩

lemma tol_nonneg (K : ℝ) (m : Made) (h : m.Ok K) (j : Fin 7) (hK : K ≤ 2 ^ 10) : 0 ≤ m.tol K j := by
  obtain ⟨a1, a2, -, -, -, a6, a7, a8, a9⟩ := h
  have ht : TrigOk Real.cos Real.sin := fun x => by simp; exact ⟨by positivity, by positivity⟩
  obtain ⟨K1, px, py, -⟩ := stored false Real.cos Real.sin ht m.parts a1 K hK a2 m.x m.y
  have c0 : 0 ≤ covSize m.parts := by
    obtain ⟨a, b, c, Z1, Z2, Z3, b1, b2, -, e2, -, -, -, -, -, -, -, -, -, -, z1, z2, z3, -⟩ :=
      core2 false Real.cos Real.sin ht m.parts a1 K hK a2
    have := z1.size
    have := z2.size
    have := z3.size
    rw [covSize, e2, form_eq, frm]
    positivity
  obtain ⟨G, L, -, -, g3, -⟩ := axis_ap false (fun _ => false) Real.cos Real.sin ht m.parts a1 K hK a2 m.dn m.dr m.CW
  obtain ⟨G', L', -, -, g3', -⟩ := angle_ap false (fun _ => false) Real.cos Real.sin ht m.parts a1 K hK a2 m.dn m.dr m.CW
  have s1 := nonneg_of_mul_nonneg_right g3.size px
  have s2 := nonneg_of_mul_nonneg_right g3'.size px
  rw [Made.tol]
  refine mul_nonneg (by positivity) ?_
  have tr : ∀ S : ℝ, 0 ≤ S → 0 ≤ |trueAmp m.parts| * (S * (covSize m.parts / 2 + 2 +
      Real.sqrt ((trueCov m.parts)⁻¹ 0 0) * Real.sqrt ((trueCov m.parts)⁻¹ 1 1) *
        (1 / (trueCov m.parts)⁻¹ 0 0 + 1 / (trueCov m.parts)⁻¹ 1 1))) := by
    intro S hS
    generalize (trueCov m.parts)⁻¹ 0 0 = f at *
    generalize (trueCov m.parts)⁻¹ 1 1 = f' at *
    generalize covSize m.parts = C at *
    positivity
  fin_cases j
  · exact abs_nonneg _
  · exact mul_nonneg (abs_nonneg _) (add_nonneg (abs_nonneg _) (abs_nonneg _))
  · exact mul_nonneg (abs_nonneg _) (add_nonneg (abs_nonneg _) (abs_nonneg _))
  · exact tr _ s1
  · exact tr _ s2
  · exact abs_nonneg _
  · exact abs_nonneg _

lemma madeRes_near (fma : Bool) (o : Nat → Bool) (cs sn : ℝ → ℝ) (ht : TrigOk cs sn) (ex : ℝ → ℝ) (hex : ExpOk ex) (K : ℝ)
    (hK : K ≤ 2 ^ 10) (gs : List (List Made)) (h : ∀ l ∈ gs, ∀ m ∈ l, m.Ok K) (p : Pix) :
    |weighted fma ex (gs.map fun l => l.map (Made.pair fma o cs sn)) p - madeRes gs p * p.ierr ^ 2| ≤ madeTol K gs p := by
  have hr := residual_general fma ex (fun m => (Made.pair fma o cs sn m).1) (fun m => m.value p)
    (fun m => K / 2 ^ 16 * |trueAmp m.parts|) p.x p.y gs.flatten (by
      intro m hm r
      obtain ⟨l, hl, hml⟩ := List.mem_flatten.mp hm
      obtain ⟨a1, a2, a3, a4, -⟩ := h l hl m hml
      refine C138_pixel fma cs sn ht ex hex m.parts a1 K hK a2 ?_ m.x m.y p.x p.y r
      rw [Matrix.trace_fin_two]
      linarith) p.data
  have e : (gs.map fun l => l.map (Made.pair fma o cs sn)).flatten.map Prod.fst =
      gs.flatten.map fun m => (Made.pair fma o cs sn m).1 := by
    rw [← List.map_flatten, List.map_map]
    rfl
  rw [weighted, e, madeTol]
  change |_ - madeRes gs p| ≤ _ at hr
  generalize residual fma ex (gs.flatten.map fun m => (Made.pair fma o cs sn m).1) p.x p.y p.data = r at *
  generalize madeRes gs p = R at *
  generalize (gs.flatten.map fun m => K / 2 ^ 16 * |trueAmp m.parts|).sum + ((1 + 1 / 2 ^ 24) ^ gs.flatten.length - 1) *
    (|p.data| + (gs.flatten.map fun m => |m.value p| + K / 2 ^ 16 * |trueAmp m.parts|).sum) = δ at *
  exact two_roundings hr

lemma getD_map {α β : Type} (f : List α → List β) (hf : f [] = []) (gs : List (List α)) (k : Nat) :
    (gs.map f).getD k [] = f (gs.getD k []) := by
  rw [List.getD_eq_getElem?_getD, List.getD_eq_getElem?_getD, List.getElem?_map]
  cases gs[k]? with
  | none => simp [hf]
  | some l => simp

lemma mem_getD {α : Type} {P : α → Prop} (gs : List (List α)) (h : ∀ l ∈ gs, ∀ a ∈ l, P a) (k : Nat) : ∀ a ∈ gs.getD k [], P a := by
  intro a ha
  rw [List.getD_eq_getElem?_getD] at ha
  cases he : gs[k]? with
  | none => simp [he] at ha
  | some l =>
    rw [he] at ha
    exact h l (List.mem_of_getElem? he) a ha

lemma madePix_near (fma : Bool) (o c : Nat → Bool) (cs sn : ℝ → ℝ) (ht : TrigOk cs sn) (ex : ℝ → ℝ) (hex : ExpOk ex) (K : ℝ)
    (hK : K ≤ 2 ^ 10) (gs : List (List Made)) (h : ∀ l ∈ gs, ∀ m ∈ l, m.Ok K) (k : Nat) (j : Fin 7) (p : Pix) :
    |sourceGrad c ex ((gs.map fun l => l.map (Made.pair fma o cs sn)).getD k []) p.x p.y
        (weighted fma ex (gs.map fun l => l.map (Made.pair fma o cs sn)) p) j - madeGrad gs k j p| ≤ madeGradTol K gs k j p := by
  have hk := mem_getD gs h k
  have h1 := (C146_source fma o c cs sn ht ex hex K hK (gs.getD k []) hk p
    (weighted fma ex (gs.map fun l => l.map (Made.pair fma o cs sn)) p) j).2
  have h2 := madeRes_near fma o cs sn ht ex hex K hK gs h p
  rw [getD_map (fun l => l.map (Made.pair fma o cs sn)) rfl gs k]
  have hL : 0 ≤ sourceTol K (gs.getD k []) j p := by
    rw [sourceTol]
    refine add_nonneg (List.sum_nonneg ?_) (mul_nonneg (sub_nonneg.2 (one_le_pow₀ (by norm_num))) (List.sum_nonneg ?_))
    · intro x hx
      obtain ⟨m, hm, rfl⟩ := List.mem_map.mp hx
      exact tol_nonneg K m (hk m hm) j hK
    · intro x hx
      obtain ⟨m, hm, rfl⟩ := List.mem_map.mp hx
      have := tol_nonneg K m (hk m hm) j hK
      positivity
  have hW : |madeRes gs p| * p.ierr ^ 2 = |madeRes gs p * p.ierr ^ 2| := by
    rw [abs_mul, abs_of_nonneg (sq_nonneg p.ierr)]
  rw [madeGrad, madeGradTol, hW]
  exact near_num h1 h2 hL

lemma moved_sum (K : ℝ) (gs : List (List Made)) (h : ∀ l ∈ gs, ∀ m ∈ l, m.Ok K) (p : Pix) (j : Fin 7) : ∀ (k : Nat) (u : ℝ),
    (gs.mapIdx fun i l => (l.map fun m => if i = k then m.moved p j u else m.value p).sum).sum =
      (gs.flatten.map fun m => m.value p).sum +
        (((gs.getD k []).map fun m => m.moved p j u).sum - ((gs.getD k []).map fun m => m.moved p j 0).sum) := by
  induction gs with
  | nil => intro k u; simp
  | cons l t ih =>
    intro k u
    have e0 : (l.map fun m => m.moved p j 0) = l.map fun m => m.value p :=
      List.map_congr_left fun m hm => moved_zero K m (h l (by simp) m hm) p j
    rcases k with _ | k
    · have e : ∀ v : List (List Made), (v.mapIdx fun i l => (l.map fun m =>
          if i + 1 = 0 then m.moved p j u else m.value p).sum) = v.map fun l => (l.map fun m => m.value p).sum := by
        intro v
        rw [List.mapIdx_eq_iff]
        intro i
        simp
      have e2 : ∀ v : List (List Made), (v.map fun l => (l.map fun m => m.value p).sum).sum =
          (v.flatten.map fun m => m.value p).sum := by
        intro v
        induction v with
        | nil => rfl
        | cons a v ih => simp only [List.map_cons, List.sum_cons, List.flatten_cons, List.map_append, List.sum_append, ih]
      rw [List.mapIdx_cons, e, List.sum_cons, e2]
      simp only [if_true, List.flatten_cons, List.map_append, List.sum_append, List.getD_cons_zero, e0]
      ring
    · have e := ih (fun l hl => h l (by simp [hl])) k u
      rw [List.mapIdx_cons, List.sum_cons]
      simp only [Nat.add_right_cancel_iff, List.flatten_cons, List.map_append, List.sum_append, e, List.getD_cons_succ]
      simp
      ring

lemma madePix_hasDeriv (K : ℝ) (hK : K ≤ 2 ^ 10) (gs : List (List Made)) (h : ∀ l ∈ gs, ∀ m ∈ l, m.Ok K) (k : Nat) (j : Fin 7)
    (p : Pix) :
    HasDerivAt (fun u => ((p.data - (gs.mapIdx fun i l => (l.map fun m =>
      if i = k then m.moved p j u else m.value p).sum).sum) ^ 2 - p.data ^ 2) * p.ierr ^ 2) (madeGrad gs k j p) 0 := by
  have ht : TrigOk Real.cos Real.sin := fun x => by simp; exact ⟨by positivity, by positivity⟩
  have hex : ExpOk Real.exp := by
    intro x _ _
    rw [sub_self, abs_zero]
    positivity
  have hd := (C146_source false (fun _ => false) (fun _ => false) Real.cos Real.sin ht Real.exp hex K hK (gs.getD k [])
    (mem_getD gs h k) p 0 j).1
  have h1 : HasDerivAt (fun u => ((gs.getD k []).map fun m => m.moved p j u).sum) (madeDeriv (gs.getD k []) j p) 0 :=
    list_hasDeriv _ (fun m u => m.moved p j u) _ fun m hm => (hd m hm).hasDerivAt
  have h2 : HasDerivAt (fun u => p.data - (gs.mapIdx fun i l => (l.map fun m =>
      if i = k then m.moved p j u else m.value p).sum).sum) (-madeDeriv (gs.getD k []) j p) 0 := by
    have := ((h1.sub_const ((gs.getD k []).map fun m => m.moved p j 0).sum).const_add
      (gs.flatten.map fun m => m.value p).sum).const_sub p.data
    refine Transform.hdc this (fun u => ?_) rfl
    rw [moved_sum K gs h]
  have h0 : p.data - (gs.mapIdx fun i l => (l.map fun m => if i = k then m.moved p j 0 else m.value p).sum).sum =
      madeRes gs p := by
    rw [moved_sum K gs h, madeRes, sub_self, add_zero]
  have h3 := ((h2.pow 2).sub_const (p.data ^ 2)).mul_const (p.ierr ^ 2)
  refine Transform.hdc h3 (fun _ => rfl) ?_
  rw [madeGrad, h0]
  simp only [Nat.cast_ofNat, Nat.add_one_sub_one, pow_one]
  ring

lemma madeBand_flat (f : List (List Made) → Pix → ℝ) (es : List (List (List Made) × List Pix)) :
    (es.map fun e => (e.2.map fun p => f e.1 p).sum).sum =
      ((es.map fun e => e.2.map fun p => (e.1, p)).flatten.map fun a => f a.1 a.2).sum := by
  induction es with
  | nil => rfl
  | cons e t ih =>
    simp only [List.map_cons, List.sum_cons, List.flatten_cons, List.map_append, List.sum_append, ih]
    simp [List.map_map, Function.comp_def]

lemma madeGrad_flat (fma : Bool) (o c : Nat → Bool) (cs sn ex : ℝ → ℝ) (k : Nat) (j : Fin 7) (u : ℝ → ℝ)
    (es : List (List (List Made) × List Pix)) :
    ((gradList fma c ex (inMemory fma o cs sn es) k j).flatten.map fun x => u x.val) =
      (es.map fun e => e.2.map fun p => (e.1, p)).flatten.map fun a =>
        u (sourceGrad c ex ((a.1.map fun l => l.map (Made.pair fma o cs sn)).getD k []) a.2.x a.2.y
          (weighted fma ex (a.1.map fun l => l.map (Made.pair fma o cs sn)) a.2) j) := by
  induction es with
  | nil => rfl
  | cons e t ih =>
    rw [inMemory] at ih
    rw [inMemory, List.map_cons, gradList, List.map_cons, List.flatten_cons, List.map_append, ← gradList, ih, List.map_cons,
      List.flatten_cons, List.map_append]
    simp [List.map_map, Function.comp_def]

lemma madeBand_any (fma : Bool) (o c : Nat → Bool) (cs sn : ℝ → ℝ) (ht : TrigOk cs sn) (ex : ℝ → ℝ) (hex : ExpOk ex) (K : ℝ)
    (hK : K ≤ 2 ^ 10) (es : List (List (List Made) × List Pix)) (h : ∀ e ∈ es, ∀ l ∈ e.1, ∀ m ∈ l, m.Ok K) (k : Nat) (j : Fin 7)
    (x κ : ℝ) (hκ : 0 ≤ κ)
    (hx : |x - ((gradList fma c ex (inMemory fma o cs sn es) k j).flatten.map (·.val)).sum| ≤
      κ * ((gradList fma c ex (inMemory fma o cs sn es) k j).flatten.map fun y => |y.val|).sum) :
    DifferentiableAt ℝ (bandAt es k j) 0 ∧
    |x - deriv (bandAt es k j) 0| ≤
      (es.map fun e => (e.2.map fun p => madeGradTol K e.1 k j p).sum).sum +
      κ * (es.map fun e => (e.2.map fun p => |madeGrad e.1 k j p| + madeGradTol K e.1 k j p).sum).sum := by
  have hd : HasDerivAt (bandAt es k j) (es.map fun e => (e.2.map fun p => madeGrad e.1 k j p).sum).sum 0 :=
    list_hasDeriv es (fun e u => (e.2.map fun p => ((p.data - (e.1.mapIdx fun i l => (l.map fun m =>
        if i = k then m.moved p j u else m.value p).sum).sum) ^ 2 - p.data ^ 2) * p.ierr ^ 2).sum) _
      fun e he => list_hasDeriv e.2 (fun p u => ((p.data - (e.1.mapIdx fun i l => (l.map fun m =>
        if i = k then m.moved p j u else m.value p).sum).sum) ^ 2 - p.data ^ 2) * p.ierr ^ 2) _
        fun p _ => madePix_hasDeriv K hK e.1 (h e he) k j p
  refine ⟨hd.differentiableAt, ?_⟩
  rw [hd.deriv]
  have hpix : ∀ a ∈ (es.map fun e => e.2.map fun p => (e.1, p)).flatten,
      |sourceGrad c ex ((a.1.map fun l => l.map (Made.pair fma o cs sn)).getD k []) a.2.x a.2.y
        (weighted fma ex (a.1.map fun l => l.map (Made.pair fma o cs sn)) a.2) j - madeGrad a.1 k j a.2| ≤
        madeGradTol K a.1 k j a.2 := by
    intro a ha
    obtain ⟨l, hl, hal⟩ := List.mem_flatten.mp ha
    obtain ⟨e, he, rfl⟩ := List.mem_map.mp hl
    obtain ⟨p, -, rfl⟩ := List.mem_map.mp hal
    exact madePix_near fma o c cs sn ht ex hex K hK e.1 (h e he) k j p
  obtain ⟨s1, s2⟩ := sums_near _ _ _ _ hpix
  have f1 := madeGrad_flat fma o c cs sn ex k j (fun x => x) es
  have f2 := madeGrad_flat fma o c cs sn ex k j (fun x => |x|) es
  rw [f1, f2] at hx
  rw [madeBand_flat (fun gs p => madeGrad gs k j p), madeBand_flat (fun gs p => madeGradTol K gs k j p),
    madeBand_flat (fun gs p => |madeGrad gs k j p| + madeGradTol K gs k j p)]
  generalize (es.map fun e => e.2.map fun p => (e.1, p)).flatten = L at *
  have h3 := hx.trans (mul_le_mul_of_nonneg_left s2 hκ)
  refine (abs_sub_le _ _ _).trans ((add_le_add h3 s1).trans (le_of_eq ?_))
  ring

lemma inMemory_length (fma : Bool) (o c : Nat → Bool) (cs sn ex : ℝ → ℝ) (es : List (List (List Made) × List Pix)) (k : Nat)
    (j : Fin 7) : (gradList fma c ex (inMemory fma o cs sn es) k j).flatten.length = (es.map fun e => e.2.length).sum := by
  rw [gradList_length, inMemory, List.map_map]
  rfl

/-- C146 (a band): the derivative that the CPU returns for a parameter of a source, all in single precision from the
parameters on, is the derivative with that parameter, over the reals, of the exact chi-square of the exact gaussians
(with the centres in memory), up to the tolerances of the pixels and, for `n` pixels, `2 n` units of `2^-24` of the sum
of the sizes. -/
theorem C146_band (fma : Bool) (o c : Nat → Bool) (cs sn : ℝ → ℝ) (ht : TrigOk cs sn) (ex : ℝ → ℝ) (hex : ExpOk ex) (K : ℝ)
    (hK : K ≤ 2 ^ 10) (es : List (List (List Made) × List Pix)) (h : ∀ e ∈ es, ∀ l ∈ e.1, ∀ m ∈ l, m.Ok K) (k : Nat) (j : Fin 7)
    (n : Nat) (hn : (es.map fun e => e.2.length).sum = n) (hn' : n ≤ 2 ^ 24) :
    DifferentiableAt ℝ (bandAt es k j) 0 ∧
    |bandGrad fma c ex (inMemory fma o cs sn es) k j - deriv (bandAt es k j) 0| ≤
      (es.map fun e => (e.2.map fun p => madeGradTol K e.1 k j p).sum).sum +
      2 * n / 2 ^ 24 * (es.map fun e => (e.2.map fun p => |madeGrad e.1 k j p| + madeGradTol K e.1 k j p).sum).sum := by
  refine madeBand_any fma o c cs sn ht ex hex K hK es h k j _ (2 * n / 2 ^ 24) (by positivity) ?_
  have hc := (cpu_close (gradList fma c ex (inMemory fma o cs sn es) k j) ⟨0⟩ 0 0 0 close_zero).1
  rw [inMemory_length, hn] at hc
  simp only [zero_add, total, size] at hc
  refine hc.trans (mul_le_mul_of_nonneg_right (growth 24 n hn') (List.sum_nonneg ?_))
  intro x hx
  obtain ⟨y, -, rfl⟩ := List.mem_map.mp hx
  exact abs_nonneg _

/-- C146 (a band on the GPU): the same for every order in which the warps add their sums. -/
theorem C146_band_gpu (fma : Bool) (o c : Nat → Bool) (cs sn : ℝ → ℝ) (ht : TrigOk cs sn) (ex : ℝ → ℝ) (hex : ExpOk ex) (K : ℝ)
    (hK : K ≤ 2 ^ 10) (B : Nat) (hB : 0 < B) (hB32 : 32 ∣ B) (es : List (List (List Made) × List Pix))
    (h : ∀ e ∈ es, ∀ l ∈ e.1, ∀ m ∈ l, m.Ok K) (hpad : ∀ e ∈ es, 32 ∣ e.2.length) (k : Nat) (j : Fin 7)
    (n : Nat) (hn : (es.map fun e => e.2.length).sum = n) (hn' : n + 5 ≤ 2 ^ 24) (x : Fl 24)
    (hx : GpuSum B ((inMemory fma o cs sn es).map fun e => e.2.map fun p =>
      ⟨sourceGrad c ex (e.1.getD k []) p.x p.y (weighted fma ex e.1 p) j⟩) ⟨0⟩ x) :
    |x.val - deriv (bandAt es k j) 0| ≤
      (es.map fun e => (e.2.map fun p => madeGradTol K e.1 k j p).sum).sum +
      (n / 16 + 10) / 2 ^ 24 * (es.map fun e => (e.2.map fun p => |madeGrad e.1 k j p| + madeGradTol K e.1 k j p).sum).sum := by
  refine (madeBand_any fma o c cs sn ht ex hex K hK es h k j x.val ((n / 16 + 10) / 2 ^ 24) (by positivity) ?_).2
  refine (C131_agree 24 B hB hB32 (gradList fma c ex (inMemory fma o cs sn es) k j) ?_ n (by rw [inMemory_length, hn]) hn' x
    hx).2.1
  intro e he
  obtain ⟨e', he', rfl⟩ := List.mem_map.mp he
  obtain ⟨e'', he'', rfl⟩ := List.mem_map.mp he'
  rw [List.length_map]
  exact hpad e'' he''

/-- The gaussian `upright` of C145, at `(10, 20)`; its weight grows by `3` per unit of the index. -/
noncomputable def uprightMade : Made :=
  ⟨upright, 10, 20, 3, -2, ⟨4, 1, -1, 4⟩, fun u => 1 / 4 + 3 * u, fun u => 1 / 4 - 2 * u⟩

/-- C146 (a case): the hypotheses are met with `K = 1`, and the derivative of chi-square with the index, for the pixel at
the centre, is minus twice the residual times twelve times the value. -/
theorem C146_witness : uprightMade.Ok 1 ∧ TrigOk Real.cos Real.sin ∧ ExpOk Real.exp ∧
    uprightMade.value ⟨10, 20, 1, 1⟩ = 15 / 8 / (2 * Real.pi * Real.sqrt 10426) * (1 - 427 / 10426 / 24) ∧
    deriv (bandAt [([[uprightMade]], [⟨10, 20, 1, 1⟩])] 0 5) 0 =
      -2 * (1 - uprightMade.value ⟨10, 20, 1, 1⟩) * (12 * uprightMade.value ⟨10, 20, 1, 1⟩) := by
  obtain ⟨h1, -, v, hC, -⟩ := C145_witness false (fun _ => false) 0 0 ⟨0, 0, 0, 0⟩
  have hex : ExpOk Real.exp := by
    intro x _ _
    rw [sub_self, abs_zero]
    positivity
  have hcov : ∀ s : ℝ, trueCov { upright with samp := s } = !![401, 0; 0, 26] := by
    intro s
    rw [trueCov_eq { upright with samp := s } _ _ _ _ rfl rfl rfl rfl]
    simp only [upright, Real.cos_zero, Real.sin_zero]
    norm_num
  have hc0 : trueCov upright = !![401, 0; 0, 26] := hcov (1 / 4)
  have F : (trueCov upright)⁻¹ = !![1 / 401, 0; 0, 1 / 26] := by
    rw [hc0, inv_eq]
    norm_num
  have ok : uprightMade.Ok 1 := by
    refine ⟨v, hC, ?_, ?_, ?_, ?_, ?_, ?_, ?_⟩
    · simp only [uprightMade, F]
      norm_num
    · simp only [uprightMade, F]
      norm_num
    · simp only [uprightMade, F]
      norm_num
    · norm_num [uprightMade, upright]
    · exact Transform.hdc (((hasDerivAt_id' (0 : ℝ)).const_mul 3).const_add (1 / 4)) (fun _ => rfl) (by norm_num [uprightMade])
    · norm_num [uprightMade, upright]
    · exact Transform.hdc (((hasDerivAt_id' (0 : ℝ)).const_mul 2).const_sub (1 / 4)) (fun _ => rfl) (by norm_num [uprightMade])
  have val : ∀ s : ℝ, trueValue { upright with samp := s } (10 - 10) (20 - 20) =
      15 / 2 * s / (2 * Real.pi * Real.sqrt 10426) * (1 - 427 / 10426 / 24) := by
    intro s
    rw [trueValue_eq _ (1 / 401) 0 (1 / 26) _ _ (by rw [hcov, inv_eq]; norm_num), trueAmp, hcov, Matrix.det_fin_two_of, frm]
    norm_num [upright]
    ring
  have hv : uprightMade.value ⟨10, 20, 1, 1⟩ = 15 / 8 / (2 * Real.pi * Real.sqrt 10426) * (1 - 427 / 10426 / 24) := by
    have := val (1 / 4)
    rw [show 15 / 2 * (1 / 4 : ℝ) = 15 / 8 by norm_num] at this
    exact this
  refine ⟨ok, h1, hex, hv, ?_⟩
  have hm : ∀ u, uprightMade.moved ⟨10, 20, 1, 1⟩ 5 u = (1 + 12 * u) * uprightMade.value ⟨10, 20, 1, 1⟩ := by
    intro u
    rw [hv]
    refine (val (1 / 4 + 3 * u)).trans ?_
    ring
  have hd : HasDerivAt (fun u : ℝ => ((1 - (1 + 12 * u) * uprightMade.value ⟨10, 20, 1, 1⟩) ^ 2 - 1 ^ 2) * 1 ^ 2)
      (-2 * (1 - uprightMade.value ⟨10, 20, 1, 1⟩) * (12 * uprightMade.value ⟨10, 20, 1, 1⟩)) 0 := by
    have a := ((((((hasDerivAt_id' (0 : ℝ)).const_mul 12).const_add 1).mul_const
      (uprightMade.value ⟨10, 20, 1, 1⟩)).const_sub 1).pow 2).sub_const (1 ^ 2) |>.mul_const (1 ^ 2)
    refine Transform.hdc a (fun _ => rfl) ?_
    simp only [Nat.cast_ofNat, Nat.add_one_sub_one, pow_one]
    ring
  refine (Transform.hdc hd (fun u => ?_) rfl).deriv
  simp [bandAt, hm]

end Forcepho.Float
