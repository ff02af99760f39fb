import Verif.Em.Model
import Mathlib.Analysis.Convex.SpecificFunctions.Basic
import Mathlib.Analysis.Convex.Jensen
import Mathlib.Tactic.Linarith
import Mathlib.Tactic.FieldSimp
import Mathlib.Tactic.Ring
import Mathlib.Tactic.Positivity
import Mathlib.Algebra.Order.BigOperators.Ring.Finset
import Mathlib.Algebra.BigOperators.Field

/-!
# Weighted moments and the best single gaussian

Helper facts for `Verif/Em/Props.lean`: moments of non-negative weights on points of the plane, and
the statement that among all gaussians the one with the moments of the weights has the largest
weighted log density.
-/

set_option autoImplicit false
set_option linter.unusedSectionVars false

namespace Forcepho.Em

open Finset

variable {P : Type} [Fintype P]

/-- A gaussian with positive amplitude and widths and correlation strictly between -1 and 1. -/
structure Usable (c : Comp) : Prop where
  amp : 0 < c.amp
  sx : 0 < c.sx
  sy : 0 < c.sy
  rho : c.rho ^ 2 < 1

/-- Three points not on a line carry positive weight. -/
def Spread (v X Y : P → ℝ) : Prop :=
  ∃ p q r : P, 0 < v p ∧ 0 < v q ∧ 0 < v r ∧
    (X q - X p) * (Y r - Y p) - (X r - X p) * (Y q - Y p) ≠ 0

theorem form_pos {v X Y : P → ℝ} (hv : ∀ p, 0 ≤ v p) (hs : Spread v X Y)
    (a b m : ℝ) (hab : a ≠ 0 ∨ b ≠ 0) : 0 < ∑ p, v p * (a * X p + b * Y p - m) ^ 2 := by
  obtain ⟨p, q, r, hp, hq, hr, hd⟩ := hs
  by_contra hn
  have h0 : ∀ s, 0 ≤ v s * (a * X s + b * Y s - m) ^ 2 := fun s =>
    mul_nonneg (hv s) (sq_nonneg _)
  have hz : ∑ p, v p * (a * X p + b * Y p - m) ^ 2 = 0 :=
    le_antisymm (not_lt.mp hn) (sum_nonneg fun s _ => h0 s)
  have hall := (sum_eq_zero_iff_of_nonneg (fun s _ => h0 s)).mp hz
  have key : ∀ s, 0 < v s → a * X s + b * Y s = m := by
    intro s hs
    have := hall s (mem_univ s)
    rcases mul_eq_zero.mp this with h | h
    · exact absurd h hs.ne'
    · have := pow_eq_zero_iff (two_ne_zero) |>.mp h
      linarith
  have e1 := key p hp
  have e2 := key q hq
  have e3 := key r hr
  have f1 : a * (X q - X p) + b * (Y q - Y p) = 0 := by linarith
  have f2 : a * (X r - X p) + b * (Y r - Y p) = 0 := by linarith
  have g1 : a * ((X q - X p) * (Y r - Y p) - (X r - X p) * (Y q - Y p)) = 0 := by
    have : a * ((X q - X p) * (Y r - Y p) - (X r - X p) * (Y q - Y p))
      = (a * (X q - X p) + b * (Y q - Y p)) * (Y r - Y p)
        - (a * (X r - X p) + b * (Y r - Y p)) * (Y q - Y p) := by ring
    rw [this, f1, f2]; ring
  have g2 : b * ((X q - X p) * (Y r - Y p) - (X r - X p) * (Y q - Y p)) = 0 := by
    have : b * ((X q - X p) * (Y r - Y p) - (X r - X p) * (Y q - Y p))
      = (a * (X r - X p) + b * (Y r - Y p)) * (X q - X p)
        - (a * (X q - X p) + b * (Y q - Y p)) * (X r - X p) := by ring
    rw [this, f1, f2]; ring
  rcases hab with ha | hb
  · exact (mul_ne_zero ha hd) g1
  · exact (mul_ne_zero hb hd) g2

theorem var_pos {v X Y : P → ℝ} (hv : ∀ p, 0 ≤ v p) (hs : Spread v X Y) (m : ℝ) :
    0 < ∑ p, v p * (X p - m) ^ 2 := by
  have := form_pos hv hs 1 0 m (Or.inl one_ne_zero)
  simpa using this

theorem var_pos' {v X Y : P → ℝ} (hv : ∀ p, 0 ≤ v p) (hs : Spread v X Y) (m : ℝ) :
    0 < ∑ p, v p * (Y p - m) ^ 2 := by
  have := form_pos hv hs 0 1 m (Or.inr one_ne_zero)
  simpa using this

/-- Strict Cauchy-Schwarz for weights that are not on a line. -/
theorem cross_lt {v X Y : P → ℝ} (hv : ∀ p, 0 ≤ v p) (hs : Spread v X Y) (mx my : ℝ) :
    (∑ p, v p * (X p - mx) * (Y p - my)) ^ 2
      < (∑ p, v p * (X p - mx) ^ 2) * ∑ p, v p * (Y p - my) ^ 2 := by
  have hA := var_pos hv hs mx
  have hB := var_pos' hv hs my
  set A := ∑ p, v p * (X p - mx) ^ 2 with hAd
  set B := ∑ p, v p * (Y p - my) ^ 2 with hBd
  set C := ∑ p, v p * (X p - mx) * (Y p - my) with hCd
  have h := form_pos hv hs B (-C) (B * mx - C * my) (Or.inl hB.ne')
  have e : ∑ p, v p * (B * X p + -C * Y p - (B * mx - C * my)) ^ 2
      = B ^ 2 * A - 2 * B * C * C + C ^ 2 * B := by
    have : ∀ p, v p * (B * X p + -C * Y p - (B * mx - C * my)) ^ 2
        = B ^ 2 * (v p * (X p - mx) ^ 2) - 2 * B * C * (v p * (X p - mx) * (Y p - my))
          + C ^ 2 * (v p * (Y p - my) ^ 2) := by intro p; ring
    rw [sum_congr rfl (fun p _ => this p), sum_add_distrib, sum_sub_distrib, ← mul_sum, ← mul_sum,
      ← mul_sum]
  rw [e] at h
  have : 0 < B * (A * B - C ^ 2) := by nlinarith
  have := (mul_pos_iff_of_pos_left hB).mp this
  linarith

/-- The sum of squared offsets from any point splits into spread and displacement. -/
theorem sum_sq_shift {v X : P → ℝ} {N m : ℝ} (hN : ∑ p, v p = N) (hm : ∑ p, v p * X p = N * m)
    (mu : ℝ) : ∑ p, v p * (X p - mu) ^ 2 = ∑ p, v p * (X p - m) ^ 2 + N * (m - mu) ^ 2 := by
  have : ∀ p, v p * (X p - mu) ^ 2
      = v p * (X p - m) ^ 2 + (2 * (m - mu) * (v p * X p) - 2 * (m - mu) * m * v p
        + (m - mu) ^ 2 * v p) := by intro p; ring
  rw [sum_congr rfl (fun p _ => this p), sum_add_distrib, sum_add_distrib, sum_sub_distrib,
    ← mul_sum, ← mul_sum, ← mul_sum, hN, hm]
  ring

theorem sum_cross_shift {v X Y : P → ℝ} {N mx my : ℝ} (hN : ∑ p, v p = N)
    (hx : ∑ p, v p * X p = N * mx) (hy : ∑ p, v p * Y p = N * my) (ux uy : ℝ) :
    ∑ p, v p * (X p - ux) * (Y p - uy)
      = ∑ p, v p * (X p - mx) * (Y p - my) + N * (mx - ux) * (my - uy) := by
  have : ∀ p, v p * (X p - ux) * (Y p - uy)
      = v p * (X p - mx) * (Y p - my) + ((my - uy) * (v p * X p) + (mx - ux) * (v p * Y p)
        + (ux * uy - mx * my) * v p) := by intro p; ring
  rw [sum_congr rfl (fun p _ => this p), sum_add_distrib, sum_add_distrib, sum_add_distrib,
    ← mul_sum, ← mul_sum, ← mul_sum, hN, hx, hy]
  ring

/-- Logarithm of a usable gaussian. -/
theorem log_mvnPdf {c : Comp} (h : Usable c) (x y : ℝ) :
    Real.log (mvnPdf x y c)
      = Real.log c.amp - Real.log (2 * Real.pi) - Real.log c.sx - Real.log c.sy
        - Real.log (Real.sqrt (1 - c.rho ^ 2))
        - (1 / 2) * (((x - c.mux) / c.sx) ^ 2 + ((y - c.muy) / c.sy) ^ 2
            - 2 * c.rho * ((x - c.mux) / c.sx) * ((y - c.muy) / c.sy)) / (1 - c.rho ^ 2) := by
  have hr : 0 < 1 - c.rho ^ 2 := by linarith [h.rho]
  have hs : Real.sqrt (1 - c.rho ^ 2) ≠ 0 := (Real.sqrt_pos.mpr hr).ne'
  have hpi : (2 * Real.pi) ≠ 0 := by positivity
  have h1 := h.amp.ne'
  have h2 := h.sx.ne'
  have h3 := h.sy.ne'
  unfold mvnPdf
  dsimp only
  rw [Real.log_mul (div_ne_zero h1 (mul_ne_zero (mul_ne_zero (mul_ne_zero hpi h2) h3) hs))
    (Real.exp_ne_zero _), Real.log_exp, Real.log_div h1
    (mul_ne_zero (mul_ne_zero (mul_ne_zero hpi h2) h3) hs),
    Real.log_mul (mul_ne_zero (mul_ne_zero hpi h2) h3) hs, Real.log_mul (mul_ne_zero hpi h2) h3,
    Real.log_mul hpi h2]
  have : (-0.5 : ℝ) = -(1 / 2) := by norm_num
  rw [this]
  ring

theorem mvnPdf_pos {c : Comp} (h : Usable c) (x y : ℝ) : 0 < mvnPdf x y c := by
  have hr : 0 < 1 - c.rho ^ 2 := by linarith [h.rho]
  have hs : 0 < Real.sqrt (1 - c.rho ^ 2) := Real.sqrt_pos.mpr hr
  have h1 := h.amp
  have h2 := h.sx
  have h3 := h.sy
  unfold mvnPdf
  dsimp only
  have := Real.pi_pos
  positivity

/-- The two-parameter inequality behind the best gaussian: `z ≤ T / 2`. -/
theorem trace_ge {u w r s : ℝ} (hu : 0 < u) (hw : 0 < w) (hr : r ^ 2 < 1) (hs : s ^ 2 < 1) :
    u * w * (Real.sqrt (1 - s ^ 2) / Real.sqrt (1 - r ^ 2))
      ≤ (u ^ 2 + w ^ 2 - 2 * r * s * u * w) / (1 - r ^ 2) / 2 := by
  have hr' : 0 < 1 - r ^ 2 := by linarith
  have hs' : 0 < 1 - s ^ 2 := by linarith
  have a := Real.sqrt_pos.mpr hr'
  have b := Real.sqrt_pos.mpr hs'
  have ea := Real.mul_self_sqrt hr'.le
  have eb := Real.mul_self_sqrt hs'.le
  set ra := Real.sqrt (1 - r ^ 2)
  set sb := Real.sqrt (1 - s ^ 2)
  have h1 : sb * ra ≤ 1 - r * s := by
    have hrs : 0 ≤ 1 - r * s := by nlinarith [sq_nonneg (r - s), sq_nonneg (r + s)]
    refine abs_le_of_sq_le_sq' ?_ hrs |>.2
    nlinarith [sq_nonneg (r - s)]
  rw [div_div, le_div_iff₀ (by positivity), ← ea]
  have e : u * w * (sb / ra) * (ra * ra * 2) = 2 * (u * w) * (sb * ra) := by
    field_simp
  rw [e]
  nlinarith [mul_pos hu hw, sq_nonneg (u - w), mul_le_mul_of_nonneg_left h1 (mul_pos hu hw).le]

/-- **Best gaussian.**  Among all usable gaussians of the same amplitude the one carrying the
weighted moments has the largest weighted log density. -/
theorem best_gaussian {v X Y : P → ℝ} {N : ℝ} (hNv : ∑ p, v p = N) (hN : 0 < N) {o n : Comp}
    (ho : Usable o) (hn : Usable n)
    (hx : ∑ p, v p * X p = N * n.mux) (hy : ∑ p, v p * Y p = N * n.muy)
    (hxx : ∑ p, v p * (X p - n.mux) ^ 2 = N * n.sx ^ 2)
    (hyy : ∑ p, v p * (Y p - n.muy) ^ 2 = N * n.sy ^ 2)
    (hxy : ∑ p, v p * (X p - n.mux) * (Y p - n.muy) = N * (n.rho * n.sx * n.sy)) :
    ∑ p, v p * (Real.log (mvnPdf (X p) (Y p) o) - Real.log o.amp)
      ≤ ∑ p, v p * (Real.log (mvnPdf (X p) (Y p) n) - Real.log n.amp) := by
  -- the weighted log density of an arbitrary gaussian in terms of the moments
  have gen : ∀ c : Comp, Usable c →
      ∑ p, v p * (Real.log (mvnPdf (X p) (Y p) c) - Real.log c.amp)
        = N * (- Real.log (2 * Real.pi) - Real.log c.sx - Real.log c.sy
            - Real.log (Real.sqrt (1 - c.rho ^ 2))
            - (1 / 2) * ((n.sx ^ 2 + (n.mux - c.mux) ^ 2) / c.sx ^ 2
              + (n.sy ^ 2 + (n.muy - c.muy) ^ 2) / c.sy ^ 2
              - 2 * c.rho * ((n.rho * n.sx * n.sy + (n.mux - c.mux) * (n.muy - c.muy))
                / (c.sx * c.sy))) / (1 - c.rho ^ 2)) := by
    intro c hc
    have h2 := hc.sx.ne'
    have h3 := hc.sy.ne'
    have e : ∀ p, v p * (Real.log (mvnPdf (X p) (Y p) c) - Real.log c.amp)
        = (- Real.log (2 * Real.pi) - Real.log c.sx - Real.log c.sy
            - Real.log (Real.sqrt (1 - c.rho ^ 2))) * v p
          - (1 / 2) / (1 - c.rho ^ 2) * (1 / c.sx ^ 2 * (v p * (X p - c.mux) ^ 2)
            + 1 / c.sy ^ 2 * (v p * (Y p - c.muy) ^ 2)
            - 2 * c.rho / (c.sx * c.sy) * (v p * (X p - c.mux) * (Y p - c.muy))) := by
      intro p
      rw [log_mvnPdf hc]
      field_simp
      ring
    rw [sum_congr rfl (fun p _ => e p), sum_sub_distrib, ← mul_sum, ← mul_sum, sum_sub_distrib,
      sum_add_distrib, ← mul_sum, ← mul_sum, ← mul_sum, hNv, sum_sq_shift hNv hx c.mux,
      sum_sq_shift hNv hy c.muy, sum_cross_shift hNv hx hy c.mux c.muy, hxx, hyy, hxy]
    field_simp
  rw [gen o ho, gen n hn]
  apply mul_le_mul_of_nonneg_left _ hN.le
  have s1 := ho.sx
  have s2 := ho.sy
  have t1 := hn.sx
  have t2 := hn.sy
  have hr : 0 < 1 - o.rho ^ 2 := by linarith [ho.rho]
  have hs : 0 < 1 - n.rho ^ 2 := by linarith [hn.rho]
  -- the new quadratic form is two
  have q2 : (n.sx ^ 2 + (n.mux - n.mux) ^ 2) / n.sx ^ 2
              + (n.sy ^ 2 + (n.muy - n.muy) ^ 2) / n.sy ^ 2
              - 2 * n.rho * ((n.rho * n.sx * n.sy + (n.mux - n.mux) * (n.muy - n.muy))
                / (n.sx * n.sy)) = 2 * (1 - n.rho ^ 2) := by
    field_simp
    ring
  have hd : (1 / 2 : ℝ) * (2 * (1 - n.rho ^ 2)) / (1 - n.rho ^ 2) = 1 := by
    field_simp
  rw [q2, hd]
  -- the old one is at least the trace
  have q1 : (n.sx / o.sx) ^ 2 + (n.sy / o.sy) ^ 2
        - 2 * o.rho * n.rho * (n.sx / o.sx) * (n.sy / o.sy)
      ≤ (n.sx ^ 2 + (n.mux - o.mux) ^ 2) / o.sx ^ 2
              + (n.sy ^ 2 + (n.muy - o.muy) ^ 2) / o.sy ^ 2
              - 2 * o.rho * ((n.rho * n.sx * n.sy + (n.mux - o.mux) * (n.muy - o.muy))
                / (o.sx * o.sy)) := by
    have e : (n.sx ^ 2 + (n.mux - o.mux) ^ 2) / o.sx ^ 2
              + (n.sy ^ 2 + (n.muy - o.muy) ^ 2) / o.sy ^ 2
              - 2 * o.rho * ((n.rho * n.sx * n.sy + (n.mux - o.mux) * (n.muy - o.muy))
                / (o.sx * o.sy))
        = (n.sx / o.sx) ^ 2 + (n.sy / o.sy) ^ 2
        - 2 * o.rho * n.rho * (n.sx / o.sx) * (n.sy / o.sy)
        + ((((n.mux - o.mux) / o.sx) - o.rho * ((n.muy - o.muy) / o.sy)) ^ 2
          + (1 - o.rho ^ 2) * ((n.muy - o.muy) / o.sy) ^ 2) := by
      field_simp
      ring
    rw [e]
    have : 0 ≤ (1 - o.rho ^ 2) * ((n.muy - o.muy) / o.sy) ^ 2 := by positivity
    nlinarith [sq_nonneg (((n.mux - o.mux) / o.sx) - o.rho * ((n.muy - o.muy) / o.sy))]
  have tr := trace_ge (div_pos t1 s1) (div_pos t2 s2) ho.rho hn.rho
  have a := Real.sqrt_pos.mpr hr
  have b := Real.sqrt_pos.mpr hs
  have lz := Real.log_le_sub_one_of_pos
    (mul_pos (mul_pos (div_pos t1 s1) (div_pos t2 s2)) (div_pos b a))
  rw [Real.log_mul (mul_pos (div_pos t1 s1) (div_pos t2 s2)).ne' (div_pos b a).ne',
    Real.log_mul (div_pos t1 s1).ne' (div_pos t2 s2).ne', Real.log_div t1.ne' s1.ne',
    Real.log_div t2.ne' s2.ne', Real.log_div b.ne' a.ne'] at lz
  have q3 : ((n.sx / o.sx) ^ 2 + (n.sy / o.sy) ^ 2
        - 2 * o.rho * n.rho * (n.sx / o.sx) * (n.sy / o.sy)) / (1 - o.rho ^ 2) / 2
      ≤ (1 / 2) * ((n.sx ^ 2 + (n.mux - o.mux) ^ 2) / o.sx ^ 2
              + (n.sy ^ 2 + (n.muy - o.muy) ^ 2) / o.sy ^ 2
              - 2 * o.rho * ((n.rho * n.sx * n.sy + (n.mux - o.mux) * (n.muy - o.muy))
                / (o.sx * o.sy))) / (1 - o.rho ^ 2) := by
    have := div_le_div_of_nonneg_right q1 hr.le
    rw [mul_div_assoc]
    linarith
  linarith

/-- Jensen for the logarithm of a weighted mean. -/
theorem log_jensen {K : ℕ} {w r : Fin K → ℝ} (hw : ∀ k, 0 ≤ w k) (h1 : ∑ k, w k = 1)
    (hr : ∀ k, 0 < r k) : ∑ k, w k * Real.log (r k) ≤ Real.log (∑ k, w k * r k) := by
  have := strictConcaveOn_log_Ioi.concaveOn.le_map_sum (t := univ) (w := w) (p := r)
    (fun i _ => hw i) h1 (fun i _ => hr i)
  simpa [smul_eq_mul] using this

end Forcepho.Em
