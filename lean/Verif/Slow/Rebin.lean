import Mathlib.Algebra.BigOperators.Field
import Mathlib.Algebra.BigOperators.Intervals
import Mathlib.Algebra.Order.BigOperators.Group.Finset
import Mathlib.Algebra.Order.Field.Basic
import Mathlib.Tactic.FieldSimp
import Mathlib.Tactic.Linarith
import Mathlib.Tactic.LinearCombination
import Mathlib.Tactic.Ring

/-! # C173: the test of undersampling
(tests/slow_tests/test_undersample.py, tests/slow_tests/undersample_figure.py) -/

set_option autoImplicit false

namespace Forcepho.Slow.Rebin

open Finset

variable {K : Type} [Field K] [LinearOrder K] [IsStrictOrderedRing K]

/-- The exceptions of numpy: reshaping to another size, and a number of repeats that is a float (test_undersample.py:33-39). -/
inductive RebinErr
  | valueError | typeError
  deriving DecidableEq

/-- An image with its shape. -/
structure Img (K : Type) where
  rows : Nat
  cols : Nat
  at' : Nat → Nat → K

/-- `a.reshape((m, int(M/m), n, int(N/n))).mean(3).mean(1)` or two `np.repeat` (test_undersample.py:33-39, undersample_figure.py:25-31). The
sizes of an image are positive. A division of integers gives a float, which numpy does not take as a number of repeats. -/
def rebin (a : Img K) (m n : Nat) : Except RebinErr (Img K) :=
  if m < a.rows then
    let p := a.rows / m
    let q := a.cols / n
    if m * p * (n * q) = a.rows * a.cols then
      .ok { rows := m, cols := n
            at' := fun i j =>
              (∑ s ∈ range p, (∑ t ∈ range q,
                let k := ((i * p + s) * n + j) * q + t
                a.at' (k / a.cols) (k % a.cols)) / (q : K)) / (p : K) }
    else .error .valueError
  else .error .typeError

/-- C173, binning. If the rows and columns of an image are multiples of those asked for (and there are fewer), the binned image times the number of
pixels in a bin is the sum over the bin, for every bin. -/
theorem C173_rebin (a : Img K) (m n p q : Nat) (hm : 0 < m) (hn : 0 < n) (hp : 1 < p) (hq : 0 < q) (hr : a.rows = m * p) (hc : a.cols = n * q) :
    ∃ b, rebin a m n = .ok b ∧ b.rows = m ∧ b.cols = n ∧
      ∀ i < m, ∀ j < n, b.at' i j * ((p : K) * q) = ∑ s ∈ range p, ∑ t ∈ range q, a.at' (i * p + s) (j * q + t) := by
  have hlt : m < a.rows := by
    rw [hr]
    calc m = m * 1 := (Nat.mul_one m).symm
      _ < m * p := Nat.mul_lt_mul_of_pos_left hp hm
  have hp' : a.rows / m = p := by rw [hr, Nat.mul_div_cancel_left _ hm]
  have hq' : a.cols / n = q := by rw [hc, Nat.mul_div_cancel_left _ hn]
  refine ⟨⟨m, n, fun i j => (∑ s ∈ range p, (∑ t ∈ range q,
      a.at' ((((i * p + s) * n + j) * q + t) / a.cols) ((((i * p + s) * n + j) * q + t) % a.cols)) / (q : K)) / (p : K)⟩, ?_, rfl, rfl, ?_⟩
  · unfold rebin
    rw [if_pos hlt]
    simp only [hp', hq']
    rw [if_pos (by rw [hr, hc])]
  · intro i _ j hj
    have hpK : (p : K) ≠ 0 := by exact_mod_cast (by omega : p ≠ 0)
    have hqK : (q : K) ≠ 0 := by exact_mod_cast hq.ne'
    simp only
    rw [← sum_div, div_div, mul_comm (q : K) p, div_mul_cancel₀ _ (mul_ne_zero hpK hqK)]
    apply sum_congr rfl
    intro s _
    apply sum_congr rfl
    intro t ht
    have htq := mem_range.1 ht
    have hlt2 : j * q + t < n * q := by
      calc j * q + t < j * q + q := by omega
        _ = (j + 1) * q := by ring
        _ ≤ n * q := Nat.mul_le_mul_right q hj
    have e : ((i * p + s) * n + j) * q + t = (j * q + t) + n * q * (i * p + s) := by ring
    rw [e, hc, Nat.add_mul_div_left _ _ (Nat.mul_pos hn hq), Nat.div_eq_of_lt hlt2, Nat.add_mul_mod_self_left, Nat.mod_eq_of_lt hlt2,
      Nat.zero_add]

/-- C173, flux. The binned image times the number of pixels in a bin has the flux of the image. -/
theorem C173_flux (a : Img K) (m n p q : Nat) (hm : 0 < m) (hn : 0 < n) (hp : 1 < p) (hq : 0 < q) (hr : a.rows = m * p) (hc : a.cols = n * q) :
    ∃ b, rebin a m n = .ok b ∧
      ∑ i ∈ range m, ∑ j ∈ range n, b.at' i j * ((p : K) * q) = ∑ x ∈ range a.rows, ∑ y ∈ range a.cols, a.at' x y := by
  obtain ⟨b, h1, _, _, h2⟩ := C173_rebin a m n p q hm hn hp hq hr hc
  refine ⟨b, h1, ?_⟩
  have split : ∀ (u v : Nat) (f : Nat → K), ∑ x ∈ range (u * v), f x = ∑ i ∈ range u, ∑ s ∈ range v, f (i * v + s) := by
    intro u v f
    induction u with
    | zero => simp
    | succ u ih => rw [Nat.succ_mul, sum_range_add, ih, sum_range_succ]
  rw [hr, hc, split]
  apply sum_congr rfl
  intro i hi
  rw [sum_congr rfl fun j hj => h2 i (mem_range.1 hi) j (mem_range.1 hj), sum_comm]
  apply sum_congr rfl
  intro s _
  rw [split]

/-- The hypotheses are met: an image of 80 by 80 pixels binned to 10 by 10. -/
example : (⟨80, 80, fun x y => (x + y : ℚ)⟩ : Img ℚ).rows = 10 * 8 ∧ 1 < 8 := by decide

omit [LinearOrder K] [IsStrictOrderedRing K] in
/-- C173, refuted (binning). To a size that is not smaller, which the function has a branch for, it never gives an image; nor to a smaller one
that is no divisor. -/
theorem C173_rebin_refuted (a : Img K) (m n : Nat) :
    (a.rows ≤ m → rebin a m n = .error .typeError) ∧
    (m < a.rows → 0 < a.cols → 0 < n → ¬ m ∣ a.rows → rebin a m n = .error .valueError) := by
  constructor
  · intro h
    unfold rebin
    rw [if_neg (Nat.not_lt.2 h)]
  · intro h hc hn hd
    unfold rebin
    rw [if_pos h]
    simp only
    rw [if_neg]
    intro e
    have h1 : m * (a.rows / m) < a.rows := by
      rcases Nat.lt_or_ge (m * (a.rows / m)) a.rows with h' | h'
      · exact h'
      · exact absurd ⟨a.rows / m, le_antisymm h' (Nat.mul_div_le _ _)⟩ hd
    have h2 : n * (a.cols / n) ≤ a.cols := Nat.mul_div_le _ _
    have h3 : m * (a.rows / m) * (n * (a.cols / n)) ≤ m * (a.rows / m) * a.cols := Nat.mul_le_mul_left _ h2
    have h4 : m * (a.rows / m) * a.cols < a.rows * a.cols := Nat.mul_lt_mul_of_pos_right h1 hc
    omega

/-! ## the two grids -/

/-- A stamp along one axis (`get_stamp`, test_undersample.py:12-24, and the reference pixels, lines 94-101): number of pixels, size of a pixel on
the sky, reference pixel; the reference value is zero. -/
structure Axis (K : Type) where
  n : Nat
  dx : K
  crpix : K

/-- The native and the oversampled stamp (test_undersample.py:93-100, undersample_figure.py:42-49); `width / dx` is a whole number. -/
def native (width : Nat) : Axis K := ⟨width, 1, width / 2⟩

/-- The oversampled stamp (test_undersample.py:93-100, undersample_figure.py:42-49). -/
def oversampled (width oversample : Nat) : Axis K :=
  ⟨width * oversample, 1 / oversample, ((width * oversample : Nat) : K) / 2 + oversample / 2 - 1 / 2⟩

/-- The pixel coordinate of a position on the sky: `scale * (sky - crval) + crpix` with `scale = 1 / dx` (slow/stamp.py, `sky_to_pix`). -/
def pixOf (s : Axis K) (sky : K) : K := 1 / s.dx * (sky - 0) + s.crpix

/-- C173, grids. The oversampled pixels that are binned into a native pixel are those that tile it on the sky: the boundaries of oversampled
pixel `i * o + s` are the parts `s / o` and `(s + 1) / o` of native pixel `i`. -/
theorem C173_grids (width o i s : Nat) (ho : 0 < o) (sky : K) :
    (oversampled (K := K) width o).n = (native (K := K) width).n * o ∧
    (pixOf (oversampled width o) sky = (i * o + s : Nat) - 1 / 2 ↔ pixOf (native width) sky = i - 1 / 2 + s / o) ∧
    (pixOf (oversampled width o) sky = (i * o + s : Nat) + 1 / 2 ↔ pixOf (native width) sky = i - 1 / 2 + (s + 1) / o) := by
  have hoK : (o : K) ≠ 0 := by exact_mod_cast ho.ne'
  refine ⟨rfl, ?_, ?_⟩
  · simp only [pixOf, native, oversampled]
    push_cast
    constructor
    · intro h
      have h' : (o : K) * (1 / 1 * (sky - 0) + width / 2) = o * (i - 1 / 2 + s / o) := by
        rw [one_div_one_div] at h
        have : (o : K) * (i - 1 / 2 + s / o) = o * i - o / 2 + s := by field_simp
        rw [this]
        linear_combination h
      exact mul_left_cancel₀ hoK h'
    · intro h
      have h' : (o : K) * (1 / 1 * (sky - 0) + width / 2) = o * (i - 1 / 2 + s / o) := by rw [h]
      have : (o : K) * (i - 1 / 2 + s / o) = o * i - o / 2 + s := by field_simp
      rw [this] at h'
      rw [one_div_one_div]
      linear_combination h'
  · simp only [pixOf, native, oversampled]
    push_cast
    constructor
    · intro h
      have h' : (o : K) * (1 / 1 * (sky - 0) + width / 2) = o * (i - 1 / 2 + (s + 1) / o) := by
        rw [one_div_one_div] at h
        have : (o : K) * (i - 1 / 2 + (s + 1) / o) = o * i - o / 2 + (s + 1) := by field_simp
        rw [this]
        linear_combination h
      exact mul_left_cancel₀ hoK h'
    · intro h
      have h' : (o : K) * (1 / 1 * (sky - 0) + width / 2) = o * (i - 1 / 2 + (s + 1) / o) := by rw [h]
      have : (o : K) * (i - 1 / 2 + (s + 1) / o) = o * i - o / 2 + (s + 1) := by field_simp
      rw [this] at h'
      rw [one_div_one_div]
      linear_combination h'

example : pixOf (oversampled (K := ℚ) 10 8) (1 / 16) = 44 ∧ pixOf (native (K := ℚ) 10) (1 / 16) = 5 + 1 / 16 := by
  constructor <;> norm_num [pixOf, oversampled, native]

/-- The PSF variance of the two stamps in their pixels (test_undersample.py:110-112). -/
def variances (fwhm : K) (dx : K) : K × K := ((fwhm / (2355 / 1000)) ^ 2, (fwhm / (2355 / 1000) / dx) ^ 2)

/-- C173, PSF. At the same place on the sky, the squared distance from the star in units of the variance is the same in both stamps. -/
theorem C173_psf (width o : Nat) (ho : 0 < o) (fwhm star sky : K) (hf : fwhm ≠ 0) :
    (pixOf (oversampled width o) sky - pixOf (oversampled width o) star) ^ 2 / (variances fwhm (oversampled (K := K) width o).dx).2 =
    (pixOf (native width) sky - pixOf (native width) star) ^ 2 / (variances fwhm (oversampled (K := K) width o).dx).1 ∧
    (variances fwhm (oversampled (K := K) width o).dx).1 * 2355 ^ 2 = fwhm ^ 2 * 1000 ^ 2 := by
  have hoK : (o : K) ≠ 0 := by exact_mod_cast ho.ne'
  constructor
  · simp only [pixOf, oversampled, native, variances]
    field_simp
    ring
  · simp only [variances]
    field_simp

/-! ## the reported deviation -/

/-- `np.argmax(np.abs(r))`, then `r.flat[...]` (undersample_figure.py:84): the first entry of largest absolute value. -/
def largest : List K → Option K
  | [] => none
  | r :: rs =>
    match largest rs with
    | none => some r
    | some w => if |w| ≤ |r| then some r else some w

/-- The residuals in percent of the largest pixel of the binned image (undersample_figure.py:77-78). -/
def percent (im truth : List K) (top : K) : List K := List.zipWith (fun x t => 100 * (x - t) / top) im truth

/-- C173, deviation. The reported number is the deviation of some pixel, with its sign, in percent of `top`, and bounds the deviation of every
pixel. -/
theorem C173_deviation (im truth : List K) (top d : K) (htop : 0 < top) (h : largest (percent im truth top) = some d) :
    (∃ e ∈ im.zip truth, d * top = 100 * (e.1 - e.2)) ∧ ∀ e ∈ im.zip truth, |e.1 - e.2| ≤ |d| * top / 100 := by
  have key : ∀ (l : List K) (w : K), largest l = some w → w ∈ l ∧ ∀ v ∈ l, |v| ≤ |w| := by
    intro l
    induction l with
    | nil => intro w hw; simp [largest] at hw
    | cons r rs ih =>
      intro w hw
      simp only [largest] at hw
      cases hl : largest rs with
      | none =>
        rw [hl] at hw
        injection hw with hw
        subst hw
        have : rs = [] := by
          cases rs with
          | nil => rfl
          | cons s ss =>
            simp only [largest] at hl
            cases h' : largest ss <;> rw [h'] at hl
            · simp at hl
            · simp only at hl
              split at hl <;> simp at hl
        subst this
        simp
      | some v =>
        rw [hl] at hw
        obtain ⟨h1, h2⟩ := ih v hl
        simp only at hw
        split at hw
        · rename_i hle
          injection hw with hw
          subst hw
          refine ⟨by simp, ?_⟩
          intro u hu
          rcases List.mem_cons.1 hu with rfl | hu
          · exact le_refl _
          · exact (h2 u hu).trans hle
        · rename_i hle
          injection hw with hw
          subst hw
          refine ⟨by simp [h1], ?_⟩
          intro u hu
          rcases List.mem_cons.1 hu with rfl | hu
          · exact (not_le.1 hle).le
          · exact h2 u hu
  obtain ⟨h1, h2⟩ := key _ _ h
  have hp : percent im truth top = (im.zip truth).map fun e => 100 * (e.1 - e.2) / top := by
    rw [percent, List.zip, List.map_zipWith]
  rw [hp] at h1 h2
  constructor
  · obtain ⟨e, he, rfl⟩ := List.mem_map.1 h1
    exact ⟨e, he, div_mul_cancel₀ _ htop.ne'⟩
  · intro e he
    have := h2 _ (List.mem_map.2 ⟨e, he, rfl⟩)
    rw [abs_div, abs_mul, abs_of_pos htop, abs_of_pos (show (0 : K) < 100 by norm_num), div_le_iff₀ htop] at this
    rw [le_div_iff₀ (by norm_num : (0 : K) < 100)]
    linarith

example : largest (percent [1, 5, 2] [2, 4, 5] (10 : ℚ)) = some (-30) := by decide +kernel

end Forcepho.Slow.Rebin
