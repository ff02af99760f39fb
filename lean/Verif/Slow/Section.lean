import Verif.Slow.Psf
import Mathlib.Data.Rat.Floor
import Mathlib.Algebra.Order.Floor.Semiring

/-! # The PSF file made from a section of an image (forcepho/mixtures/utils_em.py:34-141)

`psf_mixture` cuts a section out of a PSF image, normalises it, fits mixtures to it and writes them
as gaussians relative to the centre of the full image.  Modelled: the section, the normalisation, the
conversion of the fitted numbers with the two-component `start` and `center`, and the transposed model
images.  The fit itself is C94 to C96.  Not modelled: rounding to single precision, the plots and the
attributes that are copied unchanged. -/

set_option autoImplicit false

namespace Forcepho.Psf

open Forcepho.Slow (PComp)

/-- `np.clip`. -/
def clip (x lo hi : ℚ) : ℚ := min (max x lo) hi

/-- `center_full` along one axis (utils_em.py:72). -/
def centre (n : Nat) : ℚ := ((n : ℚ) - 1) / 2

/-- `start` and `stop` along an axis of `n` pixels (utils_em.py:73-78); `astype(int)` of a number that
is not negative rounds down. -/
def cut (n : Nat) : Option ℚ → Nat × Nat
  | none => (0, n)
  | some w => (⌊clip (centre n - w) 0 n⌋₊, ⌊clip (centre n + w) 0 n⌋₊)

/-- The sum over a section of an image, rows `r`, columns `c` (utils_em.py:79-80). -/
noncomputable def sectionSum (f : Nat → Nat → ℝ) (r c : Nat × Nat) : ℝ :=
  ((List.range' r.1 (r.2 - r.1)).map fun i =>
    ((List.range' c.1 (c.2 - c.1)).map fun j => f i j).sum).sum

/-- `fractional_flux` (utils_em.py:70, 80) of an image with `n` rows and `m` columns. -/
noncomputable def fraction (f : Nat → Nat → ℝ) (n m : Nat) (r c : Nat × Nat) : ℝ :=
  sectionSum f r c * 1.0 / sectionSum f (0, n) (0, m)

/-- The normalised section (utils_em.py:79, 81): pixel `(i, j)` of the section. -/
noncomputable def normalisedSection (f : Nat → Nat → ℝ) (r c : Nat × Nat) (i j : Nat) : ℝ :=
  f (r.1 + i) (c.1 + j) / sectionSum f r c

/-- `params_to_gauss` with the `start` and `center` that `psf_mixture` passes (utils_em.py:109,
psf.py:161-170): the means are exchanged, `start` and `center` are not, so the entries for the rows
are applied to x. -/
noncomputable def writtenGauss (oversample : ℝ) (start center : ℝ × ℝ) (f : Fitted) : PComp :=
  let mux := (f.mu2 + start.1 - center.1) / oversample
  let muy := (f.mu1 + start.2 - center.2) / oversample
  let sy := f.s1 / oversample
  let sx := f.s2 / oversample
  let vxy := f.rho * sx * sy
  ⟨f.amp, (mux, muy), ⟨sx ^ 2, vxy, vxy, sy ^ 2⟩⟩

/-- The row written for an image of `n` rows and `m` columns (utils_em.py:109-112). -/
noncomputable def psfRow (n m : Nat) (w : Option ℚ) (oversample : ℝ) (f : Fitted) : PComp :=
  writtenGauss oversample (((cut n w).1 : ℝ), ((cut m w).1 : ℝ))
    (((centre n : ℚ) : ℝ), ((centre m : ℚ) : ℝ)) f

/-- `recon_image.T` (utils_em.py:114; psf_mix_em.py:68-74): entry `[col, row]`. -/
noncomputable def modelImage (fs : List Fitted) (col row : Nat) : ℝ :=
  (fs.map fun f => mvnPdf f row col).sum

/-! ## The section -/

lemma clip_bounds (x : ℚ) (n : Nat) : 0 ≤ clip x 0 n ∧ clip x 0 n ≤ n := by
  unfold clip
  have : (0 : ℚ) ≤ n := Nat.cast_nonneg n
  exact ⟨le_min (le_max_right _ _) this, min_le_right _ _⟩

/-- C151 (section). For every width that is not negative the section lies in the image, without a
width it is the whole image. -/
theorem C151_section (n : Nat) (w : Option ℚ) (hw : ∀ x ∈ w, 0 ≤ x) :
    (cut n w).1 ≤ (cut n w).2 ∧ (cut n w).2 ≤ n ∧ cut n none = (0, n) := by
  cases w with
  | none => exact ⟨Nat.zero_le _, le_refl _, rfl⟩
  | some w =>
    have hw0 : 0 ≤ w := hw w rfl
    refine ⟨?_, ?_, rfl⟩
    · show ⌊clip (centre n - w) 0 n⌋₊ ≤ ⌊clip (centre n + w) 0 n⌋₊
      apply Nat.floor_le_floor
      unfold clip
      exact min_le_min (max_le_max (by linarith) (le_refl _)) (le_refl _)
    · show ⌊clip (centre n + w) 0 n⌋₊ ≤ n
      have := (clip_bounds (centre n + w) n).2
      have h := Nat.floor_le_floor this
      rwa [Nat.floor_natCast] at h

lemma cut_odd (k w : Nat) (h : w ≤ k) : cut (2 * k + 1) (some w) = (k - w, k + w) := by
  have hc : centre (2 * k + 1) = (k : ℚ) := by unfold centre; push_cast; ring
  have hw : ((k - w : Nat) : ℚ) = (k : ℚ) - w := by push_cast [Nat.cast_sub h]; ring
  have hwq : (w : ℚ) ≤ k := by exact_mod_cast h
  have h0 : (0 : ℚ) ≤ w := Nat.cast_nonneg w
  have hk : (0 : ℚ) ≤ k := Nat.cast_nonneg k
  unfold cut
  rw [hc]
  have e1 : clip ((k : ℚ) - w) 0 ((2 * k + 1 : Nat) : ℚ) = ((k - w : Nat) : ℚ) := by
    unfold clip
    rw [hw, max_eq_left (by linarith), min_eq_left (by push_cast; linarith)]
  have e2 : clip ((k : ℚ) + w) 0 ((2 * k + 1 : Nat) : ℚ) = ((k + w : Nat) : ℚ) := by
    unfold clip
    rw [max_eq_left (by linarith), min_eq_left (by push_cast; linarith)]
    push_cast; ring
  simp only [e1, e2, Nat.floor_natCast]

lemma cut_even (k w : Nat) (h : w + 1 ≤ k) : cut (2 * k) (some w) = (k - w - 1, k + w - 1) := by
  have hc : centre (2 * k) = (k : ℚ) - 1 / 2 := by unfold centre; push_cast; ring
  have hwq : (w : ℚ) + 1 ≤ k := by exact_mod_cast h
  have h0 : (0 : ℚ) ≤ w := Nat.cast_nonneg w
  obtain ⟨d, rfl⟩ : ∃ d, k = w + 1 + d := ⟨k - (w + 1), by omega⟩
  have hd : (0 : ℚ) ≤ d := Nat.cast_nonneg d
  have s1 : w + 1 + d - w - 1 = d := by omega
  have s2 : w + 1 + d + w - 1 = 2 * w + d := by omega
  unfold cut
  rw [hc, s1, s2]
  have e1 : clip (((w + 1 + d : Nat) : ℚ) - 1 / 2 - w) 0 ((2 * (w + 1 + d) : Nat) : ℚ) = d + 1 / 2 := by
    unfold clip
    push_cast
    rw [max_eq_left (by linarith), min_eq_left (by linarith)]
    ring
  have e2 : clip (((w + 1 + d : Nat) : ℚ) - 1 / 2 + w) 0 ((2 * (w + 1 + d) : Nat) : ℚ) =
      ((2 * w + d : Nat) : ℚ) + 1 / 2 := by
    unfold clip
    push_cast
    rw [max_eq_left (by linarith), min_eq_left (by linarith)]
    ring
  simp only [e1, e2]
  congr 1
  · rw [Nat.floor_eq_iff (by linarith)]
    constructor <;> linarith
  · rw [Nat.floor_eq_iff (by positivity)]
    constructor <;> push_cast <;> linarith

/-- C151 refuted (centring). For every image size and every whole width that fits, the section has
twice the width of pixels but is not centred on the image: its middle is half a pixel too low for an
odd size and a whole pixel for an even size. -/
theorem C151_centre_refuted (k w : Nat) :
    (w ≤ k → (cut (2 * k + 1) (some w)).2 - (cut (2 * k + 1) (some w)).1 = 2 * w ∧
      (((cut (2 * k + 1) (some w)).1 : ℚ) + (cut (2 * k + 1) (some w)).2 - 1) / 2 =
        centre (2 * k + 1) - 1 / 2) ∧
    (w + 1 ≤ k → (cut (2 * k) (some w)).2 - (cut (2 * k) (some w)).1 = 2 * w ∧
      (((cut (2 * k) (some w)).1 : ℚ) + (cut (2 * k) (some w)).2 - 1) / 2 = centre (2 * k) - 1) := by
  constructor
  · intro h
    rw [cut_odd k w h]
    refine ⟨by simp only; omega, ?_⟩
    simp only
    rw [Nat.cast_sub h]
    unfold centre
    push_cast
    ring
  · intro h
    rw [cut_even k w h]
    obtain ⟨d, rfl⟩ : ∃ d, k = w + 1 + d := ⟨k - (w + 1), by omega⟩
    have s1 : w + 1 + d - w - 1 = d := by omega
    have s2 : w + 1 + d + w - 1 = 2 * w + d := by omega
    simp only [s1, s2]
    refine ⟨by omega, ?_⟩
    unfold centre
    push_cast
    ring

/-! ## Flux -/

lemma sum_nonneg' {α : Type} (l : List α) (g : α → ℝ) (h : ∀ a ∈ l, 0 ≤ g a) : 0 ≤ (l.map g).sum := by
  induction l with
  | nil => simp
  | cons a l ih =>
    rw [List.map_cons, List.sum_cons]
    have := ih fun b hb => h b (by simp [hb])
    have := h a (by simp)
    linarith

lemma sum_map_div' {α : Type} (l : List α) (g : α → ℝ) (x : ℝ) :
    (l.map fun a => g a / x).sum = (l.map g).sum / x := by
  induction l with
  | nil => simp
  | cons a l ih => rw [List.map_cons, List.sum_cons, ih, List.map_cons, List.sum_cons]; ring

lemma range_split (s e n : Nat) (h1 : s ≤ e) (h2 : e ≤ n) :
    List.range' 0 n = List.range' 0 s ++ List.range' s (e - s) ++ List.range' e (n - e) := by
  have a := List.range'_append (s := 0) (m := s) (n := e - s) (step := 1)
  have b := List.range'_append (s := 0) (m := e) (n := n - e) (step := 1)
  simp only [one_mul, zero_add] at a b
  rw [a, show s + (e - s) = e by omega, b, show e + (n - e) = n by omega]

lemma part_le (g : Nat → ℝ) (hg : ∀ i, 0 ≤ g i) (s e n : Nat) (h1 : s ≤ e) (h2 : e ≤ n) :
    ((List.range' s (e - s)).map g).sum ≤ ((List.range' 0 n).map g).sum := by
  rw [range_split s e n h1 h2, List.map_append, List.map_append, List.sum_append, List.sum_append]
  have := sum_nonneg' (List.range' 0 s) g fun a _ => hg a
  have := sum_nonneg' (List.range' e (n - e)) g fun a _ => hg a
  linarith

/-- C151 (flux). The normalised section sums to one, and the flux fraction is the share of the section
in the image: positive, at most one for an image without negative pixels. -/
theorem C151_flux (f : Nat → Nat → ℝ) (hf : ∀ i j, 0 ≤ f i j) (n m : Nat) (r c : Nat × Nat)
    (hr : r.1 ≤ r.2 ∧ r.2 ≤ n) (hc : c.1 ≤ c.2 ∧ c.2 ≤ m) (hs : 0 < sectionSum f r c) :
    sectionSum (normalisedSection f r c) (0, r.2 - r.1) (0, c.2 - c.1) = 1 ∧
    0 < fraction f n m r c ∧ fraction f n m r c ≤ 1 ∧
    fraction f n m r c * sectionSum f (0, n) (0, m) = sectionSum f r c := by
  have hle : sectionSum f r c ≤ sectionSum f (0, n) (0, m) := by
    unfold sectionSum
    calc ((List.range' r.1 (r.2 - r.1)).map fun i =>
          ((List.range' c.1 (c.2 - c.1)).map fun j => f i j).sum).sum
        ≤ ((List.range' r.1 (r.2 - r.1)).map fun i =>
          ((List.range' 0 m).map fun j => f i j).sum).sum := by
          apply List.sum_le_sum
          intro i _
          exact part_le (fun j => f i j) (hf i) c.1 c.2 m hc.1 hc.2
      _ ≤ ((List.range' 0 n).map fun i => ((List.range' 0 m).map fun j => f i j).sum).sum :=
          part_le _ (fun i => sum_nonneg' _ _ fun j _ => hf i j) r.1 r.2 n hr.1 hr.2
      _ = _ := by simp
  have ht : 0 < sectionSum f (0, n) (0, m) := lt_of_lt_of_le hs hle
  refine ⟨?_, ?_, ?_, ?_⟩
  · have e : sectionSum (normalisedSection f r c) (0, r.2 - r.1) (0, c.2 - c.1) =
        sectionSum f r c / sectionSum f r c := by
      conv_lhs => unfold sectionSum
      unfold normalisedSection
      simp only [Nat.sub_zero]
      have h1 : ∀ i, ((List.range' 0 (c.2 - c.1)).map fun j =>
          f (r.1 + i) (c.1 + j) / sectionSum f r c).sum =
          ((List.range' c.1 (c.2 - c.1)).map fun j => f (r.1 + i) j).sum / sectionSum f r c := by
        intro i
        rw [← sum_map_div', List.range'_eq_map_range (s := c.1), List.range'_eq_map_range (s := 0),
          List.map_map, List.map_map]
        simp [Function.comp_def]
      simp only [h1]
      rw [sum_map_div']
      congr 1
      conv_rhs => unfold sectionSum
      rw [List.range'_eq_map_range (s := r.1), List.range'_eq_map_range (s := 0),
          List.map_map, List.map_map]
      simp [Function.comp_def]
    rw [e, div_self (ne_of_gt hs)]
  · unfold fraction
    positivity
  · unfold fraction
    rw [div_le_one ht]
    linarith
  · unfold fraction
    field_simp
    norm_num

/-! ## Positions -/

/-- C151 (square images). For an image with as many rows as columns, whatever the width: the gaussians
written, evaluated at the detector position of a pixel of the section relative to the centre of the
full image, give the model image at that pixel, per detector pixel instead of per image pixel. -/
theorem C151_square_partial (n : Nat) (w : Option ℚ) (o : ℝ) (ho : 0 < o) (fs : List Fitted)
    (hs : ∀ f ∈ fs, 0 < f.s1 ∧ 0 < f.s2 ∧ f.rho ^ 2 < 1) (row col : Nat) :
    psfAt (fs.map (psfRow n n w o))
      ((((cut n w).1 + col : Nat) - ((n : ℝ) - 1) / 2) / o)
      ((((cut n w).1 + row : Nat) - ((n : ℝ) - 1) / 2) / o) = o ^ 2 * modelImage fs col row := by
  have hc : ((centre n : ℚ) : ℝ) = ((n : ℝ) - 1) / 2 := by unfold centre; push_cast; ring
  unfold psfAt modelImage
  rw [List.map_map, ← List.sum_map_mul_left]
  congr 1
  apply List.map_congr_left
  intro f hf
  obtain ⟨h1, h2, h3⟩ := hs f hf
  have e : psfRow n n w o f = makePsf o ((cut n w).1 : ℝ) (((n : ℝ) - 1) / 2) f := by
    unfold psfRow writtenGauss makePsf
    rw [hc]
  simp only [Function.comp_apply]
  rw [e, C85_density o _ _ ho f h1 h2 h3]
  congr 2
  · push_cast
    field_simp
    ring
  · push_cast
    field_simp
    ring

/-- A section of 8 pixels out of 21, with two gaussians. -/
example : (cut 21 (some 4)) = (6, 14) ∧
    ∀ f ∈ [(⟨1, 3, 4, 2, 2, 0⟩ : Fitted), ⟨1, 4, 4, 1, 2, 1 / 2⟩],
      0 < f.s1 ∧ 0 < f.s2 ∧ f.rho ^ 2 < 1 := by
  refine ⟨by simpa using cut_odd 10 4 (by norm_num), ?_⟩
  intro f hf
  simp only [List.mem_cons, List.not_mem_nil, or_false] at hf
  rcases hf with rfl | rfl <;> norm_num

/-- C151 refuted (other images). The offset of the rows is applied to x and that of the columns to y:
for an image of `n` rows and `m` columns fitted as a whole every gaussian is displaced by half the
difference along each axis. -/
theorem C151_position_refuted (n m : Nat) (o : ℝ) (f : Fitted) :
    (psfRow n m none o f).mean.1 - (f.mu2 - ((m : ℝ) - 1) / 2) / o = ((m : ℝ) - n) / 2 / o ∧
    (psfRow n m none o f).mean.2 - (f.mu1 - ((n : ℝ) - 1) / 2) / o = ((n : ℝ) - m) / 2 / o := by
  have hc : ∀ n : Nat, ((centre n : ℚ) : ℝ) = ((n : ℝ) - 1) / 2 := by
    intro n; unfold centre; push_cast; ring
  unfold psfRow writtenGauss cut
  simp only [hc]
  constructor
  · push_cast; ring
  · push_cast; ring

/-- C151 (any image). With a width the displacement is the difference between the offsets of the two
axes, which is nothing for two odd or two even sizes the section fits in. -/
theorem C151_position (n m : Nat) (w : Option ℚ) (o : ℝ) (f : Fitted) :
    (psfRow n m w o f).mean.1 =
      (f.mu2 + (cut m w).1 - ((m : ℝ) - 1) / 2) / o +
        (((cut n w).1 - ((n : ℝ) - 1) / 2) - ((cut m w).1 - ((m : ℝ) - 1) / 2)) / o ∧
    (psfRow n m w o f).mean.2 =
      (f.mu1 + (cut n w).1 - ((n : ℝ) - 1) / 2) / o -
        (((cut n w).1 - ((n : ℝ) - 1) / 2) - ((cut m w).1 - ((m : ℝ) - 1) / 2)) / o ∧
    (psfRow n m w o f).amp = f.amp ∧ (psfRow n m w o f).cov.v11 = (f.s2 / o) ^ 2 ∧
    (psfRow n m w o f).cov.v22 = (f.s1 / o) ^ 2 ∧
    (psfRow n m w o f).cov.v12 = f.rho * (f.s1 / o) * (f.s2 / o) ∧
    (psfRow n m w o f).cov.v21 = f.rho * (f.s1 / o) * (f.s2 / o) ∧
    (∀ k l v : Nat, n = 2 * k + 1 → m = 2 * l + 1 → w = some (v : ℚ) → v ≤ k → v ≤ l →
      ((cut n w).1 - ((n : ℝ) - 1) / 2) - ((cut m w).1 - ((m : ℝ) - 1) / 2) = 0) ∧
    (∀ k l v : Nat, n = 2 * k → m = 2 * l → w = some (v : ℚ) → v + 1 ≤ k → v + 1 ≤ l →
      ((cut n w).1 - ((n : ℝ) - 1) / 2) - ((cut m w).1 - ((m : ℝ) - 1) / 2) = 0) := by
  have hc : ∀ n : Nat, ((centre n : ℚ) : ℝ) = ((n : ℝ) - 1) / 2 := by
    intro n; unfold centre; push_cast; ring
  refine ⟨?_, ?_, rfl, rfl, rfl, ?_, ?_, ?_, ?_⟩
  · simp only [psfRow, writtenGauss, hc]; ring
  · simp only [psfRow, writtenGauss, hc]; ring
  · simp only [psfRow, writtenGauss]; ring
  · simp only [psfRow, writtenGauss]; ring
  · rintro k l v rfl rfl rfl h1 h2
    rw [cut_odd k v h1, cut_odd l v h2]
    simp only
    rw [Nat.cast_sub h1, Nat.cast_sub h2]
    push_cast; ring
  · rintro k l v rfl rfl rfl h1 h2
    rw [cut_even k v h1, cut_even l v h2]
    simp only
    rw [show k - v - 1 = k - (v + 1) by omega, show l - v - 1 = l - (v + 1) by omega,
      Nat.cast_sub h1, Nat.cast_sub h2]
    push_cast; ring

end Forcepho.Psf
