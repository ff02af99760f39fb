import Mathlib.Data.Real.Archimedean
import Mathlib.Data.Int.Log
import Mathlib.Algebra.Order.Field.Power
import Mathlib.Algebra.Order.Round
import Mathlib.Tactic.Linarith
import Mathlib.Tactic.Ring
import Mathlib.Tactic.Positivity
import Mathlib.Tactic.NormNum
import Mathlib.Tactic.FieldSimp

/-! # Floating point numbers

IEEE 754 rounding to nearest, ties to even, with `p` significant bits: 24 for `float` and 53 for `double`.  The range of
exponents is not bounded: overflow, underflow, infinities and numbers that are not numbers are not modelled. -/

set_option autoImplicit false
set_option linter.unusedSectionVars false

namespace Forcepho.Float

/-- The nearest integer, the even one of two. -/
noncomputable def roundEven (y : ℝ) : ℤ :=
  if Int.fract y < 1 / 2 then ⌊y⌋
  else if 1 / 2 < Int.fract y then ⌊y⌋ + 1
  else if Even ⌊y⌋ then ⌊y⌋ else ⌊y⌋ + 1

/-- The distance of neighbouring numbers with `p` bits around `x`. -/
noncomputable def ulp (p : Nat) (x : ℝ) : ℝ := (2 : ℝ) ^ (Int.log 2 |x| - ((p : ℤ) - 1))

/-- The nearest number with `p` bits. -/
noncomputable def fl (p : Nat) (x : ℝ) : ℝ := if x = 0 then 0 else roundEven (x / ulp p x) * ulp p x

/-- Numbers with `p` bits. -/
def Rep (p : Nat) (x : ℝ) : Prop := ∃ m e : ℤ, |m| ≤ 2 ^ p ∧ x = m * (2 : ℝ) ^ e

lemma roundEven_err (y : ℝ) : |(roundEven y : ℝ) - y| ≤ 1 / 2 := by
  have h0 := Int.fract_nonneg y
  have h1 := Int.fract_lt_one y
  have h2 := Int.floor_add_fract y
  have e1 : ((⌊y⌋ : ℤ) : ℝ) - y = -Int.fract y := by linarith
  have e2 : (((⌊y⌋ + 1 : ℤ)) : ℝ) - y = 1 - Int.fract y := by push_cast; linarith
  rw [roundEven]
  split
  · rw [e1, abs_neg, abs_of_nonneg h0]; linarith
  · split
    · rw [e2, abs_of_nonneg (by linarith)]; linarith
    · have : Int.fract y = 1 / 2 := by linarith
      split
      · rw [e1, abs_neg, abs_of_nonneg h0]; linarith
      · rw [e2, abs_of_nonneg (by linarith)]; linarith

lemma roundEven_int (n : ℤ) : roundEven (n : ℝ) = n := by
  rw [roundEven, if_pos (by rw [Int.fract_intCast]; norm_num), Int.floor_intCast]

lemma ulp_pos (p : Nat) (x : ℝ) : 0 < ulp p x := by
  rw [ulp]; positivity

lemma log_le (x : ℝ) (hx : x ≠ 0) : (2 : ℝ) ^ Int.log 2 |x| ≤ |x| := by
  have := Int.zpow_log_le_self (b := 2) (R := ℝ) (by norm_num) (abs_pos.mpr hx)
  simpa using this

lemma lt_log (x : ℝ) : |x| < (2 : ℝ) ^ (Int.log 2 |x| + 1) := by
  have := Int.lt_zpow_succ_log_self (b := 2) (R := ℝ) (by norm_num) |x|
  simpa using this

lemma ulp_le (p : Nat) (x : ℝ) (hx : x ≠ 0) : ulp p x ≤ 2 * |x| / 2 ^ p := by
  have h := log_le x hx
  rw [ulp, zpow_sub₀ (by norm_num), zpow_sub₀ (by norm_num), zpow_natCast, zpow_one, div_div_eq_mul_div,
    mul_comm (2 : ℝ) |x|]
  gcongr

/-- The error of rounding. -/
lemma fl_err (p : Nat) (x : ℝ) : |fl p x - x| ≤ |x| / 2 ^ p := by
  rw [fl]
  split
  next h => rw [h]; simp
  next h =>
    have hu := ulp_pos p x
    have e : (roundEven (x / ulp p x) : ℝ) * ulp p x - x = (roundEven (x / ulp p x) - x / ulp p x) * ulp p x := by
      rw [sub_mul, div_mul_cancel₀ _ hu.ne']
    rw [e, abs_mul, abs_of_pos hu]
    have h1 := roundEven_err (x / ulp p x)
    have h2 := ulp_le p x h
    calc _ ≤ 1 / 2 * ulp p x := by gcongr
      _ ≤ 1 / 2 * (2 * |x| / 2 ^ p) := by gcongr
      _ = |x| / 2 ^ p := by ring

/-- Numbers with `p` bits are not rounded. -/
lemma fl_rep (p : Nat) (hp0 : 1 ≤ p) (x : ℝ) (h : Rep p x) : fl p x = x := by
  obtain ⟨m, e, hm, rfl⟩ := h
  rw [fl]
  split
  next h0 => rw [h0]
  next h0 =>
    have hu := ulp_pos p ((m : ℝ) * (2 : ℝ) ^ e)
    have key : ∃ n : ℤ, (m : ℝ) * (2 : ℝ) ^ e = n * ulp p ((m : ℝ) * (2 : ℝ) ^ e) := by
      set x := (m : ℝ) * (2 : ℝ) ^ e with hx
      set L := Int.log 2 |x| with hL
      have hle := log_le x h0
      rw [← hL] at hle
      have habs : |x| ≤ (2 : ℝ) ^ ((p : ℤ) + e) := by
        rw [hx, abs_mul, abs_of_pos (by positivity : (0 : ℝ) < 2 ^ e), zpow_add₀ (by norm_num), zpow_natCast]
        have : (|(m : ℝ)|) ≤ 2 ^ p := by exact_mod_cast hm
        gcongr
      have hLe : L ≤ p + e := by
        have := hle.trans habs
        exact (zpow_le_zpow_iff_right₀ (by norm_num)).mp this
      rcases lt_or_eq_of_le hLe with hlt | heq
      · have hk : 0 ≤ e - (L - ((p : ℤ) - 1)) := by omega
        obtain ⟨k, hk⟩ := Int.eq_ofNat_of_zero_le hk
        refine ⟨m * 2 ^ k, ?_⟩
        rw [ulp, ← hL, hx]
        push_cast
        rw [mul_assoc, ← zpow_natCast, ← zpow_add₀ (by norm_num)]
        congr 2
        omega
      · have h1 : |x| = (2 : ℝ) ^ L := le_antisymm (by rw [heq]; exact habs) hle
        have hm2 : |(m : ℝ)| = 2 ^ p := by
          rw [hx, abs_mul, abs_of_pos (by positivity : (0 : ℝ) < 2 ^ e), heq, zpow_add₀ (by norm_num), zpow_natCast] at h1
          exact mul_right_cancel₀ (by positivity) h1
        have hpow : (2 : ℝ) ^ p * (2 : ℝ) ^ e = 2 ^ (p - 1) * (2 : ℝ) ^ (L - ((p : ℤ) - 1)) := by
          rw [← zpow_natCast, ← zpow_natCast, ← zpow_add₀ (by norm_num), ← zpow_add₀ (by norm_num)]
          congr 1
          omega
        rcases abs_eq (by positivity : (0 : ℝ) ≤ 2 ^ p) |>.mp hm2 with h | h
        · refine ⟨2 ^ (p - 1), ?_⟩
          rw [ulp, ← hL, hx, h]
          push_cast
          exact hpow
        · refine ⟨-2 ^ (p - 1), ?_⟩
          rw [ulp, ← hL, hx, h]
          push_cast
          rw [neg_mul, neg_mul, hpow]
    obtain ⟨n, hn⟩ := key
    have : (m : ℝ) * (2 : ℝ) ^ e / ulp p ((m : ℝ) * (2 : ℝ) ^ e) = n := by
      rw [div_eq_iff hu.ne']
      exact hn
    rw [this, roundEven_int]
    exact hn.symm

lemma roundEven_nearest (y : ℝ) (n : ℤ) : |(roundEven y : ℝ) - y| ≤ |(n : ℝ) - y| := by
  by_contra h
  push Not at h
  have h1 := roundEven_err y
  have h2 : |((roundEven y - n : ℤ) : ℝ)| < 1 := by
    push_cast
    have e : (roundEven y : ℝ) - n = ((roundEven y : ℝ) - y) - ((n : ℝ) - y) := by ring
    rw [e]
    have := abs_sub ((roundEven y : ℝ) - y) ((n : ℝ) - y)
    linarith
  have h3 : |roundEven y - n| < 1 := by exact_mod_cast h2
  have h4 : roundEven y = n := by
    have := Int.abs_lt_one_iff.mp h3
    omega
  rw [h4] at h
  exact lt_irrefl _ h

/-- A multiple of `ulp`. -/
lemma rep_multiple (p : Nat) (hp : 1 ≤ p) (x y : ℝ) (hy : Rep p y) :
    (∃ n : ℤ, y = n * ulp p x) ∨ |y| < (2 : ℝ) ^ Int.log 2 |x| := by
  obtain ⟨m, e, hm, rfl⟩ := hy
  set L := Int.log 2 |x|
  by_cases hk : L - ((p : ℤ) - 1) ≤ e
  · left
    obtain ⟨k, hk⟩ := Int.eq_ofNat_of_zero_le (sub_nonneg.mpr hk)
    refine ⟨m * 2 ^ k, ?_⟩
    rw [ulp]
    push_cast
    rw [mul_assoc, ← zpow_natCast, ← zpow_add₀ (by norm_num)]
    congr 2
    omega
  · have habs : |(m : ℝ) * (2 : ℝ) ^ e| = |(m : ℝ)| * 2 ^ e := by
      rw [abs_mul, abs_of_pos (by positivity : (0 : ℝ) < 2 ^ e)]
    have hmr : |(m : ℝ)| ≤ 2 ^ p := by exact_mod_cast hm
    have hpe : (2 : ℝ) ^ p * (2 : ℝ) ^ e ≤ 2 ^ L := by
      rw [← zpow_natCast, ← zpow_add₀ (by norm_num)]
      exact zpow_le_zpow_right₀ (by norm_num) (by omega)
    rcases lt_or_eq_of_le ((mul_le_mul_of_nonneg_right hmr (by positivity : (0 : ℝ) ≤ 2 ^ e)).trans hpe) with h | h
    · right
      rw [habs]
      exact h
    · left
      have hpow : (2 : ℝ) ^ L = 2 ^ (p - 1) * (2 : ℝ) ^ (L - ((p : ℤ) - 1)) := by
        rw [← zpow_natCast, ← zpow_add₀ (by norm_num)]
        congr 1
        omega
      rcases abs_cases ((m : ℝ) * (2 : ℝ) ^ e) with ⟨h', -⟩ | ⟨h', -⟩
      · refine ⟨2 ^ (p - 1), ?_⟩
        rw [← h', habs, h, ulp]
        push_cast
        exact hpow
      · refine ⟨-2 ^ (p - 1), ?_⟩
        have : (m : ℝ) * (2 : ℝ) ^ e = -2 ^ L := by
          rw [← h, ← habs, h']
          ring
        rw [this, ulp]
        push_cast
        rw [hpow]
        ring

/-- The result of rounding has `p` bits. -/
lemma fl_isRep (p : Nat) (hp : 1 ≤ p) (x : ℝ) : Rep p (fl p x) := by
  rw [fl]
  split
  · exact ⟨0, 0, by simp, by simp⟩
  next h =>
    refine ⟨roundEven (x / ulp p x), Int.log 2 |x| - ((p : ℤ) - 1), ?_, rfl⟩
    have hu := ulp_pos p x
    have h1 : |x / ulp p x| < 2 ^ p := by
      rw [abs_div, abs_of_pos hu, div_lt_iff₀ hu, ulp]
      have := lt_log x
      refine this.trans_le (le_of_eq ?_)
      rw [← zpow_natCast, ← zpow_add₀ (by norm_num)]
      congr 1
      omega
    have h2 : |((roundEven (x / ulp p x) : ℤ) : ℝ) - x / ulp p x| ≤ 1 / 2 := roundEven_err _
    have h3 : |((roundEven (x / ulp p x) : ℤ) : ℝ)| < 2 ^ p + 1 := by
      have := abs_sub_abs_le_abs_sub ((roundEven (x / ulp p x) : ℤ) : ℝ) (x / ulp p x)
      linarith
    have h4 : |roundEven (x / ulp p x)| < 2 ^ p + 1 := by exact_mod_cast h3
    omega

/-- No number with `p` bits is nearer. -/
lemma fl_nearest (p : Nat) (hp : 1 ≤ p) (x y : ℝ) (hy : Rep p y) : |fl p x - x| ≤ |y - x| := by
  by_cases hx : x = 0
  · rw [hx, fl, if_pos rfl]
    simp
  have hu := ulp_pos p x
  have hm : ∀ n : ℤ, |fl p x - x| ≤ |n * ulp p x - x| := by
    intro n
    rw [fl, if_neg hx]
    have e : ∀ k : ℤ, |(k : ℝ) * ulp p x - x| = |(k : ℝ) - x / ulp p x| * ulp p x := by
      intro k
      have : (k : ℝ) * ulp p x - x = (k - x / ulp p x) * ulp p x := by
        rw [sub_mul, div_mul_cancel₀ _ hu.ne']
      rw [this, abs_mul, abs_of_pos hu]
    rw [e, e]
    exact mul_le_mul_of_nonneg_right (roundEven_nearest _ n) hu.le
  rcases rep_multiple p hp x y hy with ⟨n, rfl⟩ | hlt
  · exact hm n
  · have hlog := log_le x hx
    set T : ℝ := (2 : ℝ) ^ Int.log 2 |x| with hT
    have hpos : 0 < T := by positivity
    have hone : (1 : ℤ) ≤ 2 ^ p := one_le_pow₀ (by norm_num)
    have hrep : ∀ k : ℤ, |k| = 1 → ∃ n : ℤ, (k : ℝ) * T = n * ulp p x := by
      intro k hk
      rcases rep_multiple p hp x ((k : ℝ) * T) ⟨k, _, by rw [hk]; exact hone, rfl⟩ with h | h
      · exact h
      · exfalso
        have hk' : |(k : ℝ)| = 1 := by exact_mod_cast hk
        rw [abs_mul, abs_of_pos hpos, hk', one_mul] at h
        exact lt_irrefl _ h
    rcases lt_or_gt_of_ne hx with hneg | hpos'
    · obtain ⟨n, h⟩ := hrep (-1) (by norm_num)
      refine (hm n).trans ?_
      rw [← h]
      push_cast
      rw [abs_of_neg hneg] at hlog
      rw [abs_of_nonneg (by linarith)]
      refine le_trans ?_ (le_abs_self _)
      have := (abs_lt.mp hlt).1
      linarith
    · obtain ⟨n, h⟩ := hrep 1 (by norm_num)
      refine (hm n).trans ?_
      rw [← h]
      push_cast
      rw [abs_of_pos hpos'] at hlog
      rw [abs_of_nonpos (by linarith)]
      refine le_trans ?_ (neg_le_abs _)
      have := (abs_lt.mp hlt).2
      linarith

/-- Rounding something close. -/
lemma fl_close (p : Nat) (x y e Y : ℝ) (h : |x - y| ≤ e) (hy : |y| ≤ Y) : |fl p x - y| ≤ e + (Y + e) / 2 ^ p := by
  have h1 := fl_err p x
  have h2 : |x| ≤ Y + e := by
    have := abs_sub_abs_le_abs_sub x y
    linarith
  have h3 : |x| / 2 ^ p ≤ (Y + e) / 2 ^ p := by gcongr
  have h4 := abs_sub_le (fl p x) x y
  linarith

lemma add_close {x x' y y' a b : ℝ} (h : |x' - x| ≤ a) (h' : |y' - y| ≤ b) : |x' + y' - (x + y)| ≤ a + b := by
  have e : x' + y' - (x + y) = (x' - x) + (y' - y) := by ring
  rw [e]
  exact (abs_add_le _ _).trans (add_le_add h h')

lemma sub_close {x x' y y' a b : ℝ} (h : |x' - x| ≤ a) (h' : |y' - y| ≤ b) : |x' - y' - (x - y)| ≤ a + b := by
  have e : x' - y' - (x - y) = (x' - x) - (y' - y) := by ring
  rw [e]
  exact (abs_sub _ _).trans (add_le_add h h')

lemma mul_close {x x' y y' a b X Y : ℝ} (h : |x' - x| ≤ a) (h' : |y' - y| ≤ b) (hX : |x| ≤ X) (hY : |y| ≤ Y) :
    |x' * y' - x * y| ≤ a * (Y + b) + X * b := by
  have e : x' * y' - x * y = (x' - x) * y' + x * (y' - y) := by ring
  have hy' : |y'| ≤ Y + b := by
    have := abs_sub_abs_le_abs_sub y' y
    linarith
  have ha : 0 ≤ a := (abs_nonneg _).trans h
  have hX0 : 0 ≤ X := (abs_nonneg _).trans hX
  rw [e]
  refine (abs_add_le _ _).trans ?_
  rw [abs_mul, abs_mul]
  gcongr

end Forcepho.Float
