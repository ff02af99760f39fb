import Verif.Float.Special
import Mathlib.Data.EReal.Inv

/-! # C154: the arithmetic

The arithmetic of `Special.lean` against a specification of its own: rounding gives the nearest number of the format, or
an infinity from the middle between the largest number and the next power of two on, and the operations are those of the
extended real numbers wherever these are defined. -/

set_option autoImplicit false

namespace Forcepho.Float.Special

/-! ## Rounding -/

lemma roundEven_even (y : ℝ) (n : ℤ) (hn : Even n) (h : |y - n| ≤ 1 / 2) : roundEven y = n := by
  have h' := abs_le.1 h
  by_cases hy : y < n
  · have hf : ⌊y⌋ = n - 1 := by
      rw [Int.floor_eq_iff]
      push_cast
      constructor <;> linarith
    have hfr : Int.fract y = y - n + 1 := by
      rw [Int.fract, hf]; push_cast; ring
    have hodd : ¬ Even (n - 1) := by
      rw [Int.even_sub_one]; simpa using hn
    rw [roundEven, hf, hfr, if_neg (by linarith), if_neg hodd]
    split
    · ring
    · ring
  · push Not at hy
    have hf : ⌊y⌋ = n := by
      rw [Int.floor_eq_iff]
      constructor <;> linarith
    have hfr : Int.fract y = y - n := by rw [Int.fract, hf]
    rw [roundEven, hf, hfr, if_neg (show ¬ 1 / 2 < y - n by linarith), if_pos hn]
    split
    · rfl
    · rfl

lemma nearest_in (f : Fmt) (hp : 1 ≤ f.p) (x : ℝ) :
    ∃ m e : ℤ, nearest f x = m * (2 : ℝ) ^ e ∧ |m| ≤ 2 ^ f.p ∧ f.emin - ((f.p : ℤ) - 1) ≤ e := by
  rw [nearest]
  split
  · rename_i h
    set u := (2 : ℝ) ^ (f.emin - ((f.p : ℤ) - 1)) with hu
    have hup : 0 < u := by positivity
    refine ⟨roundEven (x / u), _, rfl, ?_, le_rfl⟩
    have e : (2 : ℝ) ^ f.emin = 2 ^ (f.p - 1) * u := by
      rw [hu, ← zpow_natCast, ← zpow_add₀ (by norm_num)]
      congr 1
      omega
    have h1 : |x / u| < 2 ^ (f.p - 1) := by
      rw [abs_div, abs_of_pos hup, div_lt_iff₀ hup, ← e]; exact h
    have h2 := roundEven_err (x / u)
    have h3 : |((roundEven (x / u) : ℤ) : ℝ)| < 2 ^ (f.p - 1) + 1 := by
      have := abs_sub_abs_le_abs_sub ((roundEven (x / u) : ℤ) : ℝ) (x / u)
      linarith
    have h4 : |roundEven (x / u)| < 2 ^ (f.p - 1) + 1 := by exact_mod_cast h3
    have h5 : (2 : ℤ) ^ (f.p - 1) ≤ 2 ^ f.p := pow_le_pow_right₀ (by norm_num) (by omega)
    omega
  · rename_i h
    push Not at h
    have hx : x ≠ 0 := by
      rintro rfl
      rw [abs_zero] at h
      exact absurd h (not_le.2 (by positivity))
    have hl : f.emin ≤ Int.log 2 |x| :=
      (Int.zpow_le_iff_le_log (b := 2) (R := ℝ) (by norm_num) (abs_pos.2 hx)).1 (by simpa using h)
    obtain ⟨m, e, hm, he⟩ := fl_isRep f.p hp x
    rw [fl, if_neg hx] at he ⊢
    refine ⟨roundEven (x / ulp f.p x), Int.log 2 |x| - ((f.p : ℤ) - 1), rfl, ?_, by omega⟩
    have hu := ulp_pos f.p x
    have h1 : |x / ulp f.p x| < 2 ^ f.p := by
      rw [abs_div, abs_of_pos hu, div_lt_iff₀ hu, ulp]
      refine (lt_log x).trans_le (le_of_eq ?_)
      rw [← zpow_natCast, ← zpow_add₀ (by norm_num)]
      congr 1
      omega
    have h2 := roundEven_err (x / ulp f.p x)
    have h3 : |((roundEven (x / ulp f.p x) : ℤ) : ℝ)| < 2 ^ f.p + 1 := by
      have := abs_sub_abs_le_abs_sub ((roundEven (x / ulp f.p x) : ℤ) : ℝ) (x / ulp f.p x)
      linarith
    have h4 : |roundEven (x / ulp f.p x)| < 2 ^ f.p + 1 := by exact_mod_cast h3
    omega

lemma nearest_best (f : Fmt) (hp : 1 ≤ f.p) (x : ℝ) (m e : ℤ) (hm : |m| ≤ 2 ^ f.p) (he : f.emin - ((f.p : ℤ) - 1) ≤ e) :
    |nearest f x - x| ≤ |m * (2 : ℝ) ^ e - x| := by
  rw [nearest]
  split
  · set u := (2 : ℝ) ^ (f.emin - ((f.p : ℤ) - 1)) with hu
    have hup : 0 < u := by positivity
    obtain ⟨k, hk⟩ := Int.eq_ofNat_of_zero_le (sub_nonneg.mpr he)
    have e1 : (m : ℝ) * (2 : ℝ) ^ e = ((m * 2 ^ k : ℤ) : ℝ) * u := by
      rw [hu]
      push_cast
      rw [mul_assoc, ← zpow_natCast, ← zpow_add₀ (by norm_num)]
      congr 2
      omega
    have e2 : ∀ k : ℤ, |(k : ℝ) * u - x| = |(k : ℝ) - x / u| * u := by
      intro k
      have : (k : ℝ) * u - x = (k - x / u) * u := by rw [sub_mul, div_mul_cancel₀ _ hup.ne']
      rw [this, abs_mul, abs_of_pos hup]
    rw [e1, e2, e2]
    exact mul_le_mul_of_nonneg_right (roundEven_nearest _ _) hup.le
  · exact fl_nearest f.p hp x _ ⟨m, e, hm, rfl⟩

lemma sign_abs (x : ℝ) : ∃ s : ℤ, |s| = 1 ∧ x = s * |x| := by
  rcases le_total 0 x with h | h
  · exact ⟨1, by norm_num, by rw [abs_of_nonneg h]; simp⟩
  · exact ⟨-1, by norm_num, by rw [abs_of_nonpos h]; simp⟩

/-- Overflow begins half a unit before the power of two. -/
lemma overflow (f : Fmt) (hp : 1 ≤ f.p) (he : f.emin + f.p < f.emax) (x : ℝ) :
    (2 : ℝ) ^ f.emax ≤ |nearest f x| ↔ (2 : ℝ) ^ f.emax - (2 : ℝ) ^ (f.emax - f.p - 1) ≤ |x| := by
  obtain ⟨s, hs, hx⟩ := sign_abs x
  have hsr : |(s : ℝ)| = 1 := by exact_mod_cast hs
  have hss : (s : ℝ) * s = 1 := by rw [← abs_mul_abs_self, hsr]; norm_num
  set E := (2 : ℝ) ^ f.emax with hE
  set U := (2 : ℝ) ^ (f.emax - f.p) with hU
  have hU0 : 0 < U := by positivity
  have hUE : E = 2 ^ f.p * U := by
    rw [hE, hU, ← zpow_natCast, ← zpow_add₀ (by norm_num)]; congr 1; omega
  have hh : (2 : ℝ) ^ (f.emax - f.p - 1) = U / 2 := by rw [zpow_sub_one₀ (by norm_num)]; rfl
  rw [hh]
  have hdist : ∀ y : ℝ, |s * y - x| = |y - abs x| := by
    intro y
    conv_lhs => rw [hx, ← mul_sub, abs_mul, hsr, one_mul]
  have p2 : (2 : ℝ) ≤ 2 ^ f.p := by
    calc (2 : ℝ) = 2 ^ 1 := by norm_num
      _ ≤ _ := pow_le_pow_right₀ (by norm_num) hp
  constructor
  · intro h
    by_contra hc
    push Not at hc
    have hb := nearest_best f hp x (s * (2 ^ f.p - 1)) (f.emax - f.p) (by
      rw [abs_mul, hs, one_mul, abs_of_nonneg]
      · omega
      · have : (1 : ℤ) ≤ 2 ^ f.p := one_le_pow₀ (by norm_num)
        omega) (by omega)
    push_cast at hb
    rw [mul_assoc, hdist, sub_mul, one_mul] at hb
    change _ ≤ |2 ^ f.p * U - U - abs x| at hb
    rw [← hUE] at hb
    have t : |nearest f x| - |x| ≤ |nearest f x - x| := abs_sub_abs_le_abs_sub _ _
    have : |E - U - abs x| < E - |x| := by
      rw [abs_lt]
      constructor <;> linarith
    linarith
  · intro h
    by_cases hbig : E ≤ |x|
    · have hb := nearest_best f hp x s f.emax (by
        rw [hs]; exact one_le_pow₀ (by norm_num)) (by omega)
      rw [hdist] at hb
      rw [← hE, abs_of_nonpos (show E - |x| ≤ 0 by linarith)] at hb
      have t : |x| - |nearest f x| ≤ |nearest f x - x| := by
        rw [abs_sub_comm]; exact abs_sub_abs_le_abs_sub _ _
      linarith
    · push Not at hbig
      have hx0 : 0 < |x| := by
        refine lt_of_lt_of_le ?_ h
        rw [hUE]
        nlinarith
      have hlog : Int.log 2 |x| = f.emax - 1 := by
        apply le_antisymm
        · have := (Int.lt_zpow_iff_log_lt (b := 2) (R := ℝ) (by norm_num) hx0 (x := f.emax)).1 (by simpa using hbig)
          omega
        · apply (Int.zpow_le_iff_le_log (b := 2) (R := ℝ) (by norm_num) hx0).1
          have : (2 : ℝ) ^ (f.emax - 1) = E / 2 := by rw [zpow_sub_one₀ (by norm_num)]; rfl
          rw [Nat.cast_ofNat, this]
          refine le_trans ?_ h
          rw [hUE]
          nlinarith
      have hul : ulp f.p x = U := by
        rw [ulp, hlog, hU]; congr 1; omega
      have hn0 : ¬ |x| < (2 : ℝ) ^ f.emin := by
        rw [not_lt]
        calc (2 : ℝ) ^ f.emin ≤ (2 : ℝ) ^ (f.emax - 1) := zpow_le_zpow_right₀ (by norm_num) (by omega)
          _ ≤ |x| := by
            have := log_le x (abs_pos.1 hx0)
            rwa [hlog] at this
      rw [nearest, if_neg hn0, fl, if_neg (abs_pos.1 hx0), hul]
      have hr : roundEven (x / U) = s * 2 ^ f.p := by
        apply roundEven_even
        · rw [Int.even_mul]
          right
          exact (Int.even_pow.2 ⟨by norm_num, by omega⟩)
        · push_cast
          have e1 : x / U - s * 2 ^ f.p = -((s * E - x) / U) := by
            rw [hUE]; field_simp; ring
          rw [e1, abs_neg, abs_div, hdist, abs_of_pos hU0, div_le_iff₀ hU0, abs_of_nonneg (by linarith)]
          linarith
      rw [hr]
      push_cast
      rw [mul_assoc, ← hUE, abs_mul, hsr, one_mul, abs_of_pos (by rw [hE]; positivity)]

/-- C154 (rounding): `float` has the numbers `m * 2^e` with up to 24 bits and `e ≥ -149`, `double` those with up to 53
bits and `e ≥ -1074`.  A result is rounded to a number of the format, and none is nearer; it overflows, with its sign, from
the middle between the largest number and the next power of two on. -/
theorem C154_rounding :
    (∀ x : ℝ, |x| < 2 ^ 128 - 2 ^ 103 → ∃ m e : ℤ, |m| ≤ 2 ^ 24 ∧ -149 ≤ e ∧
      rnd single (.num x) = .num (m * (2 : ℝ) ^ e) ∧
      ∀ m' e' : ℤ, |m'| ≤ 2 ^ 24 → -149 ≤ e' → |m * (2 : ℝ) ^ e - x| ≤ |m' * (2 : ℝ) ^ e' - x|) ∧
    (∀ x : ℝ, 2 ^ 128 - 2 ^ 103 ≤ x → rnd single (.num x) = .inf false ∧ rnd single (.num (-x)) = .inf true) ∧
    (∀ x : ℝ, |x| < 2 ^ 1024 - 2 ^ 970 → ∃ m e : ℤ, |m| ≤ 2 ^ 53 ∧ -1074 ≤ e ∧
      rnd double (.num x) = .num (m * (2 : ℝ) ^ e) ∧
      ∀ m' e' : ℤ, |m'| ≤ 2 ^ 53 → -1074 ≤ e' → |m * (2 : ℝ) ^ e - x| ≤ |m' * (2 : ℝ) ^ e' - x|) ∧
    (∀ x : ℝ, 2 ^ 1024 - 2 ^ 970 ≤ x → rnd double (.num x) = .inf false ∧ rnd double (.num (-x)) = .inf true) := by
  have gen1 : ∀ (f : Fmt), 1 ≤ f.p → f.emin + f.p < f.emax → ∀ x : ℝ,
      |x| < (2 : ℝ) ^ f.emax - (2 : ℝ) ^ (f.emax - f.p - 1) →
      ∃ m e : ℤ, |m| ≤ 2 ^ f.p ∧ f.emin - ((f.p : ℤ) - 1) ≤ e ∧
        rnd f (.num x) = .num (m * (2 : ℝ) ^ e) ∧
        ∀ m' e' : ℤ, |m'| ≤ 2 ^ f.p → f.emin - ((f.p : ℤ) - 1) ≤ e' → |m * (2 : ℝ) ^ e - x| ≤ |m' * (2 : ℝ) ^ e' - x| := by
    intro f hp he x hx
    obtain ⟨m, e, h1, h2, h3⟩ := nearest_in f hp x
    refine ⟨m, e, h2, h3, ?_, ?_⟩
    · rw [rnd, if_neg, h1]
      rw [overflow f hp he]
      exact not_le.2 hx
    · intro m' e' hm' he'
      rw [← h1]
      exact nearest_best f hp x m' e' hm' he'
  have gen2 : ∀ (f : Fmt), 1 ≤ f.p → f.emin + f.p < f.emax → ∀ x : ℝ,
      (2 : ℝ) ^ f.emax - (2 : ℝ) ^ (f.emax - f.p - 1) ≤ x →
      rnd f (.num x) = .inf false ∧ rnd f (.num (-x)) = .inf true := by
    intro f hp he x hx
    have hlt : (2 : ℝ) ^ (f.emax - f.p - 1) < (2 : ℝ) ^ f.emax := zpow_lt_zpow_right₀ (by norm_num) (by omega)
    have hx0 : 0 < x := by linarith
    constructor
    · rw [rnd, if_pos]
      · simp [hx0.le]
      · rw [overflow f hp he, abs_of_pos hx0]; exact hx
    · rw [rnd, if_pos]
      · simp [hx0]
      · rw [overflow f hp he, abs_neg, abs_of_pos hx0]; exact hx
  have s1 : (2 : ℝ) ^ single.emax - (2 : ℝ) ^ (single.emax - single.p - 1) = 2 ^ 128 - 2 ^ 103 := by
    rw [show single.emax = ((128 : ℕ) : ℤ) from rfl, show ((128 : ℕ) : ℤ) - single.p - 1 = ((103 : ℕ) : ℤ) from rfl,
      zpow_natCast, zpow_natCast]
  have d1 : (2 : ℝ) ^ double.emax - (2 : ℝ) ^ (double.emax - double.p - 1) = 2 ^ 1024 - 2 ^ 970 := by
    rw [show double.emax = ((1024 : ℕ) : ℤ) from rfl, show ((1024 : ℕ) : ℤ) - double.p - 1 = ((970 : ℕ) : ℤ) from rfl,
      zpow_natCast, zpow_natCast]
  refine ⟨fun x hx => ?_, fun x hx => ?_, fun x hx => ?_, fun x hx => ?_⟩
  · exact gen1 single (by decide) (by decide) x (by rw [s1]; exact hx)
  · exact gen2 single (by decide) (by decide) x (by rw [s1]; exact hx)
  · exact gen1 double (by decide) (by decide) x (by rw [d1]; exact hx)
  · exact gen2 double (by decide) (by decide) x (by rw [d1]; exact hx)

/-! ## Operations -/

/-- The extended real number a value stands for. -/
noncomputable def toE : Val → Option EReal
  | .nan => none
  | .inf false => some ⊤
  | .inf true => some ⊥
  | .num x => some (x : EReal)

/-- C154 (operations): the operations before rounding are those of the extended real numbers, and are not defined exactly
for the sum of opposite infinities, zero times infinity, zero by zero, infinity by infinity and roots of negative
numbers; a comparison with what is not a number is false. -/
theorem C154_operations (a b : Val) (x y : EReal) (ha : toE a = some x) (hb : toE b = some y) :
    (toE (neg a) = some (-x)) ∧
    (toE (addE a b) = if (x = ⊤ ∧ y = ⊥) ∨ (x = ⊥ ∧ y = ⊤) then none else some (x + y)) ∧
    (toE (mulE a b) = if (x = 0 ∧ (y = ⊤ ∨ y = ⊥)) ∨ (y = 0 ∧ (x = ⊤ ∨ x = ⊥)) then none else some (x * y)) ∧
    (y ≠ 0 → toE (divE a b) = if (x = ⊤ ∨ x = ⊥) ∧ (y = ⊤ ∨ y = ⊥) then none else some (x / y)) ∧
    (y = 0 → toE (divE a b) = if x = 0 then none else if 0 < x then some ⊤ else some ⊥) ∧
    (x < 0 → toE (sqrtE a) = none) ∧
    (0 ≤ x → ∃ z : EReal, toE (sqrtE a) = some z ∧ 0 ≤ z ∧ z * z = x) ∧
    (∀ c : ℝ, above a c = true ↔ (c : EReal) < x) := by
  cases a with
  | nan => simp [toE] at ha
  | inf s =>
    cases b with
    | nan => simp [toE] at hb
    | inf t =>
      cases s <;> cases t <;> simp only [toE, Option.some.injEq] at ha hb <;> subst ha <;> subst hb <;>
        simp [neg, addE, mulE, divE, sqrtE, above, toE]
    | num v =>
      simp only [toE, Option.some.injEq] at hb
      subst hb
      rcases lt_trichotomy v 0 with hv | hv | hv
      · have m1 := EReal.top_mul_coe_of_neg hv
        have m2 := EReal.bot_mul_coe_of_neg hv
        have d1 := EReal.top_div_of_neg_ne_bot (a := (v : EReal)) (by exact_mod_cast hv) (EReal.coe_ne_bot v)
        have d2 := EReal.bot_div_of_neg_ne_bot (a := (v : EReal)) (by exact_mod_cast hv) (EReal.coe_ne_bot v)
        cases s <;> simp only [toE, Option.some.injEq] at ha <;> subst ha <;>
          simp [neg, addE, mulE, divE, sqrtE, above, toE, hv, hv.ne, m1, m2, d1, d2]
      · cases s <;> simp only [toE, Option.some.injEq] at ha <;> subst ha <;>
          simp [neg, addE, mulE, divE, sqrtE, above, toE, hv]
      · have m1 := EReal.top_mul_coe_of_pos hv
        have m2 := EReal.bot_mul_coe_of_pos hv
        have d1 := EReal.top_div_of_pos_ne_top (a := (v : EReal)) (by exact_mod_cast hv) (EReal.coe_ne_top v)
        have d2 := EReal.bot_div_of_pos_ne_top (a := (v : EReal)) (by exact_mod_cast hv) (EReal.coe_ne_top v)
        have hv' := not_lt.2 hv.le
        cases s <;> simp only [toE, Option.some.injEq] at ha <;> subst ha <;>
          simp [neg, addE, mulE, divE, sqrtE, above, toE, hv', hv.ne', m1, m2, d1, d2]
  | num u =>
    simp only [toE, Option.some.injEq] at ha
    subst ha
    have hsq : (((u : EReal) < 0 → toE (sqrtE (.num u)) = none) ∧
        (0 ≤ (u : EReal) → ∃ z : EReal, toE (sqrtE (.num u)) = some z ∧ 0 ≤ z ∧ z * z = u)) := by
      constructor
      · intro h
        have h' : u < 0 := by exact_mod_cast h
        simp [sqrtE, toE, h']
      · intro h
        have h' : 0 ≤ u := by exact_mod_cast h
        refine ⟨(Real.sqrt u : ℝ), by rw [sqrtE, if_neg (not_lt.2 h')]; rfl, ?_, ?_⟩
        · exact_mod_cast Real.sqrt_nonneg u
        · rw [← EReal.coe_mul, Real.mul_self_sqrt h']
    have hab : ∀ c : ℝ, above (.num u) c = true ↔ (c : EReal) < u := by
      intro c
      simp [above]
    have hneg : toE (neg (.num u)) = some (-(u : EReal)) := by
      simp [neg, toE]
    cases b with
    | nan => simp [toE] at hb
    | inf t =>
      refine ⟨hneg, ?_, ?_, ?_, ?_, hsq.1, hsq.2, hab⟩
      · cases t <;> simp only [toE, Option.some.injEq] at hb <;> subst hb <;> simp [addE, toE]
      · rcases lt_trichotomy u 0 with hv | hv | hv
        · have m1 := EReal.coe_mul_top_of_neg hv
          have m2 := EReal.coe_mul_bot_of_neg hv
          cases t <;> simp only [toE, Option.some.injEq] at hb <;> subst hb <;>
            simp [mulE, toE, hv, hv.ne, m1, m2]
        · cases t <;> simp only [toE, Option.some.injEq] at hb <;> subst hb <;> simp [mulE, toE, hv]
        · have m1 := EReal.coe_mul_top_of_pos hv
          have m2 := EReal.coe_mul_bot_of_pos hv
          have hv' := not_lt.2 hv.le
          cases t <;> simp only [toE, Option.some.injEq] at hb <;> subst hb <;>
            simp [mulE, toE, hv', hv.ne', m1, m2]
      · intro _
        cases t <;> simp only [toE, Option.some.injEq] at hb <;> subst hb <;> simp [divE, toE]
      · intro hy
        cases t <;> simp only [toE, Option.some.injEq] at hb <;> subst hb <;> simp at hy
    | num v =>
      simp only [toE, Option.some.injEq] at hb
      subst hb
      refine ⟨hneg, ?_, ?_, ?_, ?_, hsq.1, hsq.2, hab⟩
      · simp [addE, toE]
      · simp [mulE, toE]
      · intro hy
        have hy' : v ≠ 0 := by exact_mod_cast hy
        simp [divE, toE, hy', EReal.coe_div]
      · intro hy
        have hy' : v = 0 := by exact_mod_cast hy
        rcases lt_trichotomy u 0 with hv | hv | hv
        · simp [divE, toE, hy', hv, hv.ne, not_lt.2 hv.le]
        · simp [divE, toE, hy', hv]
        · simp [divE, toE, hy', hv, hv.ne', not_lt.2 hv.le]

end Forcepho.Float.Special
