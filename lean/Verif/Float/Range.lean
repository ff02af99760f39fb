import Verif.Float.Special
import Verif.Float.Gradient
import Mathlib.Data.EReal.Inv

/-! # C154: numbers in range

Float arithmetic with a range: the rounding of `Special.lean` is that of the format, the operations on finite values are
the exact ones rounded, and for gaussians of ordinary shape and size nothing overflows: the residual is that of C135 up to
a rounding that takes underflow into account. -/

set_option autoImplicit false

namespace Forcepho.Float.Special

/-! ## Rounding -/

lemma zp_pos (e : ℤ) : (0 : ℝ) < (2 : ℝ) ^ e := by positivity

/-- The error of the rounding: a half unit of the last place. -/
lemma nearest_err (f : Fmt) (x : ℝ) : |nearest f x - x| ≤ |x| / 2 ^ f.p ∨ |nearest f x - x| ≤ (2 : ℝ) ^ (f.emin - f.p) := by
  rw [nearest]
  split
  · right
    set u := (2 : ℝ) ^ (f.emin - ((f.p : ℤ) - 1)) with hu
    have hup : 0 < u := zp_pos _
    have e : (roundEven (x / u) : ℝ) * u - x = ((roundEven (x / u) : ℝ) - x / u) * u := by
      field_simp
    have h2 : u = 2 * (2 : ℝ) ^ (f.emin - f.p) := by
      rw [hu, show f.emin - ((f.p : ℤ) - 1) = f.emin - f.p + 1 by ring, zpow_add_one₀ (by norm_num)]; ring
    rw [e, abs_mul, abs_of_pos hup]
    have := mul_le_mul_of_nonneg_right (roundEven_err (x / u)) hup.le
    linarith
  · exact .inl (fl_err _ _)

lemma single_err (x : ℝ) : |nearest single x - x| ≤ |x| / 2 ^ 24 + 1 / 2 ^ 150 := by
  rcases nearest_err single x with h | h
  · refine h.trans ?_
    have : (0 : ℝ) ≤ 1 / 2 ^ 150 := by positivity
    have e : |x| / 2 ^ single.p = |x| / 2 ^ 24 := rfl
    linarith
  · refine h.trans ?_
    have e : (2 : ℝ) ^ (single.emin - single.p) = 1 / 2 ^ 150 := by
      rw [show single.emin - (single.p : ℤ) = -150 by rfl, zpow_neg, one_div]; norm_cast
    rw [e]
    have : (0 : ℝ) ≤ |x| / 2 ^ 24 := by positivity
    linarith

lemma double_err (x : ℝ) : |nearest double x - x| ≤ |x| / 2 ^ 53 + 1 / 2 ^ 1075 := by
  rcases nearest_err double x with h | h
  · refine h.trans ?_
    have : (0 : ℝ) ≤ 1 / 2 ^ 1075 := by positivity
    have e : |x| / 2 ^ double.p = |x| / 2 ^ 53 := rfl
    linarith
  · refine h.trans ?_
    have e : (2 : ℝ) ^ (double.emin - double.p) = 1 / 2 ^ 1075 := by
      rw [show double.emin - (double.p : ℤ) = -1075 by rfl, zpow_neg, one_div]; norm_cast
    rw [e]
    have : (0 : ℝ) ≤ |x| / 2 ^ 53 := by positivity
    linarith

/-- A result in range is rounded to a number. -/
lemma rnd_single (x : ℝ) (h : |x| ≤ 2 ^ 127) : rnd single (.num x) = .num (nearest single x) := by
  rw [rnd, if_neg]
  rw [not_le]
  have e := single_err x
  have t : |nearest single x| ≤ |nearest single x - x| + |x| := by
    have := abs_add_le (nearest single x - x) x
    simpa using this
  have z : (2 : ℝ) ^ single.emax = 2 ^ 128 := by
    rw [show single.emax = ((128 : ℕ) : ℤ) by rfl, zpow_natCast]
  rw [z]
  have : |x| / 2 ^ 24 ≤ 2 ^ 127 / 2 ^ 24 := by gcongr
  have k : (2 : ℝ) ^ 127 / 2 ^ 24 + 1 / 2 ^ 150 + 2 ^ 127 < 2 ^ 128 := by norm_num
  linarith

lemma rnd_double (x : ℝ) (h : |x| ≤ 2 ^ 1000) : rnd double (.num x) = .num (nearest double x) := by
  rw [rnd, if_neg]
  rw [not_le]
  have e := double_err x
  have t : |nearest double x| ≤ |nearest double x - x| + |x| := by
    have := abs_add_le (nearest double x - x) x
    simpa using this
  have z : (2 : ℝ) ^ double.emax = 2 ^ 1024 := by
    rw [show double.emax = ((1024 : ℕ) : ℤ) by rfl, zpow_natCast]
  rw [z]
  have : |x| / 2 ^ 53 ≤ 2 ^ 1000 / 2 ^ 53 := by gcongr
  have k1 : (1 : ℝ) / 2 ^ 1075 ≤ 1 := by
    rw [div_le_one (by positivity)]
    exact one_le_pow₀ (by norm_num)
  have k2 : (1 : ℝ) ≤ 2 ^ 1000 := one_le_pow₀ (by norm_num)
  have k3 : (2 : ℝ) ^ 1024 = 2 ^ 1000 * 16777216 := by
    rw [show (1024 : ℕ) = 1000 + 24 by rfl, pow_add]; norm_num
  have k4 : (2 : ℝ) ^ 1000 / 2 ^ 53 ≤ 2 ^ 1000 := div_le_self (by positivity) (by norm_num)
  rw [k3]
  generalize (2 : ℝ) ^ 1000 = P at *
  generalize (1 : ℝ) / 2 ^ 1075 = Z at *
  clear k3 z
  linarith

/-! ## Close values -/

/-- The smallest normal number of `float`. -/
noncomputable def τ : ℝ := 1 / 2 ^ 126

lemma τ_pos : 0 < τ := by rw [τ]; positivity

/-- A number close to `x` as a fraction of the size `A`: up to `k` roundings and a factor. -/
def Near (ρ : ℝ) (k : Nat) (v : Val) (x A : ℝ) : Prop := ∃ x', v = .num x' ∧ Ap (ρ * w1 ^ k) x' x A

lemma Near.one (x : ℝ) : Near 1 0 (.num x) x |x| := ⟨x, rfl, by simpa using Ap.refl x⟩

lemma w1_pos : 0 < w1 := lt_of_lt_of_le one_pos w1_ge

lemma w1_40 (k : Nat) (hk : k ≤ 40) : w1 ^ k ≤ 2 := by
  refine (pow_le_pow_right₀ w1_ge hk).trans ?_
  rw [w1]; norm_num

lemma Near.up {ρ σ : ℝ} {k l : Nat} {v : Val} {x A B : ℝ} (h : Near ρ k v x A) (hkl : k ≤ l) (hρ : 0 ≤ ρ) (hσ : ρ ≤ σ)
    (hA : A ≤ B) : Near σ l v x B := by
  obtain ⟨x', e, h⟩ := h
  refine ⟨x', e, h.mono ?_ hA⟩
  exact mul_le_mul hσ (pow_le_pow_right₀ w1_ge hkl) (by have := w1_pos; positivity) (hρ.trans hσ)

lemma Near.size {ρ : ℝ} {k : Nat} {v : Val} {x A : ℝ} (h : Near ρ k v x A) : 0 ≤ A := by
  obtain ⟨x', -, h⟩ := h
  exact h.size

lemma Near.neg {ρ : ℝ} {k : Nat} {v : Val} {x A : ℝ} (h : Near ρ k v x A) : Near ρ k (neg v) (-x) A := by
  obtain ⟨x', rfl, h⟩ := h
  exact ⟨-x', rfl, h.neg⟩

lemma Near.addE {ρ : ℝ} {k : Nat} {v w : Val} {x y A B : ℝ} (h : Near ρ k v x A) (h' : Near ρ k w y B) :
    Near ρ k (addE v w) (x + y) (A + B) := by
  obtain ⟨x', rfl, h⟩ := h
  obtain ⟨y', rfl, h'⟩ := h'
  exact ⟨x' + y', rfl, h.add h'⟩

lemma Near.mulE {ρ σ : ℝ} {k l : Nat} {v w : Val} {x y A B : ℝ} (h : Near ρ k v x A) (h' : Near σ l w y B) :
    Near (ρ * σ) (k + l) (mulE v w) (x * y) (A * B) := by
  obtain ⟨x', rfl, h⟩ := h
  obtain ⟨y', rfl, h'⟩ := h'
  refine ⟨x' * y', rfl, (h.mul h').mono (le_of_eq ?_) le_rfl⟩
  rw [pow_add]; ring

lemma Near.divE24 {ρ : ℝ} {k : Nat} {v : Val} {x A : ℝ} (h : Near ρ k v x A) :
    Near ρ k (divE v (.num 24)) (x / 24) (A / 24) := by
  obtain ⟨x', rfl, h⟩ := h
  exact ⟨x' / 24, if_neg (by norm_num), h.div24⟩

/-- One rounding, with underflow: the size grows by the smallest normal number. -/
lemma ap_rnd {R x' x A : ℝ} (h : Ap R x' x A) (hA : A ≤ 2 ^ 124) (hR : R ≤ 4) :
    ∃ x'', Special.rnd single (.num x') = .num x'' ∧ Ap (R * w1) x'' x (A + τ) := by
  have h0 := h.size
  have h1 := h.1
  have a := h.abs_le
  have hx : |x'| ≤ 2 ^ 127 := by
    refine a.trans ?_
    calc R * A ≤ 4 * 2 ^ 124 := mul_le_mul hR hA h0 (by norm_num)
      _ ≤ _ := by norm_num
  refine ⟨_, rnd_single x' hx, ?_⟩
  rw [w1]
  have hτ := τ_pos
  refine ⟨by nlinarith, ?_, h.2.2.trans (by linarith)⟩
  have e := single_err x'
  have t : |nearest single x' - x| ≤ |nearest single x' - x'| + |x' - x| := by
    have := abs_add_le (nearest single x' - x') (x' - x)
    simpa using this
  have d := h.2.1
  have k1 : |x'| / 2 ^ 24 ≤ R * A / 2 ^ 24 := by gcongr
  have k2 : (1 : ℝ) / 2 ^ 150 = τ / 2 ^ 24 := by rw [τ]; norm_num
  have k3 : 0 ≤ (R - 1) * τ := mul_nonneg (by linarith) hτ.le
  have k4 : τ / 2 ^ 24 ≤ R * τ / 2 ^ 24 := by gcongr; nlinarith
  have : (R * (1 + 1 / 2 ^ 24) - 1) * (A + τ) = (R - 1) * A + R * A / 2 ^ 24 + ((R - 1) * τ + R * τ / 2 ^ 24) := by ring
  rw [this]
  linarith

lemma Near.rnd {ρ : ℝ} {k : Nat} {v : Val} {x A : ℝ} (h : Near ρ k v x A) (hA : A ≤ 2 ^ 124) (hρ : ρ ≤ 2) (hk : k ≤ 40) :
    Near ρ (k + 1) (rnd single v) x (A + τ) := by
  obtain ⟨x', rfl, h⟩ := h
  have hw := w1_40 k hk
  have hwp : 0 < w1 ^ k := by have := w1_pos; positivity
  obtain ⟨x'', e, h'⟩ := ap_rnd h hA (by nlinarith)
  exact ⟨x'', e, h'.mono (le_of_eq (by rw [pow_succ]; ring)) le_rfl⟩

lemma Near.add {ρ : ℝ} {k : Nat} {v w : Val} {x y A B : ℝ} (h : Near ρ k v x A) (h' : Near ρ k w y B)
    (hA : A + B ≤ 2 ^ 124) (hρ : ρ ≤ 2) (hk : k ≤ 40) : Near ρ (k + 1) (add v w) (x + y) (A + B + τ) :=
  (h.addE h').rnd hA hρ hk

lemma Near.sub {ρ : ℝ} {k : Nat} {v w : Val} {x y A B : ℝ} (h : Near ρ k v x A) (h' : Near ρ k w y B)
    (hA : A + B ≤ 2 ^ 124) (hρ : ρ ≤ 2) (hk : k ≤ 40) : Near ρ (k + 1) (sub v w) (x - y) (A + B + τ) := by
  rw [sub_eq_add_neg]
  exact (h.addE h'.neg).rnd hA hρ hk

lemma Near.mul {ρ σ : ℝ} {k l : Nat} {v w : Val} {x y A B : ℝ} (h : Near ρ k v x A) (h' : Near σ l w y B)
    (hA : A * B ≤ 2 ^ 124) (hρ : ρ * σ ≤ 2) (hk : k + l ≤ 40) :
    Near (ρ * σ) (k + l + 1) (mul v w) (x * y) (A * B + τ) :=
  (h.mulE h').rnd hA hρ hk

lemma Near.av {k l : Nat} {a b v w : Val} {x y z t A B V W : ℝ} (fma : Bool) (ha : Near 1 k a x A) (hb : Near 1 k b y B)
    (hv : Near 1 l v z V) (hw : Near 1 l w t W) (hA : A * V + B * W ≤ 2 ^ 123) (hk : k + l ≤ 30) :
    Near 1 (k + l + 2) (av fma a b v w) (x * z + y * t) (A * V + B * W + 3 * τ) := by
  have h1 := ha.mulE hv
  have h2 := hb.mulE hw
  have s1 := h1.size
  have s2 := h2.size
  have hτ := τ_pos
  have hτ1 : τ ≤ 1 := by rw [τ]; norm_num
  rw [one_mul] at h1 h2
  have r1 := h1.rnd (by linarith) (by norm_num) (by omega)
  have r2 := h2.rnd (by linarith) (by norm_num) (by omega)
  have big : A * V + τ + (B * W + τ) ≤ 2 ^ 124 := by
    have : (2 : ℝ) ^ 123 + 2 ≤ 2 ^ 124 := by norm_num
    linarith
  cases fma
  · exact (r1.add r2 big (by norm_num) (by omega)).up le_rfl (by norm_num) le_rfl (by linarith)
  · have h1' := h1.up (Nat.le_succ _) (by norm_num) le_rfl (show A * V ≤ A * V + τ by linarith)
    exact ((h1'.addE r2).rnd big (by norm_num) (by omega)).up le_rfl (by norm_num) le_rfl (by linarith)

/-! ## One gaussian -/

/-- A gaussian of the kernel with finite members. -/
def ofReal (g : Float.Gauss) : Gauss := ⟨.num g.amp, .num g.xcen, .num g.ycen, .num g.fxx, .num g.fyy, .num g.fxy⟩

/-- Pixels and centres within a million pixels of the origin, amplitudes up to `2^60`, inverse covariances of ordinary
shape. -/
def InRange (g : Float.Gauss) (xp yp : ℝ) : Prop :=
  Ordinary g ∧ |xp - g.xcen| ≤ 2 ^ 21 ∧ |yp - g.ycen| ≤ 2 ^ 21 ∧ |g.amp| ≤ 2 ^ 60

/-- The exponential of the library (expf) where it is used. -/
def ExpNear (ex : Val → Val) : Prop :=
  ∀ x : ℝ, -19 ≤ x → x ≤ 1 → ∃ y, ex (.num x) = .num y ∧ |y - Real.exp x| ≤ 1 / 2 ^ 22 * Real.exp x

/-- The allowance for underflow. -/
noncomputable def η : ℝ := 1 / 2 ^ 60

lemma fxy_le (g : Float.Gauss) (h : Ordinary g) : |g.fxy| ≤ 2 := by
  obtain ⟨h1, h2, h3, h4, h5⟩ := h
  rw [← sq_abs] at h5
  have := abs_nonneg g.fxy
  by_contra hc
  push Not at hc
  nlinarith

lemma off_near (x c : ℝ) (h : |x - c| ≤ 2 ^ 21) : Near 1 1 (sub (.num x) (.num c)) (x - c) (|x - c| + τ) := by
  have : Near 1 0 (.num (x + -c)) (x - c) |x - c| := by
    rw [← sub_eq_add_neg]; exact Near.one _
  exact this.rnd (h.trans (by norm_num)) (by norm_num) (by norm_num)

/-- The sizes that occur, as functions of the offsets. -/
noncomputable def sV (f h X Y : ℝ) : ℝ := |f| * (X + τ) + |h| * (Y + τ) + 3 * τ

lemma τ_le : τ ≤ 1 / 2 ^ 100 := by rw [τ]; norm_num

lemma sV_bound (f h X Y : ℝ) (hf : |f| ≤ 4) (hh : |h| ≤ 2) (hX : 0 ≤ X) (hY : 0 ≤ Y) (hX1 : X ≤ 2 ^ 21) (hY1 : Y ≤ 2 ^ 21) :
    sV f h X Y ≤ |f| * X + |h| * Y + 9 * τ ∧ |f| * X + |h| * Y + 9 * τ ≤ 2 ^ 24 ∧ 0 ≤ sV f h X Y := by
  have hτ := τ_pos
  have hτ1 := τ_le
  have a := abs_nonneg f
  have b := abs_nonneg h
  have e1 : |f| * X ≤ 4 * 2 ^ 21 := mul_le_mul hf hX1 hX (by norm_num)
  have e2 : |h| * Y ≤ 2 * 2 ^ 21 := mul_le_mul hh hY1 hY (by norm_num)
  have e3 : |f| * τ ≤ 4 * τ := mul_le_mul_of_nonneg_right hf hτ.le
  have e4 : |h| * τ ≤ 2 * τ := mul_le_mul_of_nonneg_right hh hτ.le
  rw [sV]
  refine ⟨by linarith, ?_, by positivity⟩
  norm_num at *
  linarith

lemma v_near (fma : Bool) (f h x y : ℝ) (v w : Val) (hf : |f| ≤ 4) (hh : |h| ≤ 2) (hX1 : |x| ≤ 2 ^ 21) (hY1 : |y| ≤ 2 ^ 21)
    (hv : Near 1 1 v x (|x| + τ)) (hw : Near 1 1 w y (|y| + τ)) :
    Near 1 3 (av fma (.num f) (.num h) v w) (f * x + h * y) (sV f h |x| |y|) := by
  have b := sV_bound f h |x| |y| hf hh (abs_nonneg _) (abs_nonneg _) hX1 hY1
  refine Near.av fma (Near.one f) (Near.one h) hv hw ?_ (by norm_num)
  have hτ := τ_pos
  have : |f| * (|x| + τ) + |h| * (|y| + τ) ≤ 2 ^ 24 := by
    have := b.1.trans b.2.1
    rw [sV] at this
    linarith
  exact this.trans (by norm_num)

/-- The exponent. -/
lemma expArg_near (fma : Bool) (g : Float.Gauss) (xp yp : ℝ) (h : InRange g xp yp) :
    Near 1 6 (expArg fma (ofReal g) (.num xp) (.num yp)) (quad g (xp - g.xcen) (yp - g.ycen))
      (sizeQ g (xp - g.xcen) (yp - g.ycen) + η) := by
  obtain ⟨ho, hx, hy, -⟩ := h
  have hfxy := fxy_le g ho
  have hfxx : |g.fxx| ≤ 4 := by rw [abs_of_nonneg ho.1]; exact ho.2.1
  have hfyy : |g.fyy| ≤ 4 := by rw [abs_of_nonneg ho.2.2.1]; exact ho.2.2.2.1
  have nx := off_near xp g.xcen hx
  have ny := off_near yp g.ycen hy
  have v1 := v_near fma g.fxx g.fxy _ _ _ _ hfxx hfxy hx hy nx ny
  have v2 := v_near fma g.fyy g.fxy _ _ _ _ hfyy hfxy hy hx ny nx
  have b1 := sV_bound g.fxx g.fxy _ _ hfxx hfxy (abs_nonneg _) (abs_nonneg _) hx hy
  have b2 := sV_bound g.fyy g.fxy _ _ hfyy hfxy (abs_nonneg _) (abs_nonneg _) hy hx
  set dx := xp - g.xcen
  set dy := yp - g.ycen
  have hX := abs_nonneg dx
  have hY := abs_nonneg dy
  have hτ := τ_pos
  have hτ1 := τ_le
  set S1 := sV g.fxx g.fxy |dx| |dy|
  set S2 := sV g.fyy g.fxy |dy| |dx|
  set P1 := |g.fxx| * |dx| + |g.fxy| * |dy| with hP1
  set P2 := |g.fyy| * |dy| + |g.fxy| * |dx| with hP2
  have c1 : (|dx| + τ) * S1 ≤ (|dx| + τ) * (P1 + 9 * τ) := mul_le_mul_of_nonneg_left b1.1 (by positivity)
  have c2 : (|dy| + τ) * S2 ≤ (|dy| + τ) * (P2 + 9 * τ) := mul_le_mul_of_nonneg_left b2.1 (by positivity)
  have p1 : P1 ≤ 2 ^ 24 := by linarith [b1.2.1]
  have p2 : P2 ≤ 2 ^ 24 := by linarith [b2.2.1]
  have d1 : τ * P1 ≤ τ * 2 ^ 24 := mul_le_mul_of_nonneg_left p1 hτ.le
  have d2 : τ * P2 ≤ τ * 2 ^ 24 := mul_le_mul_of_nonneg_left p2 hτ.le
  have d3 : τ * |dx| ≤ τ * 2 ^ 21 := mul_le_mul_of_nonneg_left hx hτ.le
  have d4 : τ * |dy| ≤ τ * 2 ^ 21 := mul_le_mul_of_nonneg_left hy hτ.le
  have d5 : τ * τ ≤ τ * (1 / 2 ^ 100) := mul_le_mul_of_nonneg_left hτ1 hτ.le
  have tot : (|dx| + τ) * S1 + (|dy| + τ) * S2 + 3 * τ ≤ |dx| * P1 + |dy| * P2 + η := by
    rw [η]
    norm_num at *
    nlinarith
  have m1 : |dx| * P1 ≤ 2 ^ 21 * 2 ^ 24 := mul_le_mul hx p1 (by positivity) (by norm_num)
  have m2 : |dy| * P2 ≤ 2 ^ 21 * 2 ^ 24 := mul_le_mul hy p2 (by positivity) (by norm_num)
  have key := Near.av fma nx ny v1 v2 (by
    have : η ≤ 1 := by rw [η]; norm_num
    norm_num at *
    linarith) (by norm_num)
  have e : quad g dx dy = dx * (g.fxx * dx + g.fxy * dy) + dy * (g.fyy * dy + g.fxy * dx) := by
    rw [quad]; ring
  rw [e]
  exact key.up le_rfl (by norm_num) le_rfl tot

/-- The correction. -/
lemma hFactor_near (fma : Bool) (g : Float.Gauss) (xp yp : ℝ) (h : InRange g xp yp) :
    Near 1 12 (hFactor fma (ofReal g) (.num xp) (.num yp))
      (1 + ((g.fxx * (xp - g.xcen) + g.fxy * (yp - g.ycen)) ^ 2 + (g.fyy * (yp - g.ycen) + g.fxy * (xp - g.xcen)) ^ 2
        - g.fxx - g.fyy) / 24) (sizeH g (xp - g.xcen) (yp - g.ycen) + η) := by
  obtain ⟨ho, hx, hy, -⟩ := h
  have hfxy := fxy_le g ho
  have hfxx : |g.fxx| ≤ 4 := by rw [abs_of_nonneg ho.1]; exact ho.2.1
  have hfyy : |g.fyy| ≤ 4 := by rw [abs_of_nonneg ho.2.2.1]; exact ho.2.2.2.1
  have nx := off_near xp g.xcen hx
  have ny := off_near yp g.ycen hy
  have v1 := v_near fma g.fxx g.fxy _ _ _ _ hfxx hfxy hx hy nx ny
  have v2 := v_near fma g.fyy g.fxy _ _ _ _ hfyy hfxy hy hx ny nx
  have b1 := sV_bound g.fxx g.fxy _ _ hfxx hfxy (abs_nonneg _) (abs_nonneg _) hx hy
  have b2 := sV_bound g.fyy g.fxy _ _ hfyy hfxy (abs_nonneg _) (abs_nonneg _) hy hx
  rw [sizeH]
  set dx := xp - g.xcen
  set dy := yp - g.ycen
  have hX := abs_nonneg dx
  have hY := abs_nonneg dy
  have hτ := τ_pos
  have hτ1 := τ_le
  set S1 := sV g.fxx g.fxy |dx| |dy|
  set S2 := sV g.fyy g.fxy |dy| |dx|
  set P1 := |g.fxx| * |dx| + |g.fxy| * |dy| with hP1
  set P2 := |g.fyy| * |dy| + |g.fxy| * |dx| with hP2
  have p1 : P1 ≤ 2 ^ 24 := by linarith [b1.2.1]
  have p2 : P2 ≤ 2 ^ 24 := by linarith [b2.2.1]
  have q1 : 0 ≤ P1 := by positivity
  have q2 : 0 ≤ P2 := by positivity
  have c1 : S1 * S1 ≤ (P1 + 9 * τ) * (P1 + 9 * τ) := mul_le_mul b1.1 b1.1 b1.2.2 (by positivity)
  have c2 : S2 * S2 ≤ (P2 + 9 * τ) * (P2 + 9 * τ) := mul_le_mul b2.1 b2.1 b2.2.2 (by positivity)
  have d1 : τ * P1 ≤ τ * 2 ^ 24 := mul_le_mul_of_nonneg_left p1 hτ.le
  have d2 : τ * P2 ≤ τ * 2 ^ 24 := mul_le_mul_of_nonneg_left p2 hτ.le
  have d5 : τ * τ ≤ τ * (1 / 2 ^ 100) := mul_le_mul_of_nonneg_left hτ1 hτ.le
  have m1 : P1 * P1 ≤ 2 ^ 24 * 2 ^ 24 := mul_le_mul p1 p1 q1 (by norm_num)
  have m2 : P2 * P2 ≤ 2 ^ 24 * 2 ^ 24 := mul_le_mul p2 p2 q2 (by norm_num)
  have s1 : S1 * S1 + S2 * S2 + 3 * τ ≤ P1 * P1 + P2 * P2 + 1 / 2 ^ 70 := by
    norm_num at *
    nlinarith
  have a1 := (Near.av fma v1 v2 v1 v2 (by norm_num at *; linarith) (by norm_num)).up le_rfl (by norm_num) le_rfl s1
  have a2 := (a1.sub ((Near.one g.fxx).up (by norm_num) (by norm_num) le_rfl le_rfl) (by norm_num at *; linarith)
    (by norm_num) (by norm_num))
  have a3 := (a2.sub ((Near.one g.fyy).up (by norm_num) (by norm_num) le_rfl le_rfl) (by norm_num at *; linarith)
    (by norm_num) (by norm_num))
  have a4 := a3.divE24.rnd (by norm_num at *; linarith) (by norm_num) (by norm_num)
  have a5 := ((Near.one 1).up (by norm_num) (by norm_num) le_rfl le_rfl).add a4 (by rw [abs_one]; norm_num at *; linarith)
    (by norm_num) (by norm_num)
  have a6 := a5.up (le_refl 12) (by norm_num) le_rfl
    (show _ ≤ 1 + (P1 ^ 2 + P2 ^ 2 + |g.fxx| + |g.fyy|) / 24 + η by rw [abs_one, η]; norm_num at *; nlinarith)
  have e : ∀ a b : ℝ, a ^ 2 + b ^ 2 - g.fxx - g.fyy = a * a + b * b - g.fxx - g.fyy := by intro a b; ring
  rw [e]
  exact a6

lemma w7 : w1 ^ 7 - 1 ≤ 71 / 10 / 2 ^ 24 := by rw [w1]; norm_num

/-- What is subtracted from a pixel for a gaussian that is kept. -/
lemma kept_num3 (A Q q H : ℝ) (hA : 0 ≤ A) (hQ : 0 ≤ Q) (hQ2 : Q ≤ 37) (hq0 : 0 ≤ q)
    (hq : q ≤ 71 / 10 / 2 ^ 24 * (3 * Q + 2 * η)) (hH : H ≤ 4 / 3 + 3 / 4 * Q) (hH0 : 0 ≤ H) :
    ((1 + 1 / 2 ^ 22) * Real.exp (q / 2) * w1 ^ 14 - 1) * ((A * Real.exp (-Q / 2) + τ) * (H + η) + τ) ≤
      A / 2 ^ 18 + 1 / 2 ^ 130 := by
  have hη : η = 1 / 2 ^ 60 := rfl
  have hη0 : 0 ≤ η := by rw [hη]; positivity
  have z1 : q / 2 ≤ 1066 / 100 / 2 ^ 24 * Q + 1 / 2 ^ 80 := by
    rw [hη] at hq
    norm_num at *
    linarith
  have z2 := exp_small (q / 2) (by norm_num at *; linarith) (by linarith)
  have z3 : Real.exp (q / 2) ≤ 1 + 1068 / 100 / 2 ^ 24 * Q + 1 / 2 ^ 79 := by
    refine z2.trans ?_
    norm_num at *
    linarith
  have z4 : (1 + 1 / 2 ^ 22 : ℝ) * w1 ^ 14 ≤ 1 + 181 / 10 / 2 ^ 24 := by rw [w1]; norm_num
  have z4' : (0 : ℝ) ≤ (1 + 1 / 2 ^ 22 : ℝ) * w1 ^ 14 := by have := w1_pos; positivity
  have z5 : (1 + 1 / 2 ^ 22) * Real.exp (q / 2) * w1 ^ 14 - 1 ≤ (19 + 107 / 10 * Q) / 2 ^ 24 := by
    have := mul_le_mul z4 z3 (Real.exp_pos _).le (by norm_num)
    have e : (1 + 1 / 2 ^ 22) * Real.exp (q / 2) * w1 ^ 14 = (1 + 1 / 2 ^ 22) * w1 ^ 14 * Real.exp (q / 2) := by ring
    rw [e]
    refine (sub_le_sub_right this 1).trans ?_
    norm_num at *
    nlinarith
  have z6 : (0 : ℝ) ≤ (19 + 107 / 10 * Q) / 2 ^ 24 := by positivity
  have hp := Real.exp_pos (-Q / 2)
  have hτ := τ_pos
  have s1 : (A * Real.exp (-Q / 2) + τ) * (H + η) + τ ≤ A * Real.exp (-Q / 2) * (134 / 100 + 3 / 4 * Q) + 40 * τ := by
    have h1 : H + η ≤ 134 / 100 + 3 / 4 * Q := by rw [hη]; norm_num; linarith
    have h2 : τ * (H + η) ≤ τ * 39 := mul_le_mul_of_nonneg_left (by linarith) hτ.le
    have h3 : A * Real.exp (-Q / 2) * (H + η) ≤ A * Real.exp (-Q / 2) * (134 / 100 + 3 / 4 * Q) :=
      mul_le_mul_of_nonneg_left h1 (by positivity)
    linarith
  refine (mul_le_mul z5 s1 (add_nonneg (mul_nonneg (add_nonneg (mul_nonneg hA hp.le) hτ.le) (by linarith)) hτ.le) z6).trans ?_
  have hE := exp_quart (Q / 2) (by positivity)
  have key : (19 + 107 / 10 * Q) * (134 / 100 + 3 / 4 * Q) ≤ 64 * Real.exp (Q / 2) := by
    have : (0 : ℝ) ≤ Q ^ 3 := by positivity
    have : (0 : ℝ) ≤ Q ^ 4 := by positivity
    nlinarith [mul_nonneg hQ (sq_nonneg (Q - 1))]
  have inv : Real.exp (-Q / 2) * Real.exp (Q / 2) = 1 := by rw [← Real.exp_add]; norm_num; ring
  have k1 : Real.exp (-Q / 2) * ((19 + 107 / 10 * Q) * (134 / 100 + 3 / 4 * Q)) ≤ 64 := by
    have := mul_le_mul_of_nonneg_left key hp.le
    nlinarith
  have k2 : A / 2 ^ 24 * (Real.exp (-Q / 2) * ((19 + 107 / 10 * Q) * (134 / 100 + 3 / 4 * Q))) ≤ A / 2 ^ 24 * 64 := by
    gcongr
  have k3 : (19 + 107 / 10 * Q) / 2 ^ 24 * (40 * τ) ≤ 1 / 2 ^ 130 := by
    have : (19 + 107 / 10 * Q) / 2 ^ 24 ≤ 416 / 2 ^ 24 := by gcongr; linarith
    calc (19 + 107 / 10 * Q) / 2 ^ 24 * (40 * τ) ≤ 416 / 2 ^ 24 * (40 * τ) := mul_le_mul_of_nonneg_right this (by linarith)
      _ ≤ _ := by rw [τ]; norm_num
  have e : (19 + 107 / 10 * Q) / 2 ^ 24 * (A * Real.exp (-Q / 2) * (134 / 100 + 3 / 4 * Q) + 40 * τ) =
      A / 2 ^ 24 * (Real.exp (-Q / 2) * ((19 + 107 / 10 * Q) * (134 / 100 + 3 / 4 * Q))) +
      (19 + 107 / 10 * Q) / 2 ^ 24 * (40 * τ) := by ring
  rw [e]
  have e2 : A / 2 ^ 24 * 64 = A / 2 ^ 18 := by ring
  linarith

/-- C154 (range, one gaussian): for a gaussian in range what is subtracted from a finite residual is a number, the value of
the gaussian up to `2^-18` of the amplitude, also where numbers underflow. -/
theorem C154_value (fma : Bool) (ex : Val → Val) (hex : ExpNear ex) (g : Float.Gauss) (xp yp : ℝ) (h : InRange g xp yp)
    (r : ℝ) :
    ∃ C, |C - g.amp * Real.exp (-(g.fxx * (xp - g.xcen) ^ 2 + 2 * g.fxy * (xp - g.xcen) * (yp - g.ycen) +
            g.fyy * (yp - g.ycen) ^ 2) / 2) *
          (1 + ((g.fxx * (xp - g.xcen) + g.fxy * (yp - g.ycen)) ^ 2 + (g.fyy * (yp - g.ycen) + g.fxy * (xp - g.xcen)) ^ 2
            - g.fxx - g.fyy) / 24)| ≤ |g.amp| / 2 ^ 18 + 1 / 2 ^ 130 ∧
      (subOne fma ex (.num xp) (.num yp) (.num r) (ofReal g) = rnd single (.num (r - C)) ∨
        C = 0 ∧ subOne fma ex (.num xp) (.num yp) (.num r) (ofReal g) = .num r) := by
  have hO := h.1
  obtain ⟨E', hE', hap⟩ := expArg_near fma g xp yp h
  rw [one_mul] at hap
  have hs := sizeQ_le g hO (xp - g.xcen) (yp - g.ycen)
  have hs0 : 0 ≤ sizeQ g (xp - g.xcen) (yp - g.ycen) := by rw [sizeQ]; positivity
  have hH := sizeH_le g hO (xp - g.xcen) (yp - g.ycen)
  have hH0 : 0 ≤ sizeH g (xp - g.xcen) (yp - g.ycen) := by rw [sizeH]; positivity
  have hn := quad_nonneg g hO (xp - g.xcen) (yp - g.ycen)
  have hHn := hFactor_near fma g xp yp h
  have hη : η = 1 / 2 ^ 60 := rfl
  have hη0 : 0 ≤ η := by rw [hη]; positivity
  change ∃ C, |C - g.amp * Real.exp (-quad g (xp - g.xcen) (yp - g.ycen) / 2) * _| ≤ _ ∧ _
  have hv : g.amp * Real.exp (-quad g (xp - g.xcen) (yp - g.ycen) / 2) *
      (1 + ((g.fxx * (xp - g.xcen) + g.fxy * (yp - g.ycen)) ^ 2 + (g.fyy * (yp - g.ycen) + g.fxy * (xp - g.xcen)) ^ 2
            - g.fxx - g.fyy) / 24) = value g (xp - g.xcen) (yp - g.ycen) := rfl
  set Q := quad g (xp - g.xcen) (yp - g.ycen)
  set S := sizeQ g (xp - g.xcen) (yp - g.ycen)
  set HS := sizeH g (xp - g.xcen) (yp - g.ycen)
  have hcut : |E' - Q| ≤ 61 / 10 / 2 ^ 24 * (3 * Q + η) := by
    refine hap.2.1.trans ?_
    exact mul_le_mul w6 (by linarith) (by linarith) (by norm_num)
  have hcut' := abs_le.1 hcut
  rw [subOne, hE']
  by_cases hk : 36 < E'
  · rw [if_pos (by simpa [above] using hk)]
    refine ⟨0, ?_, .inr ⟨rfl, rfl⟩⟩
    have hQ : 359 / 10 ≤ Q := by rw [hη] at hcut'; norm_num at *; linarith
    have h3 := (C135_general fma Real.exp g xp yp 0 le_rfl (by simp)).2.2.1
    rw [zero_sub, abs_neg, hv]
    refine h3.trans ((skipped_num _ _ _ (abs_nonneg _) hQ hH).trans ?_)
    have := abs_nonneg g.amp
    have : |g.amp| / 2 ^ 20 ≤ |g.amp| / 2 ^ 18 := by gcongr <;> norm_num
    have : (0 : ℝ) ≤ 1 / 2 ^ 130 := by positivity
    linarith
  · rw [if_neg (by simpa [above] using hk)]
    push Not at hk
    have hQ : Q ≤ 37 := by rw [hη] at hcut'; norm_num at *; linarith
    have hE2 : -1 ≤ E' := by rw [hη] at hcut'; norm_num at *; linarith
    -- the half of the exponent
    have nE : Near 1 6 (.num E') Q (S + η) := ⟨E', rfl, by rwa [one_mul]⟩
    have nh := (Near.one (-(1 / 2))).mul nE (by
      rw [abs_neg, abs_of_pos (by norm_num)]; rw [hη]; norm_num; linarith) (by norm_num) (by norm_num)
    obtain ⟨m, hm, hmap⟩ := nh
    norm_num at hmap
    have hτ := τ_pos
    have hτ1 := τ_le
    have hq0 : |m - -(Q / 2)| ≤ (w1 ^ 7 - 1) * (1 / 2 * (S + η) + τ) := by
      have := hmap.2.1
      rw [show -(Q / 2) = -(1 / 2 * Q) by ring]
      norm_num at this ⊢
      exact this
    have hw7 : 0 ≤ w1 ^ 7 - 1 := by have := one_le_pow₀ (n := 7) w1_ge; linarith
    have hq1 : |-2 * m - Q| ≤ (w1 ^ 7 - 1) * (S + 2 * η) := by
      have e : -2 * m - Q = -2 * (m - -(Q / 2)) := by ring
      rw [e, abs_mul, abs_neg, abs_two]
      have : (w1 ^ 7 - 1) * (1 / 2 * (S + η) + τ) ≤ (w1 ^ 7 - 1) * (1 / 2 * (S + 2 * η)) := by
        apply mul_le_mul_of_nonneg_left _ hw7
        rw [hη]; norm_num at *; linarith
      linarith
    set q := (w1 ^ 7 - 1) * (S + 2 * η) with hqd
    have hq2 : q ≤ 71 / 10 / 2 ^ 24 * (3 * Q + 2 * η) := mul_le_mul w7 (by linarith) (by linarith) (by norm_num)
    have hq3 : 0 ≤ q := (abs_nonneg _).trans hq1
    have hq4 := abs_le.1 hq1
    have hq5 : q ≤ 1 / 2 ^ 10 := by rw [hη] at hq2; norm_num at *; linarith
    obtain ⟨y, hy, hye⟩ := hex m (by norm_num at hq5; linarith) (by norm_num at hq5; linarith)
    have hexp := exp_ap (-2 * m) Q q (1 / 2 ^ 22) y hq1 (by norm_num) (by
      rw [show -(1 / 2) * (-2 * m) = m by ring]; exact hye)
    set ρ := (1 + 1 / 2 ^ 22) * Real.exp (q / 2) with hρ
    have hρ2 : ρ ≤ 2 := by
      have := exp_small (q / 2) (by linarith) (by linarith)
      norm_num at *
      nlinarith
    have ny : Near ρ 0 (.num y) (Real.exp (-Q / 2)) (Real.exp (-Q / 2)) := ⟨y, rfl, by simpa using hexp⟩
    have hp := Real.exp_pos (-Q / 2)
    have hp1 : Real.exp (-Q / 2) ≤ 1 := Real.exp_le_one_iff.2 (by linarith)
    have hamp := h.2.2.2
    have ha0 := abs_nonneg g.amp
    have hAE : |g.amp| * Real.exp (-Q / 2) ≤ 2 ^ 60 :=
      (mul_le_mul hamp hp1 hp.le (by norm_num)).trans (by norm_num)
    have nG := (Near.one g.amp).mul ny (hAE.trans (by norm_num)) (by rw [one_mul]; exact hρ2) (by norm_num)
    rw [one_mul] at nG
    have hGf : gFactor fma ex (ofReal g) (.num xp) (.num yp) = mul (.num g.amp) (.num y) := by
      rw [gFactor, hE', hm, hy]; rfl
    rw [← hGf] at nG
    have hHS : HS + η ≤ 32 := by rw [hη]; norm_num; linarith
    have hGH : (|g.amp| * Real.exp (-Q / 2) + τ) * (HS + η) ≤ 2 ^ 61 * 32 :=
      mul_le_mul (by norm_num at *; linarith) hHS (by linarith) (by norm_num)
    have nGH := nG.mulE hHn
    rw [mul_one] at nGH
    replace nGH : Near ρ 13 _ _ _ := nGH
    have num := kept_num3 |g.amp| Q q HS ha0 hn hQ hq3 hq2 hH hH0
    rw [← hρ] at num
    cases fma
    · rw [if_neg (by simp)]
      obtain ⟨C, hC, hCa⟩ := nGH.rnd (hGH.trans (by norm_num)) hρ2 (by norm_num)
      refine ⟨C, ?_, .inl ?_⟩
      · exact hCa.2.1.trans num
      · change sub (.num r) (rnd single (mulE _ _)) = _
        rw [hC]; rw [sub, neg, addE, sub_eq_add_neg]
    · rw [if_pos rfl]
      obtain ⟨C, hC, hCa⟩ := nGH
      obtain ⟨G, hG, -⟩ := nG
      obtain ⟨H, hH', -⟩ := hHn
      rw [hG, hH'] at hC
      have hC' : G * H = C := by
        have : Val.num (G * H) = .num C := hC
        exact Val.num.inj this
      refine ⟨C, ?_, .inl ?_⟩
      · refine hCa.2.1.trans (le_trans ?_ num)
        have k1 : ρ * w1 ^ 13 ≤ ρ * w1 ^ 14 := by
          have := w1_ge
          have : w1 ^ 13 ≤ w1 ^ 14 := pow_le_pow_right₀ w1_ge (by norm_num)
          have : 0 ≤ ρ := by rw [hρ]; positivity
          gcongr
        have k2 : 1 ≤ ρ * w1 ^ 13 := hCa.1
        exact mul_le_mul (by linarith) (by linarith) hCa.size (by linarith)
      · rw [hG, hH', fmadd, neg, mulE, addE, ← hC', neg_mul, neg_add_eq_sub]

/-! ## A pixel -/

lemma w1_big (k : Nat) (hk : k ≤ 2 ^ 24) : w1 ^ k ≤ 3 := by
  have h1 : w1 ≤ Real.exp (1 / 2 ^ 24) := by
    rw [w1]; have := Real.add_one_le_exp (1 / 2 ^ 24 : ℝ); linarith
  have h2 : w1 ^ k ≤ Real.exp (1 / 2 ^ 24) ^ k := pow_le_pow_left₀ w1_pos.le h1 k
  refine h2.trans ?_
  rw [← Real.exp_nat_mul]
  have h3 : (k : ℝ) * (1 / 2 ^ 24) ≤ 1 := by
    have : (k : ℝ) ≤ 2 ^ 24 := by exact_mod_cast hk
    rw [mul_one_div, div_le_one (by norm_num)]
    exact this
  have := Real.exp_le_exp.2 h3
  have := Real.exp_one_lt_d9
  linarith

/-- The value of a gaussian in a pixel is at most three halves of its amplitude. -/
lemma value_le (g : Float.Gauss) (h : Ordinary g) (xp yp : ℝ) :
    |value g (xp - g.xcen) (yp - g.ycen)| ≤ 3 / 2 * |g.amp| := by
  have h3 := (C135_general false Real.exp g xp yp 0 le_rfl (by simp)).2.2.1
  have hH := sizeH_le g h (xp - g.xcen) (yp - g.ycen)
  have hn := quad_nonneg g h (xp - g.xcen) (yp - g.ycen)
  refine h3.trans ?_
  set Q := quad g (xp - g.xcen) (yp - g.ycen)
  have hp := Real.exp_pos (-Q / 2)
  have he : 1 + Q / 2 ≤ Real.exp (Q / 2) := by have := Real.add_one_le_exp (Q / 2); linarith
  have inv : Real.exp (-Q / 2) * Real.exp (Q / 2) = 1 := by rw [← Real.exp_add]; norm_num; ring
  have : Real.exp (-Q / 2) * (4 / 3 + 3 / 4 * Q) ≤ 3 / 2 := by
    have := mul_le_mul_of_nonneg_left he hp.le
    nlinarith
  have ha := abs_nonneg g.amp
  calc |g.amp| * Real.exp (-Q / 2) * sizeH g (xp - g.xcen) (yp - g.ycen) ≤
      |g.amp| * Real.exp (-Q / 2) * (4 / 3 + 3 / 4 * Q) := by gcongr
    _ = |g.amp| * (Real.exp (-Q / 2) * (4 / 3 + 3 / 4 * Q)) := by ring
    _ ≤ |g.amp| * (3 / 2) := by gcongr
    _ = _ := by ring

lemma range_fold (fma : Bool) (ex : Val → Val) (hex : ExpNear ex) (xp yp : ℝ) (gs : List Float.Gauss)
    (h : ∀ g ∈ gs, InRange g xp yp) (k : Nat) (hk : k + gs.length ≤ 2 ^ 24) (r e V : ℝ) (hr : Ap (w1 ^ k) r e V)
    (hV : V + (gs.map fun g => 2 * |g.amp| + 2).sum ≤ 2 ^ 124) :
    ∃ R T Z, residual fma ex (gs.map ofReal) (.num xp) (.num yp) (.num r) = .num R ∧
      Ap (w1 ^ (k + gs.length)) R (e - T) (V + Z) ∧
      |T - (gs.map fun g => value g (xp - g.xcen) (yp - g.ycen)).sum| ≤ (gs.map fun g => |g.amp| / 2 ^ 18 + 1 / 2 ^ 130).sum ∧
      Z ≤ (gs.map fun g => |value g (xp - g.xcen) (yp - g.ycen)| + |g.amp| / 2 ^ 18 + 1 / 2 ^ 125).sum := by
  induction gs generalizing k r e V with
  | nil => exact ⟨r, 0, 0, rfl, by simpa using hr, by simp, by simp⟩
  | cons g gs ih =>
    have hg := h g (by simp)
    obtain ⟨C, hC, hs⟩ := C154_value fma ex hex g xp yp hg r
    change |C - value g (xp - g.xcen) (yp - g.ycen)| ≤ _ at hC
    have hval := value_le g hg.1 xp yp
    have ha := abs_nonneg g.amp
    have hτ := τ_pos
    have hτe : τ + 1 / 2 ^ 130 ≤ 1 / 2 ^ 125 := by rw [τ]; norm_num
    have hCa : |C| ≤ |value g (xp - g.xcen) (yp - g.ycen)| + |g.amp| / 2 ^ 18 + 1 / 2 ^ 130 := by
      have := abs_add_le (C - value g (xp - g.xcen) (yp - g.ycen)) (value g (xp - g.xcen) (yp - g.ycen))
      rw [sub_add_cancel] at this
      linarith
    have hC2 : |C| + τ ≤ 2 * |g.amp| + 2 := by
      have : (1 : ℝ) / 2 ^ 125 ≤ 1 := by norm_num
      linarith
    rw [List.map_cons, List.sum_cons] at hV
    rw [List.length_cons] at hk
    have hpos : 0 ≤ (gs.map fun g => 2 * |g.amp| + 2).sum :=
      List.sum_nonneg (by simp only [List.mem_map]; rintro _ ⟨x, -, rfl⟩; positivity)
    have hw := w1_ge
    have hV0 := hr.size
    obtain ⟨r', hr', hstep⟩ : ∃ r', subOne fma ex (.num xp) (.num yp) (.num r) (ofReal g) = .num r' ∧
        Ap (w1 ^ (k + 1)) r' (e - C) (V + |C| + τ) := by
      rcases hs with hs | ⟨hC0, hs⟩
      · have hsub := hr.sub ((Ap.refl C).mono (one_le_pow₀ hw) le_rfl)
        obtain ⟨x'', e1, e2⟩ := ap_rnd hsub (by linarith) ((w1_big k (by omega)).trans (by norm_num))
        exact ⟨x'', hs.trans e1, e2.mono (le_of_eq (by rw [pow_succ])) le_rfl⟩
      · refine ⟨r, hs, ?_⟩
        rw [hC0]
        exact (show Ap (w1 ^ k) r (e - 0) (V + |0|) by simpa using hr).mono (pow_le_pow_right₀ hw (by omega)) (by linarith)
    obtain ⟨R, T, Z, h1, h2, h3, h4⟩ := ih (fun x hx => h x (by simp [hx])) (k + 1) (by omega) r' _ _ hstep (by linarith)
    refine ⟨R, C + T, |C| + τ + Z, ?_, ?_, ?_, ?_⟩
    · rw [List.map_cons, residual, List.foldl_cons, hr']
      exact h1
    · have e1 : e - (C + T) = e - C - T := by ring
      have e2 : V + (|C| + τ + Z) = V + |C| + τ + Z := by ring
      rw [e1, e2, List.length_cons, show k + (gs.length + 1) = k + 1 + gs.length by omega]
      exact h2
    · rw [List.map_cons, List.sum_cons, List.map_cons, List.sum_cons]
      exact add_close hC h3
    · rw [List.map_cons, List.sum_cons]
      linarith

/-- C154 (range): if the gaussians have ordinary shapes and amplitudes up to `2^60`, the pixel lies within two million
pixels of them, there are at most 16 million of them and the data and amplitudes add up to no more than `2^120`, then the
residual is a finite number: the data less the values of the gaussians, up to `2^-18` of the amplitudes, one rounding of
the sum per gaussian and a number far below what `float` resolves. -/
theorem C154_range (fma : Bool) (ex : Val → Val) (hex : ExpNear ex) (xp yp data : ℝ) (gs : List Float.Gauss)
    (h : ∀ g ∈ gs, (0 ≤ g.fxx ∧ g.fxx ≤ 4 ∧ 0 ≤ g.fyy ∧ g.fyy ≤ 4 ∧ 4 * g.fxy ^ 2 ≤ g.fxx * g.fyy) ∧
      |xp - g.xcen| ≤ 2 ^ 21 ∧ |yp - g.ycen| ≤ 2 ^ 21 ∧ |g.amp| ≤ 2 ^ 60)
    (hn : gs.length ≤ 2 ^ 24) (hs : |data| + 2 * (gs.map fun g => |g.amp|).sum ≤ 2 ^ 120) :
    ∃ R, residual fma ex (gs.map ofReal) (.num xp) (.num yp) (.num data) = .num R ∧ |R| ≤ 2 ^ 122 ∧
      |R - (data - (gs.map fun g => value g (xp - g.xcen) (yp - g.ycen)).sum)| ≤
        (gs.map fun g => |g.amp| / 2 ^ 18 + 1 / 2 ^ 130).sum + ((1 + 1 / 2 ^ 24) ^ gs.length - 1) *
          (|data| + (gs.map fun g => |value g (xp - g.xcen) (yp - g.ycen)| + |g.amp| / 2 ^ 18 + 1 / 2 ^ 125).sum) := by
  have e2 : (gs.map fun g => 2 * |g.amp| + 2).sum = 2 * (gs.map fun g => |g.amp|).sum + 2 * gs.length := by
    clear h hn hs
    induction gs with
    | nil => simp
    | cons g gs ih => simp only [List.map_cons, List.sum_cons, ih, List.length_cons]; push_cast; ring
  have hn' : (gs.length : ℝ) ≤ 16777216 := by exact_mod_cast hn
  obtain ⟨R, T, Z, h1, h2, h3, h4⟩ := range_fold fma ex hex xp yp gs h 0 (by omega) data data |data|
    (by simpa using Ap.refl data) (by rw [e2]; norm_num at hs ⊢; linarith)
  rw [zero_add] at h2
  have hZ : Z ≤ (gs.map fun g => 2 * |g.amp| + 2).sum := by
    refine h4.trans (List.sum_le_sum fun g hg => ?_)
    have := value_le g (h g hg).1 xp yp
    have := abs_nonneg g.amp
    have : (1 : ℝ) / 2 ^ 125 ≤ 1 := by norm_num
    linarith
  refine ⟨R, h1, ?_, ?_⟩
  · have := h2.abs_le
    have h0 := h2.size
    have : w1 ^ gs.length * (|data| + Z) ≤ 3 * (|data| + Z) := mul_le_mul_of_nonneg_right (w1_big _ hn) h0
    rw [e2] at hZ
    norm_num at hs ⊢
    linarith
  · have h5 := h2.2.1
    have hw : (0 : ℝ) ≤ w1 ^ gs.length - 1 := sub_nonneg.2 h2.1
    have h6 : (w1 ^ gs.length - 1) * (|data| + Z) ≤ (w1 ^ gs.length - 1) *
        (|data| + (gs.map fun g => |value g (xp - g.xcen) (yp - g.ycen)| + |g.amp| / 2 ^ 18 + 1 / 2 ^ 125).sum) :=
      mul_le_mul_of_nonneg_left (by linarith) hw
    have t := abs_add_le (R - (data - T)) ((gs.map fun g => value g (xp - g.xcen) (yp - g.ycen)).sum - T)
    rw [abs_sub_comm _ T] at t
    rw [← w1]
    refine (le_of_eq ?_).trans (t.trans (by linarith))
    congr 1
    ring

/-! ## Chi-square -/

lemma double_abs (x B : ℝ) (h : |x| ≤ B) (hB : B ≤ 2 ^ 1000) :
    ∃ y, rnd double (.num x) = .num y ∧ |y| ≤ B + B / 2 ^ 53 + 1 := by
  refine ⟨_, rnd_double x (h.trans hB), ?_⟩
  have e := double_err x
  have t : |nearest double x| ≤ |nearest double x - x| + |x| := by
    have := abs_add_le (nearest double x - x) x
    simpa using this
  have k1 : (1 : ℝ) / 2 ^ 1075 ≤ 1 := by
    rw [div_le_one (by positivity)]
    exact one_le_pow₀ (by norm_num)
  have k2 : |x| / 2 ^ 53 ≤ B / 2 ^ 53 := by gcongr
  generalize (1 : ℝ) / 2 ^ 1075 = Z at *
  clear hB
  linarith

lemma big1000 : (2 : ℝ) ^ 250 * 2 ^ 250 ≤ 2 ^ 1000 := by
  rw [← pow_add]
  exact pow_le_pow_right₀ (by norm_num) (by norm_num)

lemma chi2_bound (r d i : ℝ) (hr : |r * i| ≤ 2 ^ 122) (hd : |d * i| ≤ 2 ^ 122) :
    ∃ c, chi2 (.num r) (.num d) (.num i) = .num c ∧ |c| ≤ 2 ^ 250 := by
  have hs : ∀ x : ℝ, |x| ≤ 2 ^ 122 → ∃ y, rnd single (.num x) = .num y ∧ |y| ≤ 2 ^ 123 := by
    intro x hx
    refine ⟨_, rnd_single x (hx.trans (by norm_num)), ?_⟩
    have e := single_err x
    have t : |nearest single x| ≤ |nearest single x - x| + |x| := by
      have := abs_add_le (nearest single x - x) x
      simpa using this
    norm_num at *
    linarith
  obtain ⟨a, ha, ha'⟩ := hs _ hr
  obtain ⟨b, hb, hb'⟩ := hs _ hd
  have hbig := big1000
  have le250 : (2 : ℝ) ^ 250 ≤ 2 ^ 1000 := pow_le_pow_right₀ (by norm_num) (by norm_num)
  have d1 : |a + -b| ≤ 2 ^ 124 := by
    have := abs_add_le a (-b)
    rw [abs_neg] at this
    norm_num at *
    linarith
  have d2 : |a + b| ≤ 2 ^ 124 := by
    have := abs_add_le a b
    norm_num at *
    linarith
  obtain ⟨u, hu, hu'⟩ := double_abs _ _ d1 (le_trans (by norm_num) le250)
  obtain ⟨v, hv, hv'⟩ := double_abs _ _ d2 (le_trans (by norm_num) le250)
  have huv : |u * v| ≤ 2 ^ 249 := by
    rw [abs_mul]
    calc |u| * |v| ≤ (2 ^ 124 + 2 ^ 124 / 2 ^ 53 + 1) * (2 ^ 124 + 2 ^ 124 / 2 ^ 53 + 1) :=
          mul_le_mul hu' hv' (abs_nonneg _) (by positivity)
      _ ≤ _ := by norm_num
  obtain ⟨c, hc, hc'⟩ := double_abs _ _ huv (le_trans (by norm_num) le250)
  refine ⟨c, ?_, hc'.trans (by norm_num)⟩
  change rnd double (mulE (rnd double (addE (rnd single (.num (r * i))) (neg (rnd single (.num (d * i))))))
    (rnd double (addE (rnd single (.num (r * i))) (rnd single (.num (d * i)))))) = _
  rw [ha, hb]
  change rnd double (mulE (rnd double (.num (a + -b))) (rnd double (.num (a + b)))) = _
  rw [hu, hv]
  exact hc

lemma sum_bound (f : Pixel → Val) (ps : List Pixel) (h : ∀ p ∈ ps, ∃ c, f p = .num c ∧ |c| ≤ 2 ^ 250) (k : Nat)
    (hk : k + ps.length ≤ 2 ^ 40) (c : ℝ) (hc : |c| ≤ k * 2 ^ 252) :
    ∃ C, ps.foldl (fun c p => rnd double (addE c (f p))) (.num c) = .num C := by
  induction ps generalizing k c with
  | nil => exact ⟨c, rfl⟩
  | cons p ps ih =>
    rw [List.length_cons] at hk
    obtain ⟨d, hd, hd'⟩ := h p (by simp)
    have hk' : (k : ℝ) ≤ 2 ^ 40 := by exact_mod_cast (by omega : k ≤ 2 ^ 40)
    have hB : |c + d| ≤ k * 2 ^ 252 + 2 ^ 250 := (abs_add_le c d).trans (add_le_add hc hd')
    have hk2 : (k : ℝ) * 2 ^ 252 ≤ 2 ^ 40 * 2 ^ 252 := by gcongr
    obtain ⟨e, he, he'⟩ := double_abs _ _ hB (by
      refine le_trans ?_ big1000
      generalize (k : ℝ) * 2 ^ 252 = W at *
      have : (2 : ℝ) ^ 40 * 2 ^ 252 + 2 ^ 250 ≤ 2 ^ 250 * 2 ^ 250 := by norm_num
      linarith)
    rw [List.foldl_cons, hd]
    change ∃ C, ps.foldl _ (rnd double (.num (c + d))) = _
    rw [he]
    refine ih (fun p hp => h p (by simp [hp])) (k + 1) (by omega) e (he'.trans ?_)
    push_cast
    generalize hW : (k : ℝ) * 2 ^ 252 = W at *
    rw [add_mul, hW]
    have : (2 : ℝ) ^ 250 + (2 ^ 40 * 2 ^ 252 + 2 ^ 250) / 2 ^ 53 + 1 ≤ 1 * 2 ^ 252 := by norm_num
    have : (W + 2 ^ 250) / 2 ^ 53 ≤ (2 ^ 40 * 2 ^ 252 + 2 ^ 250) / 2 ^ 53 := by gcongr
    linarith

/-- C154 (finite): with sources, pixels and weights in range, chi-square is a finite number.  So a chi-square that is
not a number or infinite always means that something was not a number, infinite or out of range. -/
theorem C154_finite (fma : Bool) (ex : Val → Val) (hex : ExpNear ex) (gs : List Float.Gauss) (ps : List (ℝ × ℝ × ℝ × ℝ))
    (h : ∀ p ∈ ps, ∀ g ∈ gs, (0 ≤ g.fxx ∧ g.fxx ≤ 4 ∧ 0 ≤ g.fyy ∧ g.fyy ≤ 4 ∧ 4 * g.fxy ^ 2 ≤ g.fxx * g.fyy) ∧
      |p.1 - g.xcen| ≤ 2 ^ 21 ∧ |p.2.1 - g.ycen| ≤ 2 ^ 21 ∧ |g.amp| ≤ 2 ^ 60)
    (hn : gs.length ≤ 2 ^ 24) (hp : ps.length ≤ 2 ^ 40)
    (hs : ∀ p ∈ ps, |p.2.2.1| + 2 * (gs.map fun g => |g.amp|).sum ≤ 2 ^ 80) (hw : ∀ p ∈ ps, |p.2.2.2| ≤ 2 ^ 40) :
    ∃ C : ℝ, total fma ex (gs.map ofReal)
      (ps.map fun p => ⟨.num p.1, .num p.2.1, .num p.2.2.1, .num p.2.2.2⟩) = .num C := by
  refine sum_bound (fun p => chi2 (residual fma ex (gs.map ofReal) p.x p.y p.data) p.data p.ierr) _ ?_ 0
    (by rw [List.length_map]; omega) 0 (by simp)
  intro p hp
  obtain ⟨q, hq, rfl⟩ := List.mem_map.1 hp
  have hsum : 0 ≤ (gs.map fun g => |g.amp|).sum :=
    List.sum_nonneg (by simp only [List.mem_map]; rintro _ ⟨x, -, rfl⟩; positivity)
  have hsq := hs q hq
  obtain ⟨R, hR, -, hR'⟩ := C154_range fma ex hex q.1 q.2.1 q.2.2.1 gs (h q hq) hn
    (hsq.trans (by norm_num))
  have e1 : ∀ c : ℝ, (gs.map fun g => |g.amp| / 2 ^ 18 + c).sum = (gs.map fun g => |g.amp|).sum / 2 ^ 18 + gs.length * c := by
    intro c
    clear h hn hs hsum hsq hR hR'
    induction gs with
    | nil => simp
    | cons g gs ih => simp only [List.map_cons, List.sum_cons, ih, List.length_cons]; push_cast; ring
  have hv : ∀ l : List Float.Gauss, (∀ g ∈ l, Ordinary g) →
      |(l.map fun g => value g (q.1 - g.xcen) (q.2.1 - g.ycen)).sum| ≤ 2 * (l.map fun g => |g.amp|).sum ∧
      (l.map fun g => |value g (q.1 - g.xcen) (q.2.1 - g.ycen)| + |g.amp| / 2 ^ 18 + 1 / 2 ^ 125).sum ≤
        2 * (l.map fun g => |g.amp|).sum + l.length := by
    intro l hl
    induction l with
    | nil => simp
    | cons g l ih =>
      have := ih fun g hg => hl g (by simp [hg])
      have a := value_le g (hl g (by simp)) q.1 q.2.1
      have b := abs_nonneg g.amp
      have c := abs_add_le (value g (q.1 - g.xcen) (q.2.1 - g.ycen))
        (l.map fun g => value g (q.1 - g.xcen) (q.2.1 - g.ycen)).sum
      have z : (1 : ℝ) / 2 ^ 125 ≤ 1 := by norm_num
      simp only [List.map_cons, List.sum_cons, List.length_cons]
      push_cast
      constructor
      · linarith [this.1]
      · linarith [this.2]
  have hv' := hv gs fun g hg => (h q hq g hg).1
  have hnr : (gs.length : ℝ) ≤ 16777216 := by exact_mod_cast hn
  have hw3 := w1_big gs.length hn
  rw [w1] at hw3
  have hw1 : (1 : ℝ) ≤ (1 + 1 / 2 ^ 24) ^ gs.length := one_le_pow₀ (by norm_num)
  rw [e1] at hR'
  have d0 := abs_nonneg q.2.2.1
  set W := (1 + 1 / 2 ^ 24 : ℝ) ^ gs.length
  set D := |q.2.2.1|
  set A := (gs.map fun g => |g.amp|).sum
  set V := (gs.map fun g => value g (q.1 - g.xcen) (q.2.1 - g.ycen)).sum
  set Y := (gs.map fun g => |value g (q.1 - g.xcen) (q.2.1 - g.ycen)| + |g.amp| / 2 ^ 18 + 1 / 2 ^ 125).sum
  have hRb : |R| ≤ 2 ^ 82 := by
    have t1 := abs_add_le (R - (q.2.2.1 - V)) (q.2.2.1 - V)
    rw [sub_add_cancel] at t1
    have t2 := abs_sub q.2.2.1 V
    have t3 : (W - 1) * (D + Y) ≤ 2 * (D + (2 * A + gs.length)) := by
      refine (mul_le_mul_of_nonneg_left (show D + Y ≤ D + (2 * A + gs.length) by linarith [hv'.2]) (by linarith)).trans ?_
      exact mul_le_mul_of_nonneg_right (by linarith) (by positivity)
    have t4 := hv'.1
    norm_num at hsq hR' ⊢
    linarith
  have hi := hw q hq
  have c1 : |R * q.2.2.2| ≤ 2 ^ 122 := by
    rw [abs_mul]
    exact (mul_le_mul hRb hi (abs_nonneg _) (by norm_num)).trans (by norm_num)
  have c2 : |q.2.2.1 * q.2.2.2| ≤ 2 ^ 122 := by
    rw [abs_mul]
    exact (mul_le_mul (show D ≤ 2 ^ 80 by linarith) hi (abs_nonneg _) (by norm_num)).trans (by norm_num)
  obtain ⟨c, hc, hc'⟩ := chi2_bound R q.2.2.1 q.2.2.2 c1 c2
  exact ⟨c, by rw [← hc, ← hR], hc'⟩

end Forcepho.Float.Special
