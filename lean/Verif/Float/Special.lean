import Verif.Float.Build

/-! # C154: values that are not numbers

The loop over the gaussians of a pixel, the contribution of a pixel to chi-square and the making of a gaussian in IEEE
arithmetic with infinities, values that are not numbers, overflow and gradual underflow
(forcepho/src/common_kernel.cc, compute_gaussians_kernel.cc, matrix22.cc).  `C135` and `C138` describe the same functions
for numbers that stay in range.  The sign of zero is left out: a number divided by zero gets its own sign. -/

set_option autoImplicit false

namespace Forcepho.Float.Special

/-! ## Arithmetic -/

/-- A value of a floating-point type. -/
inductive Val where
  | nan
  | inf (neg : Bool)
  | num (x : ℝ)

/-- A binary format: bits of the significand, exponents of the smallest normal number and of the overflow. -/
structure Fmt where
  p : Nat
  emin : ℤ
  emax : ℤ

/-- `float`. -/
def single : Fmt := ⟨24, -126, 128⟩

/-- `double`. -/
def double : Fmt := ⟨53, -1022, 1024⟩

/-- The nearest number of the format, without overflow: numbers below the smallest normal one are multiples of the
smallest positive one. -/
noncomputable def nearest (f : Fmt) (x : ℝ) : ℝ :=
  if |x| < (2 : ℝ) ^ f.emin then
    roundEven (x / (2 : ℝ) ^ (f.emin - ((f.p : ℤ) - 1))) * (2 : ℝ) ^ (f.emin - ((f.p : ℤ) - 1))
  else fl f.p x

/-- Rounding of an exact result. -/
noncomputable def rnd (f : Fmt) : Val → Val
  | .nan => .nan
  | .inf s => .inf s
  | .num x => if (2 : ℝ) ^ f.emax ≤ |nearest f x| then .inf (decide (x < 0)) else .num (nearest f x)

/-- Change of sign. -/
noncomputable def neg : Val → Val
  | .nan => .nan
  | .inf s => .inf (!s)
  | .num x => .num (-x)

/-- The exact sum. -/
noncomputable def addE : Val → Val → Val
  | .nan, _ => .nan
  | _, .nan => .nan
  | .inf s, .inf t => if s = t then .inf s else .nan
  | .inf s, .num _ => .inf s
  | .num _, .inf t => .inf t
  | .num x, .num y => .num (x + y)

/-- The exact product. -/
noncomputable def mulE : Val → Val → Val
  | .nan, _ => .nan
  | _, .nan => .nan
  | .inf s, .inf t => .inf (s != t)
  | .inf s, .num y => if y = 0 then .nan else .inf (s != decide (y < 0))
  | .num x, .inf t => if x = 0 then .nan else .inf (decide (x < 0) != t)
  | .num x, .num y => .num (x * y)

/-- The exact quotient; the sign of a zero is taken to be positive. -/
noncomputable def divE : Val → Val → Val
  | .nan, _ => .nan
  | _, .nan => .nan
  | .inf _, .inf _ => .nan
  | .inf s, .num y => .inf (s != decide (y < 0))
  | .num _, .inf _ => .num 0
  | .num x, .num y => if y = 0 then (if x = 0 then .nan else .inf (decide (x < 0))) else .num (x / y)

/-- The exact square root. -/
noncomputable def sqrtE : Val → Val
  | .nan => .nan
  | .inf s => if s then .nan else .inf false
  | .num x => if x < 0 then .nan else .num (Real.sqrt x)

/-- Sum in `float`. -/
noncomputable def add (a b : Val) : Val := rnd single (addE a b)

/-- Difference in `float`. -/
noncomputable def sub (a b : Val) : Val := rnd single (addE a (neg b))

/-- Product in `float`. -/
noncomputable def mul (a b : Val) : Val := rnd single (mulE a b)

/-- Quotient in `float`. -/
noncomputable def div (a b : Val) : Val := rnd single (divE a b)

/-- Square root in `float`. -/
noncomputable def sqrt (a : Val) : Val := rnd single (sqrtE a)

/-- `a * b + c` with one rounding. -/
noncomputable def fmadd (a b c : Val) : Val := rnd single (addE (mulE a b) c)

/-- `a * v + b * w`, as `av` of C130 (matrix22.cc:191-192). -/
noncomputable def av (fma : Bool) (a b v w : Val) : Val :=
  if fma then fmadd a v (mul b w) else add (mul a v) (mul b w)

/-- `a > c` for a number `c`: false for what is not a number. -/
noncomputable def above (a : Val) (c : ℝ) : Bool :=
  match a with
  | .nan => false
  | .inf s => !s
  | .num x => decide (c < x)

/-! ## The kernel -/

/-- The part of an image gaussian that enters the value of a pixel (common_kernel.cc:20-28). -/
structure Gauss where
  amp : Val
  xcen : Val
  ycen : Val
  fxx : Val
  fyy : Val
  fxy : Val

/-- `vx` (common_kernel.cc:66-69). -/
noncomputable def vX (fma : Bool) (g : Gauss) (xp yp : Val) : Val :=
  av fma g.fxx g.fxy (sub xp g.xcen) (sub yp g.ycen)

/-- `vy` (common_kernel.cc:66-70). -/
noncomputable def vY (fma : Bool) (g : Gauss) (xp yp : Val) : Val :=
  av fma g.fyy g.fxy (sub yp g.ycen) (sub xp g.xcen)

/-- `exparg` (common_kernel.cc:66-71). -/
noncomputable def expArg (fma : Bool) (g : Gauss) (xp yp : Val) : Val :=
  av fma (sub xp g.xcen) (sub yp g.ycen) (vX fma g xp yp) (vY fma g xp yp)

/-- `H` (common_kernel.cc:77). -/
noncomputable def hFactor (fma : Bool) (g : Gauss) (xp yp : Val) : Val :=
  add (.num 1) (div (sub (sub (av fma (vX fma g xp yp) (vY fma g xp yp) (vX fma g xp yp) (vY fma g xp yp)) g.fxx) g.fyy)
    (.num 24))

/-- `amp * Gp` (common_kernel.cc:74, 78). -/
noncomputable def gFactor (fma : Bool) (ex : Val → Val) (g : Gauss) (xp yp : Val) : Val :=
  mul g.amp (ex (mul (.num (-(1 / 2))) (expArg fma g xp yp)))

/-- The residual after one more gaussian (common_kernel.cc:73, 78-80); `MAX_EXP_ARG` is 36 (kernel_limits.h:17). -/
noncomputable def subOne (fma : Bool) (ex : Val → Val) (xp yp r : Val) (g : Gauss) : Val :=
  if above (expArg fma g xp yp) 36 then r
  else if fma then fmadd (neg (gFactor fma ex g xp yp)) (hFactor fma g xp yp) r
  else sub r (mul (gFactor fma ex g xp yp) (hFactor fma g xp yp))

/-- `ComputeResidualImage` (common_kernel.cc:57-83). -/
noncomputable def residual (fma : Bool) (ex : Val → Val) (gs : List Gauss) (xp yp data : Val) : Val :=
  gs.foldl (subOne fma ex xp yp) data

/-- The contribution of one pixel to chi-square (compute_gaussians_kernel.cc:286-293). -/
noncomputable def chi2 (r d ierr : Val) : Val :=
  let a := mul r ierr
  let b := mul d ierr
  rnd double (mulE (rnd double (addE a (neg b))) (rnd double (addE a b)))

/-- A pixel: coordinates, flux and inverse error. -/
structure Pixel where
  x : Val
  y : Val
  data : Val
  ierr : Val

/-- The sum over pixels (compute_gaussians_kernel.cc:233, 270-294). -/
noncomputable def total (fma : Bool) (ex : Val → Val) (gs : List Gauss) (ps : List Pixel) : Val :=
  ps.foldl (fun c p => rnd double (addE c (chi2 (residual fma ex gs p.x p.y p.data) p.data p.ierr))) (.num 0)

/-! ## Values that are not numbers stay -/

@[simp] lemma rnd_nan (f : Fmt) : rnd f .nan = .nan := rfl
@[simp] lemma neg_nan : neg .nan = .nan := rfl
@[simp] lemma addE_nan_left (a : Val) : addE .nan a = .nan := by cases a <;> rfl
@[simp] lemma addE_nan_right (a : Val) : addE a .nan = .nan := by cases a <;> rfl
@[simp] lemma mulE_nan_left (a : Val) : mulE .nan a = .nan := by cases a <;> rfl
@[simp] lemma mulE_nan_right (a : Val) : mulE a .nan = .nan := by cases a <;> rfl
@[simp] lemma divE_nan_left (a : Val) : divE .nan a = .nan := by cases a <;> rfl
@[simp] lemma divE_nan_right (a : Val) : divE a .nan = .nan := by cases a <;> rfl
@[simp] lemma sqrtE_nan : sqrtE .nan = .nan := rfl
@[simp] lemma add_nan_left (a : Val) : add .nan a = .nan := by simp [add]
@[simp] lemma add_nan_right (a : Val) : add a .nan = .nan := by simp [add]
@[simp] lemma sub_nan_left (a : Val) : sub .nan a = .nan := by simp [sub]
@[simp] lemma sub_nan_right (a : Val) : sub a .nan = .nan := by simp [sub]
@[simp] lemma mul_nan_left (a : Val) : mul .nan a = .nan := by simp [mul]
@[simp] lemma mul_nan_right (a : Val) : mul a .nan = .nan := by simp [mul]
@[simp] lemma div_nan_left (a : Val) : div .nan a = .nan := by simp [div]
@[simp] lemma div_nan_right (a : Val) : div a .nan = .nan := by simp [div]
@[simp] lemma sqrt_nan : sqrt .nan = .nan := by simp [sqrt]
@[simp] lemma fmadd_nan_1 (a b : Val) : fmadd .nan a b = .nan := by simp [fmadd]
@[simp] lemma fmadd_nan_2 (a b : Val) : fmadd a .nan b = .nan := by simp [fmadd]
@[simp] lemma fmadd_nan_3 (a b : Val) : fmadd a b .nan = .nan := by simp [fmadd]
@[simp] lemma av_nan_1 (fma : Bool) (b v w : Val) : av fma .nan b v w = .nan := by simp [av]
@[simp] lemma av_nan_2 (fma : Bool) (a v w : Val) : av fma a .nan v w = .nan := by simp [av]
@[simp] lemma av_nan_3 (fma : Bool) (a b w : Val) : av fma a b .nan w = .nan := by simp [av]
@[simp] lemma av_nan_4 (fma : Bool) (a b v : Val) : av fma a b v .nan = .nan := by simp [av]
@[simp] lemma above_nan (c : ℝ) : above .nan c = false := rfl

lemma subOne_nan (fma : Bool) (ex : Val → Val) (xp yp : Val) (g : Gauss) : subOne fma ex xp yp .nan g = .nan := by
  simp [subOne]

lemma residual_nan (fma : Bool) (ex : Val → Val) (gs : List Gauss) (xp yp : Val) :
    residual fma ex gs xp yp .nan = .nan := by
  induction gs with
  | nil => rfl
  | cons g gs ih => rw [residual, List.foldl_cons, subOne_nan]; exact ih

lemma residual_of (fma : Bool) (ex : Val → Val) (gs : List Gauss) (xp yp data : Val) (g : Gauss) (hg : g ∈ gs)
    (h : ∀ r, subOne fma ex xp yp r g = .nan) : residual fma ex gs xp yp data = .nan := by
  obtain ⟨l1, l2, rfl⟩ := List.append_of_mem hg
  rw [residual, List.foldl_append, List.foldl_cons, h]
  exact residual_nan fma ex l2 xp yp

/-- The exponential of the library keeps what is not a number. -/
def Keeps (ex : Val → Val) : Prop := ex .nan = .nan

/-- C154 (shape and place): if the centre or the inverse covariance of one gaussian is not a number, then the residual of
every pixel is not a number, whatever the other gaussians, the pixel and the data. -/
theorem C154_shape (fma : Bool) (ex : Val → Val) (hex : Keeps ex) (gs : List Gauss) (g : Gauss) (hg : g ∈ gs)
    (h : g.xcen = .nan ∨ g.ycen = .nan ∨ g.fxx = .nan ∨ g.fyy = .nan ∨ g.fxy = .nan) (xp yp data : Val) :
    residual fma ex gs xp yp data = .nan := by
  refine residual_of fma ex gs xp yp data g hg fun r => ?_
  have hE : expArg fma g xp yp = .nan := by
    rcases h with h | h | h | h | h <;> simp [expArg, vX, vY, h]
  have hG : gFactor fma ex g xp yp = .nan := by
    rw [Keeps] at hex
    rw [gFactor, hE, mul_nan_right, hex, mul_nan_right]
  rw [subOne, hE, hG]
  cases fma <;> simp

/-- C154 (amplitude): if the amplitude of a gaussian is not a number, the residual of a pixel is not a number where the
gaussian is not cut off, and is that without the gaussian where it is cut off. -/
theorem C154_amplitude (fma : Bool) (ex : Val → Val) (l1 l2 : List Gauss) (g : Gauss) (h : g.amp = .nan)
    (xp yp data : Val) :
    (above (expArg fma g xp yp) 36 = false → residual fma ex (l1 ++ g :: l2) xp yp data = .nan) ∧
    (above (expArg fma g xp yp) 36 = true →
      residual fma ex (l1 ++ g :: l2) xp yp data = residual fma ex (l1 ++ l2) xp yp data) := by
  constructor
  · intro hc
    refine residual_of fma ex _ xp yp data g (by simp) fun r => ?_
    have hG : gFactor fma ex g xp yp = .nan := by rw [gFactor, h, mul_nan_left]
    rw [subOne, hc, hG]
    cases fma <;> simp
  · intro hc
    rw [residual, residual, List.foldl_append, List.foldl_append, List.foldl_cons]
    congr 1
    rw [subOne, hc, if_pos rfl]

/-- C154 (data): a pixel whose flux is not a number has no residual. -/
theorem C154_data (fma : Bool) (ex : Val → Val) (gs : List Gauss) (xp yp : Val) :
    residual fma ex gs xp yp .nan = .nan := residual_nan fma ex gs xp yp

lemma total_fold (f : Pixel → Val) (ps : List Pixel) (c : Val) (h : c = .nan ∨ ∃ p ∈ ps, f p = .nan) :
    ps.foldl (fun c p => rnd double (addE c (f p))) c = .nan := by
  induction ps generalizing c with
  | nil =>
    rcases h with h | ⟨p, hp, -⟩
    · exact h
    · cases hp
  | cons p ps ih =>
    rw [List.foldl_cons]
    apply ih
    rcases h with h | ⟨q, hq, h⟩
    · left; rw [h]; simp
    · rcases List.mem_cons.1 hq with rfl | hq
      · left; rw [h]; simp
      · exact .inr ⟨q, hq, h⟩

/-- C154 (chi-square): if the residual, the flux or the weight of one pixel is not a number, then chi-square is not a
number, whatever the weight of the pixel and whatever the other pixels. -/
theorem C154_chi2 (fma : Bool) (ex : Val → Val) (gs : List Gauss) (ps : List Pixel) (p : Pixel) (hp : p ∈ ps)
    (h : residual fma ex gs p.x p.y p.data = .nan ∨ p.data = .nan ∨ p.ierr = .nan) :
    total fma ex gs ps = .nan := by
  refine total_fold (fun p => chi2 (residual fma ex gs p.x p.y p.data) p.data p.ierr) ps _ (.inr ⟨p, hp, ?_⟩)
  rcases h with h | h | h <;> simp [chi2, h]

lemma addE_inf_self (s : Bool) : addE (.inf s) (neg (.inf s)) = .nan := by cases s <;> rfl

/-- C154 (masks): a pixel of weight zero with a finite flux and a finite residual adds exactly nothing, but with an
infinite flux or residual it makes chi-square not a number. -/
theorem C154_masked :
    (∀ r d : ℝ, chi2 (.num r) (.num d) (.num 0) = .num 0) ∧
    (∀ (s : Bool) (d : Val), chi2 (.inf s) d (.num 0) = .nan ∧ chi2 d (.inf s) (.num 0) = .nan) := by
  have hz : ∀ f : Fmt, rnd f (.num 0) = .num 0 := by
    intro f
    have h0 : nearest f 0 = 0 := by
      have h1 : roundEven 0 = 0 := by simp [roundEven]
      rw [nearest]
      split
      · rw [zero_div, h1]; simp
      · rw [fl, if_pos rfl]
    rw [rnd, h0, abs_zero, if_neg (not_le.2 (by positivity))]
  constructor
  · intro r d
    simp only [chi2, mul, mulE, mul_zero, hz, neg, addE, neg_zero, add_zero]
  · intro s d
    constructor
    · simp [chi2, mul, mulE]
    · simp [chi2, mul, mulE]

/-! ## Making a gaussian -/

/-- `matrix22` (matrix22.cc:32-34). -/
structure Mat where
  v11 : Val
  v12 : Val
  v21 : Val
  v22 : Val

/-- `rot` (matrix22.cc:70-73). -/
noncomputable def rotM (cs sn : Val → Val) (pa : Val) : Mat := ⟨cs pa, neg (sn pa), sn pa, cs pa⟩

/-- `scale` (matrix22.cc:81-83). -/
noncomputable def scaleM (q : Val) : Mat := ⟨div (.num 1) q, .num 0, .num 0, q⟩

/-- The product of matrices (matrix22.cc:136-139). -/
noncomputable def mulM (fma : Bool) (A B : Mat) : Mat :=
  ⟨av fma A.v11 A.v12 B.v11 B.v21, av fma A.v11 A.v12 B.v12 B.v22,
    av fma A.v21 A.v22 B.v11 B.v21, av fma A.v21 A.v22 B.v12 B.v22⟩

/-- `AAt` (matrix22.cc:153-156). -/
noncomputable def aat (fma : Bool) (A : Mat) : Mat :=
  let tmp := av fma A.v11 A.v12 A.v21 A.v22
  ⟨av fma A.v11 A.v12 A.v11 A.v12, tmp, tmp, av fma A.v21 A.v22 A.v21 A.v22⟩

/-- A number times a matrix (matrix22.cc:123-125). -/
noncomputable def smulM (s : Val) (A : Mat) : Mat := ⟨mul s A.v11, mul s A.v12, mul s A.v21, mul s A.v22⟩

/-- The sum of matrices (matrix22.cc:128-130). -/
noncomputable def addM (A B : Mat) : Mat :=
  ⟨add A.v11 B.v11, add A.v12 B.v12, add A.v21 B.v21, add A.v22 B.v22⟩

/-- `det` (matrix22.cc:98). -/
noncomputable def detM (fma : Bool) (A : Mat) : Val :=
  if fma then fmadd A.v11 A.v22 (neg (mul A.v12 A.v21)) else sub (mul A.v11 A.v22) (mul A.v12 A.v21)

/-- `inv` (matrix22.cc:104-107). -/
noncomputable def invM (fma : Bool) (A : Mat) : Mat :=
  let idet := div (.num 1) (detM fma A)
  ⟨mul A.v22 idet, mul (neg A.v12) idet, mul (neg A.v21) idet, mul A.v11 idet⟩

/-- What is in memory when a gaussian is built, as in C138 (compute_gaussians_kernel.cc:50-111), with the astrometry
(lines 57-67, 92-95) and the centre of the PSF gaussian. -/
structure Parts where
  D : Mat
  CW : Mat
  crpix : Val × Val
  crval : Val × Val
  ra : Val
  dec : Val
  q : Val
  pa : Val
  rad2 : Val
  cxx : Val
  cxy : Val
  cyy : Val
  px : Val
  py : Val
  G : Val
  pamp : Val
  flux : Val
  samp : Val

/-- `sersicgauss.T = D * R * S` (compute_gaussians_kernel.cc:86). -/
noncomputable def tM (fma : Bool) (cs sn : Val → Val) (i : Parts) : Mat :=
  mulM fma (mulM fma i.D (rotM cs sn i.pa)) (scaleM i.q)

/-- The covariance in pixels (common_kernel.cc:179-183). -/
noncomputable def covM (fma : Bool) (cs sn : Val → Val) (i : Parts) : Mat :=
  addM (smulM i.rad2 (aat fma (tM fma cs sn i))) ⟨i.cxx, i.cxy, i.cxy, i.cyy⟩

/-- The image gaussian (compute_gaussians_kernel.cc:64-67, 92-95, common_kernel.cc:184-195). -/
noncomputable def buildGauss (fma : Bool) (cs sn : Val → Val) (i : Parts) : Gauss :=
  let f := invM fma (covM fma cs sn i)
  let m0 := sub i.ra i.crval.1
  let m1 := sub i.dec i.crval.2
  let tmp := mul (mul (mul i.G i.pamp) (sqrt (detM fma f))) (.num invTwoPi)
  { amp := mul (mul tmp i.flux) i.samp
    xcen := add (add (av fma i.CW.v11 i.CW.v12 m0 m1) i.crpix.1) i.px
    ycen := add (add (av fma i.CW.v21 i.CW.v22 m0 m1) i.crpix.2) i.py
    fxx := f.v11
    fyy := f.v22
    fxy := f.v21 }

/-- Sine and cosine of the library: of what is no finite number they are not numbers. -/
def TrigKeeps (cs sn : Val → Val) : Prop :=
  cs .nan = .nan ∧ sn .nan = .nan ∧ ∀ s, cs (.inf s) = .nan ∧ sn (.inf s) = .nan

/-- Not a number or infinite. -/
def Bad (v : Val) : Prop := v = .nan ∨ ∃ s, v = .inf s

lemma Bad.rnd {v : Val} (f : Fmt) (h : Bad v) : Bad (rnd f v) := by
  rcases h with rfl | ⟨s, rfl⟩
  · exact .inl rfl
  · exact .inr ⟨s, rfl⟩

lemma Bad.addE_left {a : Val} (h : Bad a) (b : Val) : Bad (addE a b) := by
  rcases h with rfl | ⟨s, rfl⟩
  · exact .inl (addE_nan_left b)
  · cases b with
    | nan => exact .inl rfl
    | inf t =>
      by_cases hs : s = t
      · exact .inr ⟨s, by simp [addE, hs]⟩
      · exact .inl (by simp [addE, hs])
    | num y => exact .inr ⟨s, rfl⟩

lemma Bad.addE_right {b : Val} (h : Bad b) (a : Val) : Bad (addE a b) := by
  rcases h with rfl | ⟨s, rfl⟩
  · exact .inl (addE_nan_right a)
  · cases a with
    | nan => exact .inl rfl
    | inf t =>
      by_cases hs : t = s
      · exact .inr ⟨s, by simp [addE, hs]⟩
      · exact .inl (by simp [addE, hs])
    | num y => exact .inr ⟨s, rfl⟩

lemma Bad.mulE_left {a : Val} (h : Bad a) (b : Val) : Bad (mulE a b) := by
  rcases h with rfl | ⟨s, rfl⟩
  · exact .inl (mulE_nan_left b)
  · cases b with
    | nan => exact .inl rfl
    | inf t => exact .inr ⟨_, rfl⟩
    | num y =>
      by_cases hy : y = 0
      · exact .inl (by simp [mulE, hy])
      · exact .inr ⟨_, by rw [mulE, if_neg hy]⟩

lemma mulE_comm (a b : Val) : mulE a b = mulE b a := by
  cases a <;> cases b <;> simp [mulE, mul_comm]
  · rename_i s t; cases s <;> cases t <;> rfl
  · rename_i s x; split <;> simp [bne_comm]
  · rename_i x s; split <;> simp [bne_comm]

lemma Bad.mulE_right {b : Val} (h : Bad b) (a : Val) : Bad (mulE a b) := by
  rw [mulE_comm]; exact h.mulE_left a

/-- A product `a v + b w` one of whose products is bad. -/
lemma Bad.av_1 {a v : Val} (fma : Bool) (h : Bad (mulE a v)) (b w : Val) : Bad (av fma a b v w) := by
  cases fma
  · exact ((h.rnd single).addE_left _).rnd single
  · exact (h.addE_left _).rnd single

lemma Bad.av_2 {b w : Val} (fma : Bool) (h : Bad (mulE b w)) (a v : Val) : Bad (av fma a b v w) := by
  cases fma
  · exact ((h.rnd single).addE_right _).rnd single
  · exact ((h.rnd single).addE_right _).rnd single

/-- Positive infinity or not a number. -/
def High (v : Val) : Prop := v = .nan ∨ v = .inf false

lemma Bad.square {a : Val} (h : Bad a) : High (mulE a a) := by
  rcases h with rfl | ⟨s, rfl⟩
  · exact .inl rfl
  · exact .inr (by cases s <;> rfl)

lemma High.bad {a : Val} (h : High a) : Bad a := h.imp id fun h => ⟨false, h⟩

lemma High.rnd {a : Val} (f : Fmt) (h : High a) : High (rnd f a) := by
  rcases h with rfl | rfl
  · exact .inl rfl
  · exact .inr rfl

/-- Not negative infinity. -/
def Up (v : Val) : Prop := v ≠ .inf true

lemma square_up (a : Val) : Up (mulE a a) := by
  cases a with
  | nan => simp [Up]
  | inf s => cases s <;> simp [Up, mulE]
  | num x => simp [Up, mulE]

lemma square_rnd_up (f : Fmt) (a : Val) : Up (rnd f (mulE a a)) := by
  cases a with
  | nan => simp [Up]
  | inf s => cases s <;> simp [Up, mulE, rnd]
  | num x =>
    rw [mulE, rnd, Up]
    split
    · have : ¬ x * x < 0 := not_lt.2 (mul_self_nonneg x)
      simp [this]
    · simp

lemma High.addE {a b : Val} (h : High a) (hb : Up b) : High (addE a b) := by
  rcases h with rfl | rfl
  · exact .inl (addE_nan_left b)
  · cases b with
    | nan => exact .inl rfl
    | inf t => cases t
               · exact .inr rfl
               · exact absurd rfl hb
    | num y => exact .inr rfl

lemma addE_comm (a b : Val) : addE a b = addE b a := by
  cases a <;> cases b <;> simp [Special.addE, add_comm]
  rename_i s t; cases s <;> cases t <;> rfl

/-- The sum of two squares, one of them of a bad value. -/
lemma sumsq_high (fma : Bool) (a b : Val) (h : Bad a ∨ Bad b) : High (av fma a b a b) := by
  rcases h with h | h
  · cases fma
    · exact ((h.square.rnd single).addE (square_rnd_up single b)).rnd single
    · exact (h.square.addE (square_rnd_up single b)).rnd single
  · cases fma
    · change High (rnd single (addE (mul a a) (mul b b)))
      rw [addE_comm]
      exact ((h.square.rnd single).addE (square_rnd_up single a)).rnd single
    · change High (rnd single (addE (mulE a a) (mul b b)))
      rw [addE_comm]
      exact ((h.square.rnd single).addE (square_up a)).rnd single

/-- A value times one that is positive infinity or not a number has a sign of its own. -/
lemma scale_high (r : Val) : ∃ σ, ∀ a, High a → mul r a = .nan ∨ mul r a = .inf σ := by
  cases r with
  | nan => exact ⟨false, fun a _ => .inl (mul_nan_left a)⟩
  | inf s =>
    refine ⟨s, fun a h => ?_⟩
    rcases h with rfl | rfl
    · exact .inl (mul_nan_right _)
    · exact .inr (by cases s <;> rfl)
  | num x =>
    refine ⟨decide (x < 0), fun a h => ?_⟩
    rcases h with rfl | rfl
    · exact .inl (mul_nan_right _)
    · by_cases hx : x = 0
      · exact .inl (by simp [mul, mulE, hx])
      · exact .inr (by simp [mul, mulE, hx, rnd])

lemma keep_sign (σ : Bool) (a b : Val) (h : a = .nan ∨ a = .inf σ) : add a b = .nan ∨ add a b = .inf σ := by
  rcases h with rfl | rfl
  · exact .inl (add_nan_left b)
  · cases b with
    | nan => exact .inl rfl
    | inf t => cases σ <;> cases t <;> simp [add, Special.addE, rnd]
    | num y => exact .inr rfl

lemma same_sign (σ : Bool) (a b : Val) (ha : a = .nan ∨ a = .inf σ) (hb : b = .nan ∨ b = .inf σ) : High (mulE a b) := by
  rcases ha with rfl | rfl
  · exact .inl (mulE_nan_left b)
  · rcases hb with rfl | rfl
    · exact .inl (mulE_nan_right _)
    · exact .inr (by cases σ <;> rfl)

lemma High.sub {a b : Val} (ha : High a) (hb : High b) : Special.addE a (neg b) = .nan := by
  rcases ha with rfl | rfl
  · exact addE_nan_left _
  · rcases hb with rfl | rfl <;> rfl

/-- If one of the columns of `T` is not finite, the covariance has no determinant. -/
lemma det_nan (fma : Bool) (cs sn : Val → Val) (i : Parts)
    (h : (Bad (mulE (tM fma cs sn i).v11 (tM fma cs sn i).v21) ∧ Bad (tM fma cs sn i).v11 ∧ Bad (tM fma cs sn i).v21) ∨
      (Bad (mulE (tM fma cs sn i).v12 (tM fma cs sn i).v22) ∧ Bad (tM fma cs sn i).v12 ∧ Bad (tM fma cs sn i).v22)) :
    detM fma (covM fma cs sn i) = .nan := by
  obtain ⟨σ, hσ⟩ := scale_high i.rad2
  have h11 : High (aat fma (tM fma cs sn i)).v11 :=
    sumsq_high fma _ _ (h.imp (fun h => h.2.1) fun h => h.2.1)
  have h22 : High (aat fma (tM fma cs sn i)).v22 :=
    sumsq_high fma _ _ (h.imp (fun h => h.2.2) fun h => h.2.2)
  have h12 : Bad (aat fma (tM fma cs sn i)).v12 := by
    rcases h with h | h
    · exact Bad.av_1 fma h.1 _ _
    · exact Bad.av_2 fma h.1 _ _
  have c11 := keep_sign σ _ i.cxx (hσ _ h11)
  have c22 := keep_sign σ _ i.cyy (hσ _ h22)
  have c12 : Bad (add (mul i.rad2 (aat fma (tM fma cs sn i)).v12) i.cxy) :=
    (((h12.mulE_right _).rnd single).addE_left _).rnd single
  have hp := same_sign σ _ _ c11 c22
  cases fma
  · exact congrArg (rnd single) ((hp.rnd single).sub (c12.square.rnd single))
  · exact congrArg (rnd single) (hp.sub (c12.square.rnd single))

/-- The inverse of a matrix with a determinant that is not a number. -/
lemma invM_nan (fma : Bool) (A : Mat) (h : detM fma A = .nan) :
    invM fma A = ⟨.nan, .nan, .nan, .nan⟩ := by
  simp [invM, h]

/-- C154 (sources): if the position or the position angle of a source is not a number, or its position angle is infinite,
or its axis ratio is not a number, then in every pixel of every exposure the residual is not a number. -/
theorem C154_source (fma : Bool) (ex cs sn : Val → Val) (hex : Keeps ex) (ht : TrigKeeps cs sn) (i : Parts)
    (h : i.ra = .nan ∨ i.dec = .nan ∨ i.q = .nan ∨ i.pa = .nan ∨ ∃ s, i.pa = .inf s) (l1 l2 : List Gauss)
    (xp yp data : Val) : residual fma ex (l1 ++ buildGauss fma cs sn i :: l2) xp yp data = .nan := by
  obtain ⟨t1, t2, t3⟩ := ht
  have hT : (rotM cs sn i.pa = ⟨.nan, .nan, .nan, .nan⟩ ∨ scaleM i.q = ⟨.nan, .num 0, .num 0, .nan⟩) →
      (buildGauss fma cs sn i).fxx = .nan := by
    intro hm
    rcases hm with hm | hm <;> simp [buildGauss, invM, detM, covM, addM, smulM, aat, tM, mulM, hm]
  refine C154_shape fma ex hex _ (buildGauss fma cs sn i) (by simp) ?_ xp yp data
  rcases h with h | h | h | h | ⟨s, h⟩
  · exact .inl (by simp [buildGauss, h])
  · exact .inl (by simp [buildGauss, h])
  · exact .inr (.inr (.inl (hT (.inr (by simp [scaleM, h])))))
  · exact .inr (.inr (.inl (hT (.inl (by simp [rotM, h, t1, t2])))))
  · exact .inr (.inr (.inl (hT (.inl (by simp [rotM, h, (t3 s).1, (t3 s).2])))))

/-- C154 (flux): a flux or a weight that is not a number makes the residual not a number in every pixel where the
gaussian is not cut off; where it is cut off it is not noticed. -/
theorem C154_flux (fma : Bool) (ex cs sn : Val → Val) (i : Parts)
    (h : i.flux = .nan ∨ i.samp = .nan ∨ i.pamp = .nan ∨ i.G = .nan) (l1 l2 : List Gauss) (xp yp data : Val) :
    (above (expArg fma (buildGauss fma cs sn i) xp yp) 36 = false →
      residual fma ex (l1 ++ buildGauss fma cs sn i :: l2) xp yp data = .nan) ∧
    (above (expArg fma (buildGauss fma cs sn i) xp yp) 36 = true →
      residual fma ex (l1 ++ buildGauss fma cs sn i :: l2) xp yp data = residual fma ex (l1 ++ l2) xp yp data) := by
  apply C154_amplitude
  rcases h with h | h | h | h <;> simp [buildGauss, h]

/-- C154 (axis ratios without meaning): an axis ratio of zero or infinity gives no residual in any pixel either. -/
theorem C154_axis (fma : Bool) (ex cs sn : Val → Val) (hex : Keeps ex) (i : Parts)
    (h : i.q = .num 0 ∨ ∃ s, i.q = .inf s) (l1 l2 : List Gauss) (xp yp data : Val) :
    residual fma ex (l1 ++ buildGauss fma cs sn i :: l2) xp yp data = .nan := by
  refine C154_shape fma ex hex _ (buildGauss fma cs sn i) (by simp) ?_ xp yp data
  refine .inr (.inr (.inl ?_))
  have hd : detM fma (covM fma cs sn i) = .nan := by
    apply det_nan
    rcases h with h | ⟨s, h⟩
    · left
      have e : (scaleM i.q).v11 = .inf false := by simp [scaleM, h, div, divE, rnd]
      have b1 : Bad (tM fma cs sn i).v11 :=
        Bad.av_1 fma (Bad.mulE_right (.inr ⟨false, e⟩) _) _ _
      have b2 : Bad (tM fma cs sn i).v21 :=
        Bad.av_1 fma (Bad.mulE_right (.inr ⟨false, e⟩) _) _ _
      exact ⟨b1.mulE_left _, b1, b2⟩
    · right
      have e : (scaleM i.q).v22 = .inf s := h
      have b1 : Bad (tM fma cs sn i).v12 :=
        Bad.av_2 fma (Bad.mulE_right (.inr ⟨s, e⟩) _) _ _
      have b2 : Bad (tM fma cs sn i).v22 :=
        Bad.av_2 fma (Bad.mulE_right (.inr ⟨s, e⟩) _) _ _
      exact ⟨b1.mulE_left _, b1, b2⟩
  rw [buildGauss, invM_nan fma _ hd]

/-! ## What is not noticed -/

lemma rnd_zero (f : Fmt) : rnd f (.num 0) = .num 0 := by
  have h0 : nearest f 0 = 0 := by
    have h1 : roundEven 0 = 0 := by simp [roundEven]
    rw [nearest]
    split
    · rw [zero_div, h1]; simp
    · rw [fl, if_pos rfl]
  rw [rnd, h0, abs_zero, if_neg (not_le.2 (by positivity))]

/-- Integers of up to 24 bits are exact in both formats. -/
lemma rnd_int (f : Fmt) (hf : f = single ∨ f = double) (n : ℤ) (hn : |n| ≤ 2 ^ 24) : rnd f (.num n) = .num n := by
  by_cases h0 : n = 0
  · rw [h0, Int.cast_zero]; exact rnd_zero f
  have h1 : (1 : ℝ) ≤ |(n : ℝ)| := by
    have : 1 ≤ |n| := Int.one_le_abs h0
    exact_mod_cast this
  have h2 : |(n : ℝ)| ≤ 2 ^ 24 := by exact_mod_cast hn
  have hp : 24 ≤ f.p ∧ f.emin ≤ 0 ∧ 25 ≤ f.emax := by
    rcases hf with rfl | rfl <;> simp [single, double]
  have hfl : fl f.p (n : ℝ) = n := by
    refine fl_rep _ (by omega) _ ⟨n, 0, hn.trans ?_, by simp⟩
    exact pow_le_pow_right₀ (by norm_num) hp.1
  have hnear : nearest f (n : ℝ) = n := by
    rw [nearest, if_neg, hfl]
    rw [not_lt]
    refine le_trans ?_ h1
    calc (2 : ℝ) ^ f.emin ≤ (2 : ℝ) ^ (0 : ℤ) := zpow_le_zpow_right₀ (by norm_num) hp.2.1
      _ = 1 := zpow_zero _
  rw [rnd, hnear, if_neg]
  rw [not_le]
  calc |(n : ℝ)| ≤ 2 ^ 24 := h2
    _ < (2 : ℝ) ^ (25 : ℤ) := by norm_num
    _ ≤ (2 : ℝ) ^ f.emax := zpow_le_zpow_right₀ (by norm_num) hp.2.2

/-- C154 (infinite places): a gaussian with its centre at an infinite place along x.  With uncorrelated coordinates no pixel
has a residual.  Otherwise, on one side (where the offset `d` along y and the product of the correlation and the
direction have the same sign) the gaussian is left out without notice, and on the other side there is no residual. -/
theorem C154_far (fma : Bool) (ex : Val → Val) (hex : Keeps ex) (l1 l2 : List Gauss) (g : Gauss) (s : Bool)
    (a b c x' d e e' : ℝ) (yp data : Val)
    (hx : g.xcen = .inf s) (h1 : g.fxx = .num a) (h2 : g.fyy = .num b) (h3 : g.fxy = .num c) (ha : 0 < a)
    (hd : sub yp g.ycen = .num d) (he : mul (.num c) (.num d) = .num e) (he' : mul (.num b) (.num d) = .num e') :
    ((c = 0 ∨ d = 0 ∨ (if s then (0 : ℝ) < -(c * d) else 0 < c * d)) →
      residual fma ex (l1 ++ g :: l2) (.num x') yp data = .nan) ∧
    ((if s then (0 : ℝ) < c * d else 0 < -(c * d)) →
      residual fma ex (l1 ++ g :: l2) (.num x') yp data = residual fma ex (l1 ++ l2) (.num x') yp data) := by
  have hdx : sub (.num x') g.xcen = .inf (!s) := by rw [hx]; rfl
  have hna : ¬ a = 0 := ha.ne'
  have hnl : ¬ a < 0 := not_lt.2 ha.le
  have hvx : vX fma g (.num x') yp = .inf (!s) := by
    rw [vX, hdx, hd, h1, h3, av]
    cases fma
    · rw [if_neg (by simp), he]
      simp [mul, mulE, hna, hnl, rnd, add, addE]
    · rw [if_pos rfl, he]
      simp [fmadd, mulE, hna, hnl, rnd, addE]
  have hvy : vY fma g (.num x') yp = if c = 0 then .nan else .inf (decide (c < 0) != !s) := by
    rw [vY, hdx, hd, h2, h3, av]
    by_cases hc : c = 0
    · rw [if_pos hc]
      cases fma <;> simp [mul, mulE, hc]
    · rw [if_neg hc]
      cases fma
      · rw [if_neg (by simp), he']
        simp [mul, mulE, hc, rnd, add, addE]
      · rw [if_pos rfl, fmadd]
        simp [mul, mulE, hc, rnd, addE]
  have hE : expArg fma g (.num x') yp = if c = 0 ∨ d = 0 then .nan else
      (if (decide (d < 0) != (decide (c < 0) != !s)) = false then .inf false else .nan) := by
    rw [expArg, hdx, hd, hvx, hvy]
    by_cases hc : c = 0
    · simp [hc]
    · by_cases hd0 : d = 0
      · simp only [hc, hd0, if_false, or_true, if_true]
        cases fma <;> simp [av, mul, mulE]
      · simp only [hc, hd0, if_false, or_self]
        generalize (decide (c < 0) != !s) = t
        generalize hu : (decide (d < 0) != t) = u
        cases fma <;> cases s <;> cases u <;> simp [av, mul, mulE, hd0, rnd, add, addE, fmadd, hu]
  have nanCase : expArg fma g (.num x') yp = .nan → residual fma ex (l1 ++ g :: l2) (.num x') yp data = .nan := by
    intro h
    refine residual_of fma ex _ _ yp data g (by simp) fun r => ?_
    have hG : gFactor fma ex g (.num x') yp = .nan := by
      rw [Keeps] at hex
      rw [gFactor, h, mul_nan_right, hex, mul_nan_right]
    rw [subOne, h, hG]
    cases fma <;> simp
  constructor
  · intro h
    apply nanCase
    rw [hE]
    split
    · rfl
    · rename_i hcd
      push Not at hcd
      rw [if_neg]
      have h' : if s then (0 : ℝ) < -(c * d) else 0 < c * d := by
        rcases h with h | h | h
        · exact absurd h hcd.1
        · exact absurd h hcd.2
        · exact h
      rcases lt_or_gt_of_ne hcd.1 with hc | hc <;> rcases lt_or_gt_of_ne hcd.2 with hd' | hd' <;> cases s <;>
        simp only [Bool.false_eq_true, if_false, if_true] at h' <;>
        simp [hc, hd', not_lt.2 hc.le, not_lt.2 hd'.le] <;> nlinarith
  · intro h
    have hcd : c ≠ 0 ∧ d ≠ 0 := by
      constructor <;> rintro rfl <;> cases s <;> simp at h
    have hE' : expArg fma g (.num x') yp = .inf false := by
      rw [hE, if_neg (by simpa using hcd), if_pos]
      rcases lt_or_gt_of_ne hcd.1 with hc | hc <;> rcases lt_or_gt_of_ne hcd.2 with hd' | hd' <;> cases s <;>
        simp only [Bool.false_eq_true, if_false, if_true] at h <;>
        simp [hc, hd', not_lt.2 hc.le, not_lt.2 hd'.le] <;> nlinarith
    rw [residual, residual, List.foldl_append, List.foldl_append, List.foldl_cons]
    congr 1
    rw [subOne, hE']
    rfl

lemma av_int (fma : Bool) (a b v w : ℤ) (h1 : |a * v| ≤ 2 ^ 24) (h2 : |b * w| ≤ 2 ^ 24) (h3 : |a * v + b * w| ≤ 2 ^ 24) :
    av fma (.num a) (.num b) (.num v) (.num w) = .num ((a * v + b * w : ℤ) : ℝ) := by
  have e1 : mul (.num (a : ℝ)) (.num v) = .num ((a * v : ℤ) : ℝ) := by
    rw [← rnd_int single (.inl rfl) _ h1, Int.cast_mul]; rfl
  have e2 : mul (.num (b : ℝ)) (.num w) = .num ((b * w : ℤ) : ℝ) := by
    rw [← rnd_int single (.inl rfl) _ h2, Int.cast_mul]; rfl
  rw [av, e1, e2, ← rnd_int single (.inl rfl) _ h3, Int.cast_add, Int.cast_mul, Int.cast_mul]
  cases fma <;> rfl

/-- A round gaussian at the origin without an amplitude. -/
noncomputable def lost : Gauss := ⟨.nan, .num 0, .num 0, .num 1, .num 1, .num 0⟩

/-- C154 (silent): the flux of a source that is not a number can give an ordinary chi-square: that of the data without
the source, if all pixels are where the source is cut off. -/
theorem C154_silent_refuted (fma : Bool) (ex : Val → Val) :
    total fma ex [lost] [⟨.num 100, .num 0, .num 1, .num 1⟩] = .num 0 ∧
    total fma ex [] [⟨.num 100, .num 0, .num 1, .num 1⟩] = .num 0 := by
  have d1 : sub (.num 100) (.num 0) = .num 100 := by
    have := rnd_int single (.inl rfl) 100 (by norm_num)
    rw [sub, neg, addE, neg_zero, add_zero]
    exact_mod_cast this
  have d2 : sub (.num 0) (.num 0) = .num 0 := by
    rw [sub, neg, addE, neg_zero, add_zero, rnd_zero]
  have v1 : vX fma lost (.num 100) (.num 0) = .num 100 := by
    have := av_int fma 1 0 100 0 (by norm_num) (by norm_num) (by norm_num)
    norm_num at this
    simpa only [vX, lost, d1, d2] using this
  have v2 : vY fma lost (.num 100) (.num 0) = .num 0 := by
    have := av_int fma 1 0 0 100 (by norm_num) (by norm_num) (by norm_num)
    norm_num at this
    simpa only [vY, lost, d1, d2] using this
  have v3 : expArg fma lost (.num 100) (.num 0) = .num 10000 := by
    have := av_int fma 100 0 100 0 (by norm_num) (by norm_num) (by norm_num)
    norm_num at this
    rw [expArg, v1, v2]
    simpa only [lost, d1, d2] using this
  have hc : above (expArg fma lost (.num 100) (.num 0)) 36 = true := by
    rw [v3]
    simp only [above, decide_eq_true_eq]
    norm_num
  have hr := (C154_amplitude fma ex [] [] lost rfl (.num 100) (.num 0) (.num 1)).2 hc
  have one : ∀ f : Fmt, f = single ∨ f = double → rnd f (.num 1) = .num 1 := fun f hf => by
    have := rnd_int f hf 1 (by norm_num)
    exact_mod_cast this
  have h0 : chi2 (.num 1) (.num 1) (.num 1) = .num 0 := by
    have two : rnd double (.num 2) = .num 2 := by
      have := rnd_int double (.inr rfl) 2 (by norm_num)
      exact_mod_cast this
    simp only [chi2, mul, mulE, mul_one, one single (.inl rfl), neg, addE, add_neg_cancel, rnd_zero]
    norm_num [two, mulE, rnd_zero]
  have hz : total fma ex [] [⟨.num 100, .num 0, .num 1, .num 1⟩] = .num 0 := by
    simp only [total, List.foldl_cons, List.foldl_nil, residual, h0, addE, add_zero, rnd_zero]
  refine ⟨Eq.trans ?_ hz, hz⟩
  simp only [total, List.foldl_cons, List.foldl_nil]
  simp only [List.nil_append] at hr
  rw [hr]

end Forcepho.Float.Special
