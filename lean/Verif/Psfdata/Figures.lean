import Verif.Psfdata.FitProps
import Mathlib.Analysis.SpecialFunctions.Complex.Arg
import Mathlib.Tactic.LinearCombination
import Mathlib.Tactic.FieldSimp
import Mathlib.Tactic.Positivity

/-!
# The figures of a fitted mixture

Model of `draw_ellipses` and `ee_plot` (utils_hmc.py:183-248): what is drawn, not how.  `np.linalg.eig` enters through what it
returns, an eigenvector of unit length and the two eigenvalues; `Ellipse` is a centre, two diameters and an angle.
-/

set_option autoImplicit false

namespace Forcepho.Psfdata

open Classical

noncomputable section

/-- A symmetric two by two matrix. -/
structure Sym where
  xx : ℝ
  xy : ℝ
  yy : ℝ

/-- What `np.linalg.eig` returns, as far as it is used: the eigenvalues and the first column of the vectors. -/
structure Eig where
  val0 : ℝ
  val1 : ℝ
  vx : ℝ
  vy : ℝ

/-- An `Ellipse` artist; the angle in radians. -/
structure Ellipse where
  cx : ℝ
  cy : ℝ
  width : ℝ
  height : ℝ
  angle : ℝ

/-- The covariance built for a gaussian with widths `s` and `t` (utils_hmc.py:227-234): the width `sx` is put second. -/
def covOf (s t rho : ℝ) : Sym := ⟨t ^ 2, rho * t * s, s ^ 2⟩

/-- The artist of one gaussian (utils_hmc.py:235-239). -/
def ellipseOf (eig : Sym → Eig) (x y s t rho : ℝ) : Ellipse :=
  let e := eig (covOf s t rho)
  ⟨x, y, 2 * Real.sqrt e.val0, 2 * Real.sqrt e.val1, Complex.arg ⟨e.vx, e.vy⟩⟩

/-- A key of the dictionary, or the failure. -/
def need (d : Dict) (k : String) : Except Fault (List ℝ) :=
  match lookup d k with
  | some v => .ok v
  | none => .error (.key k)

/-- The other width (utils_hmc.py:228-231): `sy` when there is one, else `sx * q`, else it has no value. -/
def otherWidth (d : Dict) (i : Nat) (s : ℝ) : Except Fault ℝ :=
  match lookup d "sy", lookup d "q" with
  | some v, _ => .ok (v.getD i 0)
  | none, some q => .ok (s * q.getD i 0)
  | none, none => .error .name

/-- One turn of the loop (utils_hmc.py:224-243): the artist and the number that decides its colour. -/
def drawOne (eig : Sym → Eig) (d : Dict) (i : Nat) : Except Fault (Ellipse × ℝ) := do
  let x ← need d "x"
  let y ← need d "y"
  let s ← need d "sx"
  let t ← otherWidth d i (s.getD i 0)
  let rho ← need d "rho"
  let w ← need d "weight"
  .ok (ellipseOf eig (x.getD i 0) (y.getD i 0) (s.getD i 0) t (rho.getD i 0), w.getD i 0)

/-- `draw_ellipses` (utils_hmc.py:217-248): the artists, and the limits of the axes. -/
def drawEllipses (eig : Sym → Eig) (d : Dict) : Except Fault (List (Ellipse × ℝ) × ℝ × ℝ) := do
  let x ← need d "x"
  let es ← (List.range x.length).mapM (drawOne eig d)
  let y ← need d "y"
  .ok (es, 2 * x.foldl max (x.headD 0), 2 * y.foldl max (y.headD 0))

/-! ## The curves of growth -/

/-- A pixel of the figure: its distance from the centre, the image and the model there. -/
structure Ring where
  r : ℝ
  data : ℝ
  model : ℝ

/-- `np.linspace(lo, hi, n)`. -/
def linspaceR (lo hi : ℝ) (n : Nat) : List ℝ :=
  (List.range n).map fun (k : Nat) => lo + (hi - lo) * ((k : ℝ) / ((n : ℝ) - 1))

/-- `np.histogram(r, bins=edges, weights=w)`: bins are closed below and open above, the last is closed. -/
def histogram : List ℝ → List (ℝ × ℝ) → List ℝ
  | e :: f :: t, ps =>
    (((ps.filter fun p => decide (e ≤ p.1) && if t.isEmpty then decide (p.1 ≤ f) else decide (p.1 < f)).map (·.2)).sum) ::
      histogram (f :: t) ps
  | _, _ => []

/-- `np.cumsum` after a sum `s`. -/
def cumsum : ℝ → List ℝ → List ℝ
  | _, [] => []
  | s, x :: t => (s + x) :: cumsum (s + x) t

/-- The greatest and least distance. -/
def farthest (ps : List Ring) : ℝ := (ps.map Ring.r).foldl max ((ps.map Ring.r).headD 0)

/-- The least distance. -/
def nearest (ps : List Ring) : ℝ := (ps.map Ring.r).foldl min ((ps.map Ring.r).headD 0)

/-- `ee_plot` (utils_hmc.py:183-214): the radii, the two curves and the total.  `none` is the failure of `np.min` on no pixels, or
of `np.histogram` on decreasing edges. -/
def eePlot (ps : List Ring) (nx : ℝ) (n : Nat) (renorm : Bool) : Option (List ℝ × List ℝ × List ℝ × ℝ) :=
  let dt := ((ps.filter fun p => decide (p.r < nx / 2)).map Ring.data).sum
  let rr := linspaceR (nearest ps) (farthest ps / 1.4) n
  if ps.isEmpty || (decide (2 ≤ n) && decide (farthest ps / 1.4 < nearest ps)) then none
  else
    let eed := cumsum 0 (histogram rr (ps.map fun p => (p.r, p.data)))
    let eem := cumsum 0 (histogram rr (ps.map fun p => (p.r, p.model)))
    if renorm then some (rr, eed.map (· / dt), eem.map (· / dt), dt) else some (rr, eed, eem, dt)

/-! ## Claims about the ellipses -/

/-- What `np.linalg.eig` promises for a symmetric matrix. -/
structure EigSpec (eig : Sym → Eig) : Prop where
  unit : ∀ S, (eig S).vx ^ 2 + (eig S).vy ^ 2 = 1
  first : ∀ S : Sym, S.xx * (eig S).vx + S.xy * (eig S).vy = (eig S).val0 * (eig S).vx
  second : ∀ S : Sym, S.xy * (eig S).vx + S.yy * (eig S).vy = (eig S).val0 * (eig S).vy
  trace : ∀ S : Sym, (eig S).val0 + (eig S).val1 = S.xx + S.yy

/-- The point at `(dx, dy)` from the centre lies on the outline of the artist. -/
def OnOutline (e : Ellipse) (dx dy : ℝ) : Prop :=
  ((Real.cos e.angle * dx + Real.sin e.angle * dy) / (e.width / 2)) ^ 2 +
    ((-Real.sin e.angle * dx + Real.cos e.angle * dy) / (e.height / 2)) ^ 2 = 1

theorem outline_iff (eig : Sym → Eig) (he : EigSpec eig) (x y s t rho : ℝ) (hs : 0 < s) (ht : 0 < t) (hr : rho ^ 2 < 1)
    (dx dy : ℝ) :
    OnOutline (ellipseOf eig x y s t rho) dx dy ↔
      (dx / t) ^ 2 + (dy / s) ^ 2 - 2 * rho * (dx / t) * (dy / s) = 1 - rho ^ 2 := by
  have h1 := he.unit (covOf s t rho)
  have h2 := he.first (covOf s t rho)
  have h3 := he.second (covOf s t rho)
  have h4 := he.trace (covOf s t rho)
  unfold OnOutline ellipseOf
  simp only
  generalize eig (covOf s t rho) = e at h1 h2 h3 h4
  obtain ⟨l0, l1, c, d⟩ := e
  simp only [covOf] at h1 h2 h3 h4 ⊢
  have hn : ‖(⟨c, d⟩ : ℂ)‖ = 1 := by
    rw [Complex.norm_eq_sqrt_sq_add_sq]
    simp only [h1, Real.sqrt_one]
  have hz : (⟨c, d⟩ : ℂ) ≠ 0 := by
    intro h0
    rw [h0, norm_zero] at hn
    exact one_ne_zero hn.symm
  rw [Complex.cos_arg hz, Complex.sin_arg, hn, div_one, div_one]
  have e11 : t ^ 2 = l0 * c ^ 2 + l1 * d ^ 2 := by
    linear_combination (-(t ^ 2)) * h1 + c * h2 - d * h3 - d ^ 2 * h4
  have e12 : rho * t * s = (l0 - l1) * (c * d) := by
    linear_combination (-(rho * t * s)) * h1 + d * h2 + c * h3 + (c * d) * h4
  have e22 : s ^ 2 = l0 * d ^ 2 + l1 * c ^ 2 := by
    linear_combination (-(s ^ 2)) * h1 - c * h2 + d * h3 - c ^ 2 * h4
  have hdet : l0 * l1 = t ^ 2 * s ^ 2 * (1 - rho ^ 2) := by
    have : t ^ 2 * s ^ 2 * (1 - rho ^ 2) = t ^ 2 * s ^ 2 - (rho * t * s) ^ 2 := by ring
    rw [this, e12, e11, e22]
    have h1' : (c ^ 2 + d ^ 2) ^ 2 = 1 := by rw [h1, one_pow]
    linear_combination (-(l0 * l1)) * h1'
  have hp : 0 < l0 * l1 := by
    rw [hdet]
    have : 0 < 1 - rho ^ 2 := by linarith
    positivity
  have hsum : 0 < l0 + l1 := by rw [h4]; positivity
  have p0 : 0 < l0 := by
    rcases pos_and_pos_or_neg_and_neg_of_mul_pos hp with h | h
    · exact h.1
    · linarith [h.1, h.2]
  have p1 : 0 < l1 := (mul_pos_iff_of_pos_left p0).1 hp
  have w0 : 2 * Real.sqrt l0 / 2 = Real.sqrt l0 := by ring
  have w1 : 2 * Real.sqrt l1 / 2 = Real.sqrt l1 := by ring
  rw [w0, w1, div_pow, div_pow, Real.sq_sqrt p0.le, Real.sq_sqrt p1.le]
  have hq : l1 * (c * dx + d * dy) ^ 2 + l0 * (-d * dx + c * dy) ^ 2 =
      s ^ 2 * dx ^ 2 - 2 * (rho * t * s) * dx * dy + t ^ 2 * dy ^ 2 := by
    rw [e11, e12, e22]; ring
  have hL : (c * dx + d * dy) ^ 2 / l0 + (-d * dx + c * dy) ^ 2 / l1 =
      (s ^ 2 * dx ^ 2 - 2 * (rho * t * s) * dx * dy + t ^ 2 * dy ^ 2) / (t ^ 2 * s ^ 2 * (1 - rho ^ 2)) := by
    rw [← hq, ← hdet]
    field_simp
  have hR : (dx / t) ^ 2 + (dy / s) ^ 2 - 2 * rho * (dx / t) * (dy / s) =
      (s ^ 2 * dx ^ 2 - 2 * (rho * t * s) * dx * dy + t ^ 2 * dy ^ 2) / (t ^ 2 * s ^ 2) := by
    field_simp
    ring
  have hm : (1 - rho ^ 2) ≠ 0 := by linarith
  have hts : t ^ 2 * s ^ 2 ≠ 0 := by positivity
  rw [hL, hR, div_eq_iff (mul_ne_zero hts hm), div_eq_iff hts]
  constructor <;> intro h <;> linarith

theorem gauss_sigma (g : HG) (a : ℝ) (hs : 0 < g.sx) (hq : 0 < g.q) (hr : g.rho ^ 2 < 1) (ha : a * g.weight ≠ 0) (u v : ℝ) :
    gaussAt (g.x + u) (g.y + v) a g = gaussAt g.x g.y a g * Real.exp (-1 / 2) ↔
      (u / g.sx) ^ 2 + (v / (g.sx * g.q)) ^ 2 - 2 * g.rho * (u / g.sx) * (v / (g.sx * g.q)) = 1 - g.rho ^ 2 := by
  have hm : 0 < 1 - g.rho ^ 2 := by linarith
  have hsq : 0 < Real.sqrt (1 - g.rho ^ 2) := Real.sqrt_pos.2 hm
  have hn : a * g.weight / (2 * Real.pi * g.sx * (g.q * g.sx) * Real.sqrt (1 - g.rho ^ 2)) ≠ 0 := by
    have := Real.pi_pos
    exact div_ne_zero ha (by positivity)
  unfold gaussAt
  simp only [add_sub_cancel_left, sub_self, zero_div]
  rw [mul_assoc (a * g.weight / (2 * Real.pi * g.sx * (g.q * g.sx) * Real.sqrt (1 - g.rho ^ 2))), mul_right_inj' hn,
    ← Real.exp_add, Real.exp_eq_exp, mul_comm g.q g.sx]
  generalize u / g.sx = U
  generalize v / (g.sx * g.q) = V
  have e : -0.5 / (1 - g.rho ^ 2) * (U ^ 2 + V ^ 2 - 2 * g.rho * U * V) =
      (-1 / 2) * ((U ^ 2 + V ^ 2 - 2 * g.rho * U * V) / (1 - g.rho ^ 2)) := by
    norm_num
    ring
  rw [e]
  have e0 : -0.5 / (1 - g.rho ^ 2) * ((0 : ℝ) ^ 2 + 0 ^ 2 - 2 * g.rho * 0 * 0) + -1 / 2 = (-1 / 2) * 1 := by ring
  rw [e0, mul_right_inj' (by norm_num), div_eq_one_iff_eq hm.ne']

/-- The dictionary holds the vectors of a list of gaussians, one width as a ratio. -/
structure Holds (d : Dict) (gs : List HG) : Prop where
  x : lookup d "x" = some (gs.map HG.x)
  y : lookup d "y" = some (gs.map HG.y)
  sx : lookup d "sx" = some (gs.map HG.sx)
  sy : lookup d "sy" = none
  q : lookup d "q" = some (gs.map HG.q)
  rho : lookup d "rho" = some (gs.map HG.rho)
  weight : lookup d "weight" = some (gs.map HG.weight)

theorem mapM_range_ok {α : Type} (f : Nat → Except Fault α) (g : Nat → α) :
    ∀ l : List Nat, (∀ i ∈ l, f i = .ok (g i)) → l.mapM f = .ok (l.map g) := by
  intro l
  induction l with
  | nil => intro _; rfl
  | cons i t ih =>
    intro h
    rw [List.mapM_cons, h i (by simp), ih (fun j hj => h j (by simp [hj]))]
    rfl

theorem draw_eq (eig : Sym → Eig) (d : Dict) (gs : List HG) (h : Holds d gs) :
    drawEllipses eig d = .ok (gs.map fun g => (ellipseOf eig g.x g.y g.sx (g.sx * g.q) g.rho, g.weight),
      2 * (gs.map HG.x).foldl max ((gs.map HG.x).headD 0), 2 * (gs.map HG.y).foldl max ((gs.map HG.y).headD 0)) := by
  have hone : ∀ i ∈ List.range (gs.map HG.x).length, drawOne eig d i =
      .ok ((fun i => (ellipseOf eig ((gs.map HG.x).getD i 0) ((gs.map HG.y).getD i 0) ((gs.map HG.sx).getD i 0)
        ((gs.map HG.sx).getD i 0 * (gs.map HG.q).getD i 0) ((gs.map HG.rho).getD i 0), (gs.map HG.weight).getD i 0)) i) := by
    intro i _
    simp only [drawOne, need, otherWidth, h.x, h.y, h.sx, h.sy, h.q, h.rho, h.weight]
    rfl
  unfold drawEllipses
  simp only [need, h.x, h.y]
  rw [show (Except.ok (gs.map HG.x) >>= fun x => (do
      let es ← (List.range x.length).mapM (drawOne eig d)
      let y ← (Except.ok (gs.map HG.y) : Except Fault (List ℝ))
      Except.ok (es, 2 * x.foldl max (x.headD 0), 2 * y.foldl max (y.headD 0)))) =
      ((List.range (gs.map HG.x).length).mapM (drawOne eig d) >>= fun es =>
        Except.ok (es, 2 * (gs.map HG.x).foldl max ((gs.map HG.x).headD 0),
          2 * (gs.map HG.y).foldl max ((gs.map HG.y).headD 0))) from rfl]
  rw [mapM_range_ok _ _ _ hone]
  have hm : (List.range (gs.map HG.x).length).map (fun i => (ellipseOf eig ((gs.map HG.x).getD i 0) ((gs.map HG.y).getD i 0)
      ((gs.map HG.sx).getD i 0) ((gs.map HG.sx).getD i 0 * (gs.map HG.q).getD i 0) ((gs.map HG.rho).getD i 0),
      (gs.map HG.weight).getD i 0)) = gs.map fun g => (ellipseOf eig g.x g.y g.sx (g.sx * g.q) g.rho, g.weight) := by
    apply List.ext_getElem
    · simp
    · intro i h1 h2
      have hi : i < gs.length := by simpa using h2
      simp [List.getD_eq_getElem?_getD, hi]
  rw [hm]
  rfl

/-- C161 (the ellipses, what is drawn). One ellipse per gaussian, about its centre and coloured by its weight; its outline is where
the gaussian falls to one standard deviation, after the axes are swapped. -/
theorem C161_ellipse (eig : Sym → Eig) (he : EigSpec eig) (d : Dict) (gs : List HG) (h : Holds d gs) :
    ∃ es lx ly, drawEllipses eig d = .ok (es, lx, ly) ∧ es.length = gs.length ∧
      ∀ (i : Nat) (h1 : i < es.length) (h2 : i < gs.length), es[i].2 = gs[i].weight ∧ es[i].1.cx = gs[i].x ∧
        es[i].1.cy = gs[i].y ∧ ∀ a : ℝ, 0 < gs[i].sx → 0 < gs[i].q → gs[i].rho ^ 2 < 1 → a * gs[i].weight ≠ 0 →
          ∀ dx dy, OnOutline es[i].1 dx dy ↔
            gaussAt (gs[i].x + dy) (gs[i].y + dx) a gs[i] = gaussAt gs[i].x gs[i].y a gs[i] * Real.exp (-1 / 2) := by
  refine ⟨_, _, _, draw_eq eig d gs h, by simp, ?_⟩
  intro i h1 h2
  simp only [List.getElem_map]
  refine ⟨trivial, rfl, rfl, ?_⟩
  intro a hs hq hr ha dx dy
  rw [outline_iff eig he _ _ _ _ _ hs (mul_pos hs hq) hr, gauss_sigma _ a hs hq hr ha]
  constructor <;> intro h <;> linarith

/-- C161, partial (the ellipses). For a gaussian as wide as high the outline is where it falls to one standard deviation.
Missing: other gaussians, refuted below. -/
theorem C161_ellipse_partial (eig : Sym → Eig) (he : EigSpec eig) (d : Dict) (gs : List HG) (h : Holds d gs) :
    ∃ es lx ly, drawEllipses eig d = .ok (es, lx, ly) ∧ es.length = gs.length ∧
      ∀ (i : Nat) (h1 : i < es.length) (h2 : i < gs.length), gs[i].q = 1 →
        ∀ a : ℝ, 0 < gs[i].sx → gs[i].rho ^ 2 < 1 → a * gs[i].weight ≠ 0 → ∀ dx dy, OnOutline es[i].1 dx dy ↔
          gaussAt (gs[i].x + dx) (gs[i].y + dy) a gs[i] = gaussAt gs[i].x gs[i].y a gs[i] * Real.exp (-1 / 2) := by
  refine ⟨_, _, _, draw_eq eig d gs h, by simp, ?_⟩
  intro i h1 h2 hq a hs hr ha dx dy
  simp only [List.getElem_map]
  have hq' : 0 < gs[i].q := by rw [hq]; exact one_pos
  rw [outline_iff eig he _ _ _ _ _ hs (mul_pos hs hq') hr, gauss_sigma _ a hs hq' hr ha, hq, mul_one]

/-- C161, refuted (the ellipses). For every gaussian wider than high, or higher than wide, the outline drawn passes through a point
where the gaussian is not at one standard deviation. -/
theorem C161_ellipse_refuted (eig : Sym → Eig) (he : EigSpec eig) (d : Dict) (gs : List HG) (h : Holds d gs) :
    ∃ es lx ly, drawEllipses eig d = .ok (es, lx, ly) ∧ es.length = gs.length ∧
      ∀ (i : Nat) (h1 : i < es.length) (h2 : i < gs.length), gs[i].q ≠ 1 → ∀ a : ℝ, 0 < gs[i].sx → 0 < gs[i].q →
        gs[i].rho ^ 2 < 1 → a * gs[i].weight ≠ 0 → ∃ dx dy, OnOutline es[i].1 dx dy ∧
          gaussAt (gs[i].x + dx) (gs[i].y + dy) a gs[i] ≠ gaussAt gs[i].x gs[i].y a gs[i] * Real.exp (-1 / 2) := by
  refine ⟨_, _, _, draw_eq eig d gs h, by simp, ?_⟩
  intro i h1 h2 hq1 a hs hq hr ha
  simp only [List.getElem_map]
  have hm : 0 < 1 - gs[i].rho ^ 2 := by linarith
  refine ⟨gs[i].sx * gs[i].q * Real.sqrt (1 - gs[i].rho ^ 2), 0, ?_, ?_⟩
  · rw [outline_iff eig he _ _ _ _ _ hs (mul_pos hs hq) hr, mul_div_cancel_left₀ _ (mul_pos hs hq).ne', Real.sq_sqrt hm.le]
    ring
  · rw [Ne, gauss_sigma _ a hs hq hr ha]
    intro hc
    have e : gs[i].sx * gs[i].q * Real.sqrt (1 - gs[i].rho ^ 2) / gs[i].sx = gs[i].q * Real.sqrt (1 - gs[i].rho ^ 2) := by
      field_simp
    rw [e, mul_pow, Real.sq_sqrt hm.le] at hc
    have h3 : (gs[i].q ^ 2 - 1) * (1 - gs[i].rho ^ 2) = 0 := by
      linear_combination hc
    rcases mul_eq_zero.1 h3 with h4 | h4
    · have : (gs[i].q - 1) * (gs[i].q + 1) = 0 := by linear_combination h4
      rcases mul_eq_zero.1 this with h5 | h5
      · exact hq1 (by linarith)
      · linarith
    · exact hm.ne' h4

/-- C161 (the ellipses of a dictionary with both widths). With a key `sy` the outline is that of the gaussian with the widths
`sx` and `sy` swapped, whatever `q` says. -/
theorem C161_ellipse_sy (eig : Sym → Eig) (he : EigSpec eig) (d : Dict) (i : Nat) (x y s t rho w : List ℝ)
    (hx : lookup d "x" = some x) (hy : lookup d "y" = some y) (hs : lookup d "sx" = some s) (ht : lookup d "sy" = some t)
    (hr : lookup d "rho" = some rho) (hw : lookup d "weight" = some w) (ps : 0 < s.getD i 0) (pt : 0 < t.getD i 0)
    (pr : (rho.getD i 0) ^ 2 < 1) :
    ∃ e, drawOne eig d i = .ok (e, w.getD i 0) ∧ e.cx = x.getD i 0 ∧ e.cy = y.getD i 0 ∧ ∀ dx dy, OnOutline e dx dy ↔
      (dx / t.getD i 0) ^ 2 + (dy / s.getD i 0) ^ 2 - 2 * rho.getD i 0 * (dx / t.getD i 0) * (dy / s.getD i 0) =
        1 - (rho.getD i 0) ^ 2 := by
  refine ⟨ellipseOf eig (x.getD i 0) (y.getD i 0) (s.getD i 0) (t.getD i 0) (rho.getD i 0), ?_, rfl, rfl, fun dx dy =>
    outline_iff eig he _ _ _ _ _ ps pt pr dx dy⟩
  simp only [drawOne, need, otherWidth, hx, hy, hs, ht, hr, hw]
  rfl

/-- C161 (the limits of the axes). The axes run to twice the greatest coordinate of the centres. -/
theorem C161_limits (eig : Sym → Eig) (d : Dict) (gs : List HG) (h : Holds d gs) (hne : gs ≠ []) :
    ∃ es lx ly, drawEllipses eig d = .ok (es, lx, ly) ∧ (∀ g ∈ gs, 2 * g.x ≤ lx ∧ 2 * g.y ≤ ly) ∧
      (∃ g ∈ gs, 2 * g.x = lx) ∧ ∃ g ∈ gs, 2 * g.y = ly := by
  have hub : ∀ (l : List ℝ) (m : ℝ), m ≤ l.foldl max m ∧ (∀ x ∈ l, x ≤ l.foldl max m) ∧
      (l.foldl max m = m ∨ l.foldl max m ∈ l) := by
    intro l
    induction l with
    | nil => intro m; simp
    | cons x t ih =>
      intro m
      obtain ⟨h1, h2, h3⟩ := ih (max m x)
      simp only [List.foldl_cons]
      refine ⟨le_trans (le_max_left m x) h1, ?_, ?_⟩
      · intro z hz
        rcases List.mem_cons.1 hz with hz | hz
        · rw [hz]; exact le_trans (le_max_right m x) h1
        · exact h2 z hz
      · rcases h3 with h3 | h3
        · rcases max_choice m x with hc | hc
          · left; rw [h3, hc]
          · right; rw [h3, hc]; simp
        · right; exact List.mem_cons_of_mem _ h3
  obtain ⟨g, t, hg⟩ := List.exists_cons_of_ne_nil hne
  have hmem : ∀ (f : HG → ℝ), (∀ g ∈ gs, f g ≤ (gs.map f).foldl max ((gs.map f).headD 0)) ∧
      ∃ g ∈ gs, f g = (gs.map f).foldl max ((gs.map f).headD 0) := by
    intro f
    obtain ⟨_, h2, h3⟩ := hub (gs.map f) ((gs.map f).headD 0)
    refine ⟨fun z hz => h2 _ (List.mem_map.2 ⟨z, hz, rfl⟩), ?_⟩
    rcases h3 with h3 | h3
    · refine ⟨g, by rw [hg]; simp, ?_⟩
      rw [h3, hg]
      rfl
    · obtain ⟨z, hz, e⟩ := List.mem_map.1 h3
      exact ⟨z, hz, e⟩
  refine ⟨_, _, _, draw_eq eig d gs h, ?_, ?_, ?_⟩
  · intro z hz
    exact ⟨mul_le_mul_of_nonneg_left ((hmem HG.x).1 z hz) (by norm_num),
      mul_le_mul_of_nonneg_left ((hmem HG.y).1 z hz) (by norm_num)⟩
  · obtain ⟨z, hz, e⟩ := (hmem HG.x).2
    exact ⟨z, hz, by rw [e]⟩
  · obtain ⟨z, hz, e⟩ := (hmem HG.y).2
    exact ⟨z, hz, by rw [e]⟩

/-- C161, refuted (the ellipses of one gaussian). The fit of one gaussian has no weights and is not drawn. -/
theorem C161_ellipse_single_refuted (eig : Sym → Eig) (d : Dict) (x y s q rho : List ℝ) (hx : lookup d "x" = some x)
    (hne : x ≠ []) (hy : lookup d "y" = some y) (hs : lookup d "sx" = some s) (hsy : lookup d "sy" = none)
    (hq : lookup d "q" = some q) (hr : lookup d "rho" = some rho) (hw : lookup d "weight" = none) :
    drawEllipses eig d = .error (.key "weight") := by
  have h1 : drawOne eig d 0 = .error (.key "weight") := by
    simp only [drawOne, need, otherWidth, hx, hy, hs, hsy, hq, hr, hw]
    rfl
  obtain ⟨z, t, hz⟩ := List.exists_cons_of_ne_nil hne
  have h2 : (List.range x.length).mapM (drawOne eig d) = .error (.key "weight") := by
    rw [hz, List.length_cons, List.range_succ_eq_map, List.mapM_cons, h1]
    rfl
  simp only [drawEllipses, need, hx]
  simp only [bind, Except.bind, h2]

/-! ## Claims about the curves of growth -/

theorem sum_split (ps : List (ℝ × ℝ)) (A B C : ℝ × ℝ → Bool) (h : ∀ p, C p = (A p || B p)) (hd : ∀ p, ¬ (A p = true ∧ B p = true)) :
    ((ps.filter A).map (·.2)).sum + ((ps.filter B).map (·.2)).sum = ((ps.filter C).map (·.2)).sum := by
  induction ps with
  | nil => simp
  | cons p t ih =>
    have e := h p
    have e2 := hd p
    simp only [List.filter_cons]
    cases hA : A p <;> cases hB : B p <;> rw [hA, hB] at e e2 <;> simp [e] at e2 ⊢ <;> linarith

theorem growth (ps : List (ℝ × ℝ)) : ∀ (es : List ℝ) (s : ℝ), es.Pairwise (· ≤ ·) →
    (cumsum s (histogram es ps)).length = es.length - 1 ∧
    ∀ (k : Nat) (hk : k < (cumsum s (histogram es ps)).length) (h0 : 0 < es.length) (hk1 : k + 1 < es.length),
      (cumsum s (histogram es ps))[k] = s + ((ps.filter fun p => decide (es[0] ≤ p.1) &&
        if k + 2 = es.length then decide (p.1 ≤ es[k + 1]) else decide (p.1 < es[k + 1])).map (·.2)).sum := by
  intro es
  induction es with
  | nil => intro s _; simp [histogram, cumsum]
  | cons e t ih =>
    intro s hp
    cases t with
    | nil => simp [histogram, cumsum]
    | cons f t =>
      simp only [histogram, cumsum]
      have hp2 := List.pairwise_cons.1 hp
      obtain ⟨i1, i2⟩ := ih (s + ((ps.filter fun p => decide (e ≤ p.1) && if t.isEmpty = true then decide (p.1 ≤ f)
        else decide (p.1 < f)).map (·.2)).sum) hp2.2
      refine ⟨by simp only [List.length_cons, i1]; simp, ?_⟩
      intro k hk h0 hk1
      cases k with
      | zero =>
        simp only [List.getElem_cons_zero, List.getElem_cons_succ, List.length_cons, List.isEmpty_iff]
        by_cases ht : t = []
        · simp [ht]
        · have : ¬ (0 + 2 = t.length + 1 + 1) := by
            have := List.length_pos_iff.2 ht
            omega
          simp only [ht, this, if_false]
      | succ k =>
        simp only [List.getElem_cons_succ]
        have hk1' : k + 1 < (f :: t).length := by simpa using hk1
        rw [i2 k (by simpa using hk) (by simp) hk1', add_assoc]
        congr 1
        have ht : t.isEmpty = false := by
          cases t with
          | nil => simp at hk1'
          | cons _ _ => rfl
        simp only [ht, Bool.false_eq_true, if_false, List.getElem_cons_zero, List.getElem_cons_succ, List.length_cons]
        have hle : f ≤ t[k]'(by simpa using hk1') :=
          (List.pairwise_cons.1 hp2.2).1 _ (List.getElem_mem _)
        have hef : e ≤ f := hp2.1 f (by simp)
        apply sum_split
        · intro p
          by_cases hl : k + 2 = t.length + 1
          · have hl' : k + 1 + 2 = t.length + 1 + 1 := by omega
            simp only [hl, hl', if_true]
            rw [Bool.eq_iff_iff]
            simp only [Bool.and_eq_true, Bool.or_eq_true, decide_eq_true_eq]
            constructor
            · rintro ⟨a1, a2⟩
              rcases lt_or_ge p.1 f with h | h
              · exact Or.inl ⟨a1, h⟩
              · exact Or.inr ⟨h, a2⟩
            · rintro (⟨a1, a2⟩ | ⟨a1, a2⟩)
              · exact ⟨a1, by linarith⟩
              · exact ⟨by linarith, a2⟩
          · have hl' : ¬ (k + 1 + 2 = t.length + 1 + 1) := by omega
            simp only [hl, hl', if_false]
            rw [Bool.eq_iff_iff]
            simp only [Bool.and_eq_true, Bool.or_eq_true, decide_eq_true_eq]
            constructor
            · rintro ⟨a1, a2⟩
              rcases lt_or_ge p.1 f with h | h
              · exact Or.inl ⟨a1, h⟩
              · exact Or.inr ⟨h, a2⟩
            · rintro (⟨a1, a2⟩ | ⟨a1, a2⟩)
              · exact ⟨a1, by linarith⟩
              · exact ⟨by linarith, a2⟩
        · rintro p ⟨a1, a2⟩
          simp only [Bool.and_eq_true, decide_eq_true_eq] at a1 a2
          linarith [a1.2, a2.1]

theorem linspaceR_sorted (lo hi : ℝ) (n : Nat) (h : n < 2 ∨ lo ≤ hi) : (linspaceR lo hi n).Pairwise (· ≤ ·) := by
  rcases h with h | h
  · have : (linspaceR lo hi n).length < 2 := by simpa [linspaceR] using h
    match linspaceR lo hi n, this with
    | [], _ => simp
    | [_], _ => simp
    | _ :: _ :: _, h => simp at h
  · unfold linspaceR
    rw [List.pairwise_map]
    apply List.Pairwise.imp_of_mem _ List.pairwise_lt_range
    intro a b ha hb hab
    have hn : (1 : ℝ) ≤ n := by
      have : 1 ≤ n := by have := List.mem_range.1 ha; omega
      exact_mod_cast this
    have h1 : (a : ℝ) / ((n : ℝ) - 1) ≤ (b : ℝ) / ((n : ℝ) - 1) :=
      div_le_div_of_nonneg_right (by exact_mod_cast hab.le) (by linarith)
    have := mul_le_mul_of_nonneg_left h1 (sub_nonneg.2 h)
    linarith

theorem nearest_eq (ps : List Ring) (lo : ℝ) (h : IsLeast {x | ∃ p ∈ ps, p.r = x} lo) : nearest ps = lo := by
  have key : ∀ (l : List ℝ) (m : ℝ), lo ≤ m → (∀ x ∈ l, lo ≤ x) → (m = lo ∨ lo ∈ l) → l.foldl min m = lo := by
    intro l
    induction l with
    | nil => intro m _ _ h3; simpa using h3
    | cons x t ih =>
      intro m h1 h2 h3
      simp only [List.foldl_cons]
      have hx := h2 x (by simp)
      apply ih _ (le_min h1 hx) (fun y hy => h2 y (by simp [hy]))
      rcases h3 with h3 | h3
      · left; rw [h3, min_eq_left hx]
      · rcases List.mem_cons.1 h3 with h3 | h3
        · left; rw [← h3, min_eq_right h1]
        · exact Or.inr h3
  obtain ⟨⟨p, hp, hr⟩, hl⟩ := h
  have hall : ∀ x ∈ ps.map Ring.r, lo ≤ x := by
    intro x hx
    obtain ⟨z, hz, e⟩ := List.mem_map.1 hx
    exact hl ⟨z, hz, e⟩
  have hmem : lo ∈ ps.map Ring.r := List.mem_map.2 ⟨p, hp, hr⟩
  refine key _ _ ?_ hall (Or.inr hmem)
  obtain ⟨z, t, hz⟩ := List.exists_cons_of_ne_nil (List.ne_nil_of_mem hmem)
  rw [hz] at hall ⊢
  exact hall z (by simp)

theorem farthest_eq (ps : List Ring) (hi : ℝ) (h : IsGreatest {x | ∃ p ∈ ps, p.r = x} hi) : farthest ps = hi := by
  have key : ∀ (l : List ℝ) (m : ℝ), m ≤ hi → (∀ x ∈ l, x ≤ hi) → (m = hi ∨ hi ∈ l) → l.foldl max m = hi := by
    intro l
    induction l with
    | nil => intro m _ _ h3; simpa using h3
    | cons x t ih =>
      intro m h1 h2 h3
      simp only [List.foldl_cons]
      have hx := h2 x (by simp)
      apply ih _ (max_le h1 hx) (fun y hy => h2 y (by simp [hy]))
      rcases h3 with h3 | h3
      · left; rw [h3, max_eq_left hx]
      · rcases List.mem_cons.1 h3 with h3 | h3
        · left; rw [← h3, max_eq_right h1]
        · exact Or.inr h3
  obtain ⟨⟨p, hp, hr⟩, hl⟩ := h
  have hall : ∀ x ∈ ps.map Ring.r, x ≤ hi := by
    intro x hx
    obtain ⟨z, hz, e⟩ := List.mem_map.1 hx
    exact hl ⟨z, hz, e⟩
  have hmem : hi ∈ ps.map Ring.r := List.mem_map.2 ⟨p, hp, hr⟩
  refine key _ _ ?_ hall (Or.inr hmem)
  obtain ⟨z, t, hz⟩ := List.exists_cons_of_ne_nil (List.ne_nil_of_mem hmem)
  rw [hz] at hall ⊢
  exact hall z (by simp)

theorem foldl_min_le (l : List ℝ) : ∀ m : ℝ, l.foldl min m ≤ m ∧ ∀ x ∈ l, l.foldl min m ≤ x := by
  induction l with
  | nil => intro m; simp
  | cons x t ih =>
    intro m
    obtain ⟨h1, h2⟩ := ih (min m x)
    simp only [List.foldl_cons]
    refine ⟨le_trans h1 (min_le_left m x), ?_⟩
    intro z hz
    rcases List.mem_cons.1 hz with hz | hz
    · rw [hz]; exact le_trans h1 (min_le_right m x)
    · exact h2 z hz

/-- C161 (the curves of growth). The figure has `n` radii, equally spaced from the least distance to the greatest over 1.4; over each
but the first it shows the flux of all pixels closer than the radius (at the last radius, no farther) in the image and in the
model, both divided by the flux of the image within half its width when this is asked for. -/
theorem C161_growth (ps : List Ring) (nx : ℝ) (n : Nat) (renorm : Bool) (rr eed eem : List ℝ) (dt lo hi : ℝ)
    (hlo : IsLeast {x | ∃ p ∈ ps, p.r = x} lo) (hhi : IsGreatest {x | ∃ p ∈ ps, p.r = x} hi) (h : eePlot ps nx n renorm = some (rr, eed, eem, dt)) :
    dt = ((ps.filter fun p => decide (p.r < nx / 2)).map Ring.data).sum ∧ rr.length = n ∧ eed.length = n - 1 ∧
    eem.length = n - 1 ∧ (∀ (k : Nat) (hk : k < rr.length),
      rr[k] = lo + (hi / 1.4 - lo) * ((k : ℝ) / ((n : ℝ) - 1))) ∧
    ∀ (k : Nat) (h1 : k + 1 < rr.length) (h2 : k < eed.length) (h3 : k < eem.length),
      eed[k] = ((ps.filter fun p => if k + 2 = n then decide (p.r ≤ rr[k + 1]) else decide (p.r < rr[k + 1])).map
        Ring.data).sum / (if renorm then dt else 1) ∧
      eem[k] = ((ps.filter fun p => if k + 2 = n then decide (p.r ≤ rr[k + 1]) else decide (p.r < rr[k + 1])).map
        Ring.model).sum / (if renorm then dt else 1) := by
  have en := nearest_eq ps lo hlo
  have ef := farthest_eq ps hi hhi
  subst en ef
  unfold eePlot at h
  simp only at h
  split at h
  · simp at h
  rename_i hbad
  have hok : n < 2 ∨ nearest ps ≤ farthest ps / 1.4 := by
    by_contra hc
    push Not at hc
    apply hbad
    simp [hc.1, hc.2]
  have hsort := linspaceR_sorted _ _ n hok
  have hlen : (linspaceR (nearest ps) (farthest ps / 1.4) n).length = n := by simp [linspaceR]
  have hmin : ∀ p ∈ ps, nearest ps ≤ p.r := by
    intro p hp
    exact (foldl_min_le (ps.map Ring.r) _).2 _ (List.mem_map.2 ⟨p, hp, rfl⟩)
  have hfirst : ∀ h0 : 0 < (linspaceR (nearest ps) (farthest ps / 1.4) n).length,
      (linspaceR (nearest ps) (farthest ps / 1.4) n)[0] = nearest ps := by
    intro h0
    simp [linspaceR]
  have hcurve : ∀ f : Ring → ℝ,
      (cumsum 0 (histogram (linspaceR (nearest ps) (farthest ps / 1.4) n) (ps.map fun p => (p.r, f p)))).length = n - 1 ∧
      ∀ (k : Nat) (h1 : k + 1 < (linspaceR (nearest ps) (farthest ps / 1.4) n).length)
        (h2 : k < (cumsum 0 (histogram (linspaceR (nearest ps) (farthest ps / 1.4) n) (ps.map fun p => (p.r, f p)))).length),
        (cumsum 0 (histogram (linspaceR (nearest ps) (farthest ps / 1.4) n) (ps.map fun p => (p.r, f p))))[k] =
        ((ps.filter fun p => if k + 2 = n then decide (p.r ≤ (linspaceR (nearest ps) (farthest ps / 1.4) n)[k + 1])
          else decide (p.r < (linspaceR (nearest ps) (farthest ps / 1.4) n)[k + 1])).map f).sum := by
    intro f
    obtain ⟨g1, g2⟩ := growth (ps.map fun p => (p.r, f p)) _ 0 hsort
    rw [hlen] at g1
    refine ⟨g1, ?_⟩
    intro k h1 h2
    rw [g2 k h2 (by omega) h1, zero_add, List.filter_map, List.map_map]
    simp only [hfirst, hlen, Function.comp_def]
    congr 2
    apply List.filter_congr
    intro p hp
    simp [hmin p hp]
  obtain ⟨d1, d2⟩ := hcurve Ring.data
  obtain ⟨m1, m2⟩ := hcurve Ring.model
  cases renorm with
  | false =>
    simp only [Bool.false_eq_true, if_false, Option.some.injEq, Prod.mk.injEq] at h
    obtain ⟨rfl, rfl, rfl, rfl⟩ := h
    refine ⟨rfl, hlen, d1, m1, ?_, ?_⟩
    · intro k hk
      simp [linspaceR]
    · intro k h1 h2 h3
      simp only [Bool.false_eq_true, if_false, div_one]
      exact ⟨d2 k h1 h2, m2 k h1 h3⟩
  | true =>
    simp only [if_true, Option.some.injEq, Prod.mk.injEq] at h
    obtain ⟨rfl, rfl, rfl, rfl⟩ := h
    refine ⟨rfl, hlen, by simpa using d1, by simpa using m1, ?_, ?_⟩
    · intro k hk
      simp [linspaceR]
    · intro k h1 h2 h3
      simp only [if_true, List.getElem_map]
      rw [d2 k h1 (by simpa using h2), m2 k h1 (by simpa using h3)]
      exact ⟨rfl, rfl⟩

/-- C161, refuted (the curve of the model). Asked to renormalize, the curve of the model is divided by the flux of the image: a model
with twice the flux ends at two and not at one. -/
theorem C161_growth_refuted :
    ∃ ps : List Ring, ∃ rr eed eem dt, eePlot ps 10 2 true = some (rr, eed, eem, dt) ∧ eed = [1] ∧ eem = [2] := by
  have hf : farthest [⟨0, 1, 2⟩, ⟨1, 0, 0⟩] = 1 := by
    simp [farthest]
  have hn : nearest [⟨0, 1, 2⟩, ⟨1, 0, 0⟩] = 0 := by
    simp [nearest]
  refine ⟨[⟨0, 1, 2⟩, ⟨1, 0, 0⟩], linspaceR 0 (1 / 1.4) 2, [1], [2], 1, ?_, rfl, rfl⟩
  unfold eePlot
  simp only [hf, hn]
  rw [if_neg (by norm_num)]
  have hl : linspaceR 0 (1 / 1.4) 2 = [0, 1 / 1.4] := by
    simp [linspaceR, List.range_succ]
    norm_num
  simp only [hl]
  norm_num [histogram, cumsum, List.filter_cons]

/-- C161 (when the curves fail). There are curves unless there are no pixels, or all of them lie about one circle: the greatest
distance is less than 1.4 times the least, and two radii or more are asked for. -/
theorem C161_growth_fails (ps : List Ring) (nx : ℝ) (n : Nat) (renorm : Bool) :
    (ps = [] → eePlot ps nx n renorm = none) ∧
    ∀ lo hi : ℝ, IsLeast {x | ∃ p ∈ ps, p.r = x} lo → IsGreatest {x | ∃ p ∈ ps, p.r = x} hi →
      (eePlot ps nx n renorm = none ↔ 2 ≤ n ∧ hi < 1.4 * lo) := by
  constructor
  · intro h
    simp [eePlot, h]
  intro lo hi hlo hhi
  have hne : ps.isEmpty = false := by
    obtain ⟨⟨p, hp, _⟩, _⟩ := hlo
    cases ps with
    | nil => simp at hp
    | cons _ _ => rfl
  have hd : hi / 1.4 < lo ↔ hi < 1.4 * lo := by
    rw [div_lt_iff₀ (by norm_num), mul_comm]
  unfold eePlot
  simp only [nearest_eq ps lo hlo, farthest_eq ps hi hhi, hne, Bool.false_or]
  split
  · rename_i h
    simp only [Bool.and_eq_true, decide_eq_true_eq, hd] at h
    simp [h]
  · rename_i h
    simp only [Bool.and_eq_true, decide_eq_true_eq, hd] at h
    cases renorm <;> simp [h]

/-- There is a decomposition as `np.linalg.eig` promises it, so the claims about the ellipses speak of something. -/
theorem eig_exists : ∃ eig, EigSpec eig := by
  have h : ∀ S : Sym, ∃ e : Eig, e.vx ^ 2 + e.vy ^ 2 = 1 ∧ S.xx * e.vx + S.xy * e.vy = e.val0 * e.vx ∧
      S.xy * e.vx + S.yy * e.vy = e.val0 * e.vy ∧ e.val0 + e.val1 = S.xx + S.yy := by
    intro S
    by_cases h0 : S.xy = 0
    · exact ⟨⟨S.xx, S.yy, 1, 0⟩, by norm_num, by simp, by simp [h0], rfl⟩
    · have hD : 0 ≤ (S.xx - S.yy) ^ 2 + 4 * S.xy ^ 2 := by positivity
      obtain ⟨l, hl⟩ : ∃ l : ℝ, l ^ 2 - (S.xx + S.yy) * l + (S.xx * S.yy - S.xy ^ 2) = 0 := by
        refine ⟨(S.xx + S.yy + Real.sqrt ((S.xx - S.yy) ^ 2 + 4 * S.xy ^ 2)) / 2, ?_⟩
        have := Real.sq_sqrt hD
        linear_combination this / 4
      have hp : 0 < (l - S.yy) ^ 2 + S.xy ^ 2 := by positivity
      have hs : Real.sqrt ((l - S.yy) ^ 2 + S.xy ^ 2) ≠ 0 := (Real.sqrt_pos.2 hp).ne'
      refine ⟨⟨l, S.xx + S.yy - l, (l - S.yy) / Real.sqrt ((l - S.yy) ^ 2 + S.xy ^ 2),
        S.xy / Real.sqrt ((l - S.yy) ^ 2 + S.xy ^ 2)⟩, ?_, ?_, ?_, ?_⟩
      · simp only
        rw [div_pow, div_pow, Real.sq_sqrt hp.le, ← add_div, div_self hp.ne']
      · simp only
        rw [← mul_div_assoc, ← mul_div_assoc, ← mul_div_assoc, ← add_div]
        congr 1
        linear_combination -hl
      · simp only
        rw [← mul_div_assoc, ← mul_div_assoc, ← mul_div_assoc, ← add_div]
        congr 1
        ring
      · simp only
        ring
  choose f hf using h
  exact ⟨f, fun S => (hf S).1, fun S => (hf S).2.1, fun S => (hf S).2.2.1, fun S => (hf S).2.2.2⟩

/-- A dictionary of two gaussians, the second higher than wide. -/
example : Holds [("weight", [0.7, 0.3]), ("x", [10, 11]), ("y", [10, 9]), ("rho", [0, 0.1]), ("sx", [2, 5]), ("q", [1, 1.1])]
    [⟨0.7, 10, 10, 2, 1, 0⟩, ⟨0.3, 11, 9, 5, 1.1, 0.1⟩] := by
  constructor <;> simp [lookup]

/-- Curves over four pixels. -/
example : eePlot [⟨0, 4, 3⟩, ⟨1, 2, 2⟩, ⟨2, 1, 1⟩, ⟨3, 1, 1⟩] 10 3 false ≠ none := by
  have hl : IsLeast {x : ℝ | ∃ p ∈ ([⟨0, 4, 3⟩, ⟨1, 2, 2⟩, ⟨2, 1, 1⟩, ⟨3, 1, 1⟩] : List Ring), p.r = x} 0 := by
    constructor
    · simp
    · rintro x ⟨p, hp, rfl⟩
      simp at hp
      rcases hp with rfl | rfl | rfl | rfl <;> norm_num
  have hg : IsGreatest {x : ℝ | ∃ p ∈ ([⟨0, 4, 3⟩, ⟨1, 2, 2⟩, ⟨2, 1, 1⟩, ⟨3, 1, 1⟩] : List Ring), p.r = x} 3 := by
    constructor
    · simp
    · rintro x ⟨p, hp, rfl⟩
      simp at hp
      rcases hp with rfl | rfl | rfl | rfl <;> norm_num
  rw [Ne, (C161_growth_fails _ _ _ _).2 0 3 hl hg]
  norm_num

end

end Forcepho.Psfdata
