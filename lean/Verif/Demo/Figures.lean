import Verif.Profile.Props
import Mathlib.Analysis.SpecialFunctions.Log.Base
import Mathlib.Order.Bounds.Basic

/-! # The figures of the demonstrations (demo/*/*_plot*.py, demo/demo_pair/pair_movie.py)

Which numbers of a saved fit each figure shows, and what it says about them.  A saved fit is what `Samples` reads: the chain of
every column for every source, the number of warm-up draws at its start and the catalog the fit started from.  The drawing
itself, styles and formats are not modelled; the quantiles of `get_spans` are C93 and enter as a function.  Real arithmetic. -/

set_option autoImplicit false

namespace Forcepho.Demo.Figures

open Forcepho.Profile (fracSersic)

/-- What the scripts read of a saved fit (`Samples`, postprocess.py:150-153). -/
structure Fit where
  /-- `chaincat[col]`: for every active source the draws of a column. -/
  chaincat : String → List (List ℝ)
  /-- `n_tune`: the number of warm-up draws at the start of the chain. -/
  nTune : Nat
  /-- `active[col]`: the catalog the fit started from; in the demonstrations it is the scene that was drawn. -/
  active : String → List ℝ

/-! ## The movie -/

/-- `l[::k]`; `none` is the `ValueError` for a step of zero. -/
def every {α : Type} (k : Nat) (l : List α) : Option (List α) :=
  if k = 0 then none else some ((List.range ((l.length + k - 1) / k)).filterMap fun i => l[i * k]?)

/-- The frames of `pair_movie.py` (45-51, 75-91): the residuals are made for `chain[::thin]`, the marks for the draws
`n_tune::thin`, and frame `i` has residual number `i` and mark number `i`.  `residual` and `mark` are what is shown of a draw. -/
def movie {Q R M : Type} (residual : Q → R) (mark : Q → M) (thin nTune : Nat) (chain : List Q) : Option (List (R × M)) :=
  (every thin chain).bind fun qs =>
    (every thin ((chain.map mark).drop nTune)).bind fun vs =>
      vs.zipIdx.mapM fun p => ((qs.map residual)[p.2]?).map fun d => (d, p.1)

/-! ## Truths -/

/-- `chaincat[col][:, 0]`, the values that pair_plot.py (19, 96), color_plot_together.py (24, 44), mosaic_plot.py (31) and
single_plot.py (41) mark as the truth. -/
def drawnTruth (f : Fit) (col : String) : List (Option ℝ) := (f.chaincat col).map fun x => x.head?

/-- `active[col]`, the values that `plot_trace` of basic_plot.py (20, 24) and psf_plot.py (19, 23) mark as the truth. -/
def basicTruth (f : Fit) (col : String) : List (Option ℝ) := (f.active col).map some

/-! ## Several fits in one figure -/

/-- The draws that `plot_corner` of single_plot.py shows of each fit (31-38, 45): those of the first source, without the first
`n_tune`, which is left over from the loop over the files.  `none`: no file, or a fit without sources. -/
def singleSets (fits : List Fit) (cols : List String) : Option (List (List (List ℝ))) :=
  fits.getLast?.bind fun l =>
    fits.mapM fun f => cols.mapM fun c => ((f.chaincat c).head?).map fun x => x.drop l.nTune

/-- The colours of single_plot.py (26). -/
def colors : List String := ["slateblue", "darkorange", "firebrick", "grey", "cornflowerblue"]

/-- The sets drawn, with their colours (single_plot.py:44-45). -/
def drawn {α : Type} (sets : List α) : List (α × String) := sets.zip (colors.take sets.length)

/-- The entries of the legend (single_plot.py:25, 51-52): a colour and a text, paired by matplotlib as far as both go. -/
def legend (texts : List String) : List (String × String) := colors.zip texts

/-- The columns of that figure (single_plot.py:29) and the labels of its rows (28). -/
def singleCols : List String := ["CLEAR", "rhalf", "sersic", "q", "pa"]

@[inherit_doc singleCols]
def singleLabels : List String :=
  ["Flux", "R$_{half}$ (\")", "$n_{\\rm sersic}$", "$\\sqrt{b/a}$", "PA (radians)"]

/-- The labels of the panels of `plot_traces` (single_plot.py:89), below the columns of `show_chain` (82). -/
def traceLabels : List String :=
  ["Flux", "RA", "Dec", "$\\sqrt{b/a}$", "PA (radians)", "$n_{\\rm sersic}$", "R$_{half}$ (\")"]

/-- The residuals and traces (single_plot.py:114-123) are those of the second S/N; `none` is the `IndexError`. -/
def second {α : Type} (names : List α) : Option α := names[1]?

/-- The common range of one parameter (`multispan`, single_plot.py:13-20, mosaic_plot.py:11-18): the least of the lower and the
largest of the upper ends. -/
noncomputable def multispan1 (span : List ℝ → ℝ × ℝ) (x : List ℝ) (rest : List (List ℝ)) : ℝ × ℝ :=
  (rest.foldl (fun m y => min m (span y).1) (span x).1, rest.foldl (fun m y => max m (span y).2) (span x).2)

/-- `a.reshape(rows, -1)` of an array with the elements `l`; `none` is the `ValueError`. -/
def reshape (rows : Nat) (l : List ℝ) : Option (List (List ℝ)) :=
  if rows ≠ 0 ∧ l.length % rows = 0 then
    some ((List.range rows).map fun k => (l.drop (k * (l.length / rows))).take (l.length / rows))
  else none

/-- The columns of mosaic_plot.py (23). -/
def mosaicCols : List String := ["CLEAR", "rhalf", "sersic"]

/-- The rows of the figure for one fit (mosaic_plot.py:28-30), with the number of sources of the fit to the dithers. -/
def mosaicRows (nsource : Nat) (f : Fit) : Option (List (List ℝ)) :=
  reshape (mosaicCols.length * nsource) ((mosaicCols.flatMap fun c => f.chaincat c).flatten)

/-- The labels of the rows (mosaic_plot.py:33). -/
def mosaicLabels (nsource : Nat) : List (String × Nat) :=
  mosaicCols.flatMap fun c => (List.range nsource).map fun n => (c, n)

/-! ## Fluxes and colours -/

/-- The sum of the fluxes of all sources, draw by draw (`.sum(axis=0)`; color_plot_together.py:21, pair_plot.py:92). -/
noncomputable def totalFlux : List (List ℝ) → List ℝ
  | [] => []
  | [x] => x
  | x :: l => List.zipWith (· + ·) x (totalFlux l)

/-- The colour of a draw (`color_corner`, color_plot_together.py:41, color_plot_separate.py:48). -/
noncomputable def color (f0 f1 : ℝ) : ℝ := -5 / 2 * Real.logb 10 (f0 / f1)

/-- The aperture flux of one source and one draw (`apflux`, color_plot_separate.py:66-72). -/
noncomputable def apflux (nradii startRhalf flux sersic rhalf : ℝ) : ℝ :=
  flux * fracSersic (startRhalf * nradii) rhalf sersic

/-- The shape of `np.squeeze` of an array with one row for each source (color_plot_separate.py:72): the rows as they are, or a
single row without its axis. -/
inductive Squeezed
  | rows (l : List (List ℝ))
  | row (l : List ℝ)

/-- `np.squeeze` of that array for chains of more than one draw. -/
def squeeze : List (List ℝ) → Squeezed
  | [x] => .row x
  | l => .rows l

/-- `xx[:, 0]` (color_plot_separate.py:51); `none` is the `IndexError` for an array with one axis. -/
def firstColumn : Squeezed → Option (List (Option ℝ))
  | .rows l => some (l.map fun x => x.head?)
  | .row _ => none

/-! ## Text and scales -/

/-- The number of digits for the median in `plot_trace` (basic_plot.py:27-31, psf_plot.py:26-30); `none` is the `OverflowError`
that comes of the logarithm of zero. -/
noncomputable def traceDigits (lo mid hi : ℝ) : Option Nat :=
  if mid - lo = 0 ∨ hi - mid = 0 then none
  else some ((max ⌈|Real.logb 10 (mid - lo)|⌉ ⌈|Real.logb 10 (hi - mid)|⌉ + 1).toNat)

/-- Python's `min(a, b, c)` where the last may be not a number: it replaces the others only if it is smaller. -/
noncomputable def min3 (a b : ℝ) (c : Option ℝ) : ℝ :=
  match c with
  | some z => min (min a b) z
  | none => min a b

@[inherit_doc min3]
noncomputable def max3 (a b : ℝ) (c : Option ℝ) : ℝ :=
  match c with
  | some z => max (max a b) z
  | none => max a b

/-- A pixel of a saved exposure: data, residual, inverse uncertainty. -/
structure Px where
  data : ℝ
  resid : ℝ
  ierr : ℝ

/-- The least and the largest of a list that is not empty. -/
noncomputable def least (x : ℝ) (l : List ℝ) : ℝ := l.foldl min x

@[inherit_doc least]
noncomputable def largest (x : ℝ) (l : List ℝ) : ℝ := l.foldl max x

/-- The residuals as they are shown: not a number where the pixel has no weight (postprocess.py:64). -/
noncomputable def shownResid (p : Px) : Option ℝ := if p.ierr = 0 then none else some p.resid

/-- `resid.min()`: not a number as soon as one is not (postprocess.py:68-69); `e` picks the least or the largest. -/
noncomputable def residEnd (e : ℝ → List ℝ → ℝ) (p : Px) (l : List Px) : Option ℝ :=
  ((p :: l).mapM shownResid).map fun r => e p.resid (r.drop 1)

/-- The scale of `Residuals.show` (postprocess.py:55-76) for an exposure with the pixels `p :: l`. -/
noncomputable def showScale (p : Px) (l : List Px) : ℝ × ℝ :=
  (min3 (least p.data (l.map fun q => q.data)) (least (p.data - p.resid) (l.map fun q => q.data - q.resid)) (residEnd least p l),
   max3 (largest p.data (l.map fun q => q.data)) (largest (p.data - p.resid) (l.map fun q => q.data - q.resid))
    (residEnd largest p l))

end Forcepho.Demo.Figures
