import Mathlib.Algebra.Order.Field.Basic
import Mathlib.Algebra.Order.Field.Rat
import Mathlib.Algebra.Order.Floor.Ring
import Mathlib.Data.Rat.Floor
import Mathlib.Tactic.Lemma

/-!
# Contours of two-dimensional histograms (forcepho/utils/corner.py:344-497, 641-648)

`twodhist` turns the (smoothed) histogram of the samples into contour levels, pads it for plotting
and chooses colours.  Modelled: the number of bins, the density levels, the loop that separates
equal levels, the padding, the bin centres, the levels and opacities of the filled contours.  Numbers
are those of an ordered field; `np.histogram2d` and the gaussian filter are not modelled, the
histogram is the input.
-/

set_option autoImplicit false

namespace Forcepho.Contour

variable {K : Type} [Field K] [LinearOrder K]

/-- Python's `round` of a number: to the nearest integer, halves to the even one. -/
def pyRound (x : ℚ) : Int :=
  let f := ⌊x⌋
  if x - f < 1 / 2 then f
  else if 1 / 2 < x - f then f + 1
  else if f % 2 = 0 then f else f + 1

/-- The number of bins in one direction for a smoothing (corner.py:415-426).  `none` for a smoothing of
zero: `2. / s` is infinite and `int(round(...))` raises `OverflowError`. -/
def bins (s : ℚ) : Option Int :=
  if 1 < s then some ⌊s⌋ else if s = 0 then none else some (pyRound (2 / s))

/-- How the preparation of a histogram fails: in the conversion of an infinite number of bins, or with
the message on the dynamic range of the samples. -/
inductive BinErr where
  | overflow
  | noDynamicRange
  deriving DecidableEq, Repr

/-- The numbers of bins of the histogram for a pair of smoothings (corner.py:412-435).
`np.histogram2d` raises `ValueError` for fewer than one bin, which is reported as samples without
dynamic range; the other errors of that call are not modelled. -/
def binPair (sx sy : ℚ) : Except BinErr (Int × Int) :=
  match bins sx, bins sy with
  | some a, some b => if a < 1 ∨ b < 1 then .error .noDynamicRange else .ok (a, b)
  | _, _ => .error .overflow

/-- `np.cumsum`. -/
def cumsum : K → List K → List K
  | _, [] => []
  | acc, x :: xs => (acc + x) :: cumsum (acc + x) xs

/-- `Hflat[np.argsort(Hflat)[::-1]]` (corner.py:442-444): the densities in decreasing order. -/
def descending (h : List K) : List K := h.mergeSort fun a b => decide (b ≤ a)

/-- The level of one fraction (corner.py:442-452): the last of the sorted densities whose cumulated
share is at most the fraction; the largest density where there is none.  When everything is zero the
shares are NaN and no comparison holds.  `none` for an empty histogram. -/
def level (h : List K) (v : K) : Option K :=
  let s := descending h
  let total := h.sum
  match (if total = 0 then none
      else ((s.zip (cumsum 0 s)).filter fun p => decide (p.2 / total ≤ v)).getLast?) with
  | some p => some p.1
  | none => s.head?

/-- `V[np.where(m)[0][0]] *= 1.0 - 1e-4` (corner.py:458): the first level equal to the next one is
lowered; `none` when there is no such. -/
def bump : List K → Option (List K)
  | a :: b :: r =>
    if a = b then some (a * (1 - 1 / 10000) :: b :: r)
    else (bump (b :: r)).map (a :: ·)
  | _ => none

/-- The loop `while np.any(m)` (corner.py:457-459) in at most the given number of rounds; `none` when
it has not ended. -/
def separate : Nat → List K → Option (List K)
  | 0, _ => none
  | n + 1, vs =>
    match bump vs with
    | none => some vs
    | some ws => separate n ws

/-- `V.sort()`. -/
def ascending (vs : List K) : List K := vs.mergeSort fun a b => decide (a ≤ b)

/-- All levels, when there are. -/
def levelsOf (h : List K) : List K → Option (List K)
  | [] => some []
  | v :: vs =>
    match level h v, levelsOf h vs with
    | some l, some ls => some (l :: ls)
    | _, _ => none

/-- The levels drawn (corner.py:447-460). -/
def contours (fuel : Nat) (h : List K) (vs : List K) : Option (List K) :=
  match levelsOf h vs with
  | none => none
  | some ls => (separate fuel (ascending ls)).map ascending

/-- The boundaries of the filled contours (corner.py:481). -/
def filled (hmax : K) (vs : List K) : List K := [0] ++ vs ++ [hmax * (1 + 1 / 10000)]

/-- The opacities of the fill colours for `n` levels (corner.py:641-648). -/
def opacities (n : Nat) : List ℚ := (List.range (n + 1)).map fun (i : Nat) => (i : ℚ) / ((n : ℚ) + 1)

/-- The histogram extended for the contours (corner.py:466-475): assignments in the order of the
code, later ones win.  `h` has `n` rows and `m` columns, the result four more of each. -/
def padded (n m : Nat) (lo : K) (h : Nat → Nat → K) (i j : Nat) : K :=
  if i = n + 2 ∧ j = m + 2 then h (n - 1) (m - 1)
  else if i = n + 2 ∧ j = 1 then h (n - 1) 0
  else if i = 1 ∧ j = m + 2 then h 0 (m - 1)
  else if i = 1 ∧ j = 1 then h 0 0
  else if i = n + 2 ∧ 2 ≤ j ∧ j < m + 2 then h (n - 1) (j - 2)
  else if i = 1 ∧ 2 ≤ j ∧ j < m + 2 then h 0 (j - 2)
  else if j = m + 2 ∧ 2 ≤ i ∧ i < n + 2 then h (i - 2) (m - 1)
  else if j = 1 ∧ 2 ≤ i ∧ i < n + 2 then h (i - 2) 0
  else if 2 ≤ i ∧ i < n + 2 ∧ 2 ≤ j ∧ j < m + 2 then h (i - 2) (j - 2)
  else lo

/-- The bin centres (corner.py:463). -/
def centres (edges : Nat → K) (k : Nat) : K := (edges (k + 1) + edges k) / 2

/-- The centres extended by two on either side (corner.py:476-479); `n` centres.  With a single bin
the differences are empty and the concatenation raises: `none`. -/
def extended (n : Nat) (x : Nat → K) : Option (List K) :=
  if n < 2 then none
  else some ([x 0 + (-2) * (x 1 - x 0), x 0 + (-1) * (x 1 - x 0)] ++
    (List.range n).map x ++
    [x (n - 1) + 1 * (x (n - 1) - x (n - 2)), x (n - 1) + 2 * (x (n - 1) - x (n - 2))])

end Forcepho.Contour
