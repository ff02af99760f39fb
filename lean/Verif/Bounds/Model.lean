import Mathlib.Analysis.SpecialFunctions.Trigonometric.Basic
import Mathlib.Analysis.SpecialFunctions.Sqrt
import Mathlib.Algebra.Order.Field.Basic

/-! # Bounds catalogs and catalog clean-up (forcepho/superscene.py:751-1042)

Floating point is idealised to a linearly ordered field (the reals where `sqrt` or `cos` is
used); `none` stands for a non-finite number. -/

set_option autoImplicit false

namespace Forcepho.Bounds

/-- Python exceptions raised here. -/
inductive Err where
  | assertionError
  | attributeError
  | typeError
  | valueError
deriving DecidableEq

/-- `Galaxy.SHAPE_COLS` (sources.py:527). -/
def shapeNames : List String := ["ra", "dec", "q", "pa", "sersic", "rhalf"]

/-! ## Flux bounds -/

/-- numpy `x / y` where a zero divisor gives a non-finite result. -/
noncomputable def fdiv (x y : ℝ) : Option ℝ := if y = 0 then none else some (x / y)

/-- Lower and upper bound of one flux in the branch without precisions before the final repair
(superscene.py:949-962), for `unc1 ≠ 0`.  `np.minimum`/`np.maximum` propagate NaN. -/
noncomputable def rawBound (unc1 flux : ℝ) : Option ℝ × Option ℝ :=
  let snr := Real.sqrt |flux| / unc1
  let fmin := (unc1 / 2) ^ 2
  let noise := fdiv |flux| snr
  let lo := noise.map fun n => flux - n
  let hi := noise.map fun n => flux + n
  (if flux ≤ fmin then lo.map fun l => min l (-fmin) else lo, hi.map fun h => max h fmin)

/-- `np.nanmax`. -/
noncomputable def nanmax : List (Option ℝ) → Option ℝ
  | [] => none
  | x :: xs =>
    match x, nanmax xs with
    | none, m => m
    | some a, none => some a
    | some a, some b => some (max a b)

/-- `flux_bounds` without precisions (superscene.py:949-965): non-finite lower bounds become 0,
non-finite upper bounds become the largest finite one. -/
noncomputable def fluxBounds (unc1 : ℝ) (flux : List ℝ) : List (Option ℝ × Option ℝ) :=
  let raw := flux.map (rawBound unc1)
  let top := nanmax (raw.map (·.2))
  raw.map fun p => (some (p.1.getD 0), if p.2.isSome then p.2 else top)

/-- `flux_bounds` with precisions (superscene.py:941-947): `s` is the square root of the diagonal
of the pseudo-inverse. -/
noncomputable def fluxBoundPrec (unc1 snrMax s flux : ℝ) : ℝ × ℝ :=
  let sigma := max s (flux / snrMax)
  (flux - unc1 * sigma, max (flux + unc1 * sigma) (unc1 * sigma))

/-! ## The bounds catalog -/

/-- A catalog row: values by column name. -/
abbrev Row := String → ℝ
/-- A bounds row: (lower, upper) by column name. -/
abbrev BRow := String → Option ℝ × Option ℝ

/-- Options of `make_bounds` (superscene.py:805-808). -/
structure Options where
  nSig : ℝ
  dpos : Option (ℝ × ℝ)
  nPix : ℝ
  pixscale : ℝ
  q : ℝ × ℝ
  pa : ℝ × ℝ
  rhalf : ℝ × ℝ
  sersic : ℝ × ℝ

/-- A pair of finite bounds. -/
def fin (p : ℝ × ℝ) : Option ℝ × Option ℝ := (some p.1, some p.2)

/-- Half-widths of the position bounds (superscene.py:843-848). -/
noncomputable def halfWidths (o : Options) (dec : ℝ) : ℝ × ℝ :=
  let dpos := o.dpos.getD (o.nPix * o.pixscale, o.nPix * o.pixscale)
  (dpos.1 / 3600 / Real.cos (dec * Real.pi / 180), dpos.2 / 3600)

/-- Flux bounds of one band column (superscene.py:867-878): from the uncertainty catalog if there
is one, else from `flux_bounds(active[b], n_sig_flux)`. -/
noncomputable def bandBounds (o : Options) (flux : List ℝ) (unc : Option (List ℝ)) :
    List (Option ℝ × Option ℝ) :=
  match unc with
  | some us => (flux.zip us).map fun p =>
      let sigma := max p.2 |0.05 * p.1|
      (some (p.1 - o.nSig * sigma), some (p.1 + o.nSig * sigma))
  | none => fluxBounds o.nSig flux

/-- `make_bounds` (superscene.py:805-881) with the default shape names.  `np.dtype` rejects
duplicate column names with a `ValueError`. -/
noncomputable def makeBounds (o : Options) (filternames : List String) (active : List Row)
    (unccat : Option (List Row)) : Except Err (List BRow) :=
  if (["source_index"] ++ filternames ++ shapeNames).Nodup then
    .ok (active.mapIdx fun i r => fun c =>
      if c ∈ filternames then
        ((bandBounds o (active.map (· c)) (unccat.map fun u => u.map (· c)))[i]?).getD (none, none)
      else if c = "ra" then
        (some (r "ra" - (halfWidths o (r "dec")).1), some (r "ra" + (halfWidths o (r "dec")).1))
      else if c = "dec" then
        (some (r "dec" - (halfWidths o (r "dec")).2), some (r "dec" + (halfWidths o (r "dec")).2))
      else if c = "q" then fin o.q
      else if c = "pa" then fin o.pa
      else if c = "sersic" then fin o.sersic
      else if c = "rhalf" then fin o.rhalf
      else (none, none))
  else .error .valueError

/-- A bounds row in reference coordinates (superscene.py:890-892). -/
def shiftRow (ref : ℝ × ℝ) (b : String → ℝ × ℝ) : String → ℝ × ℝ := fun c =>
  if c = "ra" then ((b c).1 - ref.1, (b c).2 - ref.1)
  else if c = "dec" then ((b c).1 - ref.2, (b c).2 - ref.2)
  else b c

/-- `bounds_vectors` (superscene.py:884-899). -/
def boundsVectors (filternames : List String) (ref : ℝ × ℝ) (bcat : List (String → ℝ × ℝ)) :
    List ℝ × List ℝ :=
  let rows := bcat.map (shiftRow ref)
  ((rows.map fun r => filternames.map (fun b => (r b).1) ++ shapeNames.map fun c => (r c).1).flatten,
   (rows.map fun r => filternames.map (fun b => (r b).2) ++ shapeNames.map fun c => (r c).2).flatten)

open Classical in
/-- `check_bounds` (superscene.py:902-919) on the two-element columns `cols`; scalar columns are
skipped by the test on the shape. -/
noncomputable def checkBounds (cols : List String) (cat : List Row) (bcat : List (String → ℝ × ℝ)) :
    Except Err Unit :=
  match cols with
  | [] => .ok ()
  | c :: cs =>
    if ∀ p ∈ cat.zip bcat, (p.2 c).1 < p.1 c then
      if ∀ p ∈ cat.zip bcat, p.1 c < (p.2 c).2 then checkBounds cs cat bcat
      else .error .assertionError
    else .error .assertionError

section Ordered
variable {K : Type} [Field K] [LinearOrder K] [IsStrictOrderedRing K]

/-- `np.clip(x, lo, hi)`: `minimum(maximum(x, lo), hi)`. -/
def clip (x lo hi : K) : K := min (max x lo) hi

/-! ## adjust_bounds -/

/-- One band column of `adjust_bounds` (superscene.py:978-998) for one source: bounds, the flux in
`active` (if given). -/
structure Slot (K : Type) where
  lo : K
  hi : K
  flux : Option K

/-- The body of `adjust_bounds` for one slot (superscene.py:978-998).  With `maxfluxfactor > 0`
and no catalog, `scat[b]` raises `TypeError`. -/
def adjustSlot (minflux : Option K) (maxfluxfactor eps : K) (s : Slot K) : Except Err (Slot K) :=
  let lo := match minflux with
    | some m => min s.lo m
    | none => s.lo
  let hi : Except Err K :=
    if 0 < maxfluxfactor then
      match s.flux with
      | some f => .ok (max s.hi (f * maxfluxfactor))
      | none => .error .typeError
    else .ok s.hi
  match hi with
  | .error e => .error e
  | .ok hi => .ok { lo := lo, hi := hi, flux := s.flux.map fun f => clip f (lo + eps) (lo - eps) }

/-- `adjust_bounds` (superscene.py:968-1002) on a bounds array.  Given a `SuperScene` instead of an
array it raises `AttributeError`: the object has no `source_catalog` (line 976). -/
def adjustBounds (isArray : Bool) (minflux : Option K) (maxfluxfactor eps : K)
    (slots : List (Slot K)) : Except Err (List (Slot K)) :=
  if isArray then slots.mapM (adjustSlot minflux maxfluxfactor eps) else .error .attributeError

/-! ## convert_pa -/

/-- One pass of the loop on one angle (superscene.py:1026-1032): both masks are taken before the
updates and both compare with `+pi/2`. -/
def paStep (pi x : K) : K :=
  let p : Bool := decide (pi / 2 < x)
  let n : Bool := decide (x < pi / 2)
  let x := if p then x - pi else x
  if n then x + pi else x

/-- The loop (superscene.py:1023-1033): stops when no mask is set. -/
def paLoop (pi : K) : Nat → List K → List K
  | 0, xs => xs
  | m + 1, xs =>
    if xs.all fun x => !decide (pi / 2 < x) && !decide (x < pi / 2) then xs
    else paLoop pi m (xs.map (paStep pi))

/-- The rotation by a right angle (superscene.py:1036-1038, and 796-798). -/
def rotateAngle (pi x : K) : K := x + (pi / 2 - (if 0 < x then pi else 0))

/-- `convert_pa` (superscene.py:1005-1042). -/
def convertPa (pi : K) (fromDeg rotate reverse : Bool) (maxTry : Nat) (xs : List K) : List K :=
  let xs := if fromDeg then xs.map fun x => x * pi / 180 else xs
  let xs := paLoop pi maxTry xs
  let xs := if rotate then xs.map (rotateAngle pi) else xs
  if reverse then xs.map (· * (-1)) else xs

/-! ## rectify_catalog -/

/-- An input catalog: its columns and its rows (`none` is a non-finite entry). -/
structure InCat (K : Type) where
  cols : List String
  rows : List (String → Option K)

/-- Options of `rectify_catalog` (superscene.py:767-769). -/
structure RectOpts (K : Type) where
  rhalf : K × K
  q : K × K
  sersic : K × K
  pa : K × K
  rotate : Bool
  reverse : Bool

/-- The integer columns of `sourcecat_dtype` (superscene.py:751-764). -/
def tagNames : List String :=
  ["id", "source_index", "is_active", "is_valid", "n_iter", "n_patch", "roi"]

/-- All columns of the output. -/
def outCols (bands : List String) : List String := tagNames ++ shapeNames ++ bands

/-- The copied row before rectification (superscene.py:782-788): zeros, the running number, and
then every input column the output has. -/
def copyRow (c : InCat K) (bands : List String) (i : Nat) (r : String → Option K) : String → K :=
  fun n =>
    if n ∈ c.cols ∧ n ∈ outCols bands then (r n).getD 0
    else if n = "source_index" then (i : K) else 0

/-- The shape columns (superscene.py:790-800). -/
def rectifyRow (pi : K) (o : RectOpts K) (r : String → K) : String → K := fun n =>
  if n = "rhalf" then clip (r n) o.rhalf.1 o.rhalf.2
  else if n = "q" then clip (r n) o.q.1 o.q.2
  else if n = "sersic" then clip (r n) o.sersic.1 o.sersic.2
  else if n = "pa" then
    let x := clip (r n) o.pa.1 o.pa.2
    let x := if o.rotate then rotateAngle pi x else x
    if o.reverse then x * (-1) else x
  else r n

/-- `rectify_catalog` (superscene.py:767-802).  Missing band or shape columns and non-finite
entries in copied columns fail an assertion; `np.dtype` rejects duplicate column names.  Storing
into the integer and `float32` columns is idealised to an exact copy. -/
def rectify (pi : K) (o : RectOpts K) (bands : List String) (c : InCat K) :
    Except Err (List (String → K)) :=
  if bands.all (fun b => decide (b ∈ c.cols)) then
    if ¬ (outCols bands).Nodup then .error .valueError
    else if shapeNames.all (fun b => decide (b ∈ c.cols)) then
      if c.cols.all (fun n => !decide (n ∈ outCols bands) || c.rows.all fun r => (r n).isSome) then
        .ok (c.rows.mapIdx fun i r => rectifyRow pi o (copyRow c bands i r))
      else .error .assertionError
    else .error .assertionError
  else .error .assertionError

end Ordered

end Forcepho.Bounds
