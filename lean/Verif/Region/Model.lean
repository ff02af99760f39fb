import Mathlib.Data.Sign.Defs
import Mathlib.Algebra.Order.Field.Basic
import Mathlib.Analysis.SpecialFunctions.Trigonometric.Basic
import Verif.Storage.Model

/-!
# Sky regions and the search for exposures and pixels

Model of `forcepho/region.py`, of `MetaStore.find_exposures`
(`forcepho/patches/storage.py:415-479`) and of the search of `StorePatch`
(`forcepho/patches/pixel_patch.py:256-345`).

Simplifications: exact arithmetic over an ordered field; celestial coordinates are points of a plane
(no wrap at 360 degrees); an astrometric solution is a pair of functions; the solution used for an
exposure is the one of its header (see C71 for the cache).
-/

set_option autoImplicit false

namespace Forcepho.Region

variable {K : Type} [Field K] [LinearOrder K]

/-! ## Boxes (region.py:119-137, 192-210) -/

/-- `RectangularRegion.bounding_box`: SW, SE, NE, NW. -/
def rectBox (raMin raMax decMin decMax : K) : List (K × K) :=
  [(raMin, decMin), (raMax, decMin), (raMax, decMax), (raMin, decMax)]

/-- `np.deg2rad`. -/
noncomputable def deg2rad (x : ℝ) : ℝ := x * (Real.pi / 180)

/-- `CircularRegion.bounding_box`. -/
noncomputable def circleBox (ra dec radius : ℝ) : List (ℝ × ℝ) :=
  let dra := radius / Real.cos (deg2rad dec)
  let ddec := radius
  [(ra - dra, dec - ddec), (ra + dra, dec - ddec), (ra + dra, dec + ddec), (ra - dra, dec + ddec)]

/-! ## Overlap of polygons (region.py:214-264) -/

/-- Each vertex with its successor, the last one with the first. -/
def edges (poly : List (K × K)) : List ((K × K) × (K × K)) :=
  poly.zip (poly.drop 1 ++ poly.take 1)

/-- `normX, normY` of an edge. -/
def normal (e : (K × K) × (K × K)) : K × K := (e.2.2 - e.1.2, e.1.1 - e.2.1)

/-- `proj` of all vertices on one normal. -/
def proj (n : K × K) (poly : List (K × K)) : List K := poly.map fun p => n.1 * p.1 + n.2 * p.2

/-- `min(axis=-1)`; only used on non-empty lists. -/
def lo : List K → K
  | [] => 0
  | x :: xs => xs.foldl min x

/-- `max(axis=-1)`; only used on non-empty lists. -/
def hi : List K → K
  | [] => 0
  | x :: xs => xs.foldl max x

/-- The test for one normal: `(maxA < minB) | (maxB < minA)`. -/
def apart (n : K × K) (a b : List (K × K)) : Bool :=
  decide (hi (proj n a) < lo (proj n b)) || decide (hi (proj n b) < lo (proj n a))

/-- `polygons_overlap`, on the two bounding polygons; `none` is the `ValueError` of the minimum of an
empty array. -/
def polygonsOverlap (a b : List (K × K)) : Option Bool :=
  if a = [] ∨ b = [] then none
  else if (edges a).any (fun e => apart (normal e) a b) then some false
  else if (edges b).any (fun e => apart (normal e) a b) then some false
  else some true

/-- `Region.overlaps` (region.py:45-62): the bounding rectangle of the sky positions of the image
corners against the region's box. -/
def overlaps (box : List (K × K)) (toSky : K × K → K × K) (nx ny : K) : Option Bool :=
  let c := [(0, 0), (nx, 0), (nx, ny), (0, ny)].map toSky
  let ra := c.map Prod.fst
  let dec := c.map Prod.snd
  polygonsOverlap box (rectBox (lo ra) (hi ra) (lo dec) (hi dec))

/-! ## Point in polygon (region.py:267-302) -/

/-- `k` for one edge and one point. -/
def side (pt : K × K) (e : (K × K) × (K × K)) : K :=
  (e.2.1 - e.1.1) * (pt.2 - e.1.2) - (e.2.2 - e.1.2) * (pt.1 - e.1.1)

/-- `polygon_contains` for one point: all signs equal the first; `none` is the `IndexError` for a
polygon without vertices. -/
def polygonContains (poly : List (K × K)) (pt : K × K) : Option Bool :=
  match (edges poly).map fun e => SignType.sign (side pt e) with
  | [] => none
  | s :: rest => some ((s :: rest).all fun t => decide (t = s))

/-! ## Exposures covering a position (storage.py:415-479) -/

/-- What `find_exposures` reads from a header. -/
structure Header (K : Type) where
  naxis1 : K
  naxis2 : K
  /-- the four points of `S_REGION`, if the key is present -/
  sRegion : Option (List (K × K))
  /-- `wcs.pixel_to_world_values` -/
  toSky : K × K → K × K

/-- The rough check (storage.py:443-450). -/
def rough (h : Header K) (sky : K × K) : Option Bool :=
  match h.sRegion with
  | none => some true
  | some p => polygonContains p sky

/-- The corners used for the second check (storage.py:468-472). -/
def frame (h : Header K) : List (K × K) :=
  [(0, 0), (0, h.naxis2), (h.naxis1, h.naxis1), (h.naxis1, 0)].map h.toSky

/-- Whether an exposure is listed. -/
def covers (h : Header K) (sky : K × K) : Bool :=
  rough h sky == some true && polygonContains (frame h) sky == some true

/-- `MetaStore.find_exposures`: pairs of exposure and band. -/
def findExposures (headers : List (String × List (String × Header K))) (sky : K × K)
    (bandlist : List String) : List (String × String) :=
  bandlist.flatMap fun band =>
    match headers.lookup band with
    | none => []
    | some exps => (exps.filter fun e => covers e.2 sky).map fun e => (e.1, band)

/-! ## Exposures and super-pixels of a patch (pixel_patch.py:256-345) -/

/-- An astrometric solution. -/
structure Wcs (K : Type) where
  toPix : K × K → K × K
  toSky : K × K → K × K

/-- A region: its box, and the test of one corner. -/
structure Reg (K : Type) where
  box : List (K × K)
  corner : Wcs K → K × K → Bool

/-- The circle (region.py:96-117): the distance in pixels from the centre is below the distance of
the northernmost point. -/
def circle (box : List (K × K)) (ra dec radius : K) : Reg K where
  box := box
  corner := fun w p =>
    let c := w.toPix (ra, dec)
    let r := w.toPix (ra, dec + radius)
    let r2 := (c.1 - r.1) ^ 2 + (c.2 - r.2) ^ 2
    let d2 := (c.1 - p.1) ^ 2 + (c.2 - p.2) ^ 2
    decide (d2 < r2)

/-- The rectangle (region.py:166-191): the corner's sky position is strictly inside. -/
def rectangle (raMin raMax decMin decMax : K) : Reg K where
  box := rectBox raMin raMax decMin decMax
  corner := fun w p =>
    let s := w.toSky p
    decide (raMin < s.1) && decide (s.1 < raMax) && decide (decMin < s.2) && decide (s.2 < decMax)

/-- The corner pixels of super-pixel `(i, j)` (storage.py:121-143; see C38 for the equality with the
full computation). -/
def cornerPixels (s i j : Nat) : List (K × K) :=
  (Storage.cornerOffsets s).map fun o => (((i * s + o.1 : Nat) : K), ((j * s + o.2 : Nat) : K))

/-- `region.contains` over the super-pixel grid: the super-pixels with at least one corner inside, in
row-major order (`np.where`). -/
def superPixels (reg : Reg K) (w : Wcs K) (s n : Nat) : List (Nat × Nat) :=
  ((List.range n).flatMap fun i => (List.range n).map fun j => (i, j)).filter fun ij =>
    (cornerPixels s ij.1 ij.2).any (reg.corner w)

/-- The first check of `StorePatch.find_exposures` (pixel_patch.py:283-287): some corner of the
region's box is strictly inside the image. -/
def boxInImage (reg : Reg K) (w : Wcs K) (nside : K) : Bool :=
  (reg.box.map w.toPix).any fun p =>
    decide (0 < p.1) && decide (p.1 < nside) && decide (0 < p.2) && decide (p.2 < nside)

/-- `StorePatch.find_exposures` (pixel_patch.py:256-302): pairs of exposure and band; `s` is the
super-pixel size, `n` the number of super-pixels on a side. -/
def storeFindExposures (wcs : List (String × List (String × Wcs K))) (reg : Reg K) (s n : Nat)
    (bandlist : List String) : List (String × String) :=
  bandlist.flatMap fun band =>
    match wcs.lookup band with
    | none => []
    | some exps => (exps.filter fun e =>
        boxInImage reg e.2 ((n * s : Nat) : K) && !(superPixels reg e.2 s n).isEmpty).map
          fun e => (e.1, band)

/-- `StorePatch.find_pixels` (pixel_patch.py:304-345): the coordinates of the pixels of the selected
super-pixels, in order. -/
def findPixels (reg : Reg K) (w : Wcs K) (s n : Nat) : List (Nat × Nat) :=
  (superPixels reg w s n).flatMap fun ij =>
    (List.range s).flatMap fun a => (List.range s).map fun b => (ij.1 * s + a, ij.2 * s + b)

end Forcepho.Region
