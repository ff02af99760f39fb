import Verif.Region.Fits
import Verif.Slow.Model
import Verif.Postprocess.Postop
import Mathlib.Analysis.Real.Sqrt

/-! # The demonstration scripts (demo/demo_utils.py and the scripts that use it)

The functions that make a data set (stamps, scenes, images, noise, PSF tables, FITS files) and the places where the scripts
read it again.  GalSim is modelled by what its documentation says about shears, gaussians and offsets; the drizzle routine by
what it gives for one pixel: a value, or nothing, and a weight.  Real arithmetic. -/

set_option autoImplicit false

namespace Forcepho.Demo

open Forcepho.Kernel (M22)
open Forcepho.Slow (rotationMatrix scaleMatrix dotDot)

/-! ## Stamps and scenes -/

/-- What `make_stamp` sets (demo_utils.py:67-75) and the weights that `PostageStamp` starts with (slow/stamp.py:50-58). -/
structure Stamp where
  nx : Nat
  ny : Nat
  scale : M22
  crval : ℝ × ℝ
  crpix : ℝ × ℝ
  filter : String
  ierr : List ℝ

/-- `make_stamp` (demo_utils.py:43-75). -/
noncomputable def makeStamp (band : String) (scale : ℝ) (nx ny : Nat) (dither : ℝ × ℝ) : Stamp where
  nx := nx
  ny := ny
  scale := ⟨1 / scale, 0, 0, 1 / scale⟩
  crval := (53, -27)
  crpix := (((nx : ℝ) - 1) / 2 + dither.1, ((ny : ℝ) - 1) / 2 + dither.2)
  filter := band
  ierr := List.replicate (nx * ny) 0

/-- One row of the catalog; the flux is that of every band. -/
structure Row where
  id : Nat
  rhalf : ℝ
  sersic : ℝ
  q : ℝ
  pa : ℝ
  flux : ℝ
  ra : ℝ
  dec : ℝ

/-- Assignment of an array to a column of `n` rows: as many values as rows, or one for all; otherwise numpy raises. -/
def fill (n : Nat) (l : List ℝ) : Option (List ℝ) :=
  match l with
  | [x] => some (List.replicate n x)
  | l => if l.length = n then some l else none

/-- `make_scene` (demo_utils.py:78-132) without `ra`; `centre` is the sky position of the middle of the first stamp
(lines 122-124).  `none`: the lengths do not match. -/
noncomputable def makeScene (centre : ℝ × ℝ) (nsource : Nat) (distFrac : ℝ) (rhalf sersic flux q pa : List ℝ) :
    Option (List Row) :=
  let n := max rhalf.length nsource
  match fill n rhalf, fill n sersic, fill n flux, fill n q, fill n pa with
  | some r, some s, some f, some q, some p =>
    some ((List.range n).map fun i =>
      { id := i, rhalf := r.getD i 0, sersic := s.getD i 0, q := q.getD i 0, pa := p.getD i 0, flux := f.getD i 0,
        ra := centre.1, dec := centre.2 + (i : ℝ) * (r.getD i 0 * distFrac) / 3600 })
  | _, _, _, _, _ => none

/-- The options of `get_parser` (demo_utils.py:18-40) that describe the sources. -/
structure Options where
  rhalf : List ℝ
  sersic : List ℝ
  flux : List ℝ
  q : List ℝ
  pa : List ℝ
  distFrac : ℝ

/-- The scene of `pair_make.py` (29-30), `color_make.py` (40-41) and `mosaic_make_dithers.py` (59-60): radius, index and
distance are handed on, the rest is that of `make_scene`. -/
noncomputable def pairScene (centre : ℝ × ℝ) (o : Options) : Option (List Row) :=
  makeScene centre 1 o.distFrac o.rhalf o.sersic [1] [9 / 10] [Real.pi / 2]

/-- The scene of `single_make.py` (36-37), `basic.py` (65-66) and `optimize.py` (97-98). -/
noncomputable def singleScene (centre : ℝ × ℝ) (o : Options) : Option (List Row) :=
  makeScene centre 1 o.distFrac o.rhalf o.sersic [1] [9 / 10] [0]

/-! ## Images -/

/-- The offset in pixels at which a source is drawn (demo_utils.py:161-169). -/
noncomputable def offset (nx ny : Nat) (x y : ℝ) : ℝ × ℝ :=
  let dx := x - ((nx : ℝ) - 1) / 2
  let dy := y - ((ny : ℝ) - 1) / 2
  if 1 / 100 < Real.sqrt (dx ^ 2 + dy ^ 2) then (dx, dy) else (0, 0)

/-- `Shear(q=b/a, beta)` of GalSim: the matrix with `g = (1 - b/a) / (1 + b/a)`. -/
noncomputable def shear (ba beta : ℝ) : M22 :=
  let g := (1 - ba) / (1 + ba)
  let g1 := g * Real.cos (2 * beta)
  let g2 := g * Real.sin (2 * beta)
  let n := 1 / Real.sqrt (1 - g ^ 2)
  ⟨n * (1 + g1), n * g2, n * g2, n * (1 - g1)⟩

/-- The covariance, in square pixels, of a round gaussian of dispersion `r` arcsec in the image that `galsim_model`
(demo_utils.py:135-184) makes of a source with columns `q`, `pa`, with the PSF of `get_galsim_psf` (257), a gaussian of
`sigma * scale` arcsec, on pixels of `1 / sqrt |det scale|` arcsec (157). -/
noncomputable def drawnCov (st : M22) (scale sigma q pa r : ℝ) : M22 :=
  let m := if q ≠ 1 then shear (q ^ 2) pa else ⟨1, 0, 0, 1⟩
  let pix := 1 / Real.sqrt (abs (st.v11 * st.v22 - st.v12 * st.v21))
  let c := dotDot m ⟨r ^ 2, 0, 0, r ^ 2⟩ ⟨m.v11, m.v21, m.v12, m.v22⟩
  ⟨(c.v11 + (sigma * scale) ^ 2) / pix ^ 2, c.v12 / pix ^ 2, c.v21 / pix ^ 2, (c.v22 + (sigma * scale) ^ 2) / pix ^ 2⟩

/-- The covariance that the fit gives the same gaussian: `D R S (r^2 I) S^T R^T D^T` plus that of the PSF in the table
(gaussmodel.py:107-133). -/
noncomputable def fittedCov (st : M22) (cxx cyy cxy q pa r : ℝ) : M22 :=
  let t := dotDot st (rotationMatrix pa) (scaleMatrix q)
  let c := dotDot t ⟨r ^ 2, 0, 0, r ^ 2⟩ ⟨t.v11, t.v21, t.v12, t.v22⟩
  ⟨c.v11 + cxx, c.v12 + cxy, c.v21 + cxy, c.v22 + cyy⟩

/-- `compute_noise_level` (demo_utils.py:283-291) for one band: `flux` and `rhalf` of the first source. -/
noncomputable def noiseLevel (flux rhalf scale snr : ℝ) : ℝ :=
  flux / 2 / snr / Real.sqrt (Real.pi * (rhalf / scale) ^ 2)

/-! ## PSF tables -/

/-- The columns of a PSF table that `make_psfstore` sets; all others are zero. -/
structure PsfRow where
  amp : ℝ
  cxx : ℝ
  cyy : ℝ
  bin : Nat

/-- `pars.reshape(1, -1)` of `make_psfstore` (demo_utils.py:262-279): one row per radius and gaussian, and the attribute
`n_psf_per_source`. -/
noncomputable def makePsfstore (sigma : List ℝ) (nradii : Nat) : List PsfRow × Nat :=
  ((List.range nradii).flatMap fun r => sigma.map fun s => ⟨1, s ^ 2, s ^ 2, r⟩, nradii * sigma.length)

/-! ## Files -/

/-- One extension of a FITS file: its name and the keys of its header. -/
structure Hdu where
  name : String
  keys : List (String × String)

/-- A FITS file. -/
abbrev File := List Hdu

/-- `fits.getheader(file)[key]`, `fits.getheader(file, name)[key]`; `none` is a `KeyError`. -/
def Hdu.key (h : Hdu) (k : String) : Option String := h.keys.lookup k

/-- `fits.getheader(file)`: the primary header. -/
def File.primary (f : File) : Option Hdu := f.head?

/-- `fits.getheader(file, name)`. -/
def File.named (f : File) (n : String) : Option Hdu := f.find? fun h => h.name = n

/-- `fits.getheader(file, -1)`. -/
def File.last (f : File) : Option Hdu := f.getLast?

/-- `write_fits_to` (demo_utils.py:294-311): an empty primary extension, image and uncertainty with the header, the noise if
given, and the catalog if given. -/
def writeFits (hdr : List (String × String)) (bands : List (List Char)) (noise scene : Bool) : File :=
  [⟨"PRIMARY", []⟩, ⟨"SCI", hdr⟩, ⟨"ERR", hdr⟩] ++ (if noise then [⟨"NOISE", hdr⟩] else []) ++
    (if scene then [⟨"", [("FILTERS", String.ofList (Postprocess.Postop.joinComma bands))]⟩] else [])

/-- The number of extensions of `stamp.to_fits()` (slow/stamp.py:182-191): the second only if some weight is not zero. -/
noncomputable def toFitsLength (st : Stamp) : Nat :=
  open Classical in if ∃ e ∈ st.ierr, e ≠ 0 then 2 else 1

/-- The loop of `mosaic_make_dithers.py` (76-95): the header of extension 1 of `to_fits()` is changed before the file is
written; `none` is the `IndexError`. -/
noncomputable def makeDithers (sts : List Stamp) (bands : List (List Char)) (hdr : Stamp → List (String × String)) :
    Option (List File) :=
  sts.mapM fun st => if 1 < toFitsLength st then some (writeFits (hdr st) bands true true) else none

/-- The files of `color_make.py` (58-74), `single_make.py` (56-64) and `pair_make.py` (42-57): the filter in the header. -/
def makeImage (band : String) (rest : List (String × String)) (bands : List (List Char)) : File :=
  writeFits (("FILTER", band) :: rest) bands true true

/-- The bands that `color_fit.py` (50) reads from the files; `none` is a `KeyError`. -/
def colorBands (files : List File) : Option (List String) :=
  files.mapM fun f => (File.primary f).bind fun h => h.key "FILTER"

/-- The bands of a file as `single_fit.py` (52), `pair_fit.py` (53), `basic.py` (94) and others read them. -/
def readBands (f : File) : Option (List (List Char)) :=
  (File.last f).bind fun h => (h.key "FILTERS").map fun s => Postprocess.Postop.splitAux [] s.toList

/-- The filter of a file as `FITSPatch` reads it (patches/pixel_patch.py:404). -/
def readFilter (f : File) : Option String := (File.named f "SCI").bind fun h => h.key "FILTER"

/-- The mosaic of `mosaic_combine_dithers.py` (26-30, 70-72): the header is the primary header of the first dither. -/
def makeMosaic (dithers : List File) (bands : List (List Char)) : Option File :=
  (dithers.head?.bind File.primary).map fun h => writeFits h.keys bands false true

/-! ## Mosaics -/

/-- One step of the running mean of one pixel (mosaic_combine_dithers.py:63-67); `none` is not a number.  `out` is what the
drizzle routine left in the pixel, not a number if the exposure does not cover it. -/
noncomputable def combineStep (s : Option ℝ × ℝ) (out : Option ℝ) (w : ℝ) : Option ℝ × ℝ :=
  let w' := s.2 + w
  (match s.1, out with
    | some a, some b => if w' = 0 then none else some ((a * s.2 + b * w) / w')
    | _, _ => none, w')

/-- The pixel of the mosaic and its weight (mosaic_combine_dithers.py:32-67). -/
noncomputable def combine (l : List (Option ℝ × ℝ)) : Option ℝ × ℝ :=
  l.foldl (fun s d => combineStep s d.1 d.2) (some 0, 0)

/-! ## The region of a fit -/

/-- The radius in degrees of "a region that covers the whole image" (basic.py:103, psf_one_fit.py:87), for one
pixel scale. -/
noncomputable def fitRadius (nx : Nat) (scale : ℝ) : ℝ := (nx : ℝ) * scale / Real.sqrt 2 * (11 / 10) / 3600

/-- That region (basic.py:101-104): a circle around the sky position of pixel `(nx / 2, ny / 2)`. -/
noncomputable def fitRegion (w : Region.Wcs ℝ) (nx ny : Nat) (scale : ℝ) : Region.Reg ℝ :=
  let c := w.toSky ((nx : ℝ) / 2, (ny : ℝ) / 2)
  let r := fitRadius nx scale
  Region.circle (Region.circleBox c.1 c.2 r) c.1 c.2 r

/-! ## Names -/

/-- A value of the configuration: a number or a list of numbers. -/
inductive Value
  | num (x : ℝ)
  | list (l : List ℝ)

/-- `f"{value:03.0f}"`; `none` is the `TypeError` for a list. -/
def format (show_ : ℝ → String) : Value → Option String
  | .num x => some (show_ x)
  | .list _ => none

/-- The part of `make_tag` of `psf_one_fit.py` (31-35) that shows the S/N, with the option if it is given and the default
(129) otherwise. -/
def snrTag (show_ : ℝ → String) (given : Option ℝ) : Option String :=
  format show_ (match given with | some x => .num x | none => .list [100])

end Forcepho.Demo
