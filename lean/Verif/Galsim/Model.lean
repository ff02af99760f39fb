import Verif.Profile.Model
import Mathlib.Data.Nat.Digits.Defs
import Mathlib.Data.Rat.Floor
import Mathlib.Analysis.SpecialFunctions.Trigonometric.Basic
import Mathlib.Analysis.Real.Pi.Bounds
import Mathlib.Data.Matrix.Mul
import Mathlib.LinearAlgebra.Matrix.Notation

/-!
# The validation with GalSim

Model of tests/galsim_tests: the grids of parameters, the names of the outputs, the two loops that make and fit images, the
summaries, and the ingredients of the simulated images.  Parameters are exact numbers and not negative; GalSim, the sampler and
the files enter through what is asked of them.
-/

set_option autoImplicit false

namespace Forcepho.Galsim

/-! ## Grids -/

/-- `itertools.product` of lists: the last varies fastest (test_utils.py:53). -/
def product {α : Type} : List (List α) → List (List α)
  | [] => [[]]
  | xs :: rest => xs.flatMap fun x => (product rest).map fun r => x :: r

/-- Insertion in order of the names. -/
def insertName {α : Type} (e : String × α) : List (String × α) → List (String × α)
  | [] => [e]
  | f :: t => if e.1 ≤ f.1 then e :: f :: t else f :: insertName e t

/-- `names.sort()` (test_utils.py:51-52), with the values beside the names. -/
def sortNames {α : Type} : List (String × α) → List (String × α)
  | [] => []
  | e :: t => insertName e (sortNames t)

/-- `params[start:]` of `get_grid_params` for a yaml file (test_utils.py:48-57, 65): the names of the columns and the rows. -/
def gridParams (grid : List (String × List ℚ)) (start : Nat) : List String × List (List ℚ) :=
  ((sortNames grid).map (·.1), (product ((sortNames grid).map (·.2))).drop start)

/-- How the grid is read. -/
inductive Reader where
  | yaml
  | fits
deriving DecidableEq

/-- `sub in text`. -/
def contains (sub : List Char) : List Char → Bool
  | [] => sub.isEmpty
  | c :: t => sub.isPrefixOf (c :: t) || contains sub t

/-- The choice by the end of the name (test_utils.py:48, 62); `none` is the unbound variable at line 65. -/
def reader (name : List Char) : Option Reader :=
  if contains "yml".toList (name.drop (name.length - 4)) then some .yaml
  else if contains "fits".toList (name.drop (name.length - 5)) then some .fits
  else none

/-! ## Tags -/

/-- The closest integer, ties to even: what `format` does with the exact value of a number that is not negative. -/
def rint (x : ℚ) : Nat :=
  if x - ⌊x⌋ < 1 / 2 then ⌊x⌋.toNat
  else if 1 / 2 < x - ⌊x⌋ then ⌊x⌋.toNat + 1
  else if ⌊x⌋.toNat % 2 = 0 then ⌊x⌋.toNat else ⌊x⌋.toNat + 1

/-- The digits, least significant first, at least `w` of them. -/
def padDigits (w k : Nat) : List Nat := Nat.digits 10 k ++ List.replicate (w - (Nat.digits 10 k).length) 0

/-- The character of a digit. -/
def digitChar (n : Nat) : Char := Char.ofNat (48 + n)

/-- `format(x, ".df")` with `d` decimals and at least `w` digits in all, for a number that is not negative. -/
def fixed (w d : Nat) (x : ℚ) : List Char :=
  let ds := (padDigits w (rint (x * 10 ^ d))).map digitChar
  ((if d = 0 then ds else ds.take d ++ ['.'] ++ ds.drop d)).reverse

/-- A point of the grid. -/
structure Point where
  sersic : ℚ
  rhalf : ℚ
  q : ℚ
  fwhm : ℚ
  snr : ℚ
deriving DecidableEq

/-- `make_tag` of test_psf_mixture.py:46-50. -/
def tagPsf (band : List Char) (noise : ℚ) (p : Point) : List Char :=
  "sersic".toList ++ (fixed 2 1 p.sersic ++ ("_rhalf".toList ++ (fixed 4 3 p.rhalf ++ ("_q".toList ++ (fixed 3 2 p.q ++
    ("_band".toList ++ (band ++ ("_snr".toList ++ (fixed 3 0 p.snr ++ ("_noise".toList ++ fixed 1 0 noise))))))))))

/-- `make_tag` of test_sersic_mixture.py:47-51. -/
def tagSersic (noise : ℚ) (p : Point) : List Char :=
  "sersic".toList ++ (fixed 2 1 p.sersic ++ ("_rhalf".toList ++ (fixed 4 3 p.rhalf ++ ("_q".toList ++ (fixed 3 2 p.q ++
    ("_fwhm".toList ++ (fixed 2 1 p.fwhm ++ ("_snr".toList ++ (fixed 3 0 p.snr ++ ("_noise".toList ++ fixed 1 0 noise))))))))))

/-! ## Outputs -/

/-- A chain: the point whose image was fitted, and the number of samples. -/
structure Samples where
  point : Point
  n : Nat
deriving DecidableEq

/-- The output directory: images and chains by tag, the latest first. -/
structure Dir where
  images : List (List Char × Point)
  samples : List (List Char × Samples)

/-- `<tag>_data.fits` (test_psf_mixture.py:212). -/
def Dir.image (d : Dir) (tag : List Char) : Option Point := (d.images.find? fun e => e.1 == tag).map (·.2)

/-- `<tag>_samples.h5` (test_plot.py:105-106, 121-123). -/
def Dir.chain (d : Dir) (tag : List Char) : Option Samples := (d.samples.find? fun e => e.1 == tag).map (·.2)

/-- One turn of the loop of test_psf_mixture.py:195-245: an image that exists ends the turn. -/
def stepPsf (tag : Point → List Char) (draws : Nat) (d : Dir) (p : Point) : Dir :=
  if (d.image (tag p)).isSome then d
  else ⟨(tag p, p) :: d.images, (tag p, ⟨p, draws⟩) :: d.samples⟩

/-- One turn of the loop of test_sersic_mixture.py:183-235: the image is made unless it exists, and fitted unless there is a
chain; the scene is read from the image. -/
def stepSersic (tag : Point → List Char) (draws : Nat) (d : Dir) (p : Point) : Dir :=
  let d1 : Dir := if (d.image (tag p)).isSome then d else ⟨(tag p, p) :: d.images, d.samples⟩
  if (d1.chain (tag p)).isSome then d1
  else
    match d1.image (tag p) with
    | none => d1
    | some im => ⟨d1.images, (tag p, ⟨im, draws⟩) :: d1.samples⟩

/-- `make_catalog` (test_plot.py:101-133): the rows that are filled, with their `id`; `none` when no tag has a chain. -/
def makeCatalog (d : Dir) (tags : List (List Char)) : Option (List (Option (Nat × Samples))) :=
  match tags.filterMap d.chain with
  | [] => none
  | s :: _ => some ((tags.zipIdx).map fun e =>
      match d.chain e.1 with
      | none => none
      | some c => if c.n = s.n then some (e.2, c) else none)

/-- The summary of test_psf_mixture.py:248-251, with `make_all_tags` (53-62). -/
def summaryPsf (band : List Char) (noise : ℚ) (d : Dir) (ps : List Point) : Option (List (Option (Nat × Samples))) :=
  makeCatalog d (ps.map (tagPsf band noise))

/-- The summary of test_sersic_mixture.py:238-241, with `make_all_tags` (54-63): `config.fwhm` is the one of the last
point of the loop; `none` also when the loop did not run. -/
def summarySersic (noise : ℚ) (d : Dir) (ps : List Point) : Option (List (Option (Nat × Samples))) :=
  match ps.getLast? with
  | none => none
  | some last => makeCatalog d (ps.map fun p => tagSersic noise { p with fwhm := last.fwhm })

/-- What ends a run before its figures: no tag of the grid has a chain, so that `make_catalog` has no table to return
(test_plot.py:101-133), or `ensemble_chains.fits` is there and `fits.writeto` is not told to overwrite it
(test_psf_mixture.py:252, test_sersic_mixture.py:242). -/
inductive RunErr where
  | noChain
  | fileExists
deriving DecidableEq

/-- The directory of a run: the images and chains, the file of the grid (test_psf_mixture.py:189-191,
test_sersic_mixture.py:177-179), and `ensemble_chains.fits`. The file of the grid has the name of `--test_grid`; the model has
one such file, as when the same name is used again. -/
structure Out where
  dir : Dir
  grid : Option (List Point)
  summary : Option (List (Option (Nat × Samples)))

/-- A run up to its figures (test_psf_mixture.py:187-252, test_sersic_mixture.py:175-242): the grid is written over any that
was there, then come the turns of the loop, then the summary is made and written if there is none. -/
def run (step : Dir → Point → Dir) (summary : Dir → List Point → Option (List (Option (Nat × Samples)))) (o : Out)
    (ps : List Point) : Out × Option RunErr :=
  let d := ps.foldl step o.dir
  match summary d ps with
  | none => (⟨d, some ps, o.summary⟩, some .noChain)
  | some rows =>
    match o.summary with
    | some old => (⟨d, some ps, some old⟩, some .fileExists)
    | none => (⟨d, some ps, some rows⟩, none)

/-- A run of test_psf_mixture.py:187-252. -/
def runPsf (band : List Char) (noise : ℚ) (draws : Nat) : Out → List Point → Out × Option RunErr :=
  run (stepPsf (tagPsf band noise) draws) (summaryPsf band noise)

/-- A run of test_sersic_mixture.py:175-242. -/
def runSersic (noise : ℚ) (draws : Nat) : Out → List Point → Out × Option RunErr :=
  run (stepSersic (tagSersic noise) draws) (summarySersic noise)

/-- The keywords of a call are parameters of the function. -/
def accepts (params keywords : List String) : Bool := keywords.all fun k => params.contains k

/-- The parameters of `compare_apflux` (test_plot.py:206). -/
def apfluxParams : List String := ["scat", "tcat", "band", "colorby"]

/-- The keywords of the call in test_psf_mixture.py:266. -/
def apfluxPsf : List String := ["band", "colorby"]

/-- The keywords of the call in test_sersic_mixture.py:251. -/
def apfluxSersic : List String := ["bands"]

/-! ## Images -/

noncomputable section

/-- `compute_noise_level` (test_utils.py:261-269): one number for each band; the lists are of one length, or one of them has
a single number. -/
def noiseLevel (rhalf snr : ℝ) (scales fluxes : List ℝ) : Option (List ℝ) :=
  let f := fun scale flux : ℝ => flux / 2 / snr / Real.sqrt (Real.pi * (rhalf / scale) ^ 2)
  if scales.length = fluxes.length then some (List.zipWith f scales fluxes)
  else match scales, fluxes with
    | [s], _ => some (fluxes.map fun x => f s x)
    | _, [x] => some (scales.map fun s => f s x)
    | _, _ => none

/-- The size of the image (test_psf_mixture.py:203, test_sersic_mixture.py:193). -/
def sizeImg (rhalf scale : ℝ) : ℤ := ⌊min 256 (max 64 (20 * rhalf / scale))⌋

/-- A column of the catalog filled from a list: the same length, or one number for all (numpy's broadcast). -/
def fill (n : Nat) (xs : List ℝ) : Option (List ℝ) :=
  if xs.length = n then some xs
  else match xs with
    | [x] => some (List.replicate n x)
    | _ => none

/-- A source of the scene: the offset in declination in degrees, radius and flux. -/
structure Src where
  ddec : ℝ
  rhalf : ℝ
  flux : ℝ

/-- `make_scene` (test_utils.py:103-154), without the columns that are only copied. -/
def makeScene (nsource : Nat) (distFrac : ℝ) (rhalf flux : List ℝ) : Option (List Src) :=
  let n := max rhalf.length nsource
  match fill n rhalf, fill n flux with
  | some rs, some fs =>
    some ((List.zip rs fs).zipIdx.map fun e => ⟨(e.2 : ℝ) * (e.1.1 * distFrac) / 3600, e.1.1, e.1.2⟩)
  | _, _ => none

/-- The call in `make_image` (test_psf_mixture.py:69-71, test_sersic_mixture.py:70-72): `config.flux` is not passed. -/
def imageScene (distFrac : ℝ) (rhalf _configFlux : List ℝ) : Option (List Src) := makeScene 1 distFrac rhalf [1]

/-- GalSim's `shear(q, beta)`: the matrix of the area-preserving shear whose ellipse has the axis ratio `q` and the major
axis at the angle `beta` from the x axis. -/
def galsimShear (q beta : ℝ) : Matrix (Fin 2) (Fin 2) ℝ :=
  let g := (1 - q) / (1 + q)
  (1 / Real.sqrt (1 - g ^ 2)) •
    !![1 + g * Real.cos (2 * beta), g * Real.sin (2 * beta); g * Real.sin (2 * beta), 1 - g * Real.cos (2 * beta)]

/-- The distortion applied to a galaxy of the catalog (test_utils.py:195-198). -/
def simulated (q pa : ℝ) : Matrix (Fin 2) (Fin 2) ℝ := if q = 1 then 1 else galsimShear (q ^ 2) pa

/-- `offset` of the galaxy in pixels (test_utils.py:184-192). -/
def drawOffset (nx ny x y : ℝ) : ℝ × ℝ :=
  let dx := x - (nx - 1) / 2
  let dy := y - (ny - 1) / 2
  if Real.sqrt (dx ^ 2 + dy ^ 2) > 1e-2 then (dx, dy) else (0, 0)

/-- A gaussian of the PSF store. -/
structure PsfGauss where
  amp : ℝ
  cxx : ℝ
  cyy : ℝ
  cxy : ℝ
  bin : Nat

/-- `make_psfstore` (test_utils.py:240-258): the row of gaussians, and `n_psf_per_source`. -/
def psfStore (sigma : List ℝ) (nradii : Nat) : List PsfGauss × Nat :=
  ((List.range nradii).flatMap fun i => sigma.map fun s => ⟨1, s ^ 2, s ^ 2, 0, i⟩, nradii * sigma.length)

/-- The width of GalSim's gaussian PSF in arcsec (test_utils.py:235). -/
def galsimSigma (sigma scale : ℝ) : ℝ := sigma * scale

/-- `aperture_flux` (test_plot.py:233-240) of one sample. -/
def apertureFlux (truth flux sersic rhalf : ℝ) : ℝ := flux * Profile.fracSersic truth rhalf sersic

end

/-! ## Files -/

/-- `",".join(bands)` (test_utils.py:283). -/
def joinBands : List (List Char) → List Char
  | [] => []
  | [b] => b
  | b :: c :: t => b ++ ',' :: joinBands (c :: t)

/-- `text.split(",")` (test_psf_mixture.py:100). -/
def splitBands : List Char → List (List Char)
  | [] => [[]]
  | c :: t =>
    match splitBands t with
    | [] => [[c]]
    | w :: ws => if c = ',' then [] :: w :: ws else (c :: w) :: ws

/-- The parts of the file. -/
inductive Hdu where
  | image
  | uncertainty
  | noise
  | catalog (filters : List Char)
deriving DecidableEq

/-- `write_fits_to` (test_utils.py:272-289). -/
def fitsFile (bands : List (List Char)) (noise scene : Bool) : List Hdu :=
  [.image, .uncertainty] ++ (if noise then [.noise] else []) ++ (if scene then [.catalog (joinBands bands)] else [])

/-- `fits.getheader(image_name, -1)["FILTERS"].split(",")` (test_psf_mixture.py:99-100). -/
def readBands (f : List Hdu) : Option (List (List Char)) :=
  match f.getLast? with
  | some (.catalog t) => some (splitBands t)
  | _ => none

end Forcepho.Galsim
