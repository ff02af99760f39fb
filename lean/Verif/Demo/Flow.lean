import Verif.SuperScene.Disk
import Verif.Galsim.Runs
import Mathlib.Data.String.Basic
import Mathlib.Data.List.Dedup
import Mathlib.Data.List.Sort

/-! # The files the demonstrations hand to each other (demo/*/)

Each demonstration is a chain of scripts: one makes images, one fits them, one makes figures.  Modelled is which files each
script writes and which the next one reads, as texts.  Path names are lists of characters; `./x` and `x` are the same file. -/

set_option autoImplicit false

namespace Forcepho.Demo.Flow

open Forcepho.SuperScene.Disk (pyReplace stripPrefix)
open Forcepho.Galsim (fixed)

/-! ## Path names -/

/-- `os.path.join`. -/
def join (a b : List Char) : List Char :=
  if b.head? = some '/' then b
  else if a = [] ∨ a.getLast? = some '/' then a ++ b
  else a ++ '/' :: b

/-- `os.path.basename`. -/
def basename (p : List Char) : List Char := (p.reverse.takeWhile fun c => c ≠ '/').reverse

/-- `os.path.dirname`. -/
def dirname (p : List Char) : List Char :=
  let h := p.reverse.dropWhile fun c => c ≠ '/'
  if h.all fun c => c = '/' then h.reverse else (h.dropWhile fun c => c = '/').reverse

/-- The same name without `./` in front. -/
def normal (p : List Char) : List Char := (stripPrefix ['.', '/'] p).getD p

/-- The two files of a fit (`write_to_disk`, forcepho/utils/io.py:38, 47). -/
def samplesName (outroot : List Char) : List Char := outroot ++ "_samples.h5".toList

@[inherit_doc samplesName]
def residualsName (outroot : List Char) : List Char := outroot ++ "_residuals.h5".toList

/-- Where all figures look for the residuals (basic_plot.py:72, psf_plot.py:71, single_plot.py:60, pair_plot.py:43,
pair_movie.py:54, color_plot_together.py:62, color_plot_separate.py:77, optimize_plot.py:44). -/
def residualsOf (patchname : List Char) : List Char := pyReplace "samples".toList "residuals".toList patchname

/-! ## One source at several S/N -/

/-- The image of an S/N (single_make.py:63). -/
def snrImage (outdir : List Char) (snr : ℚ) : List Char :=
  join outdir ("single_snr".toList ++ (fixed 3 0 snr ++ ".fits".toList))

/-- The root of the output of a fit (single_fit.py:44, 70, 89). -/
def snrRoot (outbase image : List Char) : List Char :=
  join (join outbase "patches".toList) ("patch_".toList ++ pyReplace ".fits".toList [] (basename image))

/-- The chain that the figures read (single_plot.py:107-108). -/
def snrPatch (snr : ℚ) : List Char :=
  "./output/v1/patches/patch_single_snr".toList ++ (fixed 3 0 snr ++ "_samples.h5".toList)

/-! ## Two bands -/

/-- Names joined by a plus sign. -/
def joinPlus : List (List Char) → List Char
  | [] => []
  | [b] => b
  | b :: l => b ++ '+' :: joinPlus l

/-- The name of a fit in several bands (color_fit.py:50-51, 72): the bands sorted, each once. -/
def colorTask (bands : List String) : List Char :=
  joinPlus ((bands.dedup.insertionSort fun a b => a ≤ b).map String.toList)

/-- The root of its output (color_fit.py:44, 91). -/
def colorRoot (outbase : List Char) (bands : List String) : List Char :=
  join (join outbase "patches".toList) ("patch_".toList ++ colorTask bands)

/-- The output directory unless it is given (color_fit.py:31). -/
def colorBase : List Char := "./output/together_v1".toList

/-- The fits that the readme asks for (demo_color/readme.md:14-19): blue, red and both, all without an output directory. -/
def readmeFits : List (List Char) :=
  [["BLUE"], ["RED"], ["BLUE", "RED"]].map fun b => samplesName (colorRoot colorBase b)

/-- The chains that the figures read (color_plot_together.py:131, color_plot_separate.py:149-151). -/
def togetherPatch : List Char := "output/together_v1/patches/patch_BLUE+RED_samples.h5".toList

@[inherit_doc togetherPatch]
def separatePatches : List (List Char) :=
  ["output/together_v1/patches/patch1_samples.h5".toList, "output/separate_v1/patches/patch_RED_samples.h5".toList,
    "output/separate_v1/patches/patch_BLUE_samples.h5".toList]

/-! ## Dithers and mosaics -/

/-- The image of dither `i` (mosaic_make_dithers.py:94). -/
def ditherName (outdir base : List Char) (i : Nat) : List Char :=
  join outdir (base ++ '_' :: (fixed 2 0 i ++ ".fits".toList))

/-- `glob`: whether a name is `front*back`. -/
def globs (front back p : List Char) : Bool :=
  front.isPrefixOf p && back.isSuffixOf (p.drop front.length) && !(p.drop front.length).contains '/'

/-- Whether a file is combined (mosaic_combine_dithers.py:82). -/
def combined (outdir p : List Char) : Bool := globs (join outdir "dither_0".toList) "fits".toList p

/-- The drizzled image of an exposure (mosaic_combine_dithers.py:60). -/
def drzName (p : List Char) : List Char := pyReplace "dither".toList "drz_dither".toList p

/-- The files that a fit reads (mosaic_fit.py:51). -/
def fitFiles (dir : List (List Char)) (base : List Char) : List (List Char) := dir.filter (globs base ".fits".toList)

/-- The root of its output (mosaic_fit.py:94). -/
def mosaicRoot (outdir base : List Char) : List Char := join outdir (basename base)

/-- What the directory with the data has in it after the commands of the readme (demo_mosaic/readme.md:19-24). -/
def dataNames : List (List Char) :=
  (List.range 9).map (fun i => "dither_0".toList ++ (Nat.digitChar i :: ".fits".toList)) ++
  (List.range 9).map (fun i => "drz_dither_0".toList ++ (Nat.digitChar i :: ".fits".toList)) ++
  ["mosaic.fits".toList, "deep_00.fits".toList]

/-! ## Pairs and the basic demonstration -/

/-- `pair_make.py:55-57`: the directory of the image is made first; `none` is the `FileNotFoundError` of `makedirs("")`. -/
def pairImage (outname : List Char) : Option (List Char) := if dirname outname = [] then none else some outname

/-- The root of the output of the fit (pair_fit.py:44, 71, 90). -/
def pairRoot (outbase : List Char) : List Char := join (join outbase "patches".toList) "patch1".toList

/-- The name of the output of basic.py (26-29). -/
def basicTag (sersic rhalf snr noise : ℚ) : List Char :=
  "sersic".toList ++ (fixed 2 1 sersic ++ ("_rhalf".toList ++ (fixed 4 3 rhalf ++ ("_snr".toList ++ (fixed 3 0 snr ++
    ("_noise".toList ++ fixed 1 0 noise))))))

/-- The root of the output (basic.py:54-56). -/
def basicRoot (tag : List Char) : List Char := join (join "./tests/".toList tag) tag

/-- A figure of basic_plot.py (106-109, 115, 120, 124) and psf_plot.py (101-103, 109, 114, 118). -/
def figureName (pre kind : List Char) : List Char :=
  let p := samplesName pre
  dirname p ++ '/' :: (pyReplace ".h5".toList [] (basename p) ++ '_' :: (kind ++ ".png".toList))

end Forcepho.Demo.Flow
