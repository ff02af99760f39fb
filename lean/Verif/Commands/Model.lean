import Mathlib.Data.List.Forall2
import Mathlib.Data.Int.CardIntervalMod

/-! # C177: commands of the readmes and shell scripts: the model
(demo/*/readme.md, demo/demo_psf/run_psf_test.sh, demo/demo_psf/make_jwst_psf, approx/psf/readme.md, tests/galsim_tests, tests/verification,
scripts/client_shim.sh) -/

set_option autoImplicit false

namespace Forcepho.Commands

/-- How many words an option takes: one, any number (`nargs="*"`), none (`action="store_true"`). -/
inductive Nargs
  | one | many | flag
  deriving DecidableEq

/-- The `type=` of an option. -/
inductive Ty
  | text | bool | int | float
  deriving DecidableEq

/-- One `add_argument`. -/
structure Opt where
  name : String
  nargs : Nargs
  ty : Ty
  deriving DecidableEq

/-- How a program reads its command line: by argparse, or the first words of `sys.argv`. -/
inductive Reader
  | options (o : List Opt)
  | argv (n : Nat)

/-- A command: the file and line it stands in, the directory it is run in, the program, the words. -/
structure Command where
  doc : String
  line : Nat
  dir : String
  program : String
  words : List String

/-- What argparse refuses. -/
inductive Refused
  | unrecognized | ambiguous | expected | invalid
  deriving DecidableEq

/-- A decimal digit. -/
def isDigit (c : Char) : Bool := decide ('0' ≤ c) && decide (c ≤ '9')

/-- Digits, at least one: the texts `int` takes (of argparse's `type=int`; signs, blanks and underscores, which occur in no command, are left out). -/
def isInt (s : List Char) : Bool := !s.isEmpty && s.all isDigit

/-- Digits with a point among, before or after them, at least one digit: the texts `float` takes (signs, blanks, exponents left out). -/
def isFloat (s : List Char) : Bool :=
  match s.dropWhile isDigit with
  | [] => !s.isEmpty
  | c :: b => c == '.' && b.all isDigit && (!(s.takeWhile isDigit).isEmpty || !b.isEmpty)

/-- The test of argparse whether a word is an option (`_parse_optional`): it begins with a dash, is not the dash alone, and is not a negative number
(`^-\d+$|^-\d*\.\d+$`). Words with blanks or with `=` occur in no command and are left out. -/
def isOption (s : List Char) : Bool :=
  match s with
  | '-' :: c :: r =>
    match (c :: r).dropWhile isDigit with
    | [] => false
    | d :: b => !(d == '.' && isInt b)
  | _ => false

/-- argparse's conversion of a word succeeds. -/
def valid : Ty → String → Bool
  | .text, _ => true
  | .bool, _ => true
  | .int, w => isInt w.toList
  | .float, w => isFloat w.toList

/-- The option a word means (`_parse_optional`, `_get_option_tuples`): the option of that name, else the only one it abbreviates. -/
def resolve (opts : List Opt) (w : String) : Except Refused Opt :=
  match opts.find? (fun o => o.name == w) with
  | some o => .ok o
  | none =>
    match opts.filter (fun o => w.toList.isPrefixOf o.name.toList) with
    | [] => .error .unrecognized
    | [o] => .ok o
    | _ => .error .ambiguous

/-- The words before the first option, and each option with the words after it. -/
def group : List String → List String × List (String × List String)
  | [] => ([], [])
  | w :: r =>
    if isOption w.toList then ([], (w, (group r).1) :: (group r).2) else (w :: (group r).1, (group r).2)

/-- One option with the words after it: too few words are refused, words too many are positional and no program has positional arguments, then each is
converted. -/
def take (opts : List Opt) (g : String × List String) : Except Refused (String × List String) :=
  match resolve opts g.1 with
  | .error e => .error e
  | .ok o =>
    match o.nargs, g.2 with
    | .one, [] => .error .expected
    | .one, [v] => if valid o.ty v then .ok (o.name, [v]) else .error .invalid
    | .one, _ => .error .unrecognized
    | .flag, [] => .ok (o.name, [])
    | .flag, _ => .error .unrecognized
    | .many, vs => if vs.all (valid o.ty) then .ok (o.name, vs) else .error .invalid

/-- `parser.parse_args()` on the words of a command: the options and their words in order. -/
def parse (opts : List Opt) (ws : List String) : Except Refused (List (String × List String)) :=
  if (group ws).1.isEmpty then (group ws).2.mapM (take opts) else .error .unrecognized

/-- The options of `get_parser` (demo/demo_utils.py:22-38). -/
def demoBase : List Opt :=
  [⟨"--scales", .many, .float⟩,
   ⟨"--bands", .many, .text⟩,
   ⟨"--nx", .one, .int⟩,
   ⟨"--ny", .one, .int⟩,
   ⟨"--rhalf", .many, .float⟩,
   ⟨"--sersic", .many, .float⟩,
   ⟨"--flux", .many, .float⟩,
   ⟨"--q", .many, .float⟩,
   ⟨"--pa", .many, .float⟩,
   ⟨"--dist_frac", .one, .float⟩,
   ⟨"--sigma_psf", .many, .float⟩,
   ⟨"--psfstore", .one, .text⟩,
   ⟨"--snr", .one, .float⟩,
   ⟨"--add_noise", .one, .int⟩]

/-- The options of `get_parser` (tests/galsim_tests/test_utils.py:23-39). -/
def testBase : List Opt :=
  [⟨"--scales", .many, .float⟩,
   ⟨"--bands", .many, .text⟩,
   ⟨"--nx", .one, .int⟩,
   ⟨"--ny", .one, .int⟩,
   ⟨"--rhalf", .many, .float⟩,
   ⟨"--sersic", .many, .float⟩,
   ⟨"--flux", .many, .float⟩,
   ⟨"--q", .many, .float⟩,
   ⟨"--pa", .many, .float⟩,
   ⟨"--dist_frac", .one, .float⟩,
   ⟨"--sigma_psf", .many, .float⟩,
   ⟨"--psfstore", .one, .text⟩,
   ⟨"--snr", .one, .float⟩,
   ⟨"--add_noise", .one, .int⟩]

/-- The options of demo/demo_basic/basic.py:42-50 after those of `get_parser`. -/
def basic : List Opt :=
  demoBase ++
  [⟨"--tag", .one, .text⟩,
   ⟨"--splinedatafile", .one, .text⟩,
   ⟨"--write_residuals", .one, .int⟩,
   ⟨"--sampling_draws", .one, .int⟩,
   ⟨"--max_treedepth", .one, .int⟩,
   ⟨"--warmup", .many, .int⟩,
   ⟨"--progressbar", .one, .int⟩]

/-- The options of demo/demo_basic/basic_plot.py:102-102. -/
def basicPlot : List Opt :=
  [⟨"--prefix", .one, .text⟩]

/-- The options of demo/demo_color/color_make.py:22-22 after those of `get_parser`. -/
def colorMake : List Opt :=
  demoBase ++
  [⟨"--outdir", .one, .text⟩]

/-- The options of demo/demo_color/color_fit.py:26-36. -/
def colorFit : List Opt :=
  [⟨"--psfstorefile", .one, .text⟩,
   ⟨"--splinedatafile", .one, .text⟩,
   ⟨"--image_names", .many, .text⟩,
   ⟨"--write_residuals", .one, .int⟩,
   ⟨"--outbase", .one, .text⟩,
   ⟨"--sampling_draws", .one, .int⟩,
   ⟨"--max_treedepth", .one, .int⟩,
   ⟨"--warmup", .many, .int⟩,
   ⟨"--progressbar", .one, .int⟩]

/-- The options of demo/demo_mosaic/mosaic_make_dithers.py:25-27 after those of `get_parser`. -/
def mosaicMakeDithers : List Opt :=
  demoBase ++
  [⟨"--n_dither", .one, .int⟩,
   ⟨"--outdir", .one, .text⟩,
   ⟨"--basename", .one, .text⟩]

/-- The options of demo/demo_mosaic/mosaic_combine_dithers.py:77-79. -/
def mosaicCombineDithers : List Opt :=
  [⟨"--outdir", .one, .text⟩,
   ⟨"--pixfrac", .one, .float⟩,
   ⟨"--scale", .one, .float⟩]

/-- The options of demo/demo_mosaic/mosaic_fit.py:28-38. -/
def mosaicFit : List Opt :=
  [⟨"--psfstorefile", .one, .text⟩,
   ⟨"--splinedatafile", .one, .text⟩,
   ⟨"--image_basename", .one, .text⟩,
   ⟨"--write_residuals", .one, .int⟩,
   ⟨"--outdir", .one, .text⟩,
   ⟨"--sampling_draws", .one, .int⟩,
   ⟨"--max_treedepth", .one, .int⟩,
   ⟨"--warmup", .many, .int⟩,
   ⟨"--progressbar", .one, .int⟩]

/-- The options of demo/demo_optimize/optimize.py:57-71 after those of `get_parser`. -/
def optimize : List Opt :=
  demoBase ++
  [⟨"--tag", .one, .text⟩,
   ⟨"--outdir", .one, .text⟩,
   ⟨"--splinedatafile", .one, .text⟩,
   ⟨"--write_residuals", .one, .int⟩,
   ⟨"--linear_optimize", .one, .int⟩,
   ⟨"--gtol", .one, .float⟩,
   ⟨"--add_barriers", .one, .int⟩,
   ⟨"--flux_prior_expansion", .one, .float⟩,
   ⟨"--sampling_draws", .one, .int⟩,
   ⟨"--max_treedepth", .one, .int⟩,
   ⟨"--warmup", .many, .int⟩,
   ⟨"--progressbar", .one, .int⟩]

/-- The options of demo/demo_pair/pair_make.py:15-15 after those of `get_parser`. -/
def pairMake : List Opt :=
  demoBase ++
  [⟨"--outname", .one, .text⟩]

/-- The options of demo/demo_pair/pair_fit.py:26-36. -/
def pairFit : List Opt :=
  [⟨"--psfstorefile", .one, .text⟩,
   ⟨"--splinedatafile", .one, .text⟩,
   ⟨"--image_name", .one, .text⟩,
   ⟨"--write_residuals", .one, .int⟩,
   ⟨"--outbase", .one, .text⟩,
   ⟨"--sampling_draws", .one, .int⟩,
   ⟨"--max_treedepth", .one, .int⟩,
   ⟨"--warmup", .many, .int⟩,
   ⟨"--progressbar", .one, .int⟩]

/-- The options of demo/demo_pair/pair_plot.py:108-108. -/
def pairPlot : List Opt :=
  [⟨"--patchname", .one, .text⟩]

/-- The options of demo/demo_pair/pair_movie.py:27-29. -/
def pairMovie : List Opt :=
  [⟨"--patchname", .one, .text⟩,
   ⟨"--thin", .one, .int⟩,
   ⟨"--fps", .one, .int⟩]

/-- The options of demo/demo_snr/single_make.py:20-21 after those of `get_parser`. -/
def singleMake : List Opt :=
  demoBase ++
  [⟨"--outdir", .one, .text⟩,
   ⟨"--snrlist", .many, .float⟩]

/-- The options of demo/demo_snr/single_fit.py:26-36. -/
def singleFit : List Opt :=
  [⟨"--psfstorefile", .one, .text⟩,
   ⟨"--splinedatafile", .one, .text⟩,
   ⟨"--image_name", .one, .text⟩,
   ⟨"--write_residuals", .one, .int⟩,
   ⟨"--outbase", .one, .text⟩,
   ⟨"--sampling_draws", .one, .int⟩,
   ⟨"--max_treedepth", .one, .int⟩,
   ⟨"--warmup", .many, .int⟩,
   ⟨"--progressbar", .one, .int⟩]

/-- The options of demo/demo_psf/psf_one_fit.py:132-145 after those of `get_parser`. -/
def psfOneFit : List Opt :=
  demoBase ++
  [⟨"--tag", .one, .text⟩,
   ⟨"--splinedatafile", .one, .text⟩,
   ⟨"--output_dir", .one, .text⟩,
   ⟨"--write_residuals", .one, .int⟩,
   ⟨"--psfdir", .one, .text⟩,
   ⟨"--bandname", .one, .text⟩,
   ⟨"--sampling_draws", .one, .int⟩,
   ⟨"--max_treedepth", .one, .int⟩,
   ⟨"--warmup", .many, .int⟩,
   ⟨"--progressbar", .one, .int⟩]

/-- The options of demo/demo_psf/psf_grid_fit.py:57-71 after those of `get_parser`. -/
def psfGridFit : List Opt :=
  demoBase ++
  [⟨"--tag", .one, .text⟩,
   ⟨"--splinedatafile", .one, .text⟩,
   ⟨"--output_dir", .one, .text⟩,
   ⟨"--write_residuals", .one, .int⟩,
   ⟨"--psfdir", .one, .text⟩,
   ⟨"--bandname", .one, .text⟩,
   ⟨"--parameter_grid", .one, .text⟩,
   ⟨"--sampling_draws", .one, .int⟩,
   ⟨"--max_treedepth", .one, .int⟩,
   ⟨"--warmup", .many, .int⟩,
   ⟨"--progressbar", .one, .int⟩]

/-- The options of demo/demo_psf/make_jwst_psf/webbpsf_opd.py:34-38. -/
def webbpsfOpd : List Opt :=
  [⟨"--year", .one, .int⟩,
   ⟨"--month", .one, .int⟩,
   ⟨"--day", .one, .int⟩,
   ⟨"--jitter_sigma", .one, .float⟩,
   ⟨"--add_ipc", .one, .int⟩]

/-- The options of demo/demo_psf/make_jwst_psf/webbpsf_to_fpho.py:15-17. -/
def webbpsfToFpho : List Opt :=
  [⟨"--indir", .one, .text⟩,
   ⟨"--outdir", .one, .text⟩,
   ⟨"--bands", .many, .text⟩]

/-- The options of demo/demo_psf/make_jwst_psf/make_psf.py:343-363. -/
def makePsf : List Opt :=
  [⟨"--outname", .one, .text⟩,
   ⟨"--fitsout", .one, .bool⟩,
   ⟨"--overwrite", .one, .bool⟩,
   ⟨"--band", .one, .text⟩,
   ⟨"--psf_image_name", .one, .text⟩,
   ⟨"--oversample", .one, .int⟩,
   ⟨"--sci_pix_scale", .one, .float⟩,
   ⟨"--trim", .one, .int⟩,
   ⟨"--snr", .one, .int⟩,
   ⟨"--ngauss", .one, .int⟩,
   ⟨"--ngauss_neg", .one, .int⟩,
   ⟨"--fix_amplitude", .one, .int⟩,
   ⟨"--fit_bg", .one, .int⟩,
   ⟨"--num_warmup", .one, .int⟩,
   ⟨"--num_samples", .one, .int⟩,
   ⟨"--show", .flag, .text⟩,
   ⟨"--savefig", .flag, .text⟩]

/-- The options of approx/psf/make_psf.py:319-339. -/
def approxMakePsf : List Opt :=
  [⟨"--outname", .one, .text⟩,
   ⟨"--fitsout", .one, .bool⟩,
   ⟨"--overwrite", .one, .bool⟩,
   ⟨"--band", .one, .text⟩,
   ⟨"--psf_image_name", .one, .text⟩,
   ⟨"--oversample", .one, .int⟩,
   ⟨"--sci_pix_scale", .one, .float⟩,
   ⟨"--trim", .one, .int⟩,
   ⟨"--snr", .one, .int⟩,
   ⟨"--ngauss", .one, .int⟩,
   ⟨"--ngauss_neg", .one, .int⟩,
   ⟨"--fix_amplitude", .one, .int⟩,
   ⟨"--fit_bg", .one, .int⟩,
   ⟨"--num_warmup", .one, .int⟩,
   ⟨"--num_samples", .one, .int⟩,
   ⟨"--show", .flag, .text⟩,
   ⟨"--savefig", .flag, .text⟩]

/-- The options of tests/galsim_tests/test_psf/test_psf_mixture.py:154-170 after those of `get_parser`. -/
def testPsfMixture : List Opt :=
  testBase ++
  [⟨"--tag", .one, .text⟩,
   ⟨"--dir", .one, .text⟩,
   ⟨"--test_grid", .one, .text⟩,
   ⟨"--start", .one, .int⟩,
   ⟨"--bandname", .one, .text⟩,
   ⟨"--psfdir", .one, .text⟩,
   ⟨"--splinedatafile", .one, .text⟩,
   ⟨"--write_residuals", .one, .int⟩,
   ⟨"--sampling_draws", .one, .int⟩,
   ⟨"--max_treedepth", .one, .int⟩,
   ⟨"--warmup", .many, .int⟩,
   ⟨"--progressbar", .one, .int⟩]

/-- The options of tests/galsim_tests/test_sersic/test_sersic_mixture.py:155-166 after those of `get_parser`. -/
def testSersicMixture : List Opt :=
  testBase ++
  [⟨"--tag", .one, .text⟩,
   ⟨"--dir", .one, .text⟩,
   ⟨"--test_grid", .one, .text⟩,
   ⟨"--start", .one, .int⟩,
   ⟨"--splinedatafile", .one, .text⟩,
   ⟨"--write_residuals", .one, .int⟩,
   ⟨"--sampling_draws", .one, .int⟩,
   ⟨"--max_treedepth", .one, .int⟩,
   ⟨"--warmup", .many, .int⟩,
   ⟨"--progressbar", .one, .int⟩]

/-- The options of tests/verification/make_reference.py:106-113. -/
def makeReference : List Opt :=
  [⟨"--psffile", .one, .text⟩,
   ⟨"--splinedata", .one, .text⟩,
   ⟨"--sersic", .one, .float⟩,
   ⟨"--rhalf", .one, .float⟩,
   ⟨"--flux", .one, .float⟩,
   ⟨"--nx", .one, .int⟩,
   ⟨"--ny", .one, .int⟩,
   ⟨"--band", .one, .text⟩]

/-- The options of tests/verification/verify_reference.py:207-210. -/
def verifyReference : List Opt :=
  [⟨"--config_file", .one, .text⟩,
   ⟨"--reference_image", .one, .text⟩,
   ⟨"--bandlist", .many, .text⟩,
   ⟨"--kernel_type", .one, .text⟩]

/-- The programs the commands start, and how each reads its command line; mosaic_plot.py reads nothing, optimize_plot.py:76 reads `sys.argv[1]`. -/
def programs : List (String × Reader) :=
  [("demo/demo_basic/basic.py", .options basic),
   ("demo/demo_basic/basic_plot.py", .options basicPlot),
   ("demo/demo_color/color_make.py", .options colorMake),
   ("demo/demo_color/color_fit.py", .options colorFit),
   ("demo/demo_mosaic/mosaic_make_dithers.py", .options mosaicMakeDithers),
   ("demo/demo_mosaic/mosaic_combine_dithers.py", .options mosaicCombineDithers),
   ("demo/demo_mosaic/mosaic_fit.py", .options mosaicFit),
   ("demo/demo_mosaic/mosaic_plot.py", .argv 0),
   ("demo/demo_optimize/optimize.py", .options optimize),
   ("demo/demo_optimize/optimize_plot.py", .argv 1),
   ("demo/demo_pair/pair_make.py", .options pairMake),
   ("demo/demo_pair/pair_fit.py", .options pairFit),
   ("demo/demo_pair/pair_plot.py", .options pairPlot),
   ("demo/demo_pair/pair_movie.py", .options pairMovie),
   ("demo/demo_snr/single_make.py", .options singleMake),
   ("demo/demo_snr/single_fit.py", .options singleFit),
   ("demo/demo_psf/psf_one_fit.py", .options psfOneFit),
   ("demo/demo_psf/psf_grid_fit.py", .options psfGridFit),
   ("demo/demo_psf/make_jwst_psf/webbpsf_opd.py", .options webbpsfOpd),
   ("demo/demo_psf/make_jwst_psf/webbpsf_to_fpho.py", .options webbpsfToFpho),
   ("demo/demo_psf/make_jwst_psf/make_psf.py", .options makePsf),
   ("approx/psf/make_psf.py", .options approxMakePsf),
   ("tests/galsim_tests/test_psf/test_psf_mixture.py", .options testPsfMixture),
   ("tests/galsim_tests/test_sersic/test_sersic_mixture.py", .options testSersicMixture),
   ("tests/verification/make_reference.py", .options makeReference),
   ("tests/verification/verify_reference.py", .options verifyReference)]

/-- The commands of the readmes and of the shell scripts: where they stand (file and first line), the program, the words. Variables of the shell are
replaced by words without blanks and dashes; `$bopt $options` by the words they are assigned (readme.md:38-39 and 64-65, run_psf_approximation.sh:34-35 and
43). -/
def commands : List Command :=
  [⟨"demo/demo_basic/readme.md", 17, "demo/demo_basic", "basic.py",
     ["--sersic", "1.6", "--rhalf", "0.08", "--snr", "100", "--add_noise", "0"]⟩,
   ⟨"demo/demo_basic/readme.md", 18, "demo/demo_basic", "basic_plot.py",
     ["--prefix", "tests/sersic1.6_rhalf0.080_snr100_noise0/sersic1.6_rhalf0.080_snr100_noise0"]⟩,
   ⟨"demo/demo_color/readme.md", 13, "demo/demo_color", "color_make.py",
     ["--add_noise", "0"]⟩,
   ⟨"demo/demo_color/readme.md", 15, "demo/demo_color", "color_fit.py",
     ["--image_names", "blue_pair.fits"]⟩,
   ⟨"demo/demo_color/readme.md", 17, "demo/demo_color", "color_fit.py",
     ["--image_names", "red_pair.fits"]⟩,
   ⟨"demo/demo_color/readme.md", 19, "demo/demo_color", "color_fit.py",
     ["--image_names", "blue_pair.fits", "red_pair.fits"]⟩,
   ⟨"demo/demo_mosaic/readme.md", 20, "demo/demo_mosaic", "mosaic_make_dithers.py",
     ["--snr", "15", "--add_noise", "0"]⟩,
   ⟨"demo/demo_mosaic/readme.md", 22, "demo/demo_mosaic", "mosaic_combine_dithers.py",
     ["--pixfrac", "0.8"]⟩,
   ⟨"demo/demo_mosaic/readme.md", 24, "demo/demo_mosaic", "mosaic_make_dithers.py",
     ["--snr", "45", "--n_dither", "1", "--basename", "deep", "--add_noise", "0"]⟩,
   ⟨"demo/demo_mosaic/readme.md", 27, "demo/demo_mosaic", "mosaic_fit.py",
     ["--image_basename", "./data/mosaic", "--outdir", "./output/mosaic"]⟩,
   ⟨"demo/demo_mosaic/readme.md", 29, "demo/demo_mosaic", "mosaic_fit.py",
     ["--image_basename", "./data/dither", "--outdir", "./output/dither"]⟩,
   ⟨"demo/demo_mosaic/readme.md", 31, "demo/demo_mosaic", "mosaic_fit.py",
     ["--image_basename", "./data/deep", "--outdir", "./output/deep"]⟩,
   ⟨"demo/demo_mosaic/readme.md", 34, "demo/demo_mosaic", "mosaic_plot.py",
     []⟩,
   ⟨"demo/demo_optimize/readme.md", 19, "demo/demo_optimize", "optimize.py",
     ["--sersic", "1.6", "--rhalf", "0.08", "--snr", "100", "--add_noise", "0"]⟩,
   ⟨"demo/demo_optimize/readme.md", 20, "demo/demo_optimize", "optimize_plot.py",
     ["output/sersic1.6_rhalf0.080_snr100_noise0/sersic1.6_rhalf0.080_snr100_noise0"]⟩,
   ⟨"demo/demo_pair/readme.md", 11, "demo/demo_pair", "pair_make.py",
     ["--add_noise", "0"]⟩,
   ⟨"demo/demo_pair/readme.md", 13, "demo/demo_pair", "pair_fit.py",
     []⟩,
   ⟨"demo/demo_pair/readme.md", 16, "demo/demo_pair", "pair_plot.py",
     []⟩,
   ⟨"demo/demo_pair/readme.md", 18, "demo/demo_pair", "pair_movie.py",
     []⟩,
   ⟨"demo/demo_snr/readme.md", 12, "demo/demo_snr", "single_make.py",
     ["--add_noise", "0", "--snrlist", "10", "30", "100"]⟩,
   ⟨"demo/demo_snr/readme.md", 15, "demo/demo_snr", "single_fit.py",
     ["--image_name", "single_snr010.fits"]⟩,
   ⟨"demo/demo_snr/readme.md", 16, "demo/demo_snr", "single_fit.py",
     ["--image_name", "single_snr030.fits"]⟩,
   ⟨"demo/demo_snr/readme.md", 17, "demo/demo_snr", "single_fit.py",
     ["--image_name", "single_snr100.fits"]⟩,
   ⟨"demo/demo_psf/readme.md", 20, "demo/demo_psf", "psf_one_fit.py",
     ["--sersic", "1.6", "--rhalf", "0.06", "--snr", "100", "--add_noise", "0", "--psfimage", "./psf_data/jwst_2022-11-25", "--psfstore", "./psf_data/jwst_2022-11-25/psf_jwst_2022-11-25_ng5m1.h5", "--bandname", "F200W"]⟩,
   ⟨"demo/demo_psf/run_psf_test.sh", 21, "demo/demo_psf", "psf_grid_fit.py",
     ["--parameter_grid", "./psf_grid.yml", "--psfstore", "./psf_data/jwst_2022-11-25/psf_jwst_2022-11-25_ng5m1.h5", "--psfdir", "./psf_data/jwst_2022-11-25/", "--bandname", "F277W", "--scales", "0.06", "--add_noise", "0", "--output_dir", "./output"]⟩,
   ⟨"demo/demo_psf/make_jwst_psf/readme.md", 9, "demo/demo_psf/make_jwst_psf", "webbpsf_opd.py",
     ["--year", "2022", "--month", "11", "--day", "25"]⟩,
   ⟨"demo/demo_psf/make_jwst_psf/readme.md", 60, "demo/demo_psf/make_jwst_psf", "webbpsf_to_fpho.py",
     ["--indir", "./webbpsf", "--outdir", "./work", "--bands", "f090w"]⟩,
   ⟨"demo/demo_psf/make_jwst_psf/readme.md", 66, "demo/demo_psf/make_jwst_psf", "make_psf.py",
     ["--band", "f090w", "--psf_image_name", "./work/f090w_psf.fits", "--sci_pix_scale", "0.03", "--trim", "576", "--snr", "50", "--ngauss", "4", "--ngauss_neg", "0", "--fitsout", "1", "--savefig", "--outname", "./mixtures/psf.h5"]⟩,
   ⟨"demo/demo_psf/make_jwst_psf/run_psf_approximation.sh", 42, "demo/demo_psf/make_jwst_psf", "webbpsf_to_fpho.py",
     ["--indir", "./webbpsf", "--outdir", "./work", "--bands", "f090w"]⟩,
   ⟨"demo/demo_psf/make_jwst_psf/run_psf_approximation.sh", 44, "demo/demo_psf/make_jwst_psf", "make_psf.py",
     ["--band", "f090w", "--psf_image_name", "./work/f090w_psf.fits", "--sci_pix_scale", "0.03", "--trim", "576", "--snr", "20", "--ngauss", "5", "--ngauss_neg", "1", "--fitsout", "1", "--savefig", "--outname", "./mixtures/psf.h5"]⟩,
   ⟨"demo/demo_psf/make_jwst_psf/run_psf_approximation.sh", 47, "demo/demo_psf/make_jwst_psf", "split_bands.py",
     ["--filename", "./mixtures/psf.h5"]⟩,
   ⟨"approx/psf/readme.md", 53, "approx/psf", "make_psf.py",
     ["--band", "f090w", "--psf_image", "psf_f090w.fits", "--oversample", "4", "--trim", "512", "--ngauss", "4", "--snr", "20", "--outname", "./mixtures/psf_nircam_ng4m0.h5", "--overwrite", "1", "--savefig", "--fitsout", "1"]⟩,
   ⟨"tests/galsim_tests/test_psf/readme.md", 32, "tests/galsim_tests/test_psf", "test_psf_mixture.py",
     ["--test_grid", "./test_psf_grid.yml", "--splinedatafile", "sersic_splinedata_large.h5", "--add_noise", "0", "--psfstore", "psf_hst_ng4.h5", "--psfdir", "./mixtures/psf_images/hst/", "--bandname", "F435W", "--scales", "0.03", "--dir", "./output/cpu/hst_noiseless"]⟩,
   ⟨"tests/galsim_tests/test_psf/test_psf.sh", 20, "tests/galsim_tests/test_psf", "test_psf_mixture.py",
     ["--test_grid", "./test_psf_grid.yml", "--splinedatafile", "./sersic_splinedata_large.h5", "--psfstore", "./mixtures/psf_jwst_oct21_ng4m0.h5", "--psfdir", "./psf_images/jwst/", "--bandname", "F277W", "--scales", "0.06", "--add_noise", "0", "--dir", "./output"]⟩,
   ⟨"tests/galsim_tests/test_psf/test_psf_jwst_cannon.slurm", 34, "tests/galsim_tests/test_psf", "test_psf_mixture.py",
     ["--test_grid", "./test_psf_grid.yml", "--splinedatafile", "./sersic_splinedata_large.h5", "--psfstore", "./mixtures/psf_jwst_oct21_ng4m0.h5", "--psfdir", "./psf_images/jwst/", "--bandname", "F277W", "--scales", "0.06", "--add_noise", "0", "--dir", "./output"]⟩,
   ⟨"tests/galsim_tests/test_psf/test_psf_hst_cannon.slurm", 34, "tests/galsim_tests/test_psf", "test_psf_mixture.py",
     ["--test_grid", "./test_psf_grid.yml", "--splinedatafile", "./sersic_splinedata_large.h5", "--psfstore", "./mixtures/psf_hlf_ng4.h5", "--psfdir", "./psf_images/hst/", "--bandname", "F277W", "--scales", "0.06", "--add_noise", "0", "--dir", "./output"]⟩,
   ⟨"tests/galsim_tests/test_sersic/readme.md", 20, "tests/galsim_tests/test_sersic", "test_sersic_mixture.py",
     ["--test_grid", "./test_sersic_grid.yml", "--splinedatafile", "sersic_splinedata.h5", "--add_noise", "1", "--dir", "./output/exact_noised"]⟩,
   ⟨"tests/galsim_tests/test_sersic/test_sersic_cannon.sh", 30, "tests/galsim_tests/test_sersic", "test_sersic_mixture.py",
     ["--test_grid", "./test_grid.yml", "--splinedatafile", "sersic_splinedata.h5", "--add_noise", "0", "--dir", "./output"]⟩,
   ⟨"tests/verification/README.md", 25, "tests/verification", "make_reference.py",
     ["--sersic", "2.2", "--rhalf", "0.1", "--nx", "63", "--ny", "32", "--band", "F200W"]⟩,
   ⟨"tests/verification/verify_cannon.sh", 31, "tests/verification", "verify_reference.py",
     ["--reference_image", "./data/reference-2021Nov30_f200w_sersic=2.2_rhalf=0.10.fits", "--bandlist", "F200W"]⟩,
   ⟨"tests/verification/verify_lux.sh", 26, "tests/verification", "verify_reference.py",
     ["--reference_image", "./data/reference-2021Nov30_f200w_sersic=2.2_rhalf=0.10.fits", "--bandlist", "F200W"]⟩]
/-- The configuration files of the repository the commands may name. -/
def ymlFiles : List (String × String) :=
  [("tests/verification", "./verification_config.yml"), ("tests/galsim_tests/test_psf", "./test_psf_grid.yml"),
   ("tests/galsim_tests/test_sersic", "./test_sersic_grid.yml"), ("tests/galsim_tests/test_sersic", "./test_sersic_sparse_grid.yml"),
   ("demo/demo_psf", "./psf_grid.yml")]

/-- What happens when a command is started. -/
inductive Start
  | noProgram
  | refused (e : Refused)
  | noFile (f : String)
  | run (a : List (String × List String))
  deriving DecidableEq

/-- A word names a file in YAML. -/
def isYml (w : String) : Bool := "lmy.".toList.isPrefixOf w.toList.reverse

/-- Start a command: python opens the program, the program reads its words, and opens the grid it is given (test_utils.py:48-50,
psf_grid_fit.py). Programs reading `sys.argv` take the words as they are. -/
def start (c : Command) : Start :=
  match programs.lookup (c.dir ++ "/" ++ c.program) with
  | none => .noProgram
  | some (.argv n) => if n ≤ c.words.length then .run [] else .refused .expected
  | some (.options o) =>
    match parse o c.words with
    | .error e => .refused e
    | .ok a =>
      match c.words.find? (fun w => isYml w && !ymlFiles.contains (c.dir, w)) with
      | some f => .noFile f
      | none => .run a

/-- The steps at the end of make_psf.py (approx:373-386, demo:396-410). -/
inductive Step
  | store | fits | typeError
  deriving DecidableEq

/-- The word last given to an option. -/
def given (a : List (String × List String)) (k : String) : Option String :=
  ((a.filter fun x => x.1 == k).getLast?).bind fun x => x.2.head?

/-- The end of make_psf.py: nothing without an output name; the mixture is stored; with `--fitsout` (a `bool` of the text, so any text but the empty
one) the pixel scale, `None` unless given, is divided by 3600. -/
def saveOutput (a : List (String × List String)) : List Step :=
  if (given a "--outname").getD "./mixtures/psf_nircam_ng4m0.h5" == "" then []
  else if (given a "--fitsout").getD "" == "" then [.store]
  else if (given a "--sci_pix_scale").isSome then [.store, .fits] else [.store, .typeError]

/-- The bands and scales of run_psf_test.sh:8-9. -/
def demoBands : List String :=
  ["F090W", "F115W", "F150W", "F182M", "F200W", "F210M", "F277W", "F335M", "F356W", "F410M", "F444W", "F430M", "F460M", "F480M"]
/-- The scales of run_psf_test.sh:9. -/
def demoScales : List String :=
  ["0.03", "0.03", "0.03", "0.03", "0.03", "0.03", "0.06", "0.06", "0.06", "0.06", "0.06", "0.06", "0.06", "0.06"]

/-- The bands and scales of test_psf.sh:8-9 and test_psf_jwst_cannon.slurm:25-26. -/
def jwstBands : List String := ["F090W", "F115W", "F150W", "F200W", "F277W", "F335M", "F356W", "F410M", "F444W"]
/-- The scales of test_psf.sh:9 and test_psf_jwst_cannon.slurm:26. -/
def jwstScales : List String := ["0.03", "0.03", "0.03", "0.03", "0.06", "0.06", "0.06", "0.06", "0.06"]

/-- The bands and scales of test_psf_hst_cannon.slurm:25-26. -/
def hstBands : List String := ["F435W", "F606W", "F775W", "F814W", "F850LP", "F105W", "F125W", "F140W", "F160W"]
/-- The scales of test_psf_hst_cannon.slurm:26. -/
def hstScales : List String := ["0.03", "0.03", "0.03", "0.03", "0.03", "0.06", "0.06", "0.06", "0.06"]

/-- `${array[c]}` for the `c` of a loop `for (( c=lo; c<=hi; c++ ))`: the pairs of band and scale a script fits (run_psf_test.sh:15-18 with 6 and 13,
test_psf.sh:14-17 with 0 and 8); beyond its end an array is empty. -/
def loop (bands scales : List String) (lo hi : Nat) : List (String × String) :=
  (List.range' lo (hi + 1 - lo)).map fun c => (bands.getD c "", scales.getD c "")

/-- What the options of run_psf_approximation.sh set: bands, trim, pixel scale. -/
structure Channel where
  bands : List String
  trim : Option Nat
  pscale : Option String
  deriving DecidableEq

/-- The loop over the options (run_psf_approximation.sh:16-28): each sets the variables anew, an unknown one ends the script. -/
def channel : List Char → Channel → Option Channel
  | [], v => some v
  | c :: r, _ =>
    if c = 's' then channel r ⟨["f090w", "f115w", "f150w", "f200w", "f162m", "f182m", "f210m"], some 576, some "0.03"⟩
    else if c = 'l' then
      channel r ⟨["f277w", "f356w", "f444w", "f250m", "f300m", "f335m", "f410m", "f430m", "f460m", "f480m"], some 256, some "0.06"⟩
    else none

/-- Without options nothing is set. -/
def unset : Channel := ⟨[], none, none⟩

/-- The GPU of a task (client_shim.sh:5); the shell fails on a division by zero. -/
def gpu (localid gpus : Nat) : Option Nat := if gpus = 0 then none else some (localid % gpus)

end Forcepho.Commands
