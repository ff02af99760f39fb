import Verif.Imports.Texts

/-!
# C159: the top level of the demonstrations and of the tests with GalSim

As in `Texts`; each script finds the others of its directory and the linked demo_utils.py and test_utils.py by name.
-/

set_option autoImplicit false

namespace Forcepho.Imports

/-- demo/demo_utils.py:1-317, the top level. -/
def demoDemoUtilsText : Text := [
  .ext "sys" ["sys"],
  .ext "os" ["os"],
  .ext "argparse" ["argparse"],
  .ext "numpy" ["np"],
  .ext "h5py" ["h5py"],
  .ext "galsim" ["galsim"],
  .ext "astropy.io" ["fits"],
  .setAll ["get_parser", "make_stamp", "make_scene", "galsim_model", "get_galsim_psf", "make_psf_store",
    "compute_noise_level", "write_to_disk"],
  .bind ["get_parser", "make_stamp", "make_scene", "galsim_model", "galsim_star", "get_galsim_psf", "make_psfstore",
    "compute_noise_level", "write_fits_to"]]

/-- demo/demo_basic/basic.py:1-129, the top level. -/
def demoBasicText : Text := [
  .ext "os" ["os"],
  .ext "numpy" ["np"],
  .ext "astropy.io" ["fits"],
  .ext "astropy.wcs" ["WCS"],
  .frm ["forcepho", "region"] [("CircularRegion", "CircularRegion")],
  .frm ["forcepho", "patches"] [("FITSPatch", "FITSPatch"), ("CPUPatchMixin", "CPUPatchMixin")],
  .frm ["forcepho", "superscene"] [("make_bounds", "make_bounds"), ("Galaxy", "Galaxy")],
  .frm ["forcepho", "utils"] [("write_to_disk", "write_to_disk")],
  .frm ["forcepho", "fitting"] [("run_lmc", "run_lmc")],
  .frm ["demo_utils"] [("get_parser", "get_parser")],
  .frm ["demo_utils"] [("make_stamp", "make_stamp"), ("make_scene", "make_scene")],
  .frm ["demo_utils"] [("get_galsim_psf", "get_galsim_psf"), ("galsim_model", "galsim_model"),
    ("compute_noise_level", "compute_noise_level")],
  .frm ["demo_utils"] [("make_psfstore", "make_psfstore"), ("write_fits_to", "write_fits_to")],
  .bind ["Patcher", "make_tag"]]

/-- demo/demo_basic/basic_plot.py:1-127, the top level. -/
def demoBasicPlotText : Text := [
  .ext "sys" ["sys"],
  .ext "os" ["os"],
  .ext "argparse" ["argparse"],
  .ext "numpy" ["np"],
  .ext "matplotlib.pyplot" ["pl"],
  .ext "matplotlib.gridspec" ["GridSpec", "GridSpecFromSubplotSpec"],
  .ext "matplotlib.ticker" ["FormatStrFormatter"],
  .frm ["forcepho", "postprocess"] [("Samples", "Samples"), ("Residuals", "Residuals")],
  .bind ["fsize", "plot_trace", "plot_corner", "plot_residual", "get_map"]]

/-- demo/demo_basic/basic_sceneDB.py:1-129, the top level. -/
def demoBasicScenedbText : Text := [
  .ext "os" ["os"],
  .ext "numpy" ["np"],
  .ext "astropy.io" ["fits"],
  .frm ["forcepho", "patches"] [("FITSPatch", "FITSPatch"), ("CPUPatchMixin", "CPUPatchMixin")],
  .frm ["forcepho", "superscene"] [("LinkedSuperScene", "LinkedSuperScene")],
  .frm ["forcepho", "utils"] [("write_to_disk", "write_to_disk")],
  .frm ["forcepho", "fitting"] [("run_lmc", "run_lmc")],
  .frm ["demo_utils"] [("get_parser", "get_parser")],
  .frm ["demo_utils"] [("make_stamp", "make_stamp"), ("make_scene", "make_scene")],
  .frm ["demo_utils"] [("get_galsim_psf", "get_galsim_psf"), ("galsim_model", "galsim_model"),
    ("compute_noise_level", "compute_noise_level")],
  .frm ["demo_utils"] [("make_psfstore", "make_psfstore"), ("write_fits_to", "write_fits_to")],
  .bind ["Patcher", "make_tag"]]

/-- demo/demo_color/color_fit.py:1-98, the top level. -/
def demoColorFitText : Text := [
  .ext "os" ["os"],
  .ext "sys" ["sys"],
  .ext "glob" ["glob"],
  .ext "argparse" ["argparse"],
  .ext "logging" ["logging"],
  .ext "numpy" ["np"],
  .ext "json" ["json"],
  .ext "yaml" ["yaml"],
  .ext "astropy.io" ["fits"],
  .frm ["forcepho", "patches"] [("FITSPatch", "FITSPatch"), ("CPUPatchMixin", "CPUPatchMixin")],
  .frm ["forcepho", "superscene"] [("LinkedSuperScene", "LinkedSuperScene")],
  .frm ["forcepho", "utils"] [("NumpyEncoder", "NumpyEncoder"), ("write_to_disk", "write_to_disk")],
  .frm ["forcepho", "fitting"] [("run_lmc", "run_lmc")],
  .bind ["Patcher"]]

/-- demo/demo_color/color_make.py:1-74, the top level. -/
def demoColorMakeText : Text := [
  .ext "sys" ["sys"],
  .ext "os" ["os"],
  .ext "argparse" ["argparse"],
  .ext "numpy" ["np"],
  .frm ["demo_utils"] [("get_parser", "get_parser")],
  .frm ["demo_utils"] [("make_stamp", "make_stamp"), ("make_scene", "make_scene")],
  .frm ["demo_utils"] [("get_galsim_psf", "get_galsim_psf"), ("galsim_model", "galsim_model"),
    ("compute_noise_level", "compute_noise_level")],
  .frm ["demo_utils"] [("make_psfstore", "make_psfstore"), ("write_fits_to", "write_fits_to")]]

/-- demo/demo_color/color_plot_separate.py:1-155, the top level. -/
def demoColorPlotSeparateText : Text := [
  .ext "sys" ["sys"],
  .ext "argparse" ["argparse"],
  .ext "numpy" ["np"],
  .ext "matplotlib.pyplot" ["pl"],
  .ext "matplotlib.gridspec" ["GridSpec", "GridSpecFromSubplotSpec"],
  .frm ["forcepho", "postprocess"] [("Samples", "Samples"), ("Residuals", "Residuals")],
  .frm ["forcepho", "utils"] [("frac_sersic", "frac_sersic")],
  .frm ["forcepho", "utils", "corner"] [("allcorner", "allcorner")],
  .bind ["plot_corner", "color_corner", "apflux", "plot_residual", "plot_both"]]

/-- demo/demo_color/color_plot_together.py:1-135, the top level. -/
def demoColorPlotTogetherText : Text := [
  .ext "argparse" ["argparse"],
  .ext "numpy" ["np"],
  .ext "matplotlib.pyplot" ["pl"],
  .ext "matplotlib.gridspec" ["GridSpec", "GridSpecFromSubplotSpec"],
  .ext "matplotlib.ticker" ["MaxNLocator", "NullLocator"],
  .ext "matplotlib.ticker" ["ScalarFormatter"],
  .ext "matplotlib.colors" ["LinearSegmentedColormap", "colorConverter"],
  .frm ["forcepho", "postprocess"] [("Samples", "Samples"), ("Residuals", "Residuals")],
  .frm ["forcepho", "utils", "corner"] [("allcorner", "allcorner")],
  .bind ["total_corner", "color_corner", "plot_residual", "plot_both"]]

/-- demo/demo_mosaic/mosaic_combine_dithers.py:1-84, the top level. -/
def demoMosaicCombineDithersText : Text := [
  .ext "glob" ["glob"],
  .ext "os" ["os"],
  .ext "sys" ["sys"],
  .ext "argparse" ["argparse"],
  .ext "numpy" ["np"],
  .ext "astropy.io" ["fits"],
  .ext "stwcs" ["stwcs"],
  .ext "drizzlepac" ["adrizzle"],
  .frm ["demo_utils"] [("write_fits_to", "write_fits_to")],
  .bind ["drizzle_combine"]]

/-- demo/demo_mosaic/mosaic_fit.py:1-102, the top level. -/
def demoMosaicFitText : Text := [
  .ext "os" ["os"],
  .ext "sys" ["sys"],
  .ext "glob" ["glob"],
  .ext "shutil" ["shutil"],
  .ext "argparse" ["argparse"],
  .ext "logging" ["logging"],
  .ext "numpy" ["np"],
  .ext "json" ["json"],
  .ext "yaml" ["yaml"],
  .ext "astropy.io" ["fits"],
  .frm ["forcepho", "patches"] [("FITSPatch", "FITSPatch"), ("CPUPatchMixin", "CPUPatchMixin"), ("GPUPatchMixin",
    "GPUPatchMixin")],
  .frm ["forcepho", "superscene"] [("LinkedSuperScene", "LinkedSuperScene")],
  .frm ["forcepho", "utils"] [("NumpyEncoder", "NumpyEncoder"), ("write_to_disk", "write_to_disk")],
  .frm ["forcepho", "fitting"] [("run_lmc", "run_lmc")],
  .frm ["demo_utils"] [("write_fits_to", "write_fits_to")],
  .bind ["Patcher"]]

/-- demo/demo_mosaic/mosaic_make_dithers.py:1-95, the top level. -/
def demoMosaicMakeDithersText : Text := [
  .ext "sys" ["sys"],
  .ext "itertools" ["product"],
  .ext "os" ["os"],
  .ext "argparse" ["argparse"],
  .ext "numpy" ["np"],
  .ext "h5py" ["h5py"],
  .ext "galsim" ["galsim"],
  .ext "astropy.io" ["fits"],
  .frm ["demo_utils"] [("get_parser", "get_parser")],
  .frm ["demo_utils"] [("make_stamp", "make_stamp"), ("make_scene", "make_scene")],
  .frm ["demo_utils"] [("get_galsim_psf", "get_galsim_psf"), ("galsim_model", "galsim_model"),
    ("compute_noise_level", "compute_noise_level")],
  .frm ["demo_utils"] [("make_psfstore", "make_psfstore"), ("write_fits_to", "write_fits_to")]]

/-- demo/demo_mosaic/mosaic_plot.py:1-53, the top level. -/
def demoMosaicPlotText : Text := [
  .ext "numpy" ["np"],
  .ext "matplotlib.pyplot" ["pl"],
  .frm ["forcepho", "postprocess"] [("Samples", "Samples"), ("Residuals", "Residuals")],
  .frm ["forcepho", "utils", "corner"] [("allcorner", "allcorner"), ("scatter", "scatter"), ("marginal", "marginal"),
    ("corner", "corner"), ("get_spans", "get_spans"), ("prettify_axes", "prettify_axes")],
  .bind ["multispan"]]

/-- demo/demo_optimize/optimize.py:1-222, the top level. -/
def demoOptimizeText : Text := [
  .ext "os" ["os"],
  .ext "sys" ["sys"],
  .ext "glob" ["glob"],
  .ext "shutil" ["shutil"],
  .ext "argparse" ["argparse"],
  .ext "logging" ["logging"],
  .ext "numpy" ["np"],
  .ext "json" ["json"],
  .ext "yaml" ["yaml"],
  .ext "astropy.io" ["fits"],
  .frm ["forcepho", "patches"] [("FITSPatch", "FITSPatch"), ("CPUPatchMixin", "CPUPatchMixin"), ("GPUPatchMixin",
    "GPUPatchMixin")],
  .frm ["forcepho", "superscene"] [("LinkedSuperScene", "LinkedSuperScene"), ("flux_bounds", "flux_bounds")],
  .frm ["forcepho", "utils"] [("NumpyEncoder", "NumpyEncoder"), ("write_to_disk", "write_to_disk"), ("make_chaincat",
    "make_chaincat"), ("get_sample_cat", "get_sample_cat")],
  .frm ["forcepho", "fitting"] [("run_lmc", "run_lmc"), ("run_opt", "run_opt"), ("optimize_fluxes",
    "optimize_fluxes")],
  .frm ["demo_utils"] [("get_parser", "get_parser")],
  .frm ["demo_utils"] [("make_stamp", "make_stamp"), ("make_scene", "make_scene")],
  .frm ["demo_utils"] [("get_galsim_psf", "get_galsim_psf"), ("galsim_model", "galsim_model"),
    ("compute_noise_level", "compute_noise_level")],
  .frm ["demo_utils"] [("make_psfstore", "make_psfstore"), ("write_fits_to", "write_fits_to")],
  .attempt [("pycuda", ["pycuda"]), ("pycuda.autoinit", ["pycuda"]), ("", ["HASGPU"])] ["HASGPU"],
  .bind ["Patcher", "make_tag"]]

/-- demo/demo_optimize/optimize_plot.py:1-106, the top level. -/
def demoOptimizePlotText : Text := [
  .ext "sys" ["sys"],
  .ext "os" ["os"],
  .ext "glob" ["glob"],
  .ext "argparse" ["argparse"],
  .ext "copy" ["deepcopy"],
  .ext "numpy" ["np"],
  .ext "matplotlib.pyplot" ["pl"],
  .ext "matplotlib.gridspec" ["GridSpec", "GridSpecFromSubplotSpec"],
  .ext "matplotlib.ticker" ["FormatStrFormatter"],
  .frm ["forcepho", "postprocess"] [("Samples", "Samples"), ("Residuals", "Residuals")],
  .frm ["forcepho", "utils", "corner"] [("allcorner", "allcorner"), ("scatter", "scatter"), ("marginal", "marginal"),
    ("corner", "corner"), ("get_spans", "get_spans"), ("prettify_axes", "prettify_axes")],
  .bind ["fsize", "plot_corner", "plot_residual", "get_map"]]

/-- demo/demo_pair/pair_fit.py:1-98, the top level. -/
def demoPairFitText : Text := [
  .ext "os" ["os"],
  .ext "sys" ["sys"],
  .ext "glob" ["glob"],
  .ext "shutil" ["shutil"],
  .ext "argparse" ["argparse"],
  .ext "logging" ["logging"],
  .ext "numpy" ["np"],
  .ext "json" ["json"],
  .ext "yaml" ["yaml"],
  .ext "astropy.io" ["fits"],
  .frm ["forcepho", "patches"] [("FITSPatch", "FITSPatch"), ("CPUPatchMixin", "CPUPatchMixin")],
  .frm ["forcepho", "superscene"] [("LinkedSuperScene", "LinkedSuperScene")],
  .frm ["forcepho", "utils"] [("NumpyEncoder", "NumpyEncoder"), ("write_to_disk", "write_to_disk")],
  .frm ["forcepho", "fitting"] [("run_lmc", "run_lmc")],
  .bind ["Patcher"]]

/-- demo/demo_pair/pair_make.py:1-57, the top level. -/
def demoPairMakeText : Text := [
  .ext "sys" ["sys"],
  .ext "os" ["os"],
  .ext "argparse" ["argparse"],
  .ext "numpy" ["np"],
  .frm ["demo_utils"] [("get_parser", "get_parser")],
  .frm ["demo_utils"] [("make_stamp", "make_stamp"), ("make_scene", "make_scene")],
  .frm ["demo_utils"] [("get_galsim_psf", "get_galsim_psf"), ("galsim_model", "galsim_model"),
    ("compute_noise_level", "compute_noise_level")],
  .frm ["demo_utils"] [("make_psfstore", "make_psfstore"), ("write_fits_to", "write_fits_to")]]

/-- demo/demo_pair/pair_movie.py:1-92, the top level. -/
def demoPairMovieText : Text := [
  .ext "os" ["os"],
  .ext "sys" ["sys"],
  .ext "glob" ["glob"],
  .ext "shutil" ["shutil"],
  .ext "argparse" ["argparse"],
  .ext "logging" ["logging"],
  .ext "numpy" ["np"],
  .ext "json" ["json"],
  .ext "yaml" ["yaml"],
  .ext "matplotlib.animation" ["manimation"],
  .ext "astropy.io" ["fits"],
  .frm ["forcepho", "patches"] [("FITSPatch", "FITSPatch"), ("CPUPatchMixin", "CPUPatchMixin")],
  .frm ["forcepho", "postprocess"] [("Samples", "Samples"), ("Residuals", "Residuals")],
  .frm ["pair_plot"] [("plot_corner", "plot_corner"), ("plot_residual", "plot_residual"), ("plot_both", "plot_both"),
    ("scatter", "scatter")],
  .bind ["Patcher"]]

/-- demo/demo_pair/pair_plot.py:1-112, the top level. -/
def demoPairPlotText : Text := [
  .ext "argparse" ["argparse"],
  .ext "numpy" ["np"],
  .ext "matplotlib.pyplot" ["pl"],
  .ext "matplotlib.gridspec" ["GridSpec", "GridSpecFromSubplotSpec"],
  .frm ["forcepho", "postprocess"] [("Samples", "Samples"), ("Residuals", "Residuals")],
  .frm ["forcepho", "utils", "corner"] [("allcorner", "allcorner"), ("scatter", "scatter"), ("marginal", "marginal")],
  .bind ["plot_corner", "plot_residual", "plot_both"]]

/-- demo/demo_psf/make_jwst_psf/make_psf.py:1-462, the top level. -/
def demoMakePsfText : Text := [
  .ext "time" ["time"],
  .ext "os" ["os"],
  .ext "glob" ["glob"],
  .ext "sys" ["sys"],
  .ext "argparse" ["argparse"],
  .ext "logging" ["logging"],
  .ext "numpy" ["np"],
  .ext "astropy.io" ["fits"],
  .ext "h5py" ["h5py"],
  .ext "arviz" ["arviz"],
  .frm ["forcepho", "mixtures", "utils_hmc"] [("Image", "Image"), ("infer", "infer")],
  .frm ["forcepho", "mixtures", "utils_hmc"] [("display", "display"), ("ee_plot", "ee_plot"), ("radial_plot",
    "radial_plot"), ("draw_ellipses", "draw_ellipses")],
  .frm ["forcepho", "mixtures", "psf_mix_hmc"] [("psf_model", "psf_model"), ("psf_prediction", "psf_prediction")],
  .setAll ["read_image", "fit_image", "convert_psf_data", "package_output", "make_psfstore"],
  .bind ["read_image", "fit_image", "rectify", "convert_psf_data", "package_output", "combine_psfdatasets",
    "fitsify_output", "scale_psf_data", "blur_psf_data"]]

/-- demo/demo_psf/make_jwst_psf/radial_profile.py:1-89, the top level. -/
def demoRadialProfileText : Text := [
  .ext "matplotlib.pyplot" ["pl"],
  .ext "numpy" ["np"],
  .ext "h5py" ["h5py"],
  .frm ["forcepho", "slow", "psf"] [("PointSpreadFunction", "PointSpreadFunction")],
  .frm ["forcepho", "slow", "stamp"] [("PostageStamp", "PostageStamp")],
  .ext "scipy.stats" ["multivariate_normal"],
  .ext "astropy.io" ["fits"],
  .bind ["gaussian"]]

/-- demo/demo_psf/make_jwst_psf/webbpsf_opd.py:1-81, the top level. -/
def demoWebbpsfOpdText : Text := [
  .ext "argparse" ["argparse"],
  .ext "os" ["os"],
  .ext "numpy" ["np"],
  .ext "matplotlib.pyplot" ["pl"],
  .ext "webbpsf" ["webbpsf"],
  .bind ["charge_diff", "JWST_BANDS", "trend"]]

/-- demo/demo_psf/make_jwst_psf/webbpsf_to_fpho.py:1-28, the top level. -/
def demoWebbpsfToFphoText : Text := [
  .ext "argparse" ["argparse"],
  .ext "os" ["os"],
  .ext "glob" ["glob"],
  .ext "astropy.io" ["fits"],
  .bind ["JWST_BANDS"]]

/-- demo/demo_psf/psf_grid_fit.py:1-144, the top level. -/
def demoPsfGridFitText : Text := [
  .ext "os" ["os"],
  .ext "shutil" ["shutil"],
  .ext "logging" ["logging"],
  .ext "numpy" ["np"],
  .ext "json" ["json"],
  .ext "yaml" ["yaml"],
  .ext "matplotlib.pyplot" ["pl"],
  .ext "astropy.io" ["fits"],
  .frm ["forcepho", "utils"] [("NumpyEncoder", "NumpyEncoder")],
  .frm ["demo_utils"] [("get_parser", "get_parser")],
  .frm ["psf_one_fit"] [("make_image", "make_image"), ("fit_image", "fit_image")],
  .frm ["psf_plot"] [("plot_trace", "plot_trace"), ("plot_corner", "plot_corner"), ("plot_residual", "plot_residual")],
  .frm ["psf_plot"] [("make_catalog", "make_catalog"), ("compare_parameters", "compare_parameters"),
    ("compare_apflux", "compare_apflux")],
  .bind ["make_tag", "make_grid"]]

/-- demo/demo_psf/psf_grid_plot.py:1-198, the top level. -/
def demoPsfGridPlotText : Text := [
  .ext "sys" ["sys"],
  .ext "os" ["os"],
  .ext "glob" ["glob"],
  .ext "argparse" ["argparse"],
  .ext "numpy" ["np"],
  .ext "matplotlib.pyplot" ["pl"],
  .ext "astropy.io" ["fits"],
  .frm ["forcepho", "postprocess"] [("Samples", "Samples")],
  .setAll ["get_map", "aperture_flux", "make_catalog", "compare_parameters", "compare_apflux"],
  .bind ["fsize", "get_map", "make_catalog", "compare_parameters", "compare_apflux", "aperture_flux"]]

/-- demo/demo_psf/psf_one_fit.py:1-192, the top level. -/
def demoPsfOneFitText : Text := [
  .ext "os" ["os"],
  .ext "shutil" ["shutil"],
  .ext "logging" ["logging"],
  .ext "numpy" ["np"],
  .ext "json" ["json"],
  .ext "yaml" ["yaml"],
  .ext "matplotlib.pyplot" ["pl"],
  .ext "astropy.io" ["fits"],
  .ext "astropy.wcs" ["WCS"],
  .frm ["forcepho", "region"] [("CircularRegion", "CircularRegion")],
  .frm ["forcepho", "patches"] [("FITSPatch", "FITSPatch"), ("CPUPatchMixin", "CPUPatchMixin")],
  .frm ["forcepho", "superscene"] [("make_bounds", "make_bounds"), ("Galaxy", "Galaxy")],
  .frm ["forcepho", "utils"] [("write_to_disk", "write_to_disk")],
  .frm ["forcepho", "fitting"] [("run_lmc", "run_lmc")],
  .frm ["demo_utils"] [("get_parser", "get_parser")],
  .frm ["demo_utils"] [("make_stamp", "make_stamp"), ("make_scene", "make_scene")],
  .frm ["demo_utils"] [("get_galsim_psf", "get_galsim_psf"), ("galsim_model", "galsim_model"),
    ("compute_noise_level", "compute_noise_level")],
  .frm ["demo_utils"] [("write_fits_to", "write_fits_to")],
  .frm ["psf_plot"] [("plot_trace", "plot_trace"), ("plot_corner", "plot_corner"), ("plot_residual", "plot_residual")],
  .bind ["Patcher", "make_tag", "make_image", "fit_image"]]

/-- demo/demo_psf/psf_plot.py:1-121, the top level. -/
def demoPsfPlotText : Text := [
  .ext "sys" ["sys"],
  .ext "os" ["os"],
  .ext "argparse" ["argparse"],
  .ext "numpy" ["np"],
  .ext "matplotlib.pyplot" ["pl"],
  .ext "matplotlib.ticker" ["FormatStrFormatter"],
  .frm ["forcepho", "postprocess"] [("Samples", "Samples"), ("Residuals", "Residuals")],
  .setAll ["plot_trace", "plot_corner", "plot_residual"],
  .bind ["fsize", "plot_trace", "plot_corner", "plot_residual", "get_map"]]

/-- demo/demo_scene/scene_plot.py:1-117, the top level. -/
def demoScenePlotText : Text := [
  .ext "os" ["os"],
  .ext "numpy" ["np"],
  .ext "matplotlib.pyplot" ["pl"],
  .ext "matplotlib.patches" ["Ellipse"],
  .ext "matplotlib.lines" ["Line2D"],
  .ext "astropy.io" ["fits"],
  .frm ["forcepho", "superscene"] [("LinkedSuperScene", "LinkedSuperScene"), ("rectify_catalog", "rectify_catalog"),
    ("sourcecat_dtype", "sourcecat_dtype"), ("convert_pa", "convert_pa")],
  .bind ["convert_3dhst", "show_reg"]]

/-- demo/demo_snr/single_fit.py:1-96, the top level. -/
def demoSingleFitText : Text := [
  .ext "os" ["os"],
  .ext "sys" ["sys"],
  .ext "glob" ["glob"],
  .ext "shutil" ["shutil"],
  .ext "argparse" ["argparse"],
  .ext "logging" ["logging"],
  .ext "numpy" ["np"],
  .ext "json" ["json"],
  .ext "yaml" ["yaml"],
  .ext "astropy.io" ["fits"],
  .frm ["forcepho", "patches"] [("FITSPatch", "FITSPatch"), ("CPUPatchMixin", "CPUPatchMixin")],
  .frm ["forcepho", "superscene"] [("LinkedSuperScene", "LinkedSuperScene")],
  .frm ["forcepho", "utils"] [("NumpyEncoder", "NumpyEncoder"), ("write_to_disk", "write_to_disk")],
  .frm ["forcepho", "fitting"] [("run_lmc", "run_lmc")],
  .bind ["Patcher"]]

/-- demo/demo_snr/single_make.py:1-64, the top level. -/
def demoSingleMakeText : Text := [
  .ext "sys" ["sys"],
  .ext "os" ["os"],
  .ext "argparse" ["argparse"],
  .ext "numpy" ["np"],
  .frm ["demo_utils"] [("get_parser", "get_parser")],
  .frm ["demo_utils"] [("make_stamp", "make_stamp"), ("make_scene", "make_scene")],
  .frm ["demo_utils"] [("get_galsim_psf", "get_galsim_psf"), ("galsim_model", "galsim_model"),
    ("compute_noise_level", "compute_noise_level")],
  .frm ["demo_utils"] [("make_psfstore", "make_psfstore"), ("write_fits_to", "write_fits_to")]]

/-- demo/demo_snr/single_plot.py:1-123, the top level. -/
def demoSinglePlotText : Text := [
  .ext "argparse" ["argparse"],
  .ext "numpy" ["np"],
  .ext "matplotlib.pyplot" ["pl"],
  .ext "matplotlib.gridspec" ["GridSpec", "GridSpecFromSubplotSpec"],
  .frm ["forcepho", "postprocess"] [("Samples", "Samples"), ("Residuals", "Residuals")],
  .frm ["forcepho", "utils", "corner"] [("allcorner", "allcorner"), ("scatter", "scatter"), ("marginal", "marginal"),
    ("corner", "corner"), ("get_spans", "get_spans"), ("prettify_axes", "prettify_axes")],
  .bind ["multispan", "plot_corner", "plot_residual", "plot_traces"]]

/-- tests/galsim_tests/test_plot.py:1-266, the top level. -/
def demoTestPlotText : Text := [
  .ext "sys" ["sys"],
  .ext "os" ["os"],
  .ext "glob" ["glob"],
  .ext "argparse" ["argparse"],
  .ext "copy" ["deepcopy"],
  .ext "numpy" ["np"],
  .ext "matplotlib.pyplot" ["pl"],
  .ext "matplotlib.gridspec" ["GridSpec", "GridSpecFromSubplotSpec"],
  .ext "matplotlib.ticker" ["FormatStrFormatter"],
  .frm ["forcepho", "postprocess"] [("Samples", "Samples"), ("Residuals", "Residuals")],
  .ext "prospect.plotting.corner" ["allcorner", "scatter", "marginal", "corner", "get_spans", "prettify_axes"],
  .bind ["fsize", "plot_trace", "plot_corner", "plot_residual", "get_map", "make_catalog", "compare_parameters",
    "compare_apflux", "aperture_flux"]]

/-- tests/galsim_tests/test_utils.py:1-295, the top level. -/
def demoTestUtilsText : Text := [
  .ext "sys" ["sys"],
  .ext "os" ["os"],
  .ext "argparse" ["argparse"],
  .ext "itertools" ["product"],
  .ext "numpy" ["np"],
  .ext "h5py" ["h5py"],
  .ext "galsim" ["galsim"],
  .ext "astropy.io" ["fits"],
  .setAll ["get_parser", "make_stamp", "make_scene", "galsim_model", "get_galsim_psf", "make_psf_store",
    "compute_noise_level", "write_to_disk"],
  .bind ["get_parser", "get_grid_params", "make_stamp", "make_scene", "galsim_model", "get_galsim_psf",
    "make_psfstore", "compute_noise_level", "write_fits_to"]]

/-- tests/galsim_tests/test_psf/test_psf_mixture.py:1-268, the top level. -/
def demoTestPsfMixtureText : Text := [
  .ext "os" ["os"],
  .ext "sys" ["sys"],
  .ext "glob" ["glob"],
  .ext "shutil" ["shutil"],
  .ext "argparse" ["argparse"],
  .ext "logging" ["logging"],
  .ext "numpy" ["np"],
  .ext "json" ["json"],
  .ext "yaml" ["yaml"],
  .ext "matplotlib.pyplot" ["pl"],
  .ext "astropy.io" ["fits"],
  .frm ["forcepho", "patches"] [("FITSPatch", "FITSPatch"), ("CPUPatchMixin", "CPUPatchMixin"), ("GPUPatchMixin",
    "GPUPatchMixin")],
  .frm ["forcepho", "superscene"] [("LinkedSuperScene", "LinkedSuperScene")],
  .frm ["forcepho", "utils"] [("write_to_disk", "write_to_disk"), ("NumpyEncoder", "NumpyEncoder")],
  .frm ["forcepho", "fitting"] [("run_lmc", "run_lmc")],
  .frm ["forcepho", "postprocess"] [("Samples", "Samples")],
  .frm ["test_utils"] [("get_parser", "get_parser"), ("get_grid_params", "get_grid_params")],
  .frm ["test_utils"] [("make_stamp", "make_stamp"), ("make_scene", "make_scene")],
  .frm ["test_utils"] [("get_galsim_psf", "get_galsim_psf"), ("galsim_model", "galsim_model"),
    ("compute_noise_level", "compute_noise_level")],
  .frm ["test_utils"] [("make_psfstore", "make_psfstore"), ("write_fits_to", "write_fits_to")],
  .frm ["test_plot"] [("plot_trace", "plot_trace"), ("plot_corner", "plot_corner"), ("plot_residual",
    "plot_residual")],
  .frm ["test_plot"] [("make_catalog", "make_catalog"), ("compare_parameters", "compare_parameters"),
    ("compare_apflux", "compare_apflux")],
  .attempt [("pycuda", ["pycuda"]), ("pycuda.autoinit", ["pycuda"]), ("", ["HASGPU"])] ["HASGPU"],
  .setAll ["make_image", "fit_image"],
  .bind ["Patcher", "make_tag", "make_all_tags", "make_image", "fit_image"]]

/-- tests/galsim_tests/test_psf/make_summary.py:1-90, the top level. -/
def demoMakeSummaryText : Text := [
  .ext "os" ["os"],
  .ext "sys" ["sys"],
  .ext "glob" ["glob"],
  .ext "shutil" ["shutil"],
  .ext "argparse" ["argparse"],
  .ext "logging" ["logging"],
  .ext "numpy" ["np"],
  .ext "json" ["json"],
  .ext "yaml" ["yaml"],
  .ext "matplotlib.pyplot" ["pl"],
  .ext "astropy.io" ["fits"],
  .frm ["test_utils"] [("get_parser", "get_parser"), ("get_grid_params", "get_grid_params")],
  .frm ["test_plot"] [("plot_trace", "plot_trace"), ("plot_corner", "plot_corner"), ("plot_residual",
    "plot_residual")],
  .frm ["test_plot"] [("make_catalog", "make_catalog"), ("compare_parameters", "compare_parameters"),
    ("compare_apflux", "compare_apflux")],
  .attempt [("pycuda", ["pycuda"]), ("pycuda.autoinit", ["pycuda"]), ("", ["HASGPU"])] ["HASGPU"],
  .bind ["make_tag", "make_all_tags"]]

/-- tests/galsim_tests/test_sersic/test_sersic_mixture.py:1-252, the top level. -/
def demoTestSersicMixtureText : Text := [
  .ext "os" ["os"],
  .ext "sys" ["sys"],
  .ext "glob" ["glob"],
  .ext "shutil" ["shutil"],
  .ext "argparse" ["argparse"],
  .ext "logging" ["logging"],
  .ext "numpy" ["np"],
  .ext "json" ["json"],
  .ext "yaml" ["yaml"],
  .ext "matplotlib.pyplot" ["pl"],
  .ext "astropy.io" ["fits"],
  .frm ["forcepho", "patches"] [("FITSPatch", "FITSPatch"), ("CPUPatchMixin", "CPUPatchMixin"), ("GPUPatchMixin",
    "GPUPatchMixin")],
  .frm ["forcepho", "superscene"] [("LinkedSuperScene", "LinkedSuperScene")],
  .frm ["forcepho", "utils"] [("write_to_disk", "write_to_disk"), ("NumpyEncoder", "NumpyEncoder")],
  .frm ["forcepho", "fitting"] [("run_lmc", "run_lmc")],
  .frm ["forcepho", "postprocess"] [("Samples", "Samples")],
  .frm ["test_utils"] [("get_parser", "get_parser"), ("get_grid_params", "get_grid_params")],
  .frm ["test_utils"] [("make_stamp", "make_stamp"), ("make_scene", "make_scene")],
  .frm ["test_utils"] [("get_galsim_psf", "get_galsim_psf"), ("galsim_model", "galsim_model"),
    ("compute_noise_level", "compute_noise_level")],
  .frm ["test_utils"] [("make_psfstore", "make_psfstore"), ("write_fits_to", "write_fits_to")],
  .frm ["test_plot"] [("plot_trace", "plot_trace"), ("plot_corner", "plot_corner"), ("plot_residual",
    "plot_residual")],
  .frm ["test_plot"] [("make_catalog", "make_catalog"), ("compare_parameters", "compare_parameters"),
    ("compare_apflux", "compare_apflux")],
  .attempt [("pycuda", ["pycuda"]), ("pycuda.autoinit", ["pycuda"]), ("", ["HASGPU"])] ["HASGPU"],
  .setAll ["make_image", "fit_image"],
  .bind ["Patcher", "make_tag", "make_all_tags", "make_image", "fit_image"]]

/-- The package together with the demonstrations and the tests with GalSim. -/
def demos : Table := package ++ [
  (["demo_utils"], demoDemoUtilsText),
  (["basic"], demoBasicText),
  (["basic_plot"], demoBasicPlotText),
  (["basic_sceneDB"], demoBasicScenedbText),
  (["color_fit"], demoColorFitText),
  (["color_make"], demoColorMakeText),
  (["color_plot_separate"], demoColorPlotSeparateText),
  (["color_plot_together"], demoColorPlotTogetherText),
  (["mosaic_combine_dithers"], demoMosaicCombineDithersText),
  (["mosaic_fit"], demoMosaicFitText),
  (["mosaic_make_dithers"], demoMosaicMakeDithersText),
  (["mosaic_plot"], demoMosaicPlotText),
  (["optimize"], demoOptimizeText),
  (["optimize_plot"], demoOptimizePlotText),
  (["pair_fit"], demoPairFitText),
  (["pair_make"], demoPairMakeText),
  (["pair_movie"], demoPairMovieText),
  (["pair_plot"], demoPairPlotText),
  (["make_psf"], demoMakePsfText),
  (["radial_profile"], demoRadialProfileText),
  (["webbpsf_opd"], demoWebbpsfOpdText),
  (["webbpsf_to_fpho"], demoWebbpsfToFphoText),
  (["psf_grid_fit"], demoPsfGridFitText),
  (["psf_grid_plot"], demoPsfGridPlotText),
  (["psf_one_fit"], demoPsfOneFitText),
  (["psf_plot"], demoPsfPlotText),
  (["scene_plot"], demoScenePlotText),
  (["single_fit"], demoSingleFitText),
  (["single_make"], demoSingleMakeText),
  (["single_plot"], demoSinglePlotText),
  (["test_plot"], demoTestPlotText),
  (["test_utils"], demoTestUtilsText),
  (["test_psf_mixture"], demoTestPsfMixtureText),
  (["make_summary"], demoMakeSummaryText),
  (["test_sersic_mixture"], demoTestSersicMixtureText)]

end Forcepho.Imports
