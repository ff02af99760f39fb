import Verif.Calls.Model

/-!
# C167: the calls of the package, the demonstrations and the tests

For each file the functions, methods and constructors defined in it that are called by name somewhere, their parameters, and the
calls with the file and line: the number of arguments by position, whether there is `*args`, the keywords, whether there is
`**kwargs`.  The receiver of a method is left out.  A call of `self.method` is listed under the method of every class in which the
caller may run, except where that only raises `NotImplementedError`.  Calls of methods of other objects are not listed.
-/

set_option autoImplicit false

namespace Forcepho.Calls

/-- approx/psf/make_psf.py:1-430, the functions and constructors that are called by name. -/
def approxPsfMakePsfCalled : List Callee := [
  ⟨"read_image", ⟨["filename", "pad", "ext"], 2, false, [], false⟩, [⟨"approx/psf/make_psf.py", 355, 1, false,
    ["pad", "ext"], false⟩]⟩,
  ⟨"fit_image", ⟨["image", "args", "a", "oversample"], 2, false, [], true⟩, [⟨"approx/psf/make_psf.py", 364, 2,
    false, ["a", "oversample", "dcen", "ngauss_neg", "max_tree_depth"], false⟩]⟩,
  ⟨"rectify", ⟨["best", "image"], 0, false, [], false⟩, [⟨"approx/psf/make_psf.py", 369, 2, false, [], false⟩]⟩,
  ⟨"convert_psf_data", ⟨["best", "cx", "cy", "nloc", "nradii", "oversample"], 3, false, [], false⟩,
    [⟨"approx/psf/make_psf.py", 375, 3, false, ["nloc", "nradii", "oversample"], false⟩]⟩,
  ⟨"package_output", ⟨["h5file", "band", "pars", "pixel_scale", "oversample", "image", "model", "overwrite"], 5,
    false, [], false⟩, [⟨"approx/psf/make_psf.py", 378, 3, false, ["overwrite", "pixel_scale", "image", "model",
    "oversample"], false⟩]⟩,
  ⟨"fitsify_output", ⟨["fn", "pars", "image", "model", "oversample", "band"], 3, false, [], true⟩,
    [⟨"approx/psf/make_psf.py", 382, 2, false, ["image", "model", "oversample", "flxscl", "CDELT1", "CDELT2",
    "psfim"], false⟩]⟩]

/-- demo/demo_basic/basic.py:1-129, the functions and constructors that are called by name. -/
def demoDemoBasicBasicCalled : List Callee := [
  ⟨"make_tag", ⟨["config"], 0, false, [], false⟩, [⟨"demo/demo_basic/basic.py", 53, 1, false, [], false⟩]⟩]

/-- demo/demo_basic/basic_plot.py:1-127, the functions and constructors that are called by name. -/
def demoDemoBasicBasicPlotCalled : List Callee := [
  ⟨"plot_trace", ⟨["patchname", "title_fmt", "fsize"], 2, false, [], false⟩, [⟨"demo/demo_basic/basic_plot.py",
    112, 1, false, [], false⟩]⟩,
  ⟨"plot_corner", ⟨["patchname", "smooth", "hkwargs", "dkwargs", "fsize"], 4, false, [], false⟩,
    [⟨"demo/demo_basic/basic_plot.py", 118, 1, false, [], false⟩]⟩,
  ⟨"plot_residual", ⟨["patchname", "vmin", "vmax", "rfig", "raxes"], 4, false, [], false⟩,
    [⟨"demo/demo_basic/basic_plot.py", 123, 1, false, [], false⟩]⟩,
  ⟨"get_map", ⟨["s"], 0, false, [], false⟩, [⟨"demo/demo_basic/basic_plot.py", 62, 1, false, [], false⟩]⟩]

/-- demo/demo_basic/basic_sceneDB.py:1-129, the functions and constructors that are called by name. -/
def demoDemoBasicBasicSceneDBCalled : List Callee := [
  ⟨"make_tag", ⟨["config"], 0, false, [], false⟩, [⟨"demo/demo_basic/basic_sceneDB.py", 51, 1, false, [], false⟩]⟩]

/-- demo/demo_color/color_plot_separate.py:1-155, the functions and constructors that are called by name. -/
def demoDemoColorColorPlotSeparateCalled : List Callee := [
  ⟨"color_corner", ⟨["sample_list", "bands", "smooth", "hkwargs", "dkwargs", "axes"], 5, false, [], false⟩,
    [⟨"demo/demo_color/color_plot_separate.py", 134, 1, false, ["axes"], false⟩]⟩,
  ⟨"apflux", ⟨["samples", "band", "nradii"], 2, false, [], false⟩, [⟨"demo/demo_color/color_plot_separate.py", 46,
    1, false, [], false⟩]⟩,
  ⟨"plot_residual", ⟨["patchname", "vmin", "vmax", "rfig", "raxes"], 4, false, [], false⟩,
    [⟨"demo/demo_color/color_plot_separate.py", 113, 1, false, ["raxes"], false⟩]⟩,
  ⟨"plot_both", ⟨["patchnames", "band", "show_current"], 2, false, [], false⟩,
    [⟨"demo/demo_color/color_plot_separate.py", 155, 1, false, [], false⟩]⟩]

/-- demo/demo_color/color_plot_together.py:1-135, the functions and constructors that are called by name. -/
def demoDemoColorColorPlotTogetherCalled : List Callee := [
  ⟨"total_corner", ⟨["samples", "bands", "smooth", "hkwargs", "dkwargs", "axes"], 5, false, [], false⟩,
    [⟨"demo/demo_color/color_plot_together.py", 114, 1, false, ["axes"], false⟩]⟩,
  ⟨"color_corner", ⟨["samples", "bands", "smooth", "hkwargs", "dkwargs", "axes"], 5, false, [], false⟩,
    [⟨"demo/demo_color/color_plot_together.py", 116, 1, false, ["axes"], false⟩]⟩,
  ⟨"plot_residual", ⟨["patchname", "vmin", "vmax", "rfig", "raxes"], 4, false, [], false⟩,
    [⟨"demo/demo_color/color_plot_together.py", 98, 1, false, ["raxes"], false⟩]⟩,
  ⟨"plot_both", ⟨["patchname", "band", "show_current"], 2, false, [], false⟩,
    [⟨"demo/demo_color/color_plot_together.py", 134, 1, false, [], false⟩]⟩]

/-- demo/demo_mosaic/mosaic_combine_dithers.py:1-84, the functions and constructors that are called by name. -/
def demoDemoMosaicMosaicCombineDithersCalled : List Callee := [
  ⟨"drizzle_combine", ⟨["ditherlist", "args", "wt_scale"], 1, false, [], false⟩,
    [⟨"demo/demo_mosaic/mosaic_combine_dithers.py", 84, 2, false, [], false⟩]⟩]

/-- demo/demo_mosaic/mosaic_plot.py:1-53, the functions and constructors that are called by name. -/
def demoDemoMosaicMosaicPlotCalled : List Callee := [
  ⟨"multispan", ⟨["parsets"], 0, false, [], false⟩, [⟨"demo/demo_mosaic/mosaic_plot.py", 34, 1, false, [],
    false⟩]⟩]

/-- demo/demo_optimize/optimize.py:1-222, the functions and constructors that are called by name. -/
def demoDemoOptimizeOptimizeCalled : List Callee := [
  ⟨"make_tag", ⟨["config"], 0, false, [], false⟩, [⟨"demo/demo_optimize/optimize.py", 76, 1, false, [], false⟩]⟩]

/-- demo/demo_optimize/optimize_plot.py:1-106, the functions and constructors that are called by name. -/
def demoDemoOptimizeOptimizePlotCalled : List Callee := [
  ⟨"plot_corner", ⟨["samples", "smooth", "hkwargs", "dkwargs", "fsize"], 4, false, [], false⟩,
    [⟨"demo/demo_optimize/optimize_plot.py", 84, 1, false, [], false⟩]⟩,
  ⟨"plot_residual", ⟨["patchname", "vmin", "vmax", "rfig", "raxes"], 4, false, [], false⟩,
    [⟨"demo/demo_optimize/optimize_plot.py", 104, 1, false, [], false⟩]⟩,
  ⟨"get_map", ⟨["s"], 0, false, [], false⟩, [⟨"demo/demo_optimize/optimize_plot.py", 34, 1, false, [], false⟩,
    ⟨"demo/demo_optimize/optimize_plot.py", 79, 1, false, [], false⟩]⟩]

/-- demo/demo_pair/pair_plot.py:1-112, the functions and constructors that are called by name. -/
def demoDemoPairPairPlotCalled : List Callee := [
  ⟨"plot_corner", ⟨["patchname", "band", "smooth", "hkwargs", "dkwargs", "axes"], 5, false, [], false⟩,
    [⟨"demo/demo_pair/pair_plot.py", 82, 1, false, ["axes"], false⟩]⟩,
  ⟨"plot_residual", ⟨["patchname", "vmin", "vmax", "rfig", "raxes"], 4, false, [], false⟩,
    [⟨"demo/demo_pair/pair_plot.py", 71, 1, false, ["raxes"], false⟩]⟩,
  ⟨"plot_both", ⟨["patchname", "show_current"], 1, false, [], false⟩, [⟨"demo/demo_pair/pair_movie.py", 53, 1,
    false, ["show_current"], false⟩, ⟨"demo/demo_pair/pair_plot.py", 111, 1, false, [], false⟩]⟩]

/-- demo/demo_psf/make_jwst_psf/make_psf.py:1-462, the functions and constructors that are called by name. -/
def demoDemoPsfMakeJwstPsfMakePsfCalled : List Callee := [
  ⟨"read_image", ⟨["filename", "pad", "ext"], 2, false, [], false⟩, [⟨"demo/demo_psf/make_jwst_psf/make_psf.py",
    379, 1, false, ["pad", "ext"], false⟩]⟩,
  ⟨"fit_image", ⟨["image", "args", "a", "oversample"], 2, false, [], true⟩,
    [⟨"demo/demo_psf/make_jwst_psf/make_psf.py", 388, 2, false, ["a", "oversample", "dcen", "ngauss_neg",
    "max_tree_depth"], false⟩]⟩,
  ⟨"rectify", ⟨["best", "image"], 0, false, [], false⟩, [⟨"demo/demo_psf/make_jwst_psf/make_psf.py", 393, 2, false,
    [], false⟩]⟩,
  ⟨"convert_psf_data", ⟨["best", "cx", "cy", "nloc", "nradii", "oversample"], 3, false, [], false⟩,
    [⟨"demo/demo_psf/make_jwst_psf/make_psf.py", 399, 3, false, ["nloc", "nradii", "oversample"], false⟩]⟩,
  ⟨"package_output", ⟨["h5file", "band", "pars", "pixel_scale", "oversample", "image", "model", "hdr",
    "overwrite"], 6, false, [], false⟩, [⟨"demo/demo_psf/make_jwst_psf/make_psf.py", 402, 3, false, ["overwrite",
    "pixel_scale", "image", "model", "hdr", "oversample"], false⟩]⟩,
  ⟨"fitsify_output", ⟨["fn", "pars", "image", "model", "oversample", "band"], 3, false, [], true⟩,
    [⟨"demo/demo_psf/make_jwst_psf/make_psf.py", 406, 2, false, ["image", "model", "oversample", "flxscl", "CDELT1",
    "CDELT2", "psfim"], false⟩]⟩]

/-- demo/demo_psf/make_jwst_psf/webbpsf_opd.py:1-81, the functions and constructors that are called by name. -/
def demoDemoPsfMakeJwstPsfWebbpsfOpdCalled : List Callee := [
  ⟨"trend", ⟨["year", "month"], 0, false, [], false⟩, [⟨"demo/demo_psf/make_jwst_psf/webbpsf_opd.py", 55, 2, false,
    [], false⟩]⟩]

/-- demo/demo_psf/psf_grid_fit.py:1-144, the functions and constructors that are called by name. -/
def demoDemoPsfPsfGridFitCalled : List Callee := [
  ⟨"make_tag", ⟨["config"], 0, false, [], false⟩, [⟨"demo/demo_psf/psf_grid_fit.py", 109, 1, false, [], false⟩]⟩,
  ⟨"make_grid", ⟨["grid", "grid_spec"], 2, false, [], false⟩, [⟨"demo/demo_psf/psf_grid_fit.py", 88, 0, false,
    ["grid_spec"], false⟩]⟩]

/-- demo/demo_psf/psf_grid_plot.py:1-198, the functions and constructors that are called by name. -/
def demoDemoPsfPsfGridPlotCalled : List Callee := [
  ⟨"make_catalog", ⟨["tagnames", "n_full", "bands"], 2, false, [], false⟩, [⟨"demo/demo_psf/psf_grid_plot.py", 181,
    1, false, ["bands"], false⟩]⟩,
  ⟨"compare_parameters", ⟨["scat", "tcat", "parname", "add_jitter", "point_type", "colorby", "splitby", "as_delta",
    "dfax", "onlymax"], 7, false, [], false⟩, [⟨"demo/demo_psf/psf_grid_plot.py", 187, 3, false, ["dfax", "splitby",
    "colorby"], false⟩, ⟨"demo/demo_psf/psf_grid_plot.py", 189, 3, false, ["dfax", "as_delta", "splitby", "colorby"],
    false⟩]⟩,
  ⟨"compare_apflux", ⟨["scat", "tcat", "band", "colorby"], 2, false, [], false⟩,
    [⟨"demo/demo_psf/psf_grid_plot.py", 196, 2, false, ["band", "colorby"], false⟩]⟩,
  ⟨"aperture_flux", ⟨["scat", "truths", "band"], 1, false, [], false⟩, [⟨"demo/demo_psf/psf_grid_plot.py", 134, 2,
    false, ["band"], false⟩]⟩]

/-- demo/demo_psf/psf_one_fit.py:1-192, the functions and constructors that are called by name. -/
def demoDemoPsfPsfOneFitCalled : List Callee := [
  ⟨"make_tag", ⟨["config"], 0, false, [], false⟩, [⟨"demo/demo_psf/psf_one_fit.py", 154, 1, false, [], false⟩]⟩,
  ⟨"make_image", ⟨["config"], 0, false, [], false⟩, [⟨"demo/demo_psf/psf_grid_fit.py", 118, 1, false, [], false⟩,
    ⟨"demo/demo_psf/psf_one_fit.py", 166, 1, false, [], false⟩]⟩,
  ⟨"fit_image", ⟨["config", "shape_cols", "bounds_kwargs"], 2, false, [], false⟩,
    [⟨"demo/demo_psf/psf_grid_fit.py", 122, 1, false, [], false⟩, ⟨"demo/demo_psf/psf_one_fit.py", 172, 1, false, [],
    false⟩]⟩]

/-- demo/demo_psf/psf_plot.py:1-121, the functions and constructors that are called by name. -/
def demoDemoPsfPsfPlotCalled : List Callee := [
  ⟨"plot_trace", ⟨["patchname", "title_fmt", "fsize"], 2, false, [], false⟩, [⟨"demo/demo_psf/psf_grid_fit.py",
    129, 1, false, [], false⟩, ⟨"demo/demo_psf/psf_one_fit.py", 179, 1, false, [], false⟩,
    ⟨"demo/demo_psf/psf_plot.py", 106, 1, false, [], false⟩]⟩,
  ⟨"plot_corner", ⟨["patchname", "smooth", "hkwargs", "dkwargs", "fsize"], 4, false, [], false⟩,
    [⟨"demo/demo_psf/psf_grid_fit.py", 135, 1, false, [], false⟩, ⟨"demo/demo_psf/psf_one_fit.py", 185, 1, false, [],
    false⟩, ⟨"demo/demo_psf/psf_plot.py", 112, 1, false, [], false⟩]⟩,
  ⟨"plot_residual", ⟨["patchname", "vmin", "vmax", "rfig", "raxes"], 4, false, [], false⟩,
    [⟨"demo/demo_psf/psf_grid_fit.py", 140, 1, false, [], false⟩, ⟨"demo/demo_psf/psf_one_fit.py", 190, 1, false, [],
    false⟩, ⟨"demo/demo_psf/psf_plot.py", 117, 1, false, [], false⟩]⟩,
  ⟨"get_map", ⟨["s"], 0, false, [], false⟩, [⟨"demo/demo_psf/psf_plot.py", 61, 1, false, [], false⟩]⟩]

/-- demo/demo_scene/scene_plot.py:1-117, the functions and constructors that are called by name. -/
def demoDemoSceneScenePlotCalled : List Callee := [
  ⟨"convert_3dhst", ⟨["incat", "outcat"], 0, false, [], false⟩, [⟨"demo/demo_scene/scene_plot.py", 62, 2, false,
    [], false⟩]⟩,
  ⟨"show_reg", ⟨["reg", "ax", "color", "text"], 1, false, [], false⟩, [⟨"demo/demo_scene/scene_plot.py", 88, 4,
    false, [], false⟩, ⟨"demo/demo_scene/scene_plot.py", 105, 4, false, [], false⟩]⟩]

/-- demo/demo_snr/single_plot.py:1-123, the functions and constructors that are called by name. -/
def demoDemoSnrSinglePlotCalled : List Callee := [
  ⟨"multispan", ⟨["parsets"], 0, false, [], false⟩, [⟨"demo/demo_snr/single_plot.py", 38, 1, false, [], false⟩]⟩,
  ⟨"plot_corner", ⟨["patchnames", "config", "band", "smooth"], 2, false, [], false⟩,
    [⟨"demo/demo_snr/single_plot.py", 110, 2, false, [], false⟩]⟩,
  ⟨"plot_residual", ⟨["patchname", "vmin", "vmax", "rfig", "raxes"], 4, false, [], false⟩,
    [⟨"demo/demo_snr/single_plot.py", 114, 1, false, [], false⟩]⟩,
  ⟨"plot_traces", ⟨["patchname", "fig", "axes"], 2, false, [], false⟩, [⟨"demo/demo_snr/single_plot.py", 120, 1,
    false, ["fig", "axes"], false⟩]⟩]

/-- demo/demo_utils.py:1-317, the functions and constructors that are called by name. -/
def demoDemoUtilsCalled : List Callee := [
  ⟨"get_parser", ⟨[], 0, false, [], false⟩, [⟨"demo/demo_basic/basic.py", 36, 0, false, [], false⟩,
    ⟨"demo/demo_basic/basic_sceneDB.py", 34, 0, false, [], false⟩, ⟨"demo/demo_color/color_make.py", 16, 0, false,
    [], false⟩, ⟨"demo/demo_mosaic/mosaic_make_dithers.py", 20, 0, false, [], false⟩,
    ⟨"demo/demo_optimize/optimize.py", 51, 0, false, [], false⟩, ⟨"demo/demo_pair/pair_make.py", 14, 0, false, [],
    false⟩, ⟨"demo/demo_psf/psf_grid_fit.py", 52, 0, false, [], false⟩, ⟨"demo/demo_psf/psf_one_fit.py", 122, 0,
    false, [], false⟩, ⟨"demo/demo_snr/single_make.py", 15, 0, false, [], false⟩, ⟨"demo/demo_utils.py", 316, 0,
    false, [], false⟩]⟩,
  ⟨"make_stamp", ⟨["band", "scale", "nx", "ny", "dither"], 4, false, [], false⟩, [⟨"demo/demo_basic/basic.py", 64,
    1, false, ["scale", "nx", "ny"], false⟩, ⟨"demo/demo_basic/basic_sceneDB.py", 62, 1, false, ["scale", "nx",
    "ny"], false⟩, ⟨"demo/demo_color/color_make.py", 36, 1, false, ["nx", "ny", "scale"], false⟩,
    ⟨"demo/demo_mosaic/mosaic_make_dithers.py", 54, 1, false, ["nx", "ny", "scale", "dither"], false⟩,
    ⟨"demo/demo_optimize/optimize.py", 96, 1, false, ["scale", "nx", "ny"], false⟩, ⟨"demo/demo_pair/pair_make.py",
    25, 1, false, ["scale", "nx", "ny"], false⟩, ⟨"demo/demo_psf/psf_one_fit.py", 43, 1, false, ["scale", "nx",
    "ny"], false⟩, ⟨"demo/demo_snr/single_make.py", 33, 1, false, ["scale", "nx", "ny"], false⟩]⟩,
  ⟨"make_scene", ⟨["stamps", "nsource", "dist_frac", "ra", "dec", "rhalf", "sersic", "flux", "q", "pa"], 9, false,
    [], false⟩, [⟨"demo/demo_basic/basic.py", 65, 1, false, ["dist_frac", "rhalf", "sersic", "pa"], false⟩,
    ⟨"demo/demo_basic/basic_sceneDB.py", 63, 1, false, ["dist_frac", "rhalf", "sersic", "pa"], false⟩,
    ⟨"demo/demo_color/color_make.py", 40, 1, false, ["dist_frac", "rhalf", "sersic"], false⟩,
    ⟨"demo/demo_mosaic/mosaic_make_dithers.py", 59, 1, false, ["dist_frac", "rhalf", "sersic"], false⟩,
    ⟨"demo/demo_optimize/optimize.py", 97, 1, false, ["dist_frac", "rhalf", "sersic", "pa"], false⟩,
    ⟨"demo/demo_pair/pair_make.py", 29, 1, false, ["dist_frac", "rhalf", "sersic"], false⟩,
    ⟨"demo/demo_psf/psf_one_fit.py", 44, 1, false, ["dist_frac", "q", "pa", "rhalf", "sersic"], false⟩,
    ⟨"demo/demo_snr/single_make.py", 36, 1, false, ["dist_frac", "rhalf", "sersic", "pa"], false⟩]⟩,
  ⟨"galsim_model", ⟨["scene", "stamp", "psf", "verbose"], 2, false, [], false⟩, [⟨"demo/demo_basic/basic.py", 72,
    2, false, ["psf"], false⟩, ⟨"demo/demo_basic/basic_sceneDB.py", 70, 2, false, ["psf"], false⟩,
    ⟨"demo/demo_color/color_make.py", 49, 2, false, ["psf"], false⟩, ⟨"demo/demo_mosaic/mosaic_make_dithers.py", 69,
    2, false, ["psf"], false⟩, ⟨"demo/demo_optimize/optimize.py", 102, 2, false, ["psf"], false⟩,
    ⟨"demo/demo_pair/pair_make.py", 35, 2, false, ["psf"], false⟩, ⟨"demo/demo_psf/psf_one_fit.py", 49, 2, false,
    ["psf"], false⟩, ⟨"demo/demo_snr/single_make.py", 42, 2, false, ["psf"], false⟩]⟩,
  ⟨"get_galsim_psf", ⟨["scale", "psfimage", "sigma_psf", "psfmixture"], 3, false, [], false⟩,
    [⟨"demo/demo_basic/basic.py", 68, 1, false, ["sigma_psf"], false⟩, ⟨"demo/demo_basic/basic_sceneDB.py", 66, 1,
    false, ["sigma_psf"], false⟩, ⟨"demo/demo_color/color_make.py", 48, 1, false, ["sigma_psf"], false⟩,
    ⟨"demo/demo_mosaic/mosaic_make_dithers.py", 63, 1, false, ["sigma_psf"], false⟩,
    ⟨"demo/demo_optimize/optimize.py", 100, 1, false, ["sigma_psf"], false⟩, ⟨"demo/demo_pair/pair_make.py", 34, 1,
    false, ["sigma_psf"], false⟩, ⟨"demo/demo_psf/psf_one_fit.py", 48, 1, false, ["psfimage", "sigma_psf"], false⟩,
    ⟨"demo/demo_snr/single_make.py", 40, 1, false, ["sigma_psf"], false⟩]⟩,
  ⟨"make_psfstore", ⟨["psfstore", "band", "sigma", "nradii"], 1, false, [], false⟩, [⟨"demo/demo_basic/basic.py",
    71, 3, false, ["nradii"], false⟩, ⟨"demo/demo_basic/basic_sceneDB.py", 69, 3, false, ["nradii"], false⟩,
    ⟨"demo/demo_color/color_make.py", 50, 3, false, ["nradii"], false⟩, ⟨"demo/demo_mosaic/mosaic_make_dithers.py",
    64, 3, false, ["nradii"], false⟩, ⟨"demo/demo_optimize/optimize.py", 101, 3, false, ["nradii"], false⟩,
    ⟨"demo/demo_pair/pair_make.py", 36, 3, false, ["nradii"], false⟩, ⟨"demo/demo_snr/single_make.py", 41, 3, false,
    ["nradii"], false⟩]⟩,
  ⟨"compute_noise_level", ⟨["scene", "config"], 0, false, [], false⟩, [⟨"demo/demo_basic/basic.py", 75, 2, false,
    [], false⟩, ⟨"demo/demo_basic/basic_sceneDB.py", 73, 2, false, [], false⟩, ⟨"demo/demo_color/color_make.py", 53,
    2, false, [], false⟩, ⟨"demo/demo_mosaic/mosaic_make_dithers.py", 72, 2, false, [], false⟩,
    ⟨"demo/demo_optimize/optimize.py", 105, 2, false, [], false⟩, ⟨"demo/demo_pair/pair_make.py", 39, 2, false, [],
    false⟩, ⟨"demo/demo_psf/psf_one_fit.py", 52, 2, false, [], false⟩, ⟨"demo/demo_snr/single_make.py", 46, 2, false,
    [], false⟩]⟩,
  ⟨"write_fits_to", ⟨["out", "im", "unc", "hdr", "bands", "noise", "scene"], 3, false, [], false⟩,
    [⟨"demo/demo_basic/basic.py", 87, 5, false, ["noise", "scene"], false⟩, ⟨"demo/demo_basic/basic_sceneDB.py", 85,
    5, false, ["noise", "scene"], false⟩, ⟨"demo/demo_color/color_make.py", 73, 5, false, ["noise", "scene"], false⟩,
    ⟨"demo/demo_mosaic/mosaic_combine_dithers.py", 61, 4, false, [], false⟩,
    ⟨"demo/demo_mosaic/mosaic_combine_dithers.py", 72, 5, false, ["scene"], false⟩,
    ⟨"demo/demo_mosaic/mosaic_make_dithers.py", 95, 5, false, ["noise", "scene"], false⟩,
    ⟨"demo/demo_optimize/optimize.py", 117, 5, false, ["noise", "scene"], false⟩, ⟨"demo/demo_pair/pair_make.py", 56,
    5, false, ["noise", "scene"], false⟩, ⟨"demo/demo_psf/psf_one_fit.py", 65, 5, false, ["noise", "scene"], false⟩,
    ⟨"demo/demo_snr/single_make.py", 64, 5, false, ["noise", "scene"], false⟩]⟩]

/-- forcepho/config.py:1-303, the functions and constructors that are called by name. -/
def forcephoConfigCalled : List Callee := [
  ⟨"main_config_parser", ⟨["FITS"], 1, false, [], false⟩, [⟨"forcepho/config.py", 139, 0, false, [], true⟩]⟩,
  ⟨"make_bounds_kwargs", ⟨["config"], 0, false, [], false⟩, [⟨"forcepho/config.py", 263, 1, false, [], false⟩]⟩,
  ⟨"yaml_to_namespace", ⟨["config_file"], 0, false, [], false⟩, [⟨"forcepho/config.py", 170, 1, false, [], false⟩,
    ⟨"forcepho/config.py", 299, 1, false, [], false⟩]⟩,
  ⟨"update_config", ⟨["config", "args", "rectify"], 1, false, [], false⟩, [⟨"forcepho/config.py", 175, 2, false,
    [], false⟩, ⟨"forcepho/config.py", 177, 2, false, [], false⟩, ⟨"forcepho/config.py", 300, 2, false, [], false⟩]⟩,
  ⟨"rectify_config", ⟨["config"], 0, false, [], false⟩, [⟨"forcepho/config.py", 179, 1, false, [], false⟩,
    ⟨"forcepho/config.py", 301, 1, false, [], false⟩]⟩,
  ⟨"new_args", ⟨["parser", "argv"], 0, false, [], false⟩, [⟨"forcepho/config.py", 161, 2, false, [], false⟩]⟩]

/-- forcepho/dispatcher.py:1-356, the functions and constructors that are called by name. -/
def forcephoDispatcherCalled : List Callee := [
  ⟨"MPIQueue.__init__", ⟨["comm", "n_children"], 0, false, [], false⟩, [⟨"forcepho/dispatcher.py", 171, 2, false,
    [], false⟩]⟩,
  ⟨"do_parent", ⟨["comm", "config"], 1, false, [], false⟩, [⟨"forcepho/dispatcher.py", 334, 1, false, ["config"],
    false⟩]⟩,
  ⟨"do_child", ⟨["comm", "config"], 1, false, [], false⟩, [⟨"forcepho/dispatcher.py", 337, 1, false, ["config"],
    false⟩]⟩,
  ⟨"main", ⟨["config"], 1, false, [], false⟩, [⟨"forcepho/dispatcher.py", 356, 1, false, [], false⟩]⟩]

/-- forcepho/fitting.py:1-674, the functions and constructors that are called by name. -/
def forcephoFittingCalled : List Callee := [
  ⟨"Result.__init__", ⟨["filename"], 1, false, [], true⟩, [⟨"forcepho/fitting.py", 335, 0, false, [], false⟩,
    ⟨"forcepho/fitting.py", 440, 0, false, [], false⟩, ⟨"forcepho/fitting.py", 485, 0, false, [], false⟩,
    ⟨"forcepho/fitting.py", 526, 0, false, [], false⟩, ⟨"forcepho/fitting.py", 561, 0, false, [], false⟩,
    ⟨"forcepho/postprocess.py", 153, 1, false, [], false⟩]⟩,
  ⟨"Result.get_sample_cat", ⟨["iteration"], 0, false, [], false⟩, [⟨"forcepho/fitting.py", 147, 1, false, [],
    false⟩, ⟨"forcepho/fitting.py", 180, 1, false, [], false⟩]⟩,
  ⟨"Result.read_from_h5", ⟨["filename"], 0, false, [], false⟩, [⟨"forcepho/fitting.py", 30, 1, false, [], false⟩]⟩,
  ⟨"Result._reconstruct", ⟨[], 0, false, [], false⟩, [⟨"forcepho/fitting.py", 32, 0, false, [], false⟩]⟩,
  ⟨"run_lmc", ⟨["model", "q", "n_draws", "adapt", "full", "weight", "warmup", "trace", "z_cov", "max_treedepth",
    "discard_tuned_samples", "progressbar", "random_seed"], 10, false, [], false⟩, [⟨"demo/demo_basic/basic.py", 117,
    2, false, ["n_draws", "warmup", "z_cov", "full", "weight", "discard_tuned_samples", "max_treedepth",
    "progressbar"], false⟩, ⟨"demo/demo_basic/basic_sceneDB.py", 114, 2, false, ["n_draws", "warmup", "z_cov",
    "full", "weight", "discard_tuned_samples", "max_treedepth", "progressbar"], false⟩,
    ⟨"demo/demo_color/color_fit.py", 79, 2, false, ["n_draws", "warmup", "z_cov", "full", "weight",
    "discard_tuned_samples", "max_treedepth", "progressbar"], false⟩, ⟨"demo/demo_mosaic/mosaic_fit.py", 82, 2,
    false, ["n_draws", "warmup", "z_cov", "full", "weight", "discard_tuned_samples", "max_treedepth", "progressbar"],
    false⟩, ⟨"demo/demo_optimize/optimize.py", 204, 2, false, ["n_draws", "warmup", "z_cov", "full", "weight",
    "discard_tuned_samples", "max_treedepth", "progressbar"], false⟩, ⟨"demo/demo_pair/pair_fit.py", 78, 2, false,
    ["n_draws", "warmup", "z_cov", "full", "weight", "discard_tuned_samples", "max_treedepth", "progressbar"],
    false⟩, ⟨"demo/demo_psf/psf_one_fit.py", 103, 2, false, ["n_draws", "warmup", "z_cov", "full", "weight",
    "discard_tuned_samples", "max_treedepth", "progressbar"], false⟩, ⟨"demo/demo_snr/single_fit.py", 77, 2, false,
    ["n_draws", "warmup", "z_cov", "full", "weight", "discard_tuned_samples", "max_treedepth", "progressbar"],
    false⟩, ⟨"forcepho/fitting.py", 660, 2, false, ["n_draws", "warmup"], false⟩, ⟨"forcepho/tasks.py", 97, 2, false,
    ["n_draws", "warmup", "z_cov", "full", "weight", "discard_tuned_samples", "max_treedepth", "progressbar"],
    false⟩, ⟨"tests/galsim_tests/test_psf/test_psf_mixture.py", 123, 2, false, ["n_draws", "warmup", "z_cov", "full",
    "weight", "discard_tuned_samples", "max_treedepth", "progressbar"], false⟩,
    ⟨"tests/galsim_tests/test_sersic/test_sersic_mixture.py", 125, 2, false, ["n_draws", "warmup", "z_cov", "full",
    "weight", "discard_tuned_samples", "max_treedepth", "progressbar"], false⟩]⟩,
  ⟨"get_pot", ⟨["n_dim", "init_mean", "init_cov", "trace", "regular_variance", "adapt", "full", "weight"], 7,
    false, [], false⟩, [⟨"forcepho/fitting.py", 317, 1, false, ["adapt", "full", "weight", "init_mean", "init_cov",
    "trace"], false⟩]⟩,
  ⟨"run_opt", ⟨["model", "q", "jac", "callback"], 2, false, [], true⟩, [⟨"demo/demo_optimize/optimize.py", 162, 2,
    false, ["jac", "gtol"], false⟩, ⟨"forcepho/tasks.py", 42, 2, false, ["jac", "gtol"], false⟩]⟩,
  ⟨"optimize_one_band", ⟨["X", "w", "y", "fixedX"], 1, false, [], false⟩, [⟨"forcepho/fitting.py", 619, 3, false,
    [], false⟩]⟩,
  ⟨"optimize_fluxes", ⟨["patcher", "active", "return_all"], 1, false, [], false⟩,
    [⟨"demo/demo_optimize/optimize.py", 181, 2, false, ["return_all"], false⟩, ⟨"forcepho/tasks.py", 63, 2, false,
    ["return_all"], false⟩]⟩]

/-- forcepho/mixtures/psf_mix_em.py:1-209, the functions and constructors that are called by name. -/
def forcephoMixturesPsfMixEmCalled : List Callee := [
  ⟨"noncentral_moment", ⟨["image_data", "exp_x", "exp_y"], 0, false, [], false⟩,
    [⟨"forcepho/mixtures/psf_mix_em.py", 25, 3, false, [], false⟩, ⟨"forcepho/mixtures/psf_mix_em.py", 26, 3, false,
    [], false⟩]⟩,
  ⟨"mean_params", ⟨["image_data"], 0, false, [], false⟩, [⟨"forcepho/mixtures/psf_mix_em.py", 31, 1, false, [],
    false⟩, ⟨"forcepho/mixtures/psf_mix_em.py", 42, 1, false, [], false⟩, ⟨"forcepho/mixtures/psf_mix_em.py", 46, 1,
    false, [], false⟩]⟩,
  ⟨"cov_params", ⟨["image_data"], 0, false, [], false⟩, [⟨"forcepho/mixtures/psf_mix_em.py", 42, 1, false, [],
    false⟩]⟩,
  ⟨"easy_init", ⟨["image_data"], 0, false, [], false⟩, [⟨"forcepho/mixtures/psf_mix_em.py", 117, 1, false, [],
    false⟩]⟩,
  ⟨"random_init", ⟨["image_data"], 0, false, [], false⟩, [⟨"forcepho/mixtures/psf_mix_em.py", 113, 1, false, [],
    false⟩]⟩,
  ⟨"mvn_pdf", ⟨["pos_x", "pos_y", "params"], 0, false, [], false⟩, [⟨"forcepho/mixtures/psf_mix_em.py", 64, 3,
    false, [], false⟩]⟩,
  ⟨"mvn_pdf_2d", ⟨["params", "x_max", "y_max"], 0, false, [], false⟩, [⟨"forcepho/mixtures/psf_mix_em.py", 72, 3,
    false, [], false⟩, ⟨"forcepho/mixtures/psf_mix_em.py", 118, 3, false, [], false⟩,
    ⟨"forcepho/mixtures/psf_mix_em.py", 144, 3, false, [], false⟩]⟩,
  ⟨"mvn_pdf_2d_mix_fn", ⟨["num_mix", "x_max", "y_max"], 0, false, [], false⟩, [⟨"forcepho/mixtures/psf_mix_em.py",
    98, 3, false, [], false⟩, ⟨"forcepho/mixtures/psf_mix_em.py", 124, 3, false, [], false⟩,
    ⟨"forcepho/mixtures/psf_mix_em.py", 133, 3, false, [], false⟩]⟩,
  ⟨"normalized", ⟨["a", "axis", "order"], 2, false, [], false⟩, [⟨"forcepho/mixtures/psf_mix_em.py", 146, 1, false,
    ["axis", "order"], false⟩]⟩,
  ⟨"fit_mvn_mix", ⟨["image_data", "num_mix", "method_opt", "method_init", "dlnlike_thresh", "repeat", "returnfull",
    "printint", "printfinal"], 5, false, [], false⟩, [⟨"forcepho/mixtures/utils_em.py", 91, 2, false, ["method_opt",
    "method_init", "repeat", "returnfull", "dlnlike_thresh"], false⟩]⟩,
  ⟨"fit_mvn_mix.create_ans", ⟨["params", "original_dict"], 0, false, [], false⟩,
    [⟨"forcepho/mixtures/psf_mix_em.py", 130, 1, false, [], false⟩, ⟨"forcepho/mixtures/psf_mix_em.py", 183, 2,
    false, [], false⟩, ⟨"forcepho/mixtures/psf_mix_em.py", 194, 2, false, [], false⟩]⟩,
  ⟨"fit_mvn_mix.log_likelihood", ⟨["params"], 0, false, [], false⟩, [⟨"forcepho/mixtures/psf_mix_em.py", 135, 1,
    false, [], false⟩, ⟨"forcepho/mixtures/psf_mix_em.py", 175, 1, false, [], false⟩]⟩]

/-- forcepho/mixtures/psf_mix_hmc.py:1-207, the functions and constructors that are called by name. -/
def forcephoMixturesPsfMixHmcCalled : List Callee := [
  ⟨"psf_prediction", ⟨["xpix", "ypix", "x", "y", "a", "weight", "sx", "q", "rho", "bg"], 8, false, [], false⟩,
    [⟨"approx/psf/make_psf.py", 130, 2, false, [], true⟩, ⟨"approx/psf/make_psf.py", 135, 2, false, [], true⟩,
    ⟨"demo/demo_psf/make_jwst_psf/make_psf.py", 133, 2, false, [], true⟩, ⟨"demo/demo_psf/make_jwst_psf/make_psf.py",
    138, 2, false, [], true⟩, ⟨"forcepho/mixtures/psf_mix_hmc.py", 148, 2, false, ["x", "y", "a", "weight", "sx",
    "q", "rho", "bg"], false⟩, ⟨"forcepho/mixtures/psf_mix_hmc.py", 164, 2, false, ["x", "y", "a", "weight", "sx",
    "q", "rho"], false⟩, ⟨"forcepho/mixtures/psf_mix_hmc.py", 191, 2, false, ["x", "y", "sx", "sy", "a", "weight",
    "rho"], false⟩, ⟨"forcepho/mixtures/psf_mix_hmc.py", 201, 2, false, [], true⟩]⟩]

/-- forcepho/mixtures/sersic_mix_oned.py:1-475, the functions and constructors that are called by name. -/
def forcephoMixturesSersicMixOnedCalled : List Callee := [
  ⟨"fit_gaussians", ⟨["nsersic", "rh", "smoothing", "radii", "ncomp", "x", "asmooth", "arpenalty"], 8, false, [],
    false⟩, [⟨"forcepho/mixtures/sersic_mix_oned.py", 380, 0, false, ["nsersic", "rh", "radii", "x", "smoothing",
    "asmooth", "arpenalty"], false⟩]⟩,
  ⟨"chisq", ⟨["params", "x", "target", "radii", "smoothing", "asmooth", "arpenalty", "arscale", "return_models"],
    8, false, [], false⟩, [⟨"forcepho/mixtures/sersic_mix_oned.py", 392, 1, false, ["radii", "smoothing", "x",
    "target", "return_models"], false⟩]⟩,
  ⟨"sersic_profile", ⟨["x", "n", "rh", "sigma", "order"], 4, false, [], false⟩,
    [⟨"forcepho/mixtures/sersic_mix_oned.py", 73, 1, false, ["n", "rh", "sigma"], false⟩,
    ⟨"forcepho/mixtures/sersic_mix_oned.py", 390, 1, false, ["n", "rh", "sigma"], false⟩,
    ⟨"forcepho/mixtures/sersic_mix_oned.py", 391, 1, false, ["n", "rh", "sigma"], false⟩]⟩,
  ⟨"normal_oned", ⟨["x", "mu", "A", "sigma"], 0, false, [], false⟩, [⟨"forcepho/mixtures/sersic_mix_oned.py", 105,
    4, false, [], false⟩, ⟨"forcepho/mixtures/sersic_mix_oned.py", 211, 4, false, [], false⟩]⟩,
  ⟨"plot_profiles", ⟨["x", "sersic", "gauss", "sm_sersic", "radii", "ns", "rh", "chisq", "amps", "xmax",
    "smoothing"], 8, false, [], false⟩, [⟨"forcepho/mixtures/sersic_mix_oned.py", 400, 3, false, ["sm_sersic",
    "xmax", "radii", "ns", "rh", "chisq", "amps", "smoothing"], false⟩]⟩,
  ⟨"rfrac_from_halfn", ⟨["frac", "n", "rh"], 2, false, [], false⟩, [⟨"forcepho/mixtures/sersic_mix_oned.py", 454,
    1, false, ["rh", "n"], false⟩]⟩,
  ⟨"plot_cfd", ⟨["x", "ns", "rh", "amps", "radii", "smoothing", "ax"], 1, false, [], false⟩,
    [⟨"forcepho/mixtures/sersic_mix_oned.py", 232, 6, false, ["ax"], false⟩, ⟨"forcepho/mixtures/sersic_mix_oned.py",
    411, 6, false, [], false⟩]⟩,
  ⟨"gauss_cfd", ⟨["x", "amplitudes", "radii"], 0, false, [], false⟩, [⟨"forcepho/mixtures/sersic_mix_oned.py", 253,
    3, false, [], false⟩, ⟨"forcepho/mixtures/sersic_mix_oned.py", 254, 3, false, [], false⟩]⟩,
  ⟨"plot_amps", ⟨["radii", "amps"], 0, false, [], false⟩, [⟨"forcepho/mixtures/sersic_mix_oned.py", 406, 2, false,
    [], false⟩]⟩,
  ⟨"fit_profiles", ⟨["outroot", "rgrid", "ngrid", "lnradii", "smoothing", "asmooth", "arpenalty", "x"], 8, false,
    [], false⟩, [⟨"forcepho/mixtures/sersic_mix_oned.py", 445, 0, false, ["outroot", "smoothing", "lnradii", "ngrid",
    "rgrid", "x", "asmooth", "arpenalty"], false⟩, ⟨"forcepho/mixtures/sersic_mix_oned.py", 467, 0, false,
    ["outroot", "smoothing", "lnradii", "ngrid", "rgrid", "x", "asmooth", "arpenalty"], false⟩]⟩]

/-- forcepho/mixtures/sersic_mix_twod.py:1-248, the functions and constructors that are called by name. -/
def forcephoMixturesSersicMixTwodCalled : List Callee := [
  ⟨"sersic_prediction", ⟨["xpix", "ypix", "x", "y", "a", "weight", "lnW", "radii", "g1", "g2", "bg", "separate"],
    10, false, [], false⟩, [⟨"forcepho/mixtures/sersic_mix_twod.py", 134, 2, false, ["x", "y", "a", "weight",
    "radii", "bg"], false⟩]⟩,
  ⟨"get_kernel", ⟨["ngauss", "prior", "scale"], 1, false, [], false⟩, [⟨"forcepho/mixtures/sersic_mix_twod.py",
    127, 2, false, ["scale"], false⟩]⟩]

/-- forcepho/mixtures/test_splines.py:1-92, the functions and constructors that are called by name. -/
def forcephoMixturesTestSplinesCalled : List Callee := [
  ⟨"gauss_sersic_profile", ⟨["x", "amps", "disps", "smoothing"], 1, false, [], false⟩,
    [⟨"forcepho/mixtures/test_splines.py", 73, 3, false, ["smoothing"], false⟩, ⟨"forcepho/mixtures/test_splines.py",
    74, 3, false, ["smoothing"], false⟩]⟩,
  ⟨"show_splines", ⟨["ncheck"], 1, false, [], false⟩, [⟨"forcepho/mixtures/test_splines.py", 51, 1, false, [],
    false⟩]⟩,
  ⟨"total_flux", ⟨["ns", "rh"], 2, false, [], false⟩, [⟨"forcepho/mixtures/test_splines.py", 65, 2, false, [],
    false⟩]⟩,
  ⟨"test_splines", ⟨["ns", "rh"], 2, false, [], false⟩, [⟨"forcepho/mixtures/test_splines.py", 88, 2, false, [],
    false⟩]⟩]

/-- forcepho/mixtures/utils_em.py:1-208, the functions and constructors that are called by name. -/
def forcephoMixturesUtilsEmCalled : List Callee := [
  ⟨"plot_model", ⟨["results", "outroot", "log_resid", "cmap"], 2, false, [], false⟩,
    [⟨"forcepho/mixtures/utils_em.py", 96, 2, false, ["log_resid"], false⟩]⟩,
  ⟨"draw_ellipses", ⟨["answer", "ax", "cmap"], 1, false, [], false⟩, [⟨"forcepho/mixtures/utils_em.py", 176, 2,
    false, ["cmap"], false⟩]⟩]

/-- forcepho/mixtures/utils_hmc.py:1-252, the functions and constructors that are called by name. -/
def forcephoMixturesUtilsHmcCalled : List Callee := [
  ⟨"infer", ⟨["model", "hmc", "num_warmup", "num_samples", "dense_mass", "MAP", "max_tree_depth"], 6, false, [],
    true⟩, [⟨"approx/psf/make_psf.py", 101, 1, false, ["image", "xpix", "ypix", "ngauss", "unc", "dense_mass",
    "num_warmup", "num_samples"], true⟩, ⟨"demo/demo_psf/make_jwst_psf/make_psf.py", 107, 1, false, ["image", "xpix",
    "ypix", "ngauss", "unc", "dense_mass", "num_warmup", "num_samples"], true⟩, ⟨"forcepho/mixtures/psf_mix_hmc.py",
    196, 1, false, ["image", "xpix", "ypix", "ngauss", "unc", "num_warmup", "num_samples"], false⟩]⟩,
  ⟨"show_exp", ⟨["xpix", "ypix", "value", "ax"], 1, false, [], true⟩, [⟨"forcepho/mixtures/utils_hmc.py", 129, 3,
    false, ["ax", "cmap"], false⟩, ⟨"forcepho/mixtures/utils_hmc.py", 134, 3, false, ["ax", "cmap"], false⟩,
    ⟨"forcepho/mixtures/utils_hmc.py", 142, 3, false, ["ax", "vmin", "vmax", "cmap"], false⟩]⟩,
  ⟨"display", ⟨["model", "image", "figsize"], 1, false, [], false⟩, [⟨"approx/psf/make_psf.py", 394, 2, false, [],
    false⟩, ⟨"demo/demo_psf/make_jwst_psf/make_psf.py", 418, 2, false, [], false⟩,
    ⟨"forcepho/mixtures/psf_mix_hmc.py", 204, 2, false, [], false⟩]⟩,
  ⟨"radial_plot", ⟨["image", "model", "times_r"], 1, false, [], false⟩, [⟨"approx/psf/make_psf.py", 406, 2, false,
    [], false⟩, ⟨"demo/demo_psf/make_jwst_psf/make_psf.py", 430, 2, false, ["times_r"], false⟩]⟩,
  ⟨"ee_plot", ⟨["image", "model", "n", "renormalize"], 2, false, [], false⟩,
    [⟨"demo/demo_psf/make_jwst_psf/make_psf.py", 443, 2, false, [], false⟩,
    ⟨"demo/demo_psf/make_jwst_psf/make_psf.py", 445, 2, false, [], false⟩]⟩,
  ⟨"draw_ellipses", ⟨["best", "ax", "cmap"], 1, false, [], false⟩, [⟨"approx/psf/make_psf.py", 413, 2, false, [],
    false⟩, ⟨"demo/demo_psf/make_jwst_psf/make_psf.py", 437, 2, false, [], false⟩]⟩]

/-- forcepho/model.py:1-637, the functions and constructors that are called by name. -/
def forcephoModelCalled : List Callee := [
  ⟨"Posterior.__init__", ⟨[], 0, false, [], true⟩, [⟨"forcepho/model.py", 276, 0, false, ["transform"], true⟩]⟩,
  ⟨"Posterior.lnprob", ⟨["z"], 0, false, [], false⟩, [⟨"forcepho/model.py", 253, 1, false, [], false⟩,
    ⟨"forcepho/model.py", 255, 1, false, [], false⟩]⟩,
  ⟨"Posterior.lnprob_grad", ⟨["z"], 0, false, [], false⟩, [⟨"forcepho/model.py", 246, 1, false, [], false⟩]⟩,
  ⟨"Posterior.lnprior", ⟨["q"], 0, false, [], false⟩, [⟨"forcepho/model.py", 318, 1, false, [], false⟩,
    ⟨"forcepho/model.py", 452, 1, false, [], false⟩]⟩,
  ⟨"Posterior.make_transform", ⟨["z"], 0, false, [], false⟩, [⟨"forcepho/model.py", 315, 1, false, [], false⟩,
    ⟨"forcepho/model.py", 450, 1, false, [], false⟩]⟩,
  ⟨"FastPosterior.__init__", ⟨["proposer", "patch", "scene", "lnprior", "transform", "name", "print_interval",
    "verbose", "debug", "logging", "sampling"], 9, false, [], true⟩, [⟨"forcepho/patches/device_patch.py", 64, 1,
    false, ["scene", "patch", "transform"], true⟩, ⟨"forcepho/patches/device_patch.py", 69, 1, false, ["scene",
    "patch", "lower", "upper"], true⟩]⟩,
  ⟨"FastPosterior.evaluate", ⟨["z"], 0, false, [], false⟩, [⟨"forcepho/model.py", 117, 1, false, [], false⟩,
    ⟨"forcepho/model.py", 139, 1, false, [], false⟩, ⟨"forcepho/model.py", 199, 1, false, [], false⟩,
    ⟨"forcepho/model.py", 211, 1, false, [], false⟩, ⟨"forcepho/model.py", 219, 1, false, [], false⟩]⟩,
  ⟨"FastPosterior.stack_grad", ⟨["chi2_derivs"], 0, false, [], false⟩, [⟨"forcepho/model.py", 332, 1, false, [],
    false⟩]⟩,
  ⟨"SlowPosterior.evaluate", ⟨["z"], 0, false, [], false⟩, [⟨"forcepho/model.py", 117, 1, false, [], false⟩,
    ⟨"forcepho/model.py", 139, 1, false, [], false⟩, ⟨"forcepho/model.py", 199, 1, false, [], false⟩,
    ⟨"forcepho/model.py", 211, 1, false, [], false⟩, ⟨"forcepho/model.py", 219, 1, false, [], false⟩]⟩,
  ⟨"ModelGradOp.__init__", ⟨["model"], 0, false, [], false⟩, [⟨"forcepho/model.py", 542, 1, false, [], false⟩]⟩,
  ⟨"LogLikeWithGrad.__init__", ⟨["model"], 0, false, [], false⟩, [⟨"forcepho/fitting.py", 512, 1, false, [],
    false⟩]⟩,
  ⟨"sigmoid", ⟨["x"], 0, false, [], false⟩, [⟨"forcepho/model.py", 620, 1, false, [], false⟩, ⟨"forcepho/model.py",
    632, 1, false, [], false⟩]⟩,
  ⟨"logit", ⟨["y"], 0, false, [], false⟩, [⟨"forcepho/model.py", 636, 1, false, [], false⟩]⟩,
  ⟨"sigmoid_grad", ⟨["z"], 0, false, [], false⟩, [⟨"forcepho/model.py", 627, 1, false, [], false⟩]⟩,
  ⟨"Transform.__init__", ⟨["ndim"], 0, false, [], false⟩, [⟨"forcepho/patches/device_patch.py", 65, 1, false, [],
    false⟩]⟩,
  ⟨"Transform.jacobian", ⟨["z"], 0, false, [], false⟩, [⟨"forcepho/model.py", 586, 1, false, [], false⟩]⟩,
  ⟨"BoundedTransform.__init__", ⟨["lower", "upper"], 0, false, [], false⟩, [⟨"forcepho/fitting.py", 651, 2, false,
    [], false⟩, ⟨"forcepho/model.py", 72, 2, false, [], false⟩, ⟨"forcepho/priors.py", 163, 2, false, [], false⟩]⟩,
  ⟨"BoundedTransform.jacobian", ⟨["z"], 0, false, [], false⟩, [⟨"forcepho/model.py", 586, 1, false, [], false⟩]⟩]

/-- forcepho/patches/device_patch.py:1-555, the functions and constructors that are called by name. -/
def forcephoPatchesDevicePatchCalled : List Callee := [
  ⟨"DevicePatchMixin.subtract_fixed", ⟨["fixed", "active", "big", "maxactive", "swap_local", "big_scene_kwargs"],
    5, false, [], true⟩, [⟨"forcepho/patches/device_patch.py", 57, 1, false, ["active", "big", "big_scene_kwargs",
    "maxactive"], false⟩]⟩,
  ⟨"GPUPatchMixin.get_proposer", ⟨[], 0, false, [], false⟩, [⟨"forcepho/patches/device_patch.py", 163, 0, false,
    [], false⟩, ⟨"forcepho/patches/device_patch.py", 218, 0, false, [], false⟩, ⟨"forcepho/patches/device_patch.py",
    244, 0, false, [], false⟩]⟩,
  ⟨"GPUPatchMixin.send_to_device", ⟨[], 0, false, [], false⟩, [⟨"forcepho/patches/device_patch.py", 169, 0, false,
    [], false⟩]⟩,
  ⟨"GPUPatchMixin.replace_device_meta_ptrs", ⟨[], 0, false, [], false⟩, [⟨"forcepho/patches/device_patch.py", 226,
    0, false, [], false⟩, ⟨"forcepho/patches/device_patch.py", 360, 0, false, [], false⟩]⟩,
  ⟨"GPUPatchMixin.send_patchstruct_to_device", ⟨[], 0, false, [], false⟩, [⟨"forcepho/patches/device_patch.py",
    227, 0, false, [], false⟩, ⟨"forcepho/patches/device_patch.py", 296, 0, false, [], false⟩,
    ⟨"forcepho/patches/device_patch.py", 364, 0, false, [], false⟩]⟩,
  ⟨"GPUPatchMixin.swap_on_device", ⟨[], 0, false, [], false⟩, [⟨"forcepho/patches/device_patch.py", 181, 0, false,
    [], false⟩]⟩,
  ⟨"GPUPatchMixin.retrieve_array", ⟨["arrname"], 1, false, [], false⟩, [⟨"forcepho/patches/device_patch.py", 209,
    1, false, [], false⟩]⟩,
  ⟨"CPUPatchMixin.get_proposer", ⟨[], 0, false, [], false⟩, [⟨"forcepho/patches/device_patch.py", 163, 0, false,
    [], false⟩, ⟨"forcepho/patches/device_patch.py", 218, 0, false, [], false⟩, ⟨"forcepho/patches/device_patch.py",
    244, 0, false, [], false⟩]⟩,
  ⟨"CPUPatchMixin.send_to_device", ⟨[], 0, false, [], false⟩, [⟨"forcepho/patches/device_patch.py", 169, 0, false,
    [], false⟩]⟩,
  ⟨"CPUPatchMixin.replace_device_meta_ptrs", ⟨[], 0, false, [], false⟩, [⟨"forcepho/patches/device_patch.py", 226,
    0, false, [], false⟩, ⟨"forcepho/patches/device_patch.py", 536, 0, false, [], false⟩]⟩,
  ⟨"CPUPatchMixin.send_patchstruct_to_device", ⟨[], 0, false, [], false⟩, [⟨"forcepho/patches/device_patch.py",
    227, 0, false, [], false⟩, ⟨"forcepho/patches/device_patch.py", 480, 0, false, [], false⟩,
    ⟨"forcepho/patches/device_patch.py", 543, 0, false, [], false⟩]⟩,
  ⟨"CPUPatchMixin.swap_on_device", ⟨[], 0, false, [], false⟩, [⟨"forcepho/patches/device_patch.py", 181, 0, false,
    [], false⟩]⟩,
  ⟨"CPUPatchMixin.retrieve_array", ⟨["arrname"], 1, false, [], false⟩, [⟨"forcepho/patches/device_patch.py", 209,
    1, false, [], false⟩]⟩]

/-- forcepho/patches/patch.py:1-499, the functions and constructors that are called by name. -/
def forcephoPatchesPatchCalled : List Callee := [
  ⟨"PatchBase.__init__", ⟨["return_residual", "pix_dtype", "meta_dtype"], 3, false, [], false⟩,
    [⟨"forcepho/patches/patch.py", 230, 0, false, ["return_residual", "meta_dtype", "pix_dtype"], false⟩]⟩,
  ⟨"PatchBase.clear", ⟨[], 0, false, [], false⟩, [⟨"forcepho/patches/patch.py", 119, 0, false, [], false⟩]⟩,
  ⟨"PatchBase.free", ⟨[], 0, false, [], false⟩, [⟨"forcepho/patches/patch.py", 118, 0, false, [], false⟩]⟩,
  ⟨"Patch.__init__", ⟨["psfstore", "splinedata", "spline_smoothing", "return_residual", "meta_dtype", "pix_dtype",
    "debug"], 7, false, [], false⟩, [⟨"forcepho/patches/pixel_patch.py", 41, 0, false, ["return_residual",
    "meta_dtype", "pix_dtype", "debug", "psfstore", "splinedata", "spline_smoothing"], false⟩]⟩,
  ⟨"Patch.pack_meta", ⟨["scene"], 0, false, [], false⟩, [⟨"forcepho/patches/device_patch.py", 168, 1, false, [],
    false⟩, ⟨"forcepho/patches/device_patch.py", 176, 1, false, [], false⟩, ⟨"forcepho/patches/device_patch.py", 225,
    1, false, [], false⟩, ⟨"forcepho/patches/device_patch.py", 246, 1, false, [], false⟩,
    ⟨"forcepho/patches/pixel_patch.py", 120, 1, false, [], false⟩]⟩,
  ⟨"Patch._pack_source_metadata", ⟨["scene", "dtype"], 1, false, [], false⟩, [⟨"forcepho/patches/patch.py", 266, 1,
    false, [], false⟩]⟩,
  ⟨"Patch._pack_astrometry", ⟨["wcses", "scene", "dtype"], 1, false, [], false⟩, [⟨"forcepho/patches/patch.py",
    267, 2, false, [], false⟩]⟩,
  ⟨"Patch._pack_fluxcal", ⟨["hdrs", "tweakphot", "dtype"], 2, false, [], false⟩, [⟨"forcepho/patches/patch.py",
    268, 1, false, [], false⟩]⟩,
  ⟨"Patch._pack_psf", ⟨["bands", "wcses", "scene", "dtype", "psf_dtype"], 2, false, [], false⟩,
    [⟨"forcepho/patches/patch.py", 269, 3, false, [], false⟩]⟩,
  ⟨"Patch.set_scene", ⟨["sourcecat", "splinedata"], 1, false, [], false⟩, [⟨"forcepho/patches/device_patch.py",
    148, 1, false, [], true⟩, ⟨"forcepho/patches/device_patch.py", 152, 1, false, [], true⟩,
    ⟨"forcepho/patches/device_patch.py", 154, 1, false, [], true⟩, ⟨"forcepho/patches/device_patch.py", 213, 1,
    false, [], true⟩, ⟨"forcepho/patches/device_patch.py", 245, 1, false, ["splinedata"], false⟩,
    ⟨"forcepho/patches/pixel_patch.py", 119, 1, false, [], false⟩]⟩,
  ⟨"Patch.zerocoords", ⟨["scene", "sky_zero"], 1, false, [], false⟩, [⟨"forcepho/patches/patch.py", 262, 1, false,
    [], false⟩]⟩]

/-- forcepho/patches/pixel_patch.py:1-550, the functions and constructors that are called by name. -/
def forcephoPatchesPixelPatchCalled : List Callee := [
  ⟨"PixelPatch.__init__", ⟨["psfstore", "splinedata", "spline_smoothing", "return_residual", "meta_dtype",
    "pix_dtype", "debug"], 7, false, [], false⟩, [⟨"forcepho/patches/pixel_patch.py", 245, 0, false,
    ["return_residual", "meta_dtype", "pix_dtype", "debug", "psfstore", "splinedata", "spline_smoothing"], false⟩,
    ⟨"forcepho/patches/pixel_patch.py", 372, 0, false, ["return_residual", "meta_dtype", "pix_dtype", "debug",
    "psfstore", "splinedata", "spline_smoothing"], false⟩, ⟨"forcepho/patches/pixel_patch.py", 519, 0, false,
    ["return_residual", "meta_dtype", "pix_dtype", "debug", "psfstore", "splinedata", "spline_smoothing"], false⟩]⟩,
  ⟨"PixelPatch.pack_pix", ⟨["region", "dtype"], 1, false, [], false⟩, [⟨"forcepho/patches/pixel_patch.py", 117, 0,
    false, ["region"], false⟩]⟩,
  ⟨"PixelPatch._cap_snr", ⟨["max_snr"], 1, false, [], false⟩, [⟨"forcepho/patches/pixel_patch.py", 202, 0, false,
    ["max_snr"], false⟩]⟩,
  ⟨"StorePatch.__init__", ⟨["pixelstore", "metastore", "psfstore", "splinedata", "spline_smoothing",
    "return_residual", "meta_dtype", "pix_dtype", "debug"], 9, false, [], false⟩, [⟨"forcepho/dispatcher.py", 256, 0,
    false, ["metastore", "psfstore", "pixelstore", "splinedata", "return_residual"], false⟩]⟩,
  ⟨"StorePatch.find_exposures", ⟨["region", "bandlist"], 0, false, [], false⟩, [⟨"forcepho/patches/pixel_patch.py",
    92, 2, false, [], false⟩]⟩,
  ⟨"StorePatch.find_pixels", ⟨["epath", "wcs", "region"], 0, false, [], false⟩,
    [⟨"forcepho/patches/pixel_patch.py", 163, 3, false, [], false⟩]⟩,
  ⟨"FITSPatch.__init__", ⟨["fitsfiles", "psfstore", "splinedata", "spline_smoothing", "return_residual", "sci_ext",
    "unc_ext", "meta_dtype", "pix_dtype", "debug"], 10, false, [], false⟩, [⟨"demo/demo_basic/basic.py", 107, 0,
    false, ["fitsfiles", "sci_ext", "unc_ext", "psfstore", "splinedata", "return_residual"], false⟩,
    ⟨"demo/demo_basic/basic_sceneDB.py", 100, 0, false, ["fitsfiles", "sci_ext", "unc_ext", "psfstore", "splinedata",
    "return_residual"], false⟩, ⟨"demo/demo_color/color_fit.py", 63, 0, false, ["fitsfiles", "sci_ext", "unc_ext",
    "psfstore", "splinedata", "return_residual"], false⟩, ⟨"demo/demo_mosaic/mosaic_fit.py", 67, 0, false,
    ["fitsfiles", "sci_ext", "unc_ext", "psfstore", "splinedata", "return_residual"], false⟩,
    ⟨"demo/demo_optimize/optimize.py", 132, 0, false, ["fitsfiles", "psfstore", "splinedata", "return_residual"],
    false⟩, ⟨"demo/demo_pair/pair_fit.py", 62, 0, false, ["fitsfiles", "sci_ext", "unc_ext", "psfstore",
    "splinedata", "return_residual"], false⟩, ⟨"demo/demo_pair/pair_movie.py", 39, 0, false, ["fitsfiles",
    "psfstore", "splinedata", "return_residual"], false⟩, ⟨"demo/demo_psf/psf_one_fit.py", 92, 0, false,
    ["fitsfiles", "sci_ext", "unc_ext", "psfstore", "splinedata", "return_residual"], false⟩,
    ⟨"demo/demo_snr/single_fit.py", 61, 0, false, ["fitsfiles", "sci_ext", "unc_ext", "psfstore", "splinedata",
    "return_residual"], false⟩, ⟨"tests/cswap_test.py", 40, 0, false, ["fitsfiles", "psfstore", "splinedata",
    "return_residual"], false⟩, ⟨"tests/galsim_tests/test_psf/test_psf_mixture.py", 110, 0, false, ["fitsfiles",
    "psfstore", "splinedata", "return_residual"], false⟩, ⟨"tests/galsim_tests/test_sersic/test_sersic_mixture.py",
    112, 0, false, ["fitsfiles", "psfstore", "splinedata", "return_residual"], false⟩]⟩,
  ⟨"FITSPatch.find_exposures", ⟨["region", "bandlist", "do_check"], 1, false, [], false⟩,
    [⟨"forcepho/patches/pixel_patch.py", 92, 2, false, [], false⟩]⟩,
  ⟨"FITSPatch.find_pixels", ⟨["epath", "wcs", "region"], 0, false, [], false⟩, [⟨"forcepho/patches/pixel_patch.py",
    163, 3, false, [], false⟩]⟩,
  ⟨"DirectPatch.find_exposures", ⟨["region", "bandlist", "do_check"], 1, false, [], false⟩,
    [⟨"forcepho/patches/pixel_patch.py", 92, 2, false, [], false⟩]⟩,
  ⟨"DirectPatch.find_pixels", ⟨["epath", "wcs", "region"], 0, false, [], false⟩,
    [⟨"forcepho/patches/pixel_patch.py", 163, 3, false, [], false⟩]⟩]

/-- forcepho/patches/static_patch.py:1-337, the functions and constructors that are called by name. -/
def forcephoPatchesStaticPatchCalled : List Callee := [
  ⟨"StaticPatch.pack_psf", ⟨["miniscene", "dtype"], 1, false, [], false⟩, [⟨"forcepho/patches/static_patch.py", 83,
    1, false, [], false⟩, ⟨"forcepho/patches/static_patch.py", 134, 1, false, [], false⟩]⟩,
  ⟨"StaticPatch.pack_source_metadata", ⟨["miniscene", "dtype"], 1, false, [], false⟩,
    [⟨"forcepho/patches/static_patch.py", 79, 1, false, [], false⟩, ⟨"forcepho/patches/static_patch.py", 132, 1,
    false, [], false⟩]⟩,
  ⟨"StaticPatch.pack_astrometry", ⟨["sources", "dtype"], 1, false, [], false⟩,
    [⟨"forcepho/patches/static_patch.py", 81, 1, false, [], false⟩, ⟨"forcepho/patches/static_patch.py", 133, 1,
    false, [], false⟩]⟩,
  ⟨"StaticPatch.pack_pix", ⟨["stamps", "dtype"], 1, false, [], false⟩, [⟨"forcepho/patches/static_patch.py", 77, 2,
    false, [], false⟩, ⟨"forcepho/patches/static_patch.py", 130, 1, false, [], false⟩]⟩]

/-- forcepho/patches/storage.py:1-578, the functions and constructors that are called by name. -/
def forcephoPatchesStorageCalled : List Callee := [
  ⟨"PixelStore.__init__", ⟨["h5file", "nside_full", "super_pixel_size", "pix_dtype"], 3, false, [], false⟩,
    [⟨"forcepho/patches/pixel_patch.py", 254, 1, false, [], false⟩]⟩,
  ⟨"PixelStore.pixel_coordinates", ⟨["imsize"], 1, false, [], false⟩, [⟨"forcepho/patches/storage.py", 119, 0,
    false, [], false⟩, ⟨"forcepho/patches/storage.py", 133, 0, false, ["imsize"], false⟩]⟩,
  ⟨"PixelStore.superpixelize", ⟨["im", "ierr", "pix_dtype"], 1, false, [], false⟩, [⟨"forcepho/patches/storage.py",
    150, 2, false, [], false⟩, ⟨"forcepho/patches/storage.py", 210, 2, false, [], false⟩]⟩,
  ⟨"PixelStore.flux_calibration", ⟨["hdr"], 0, false, [], false⟩, [⟨"forcepho/patches/storage.py", 197, 1, false,
    [], false⟩]⟩,
  ⟨"MetaStore.__init__", ⟨["metastorefile", "use_gwcs", "load_all"], 3, false, [], false⟩,
    [⟨"forcepho/patches/pixel_patch.py", 253, 1, false, [], false⟩, ⟨"forcepho/postprocess.py", 455, 1, false, [],
    false⟩]⟩,
  ⟨"MetaStore.populate_wcs", ⟨["gwcs_file"], 1, false, [], false⟩, [⟨"forcepho/patches/storage.py", 327, 0, false,
    ["gwcs_file"], false⟩]⟩,
  ⟨"MetaStore.read_from_file", ⟨["filename"], 0, false, [], false⟩, [⟨"forcepho/patches/storage.py", 317, 1, false,
    [], false⟩]⟩,
  ⟨"PSFStore.__init__", ⟨["h5file"], 0, false, [], false⟩, [⟨"forcepho/patches/patch.py", 236, 1, false, [],
    false⟩]⟩,
  ⟨"PSFStore.lookup", ⟨["band", "xy"], 1, false, [], false⟩, [⟨"forcepho/patches/storage.py", 572, 1, false,
    ["xy"], false⟩]⟩]

/-- forcepho/postprocess.py:1-683, the functions and constructors that are called by name. -/
def forcephoPostprocessCalled : List Callee := [
  ⟨"Residuals.__init__", ⟨["filename"], 0, false, [], false⟩, [⟨"demo/demo_basic/basic_plot.py", 72, 1, false, [],
    false⟩, ⟨"demo/demo_color/color_plot_separate.py", 77, 1, false, [], false⟩,
    ⟨"demo/demo_color/color_plot_together.py", 62, 1, false, [], false⟩, ⟨"demo/demo_optimize/optimize_plot.py", 44,
    1, false, [], false⟩, ⟨"demo/demo_pair/pair_movie.py", 54, 1, false, [], false⟩, ⟨"demo/demo_pair/pair_plot.py",
    43, 1, false, [], false⟩, ⟨"demo/demo_psf/psf_plot.py", 71, 1, false, [], false⟩,
    ⟨"demo/demo_snr/single_plot.py", 60, 1, false, [], false⟩, ⟨"forcepho/postprocess.py", 462, 1, false, [], false⟩,
    ⟨"forcepho/postprocess.py", 516, 1, false, [], false⟩, ⟨"tests/galsim_tests/test_plot.py", 74, 1, false, [],
    false⟩]⟩,
  ⟨"Residuals.make_exp", ⟨["e", "exp", "value"], 3, false, [], false⟩, [⟨"forcepho/postprocess.py", 106, 0, false,
    ["exp", "value"], false⟩]⟩,
  ⟨"Residuals.sky_to_pix", ⟨["ra", "dec", "e", "exp"], 2, false, [], false⟩, [⟨"forcepho/postprocess.py", 82, 4,
    false, [], false⟩]⟩,
  ⟨"Samples.__init__", ⟨["filename"], 0, false, [], false⟩, [⟨"demo/demo_basic/basic_plot.py", 18, 1, false, [],
    false⟩, ⟨"demo/demo_basic/basic_plot.py", 46, 1, false, [], false⟩, ⟨"demo/demo_basic/basic_plot.py", 71, 1,
    false, [], false⟩, ⟨"demo/demo_color/color_plot_separate.py", 17, 1, false, [], false⟩,
    ⟨"demo/demo_color/color_plot_separate.py", 76, 1, false, [], false⟩, ⟨"demo/demo_color/color_plot_separate.py",
    124, 1, false, [], false⟩, ⟨"demo/demo_color/color_plot_together.py", 61, 1, false, [], false⟩,
    ⟨"demo/demo_color/color_plot_together.py", 107, 1, false, [], false⟩, ⟨"demo/demo_mosaic/mosaic_plot.py", 25, 1,
    false, [], false⟩, ⟨"demo/demo_mosaic/mosaic_plot.py", 26, 1, false, [], false⟩,
    ⟨"demo/demo_optimize/optimize_plot.py", 43, 1, false, [], false⟩, ⟨"demo/demo_optimize/optimize_plot.py", 78, 1,
    false, [], false⟩, ⟨"demo/demo_pair/pair_movie.py", 33, 1, false, [], false⟩, ⟨"demo/demo_pair/pair_plot.py", 16,
    1, false, [], false⟩, ⟨"demo/demo_pair/pair_plot.py", 42, 1, false, [], false⟩, ⟨"demo/demo_pair/pair_plot.py",
    91, 1, false, [], false⟩, ⟨"demo/demo_psf/psf_grid_plot.py", 33, 1, false, [], false⟩,
    ⟨"demo/demo_psf/psf_grid_plot.py", 50, 1, false, [], false⟩, ⟨"demo/demo_psf/psf_plot.py", 17, 1, false, [],
    false⟩, ⟨"demo/demo_psf/psf_plot.py", 45, 1, false, [], false⟩, ⟨"demo/demo_psf/psf_plot.py", 70, 1, false, [],
    false⟩, ⟨"demo/demo_snr/single_plot.py", 33, 1, false, [], false⟩, ⟨"demo/demo_snr/single_plot.py", 59, 1, false,
    [], false⟩, ⟨"demo/demo_snr/single_plot.py", 78, 1, false, [], false⟩, ⟨"forcepho/postprocess.py", 218, 1, false,
    [], false⟩, ⟨"forcepho/postprocess.py", 273, 1, false, [], false⟩, ⟨"forcepho/postprocess.py", 284, 1, false, [],
    false⟩, ⟨"forcepho/postprocess.py", 342, 1, false, [], false⟩, ⟨"forcepho/postprocess.py", 373, 1, false, [],
    false⟩, ⟨"forcepho/postprocess.py", 437, 1, false, [], false⟩, ⟨"forcepho/postprocess.py", 517, 1, false, [],
    false⟩, ⟨"forcepho/postprocess.py", 672, 1, false, [], false⟩, ⟨"tests/galsim_tests/test_plot.py", 20, 1, false,
    [], false⟩, ⟨"tests/galsim_tests/test_plot.py", 48, 1, false, [], false⟩, ⟨"tests/galsim_tests/test_plot.py", 73,
    1, false, [], false⟩, ⟨"tests/galsim_tests/test_plot.py", 106, 1, false, [], false⟩,
    ⟨"tests/galsim_tests/test_plot.py", 123, 1, false, [], false⟩]⟩,
  ⟨"run_metadata", ⟨["root"], 0, false, [], false⟩, [⟨"forcepho/postprocess.py", 267, 1, false, [], false⟩,
    ⟨"forcepho/postprocess.py", 328, 1, false, [], false⟩, ⟨"forcepho/postprocess.py", 372, 1, false, [], false⟩]⟩,
  ⟨"postop_catalog", ⟨["root", "bands", "catname"], 2, false, [], false⟩, [⟨"forcepho/postprocess.py", 676, 1,
    false, ["catname"], false⟩]⟩,
  ⟨"postsample_catalog", ⟨["root", "catname", "patches"], 2, false, [], false⟩, [⟨"forcepho/postprocess.py", 680,
    1, false, ["catname"], false⟩]⟩,
  ⟨"flux_unc_linear", ⟨["root", "snr_max"], 1, false, [], false⟩, [⟨"forcepho/postprocess.py", 233, 1, false, [],
    false⟩]⟩,
  ⟨"find_multipatch", ⟨["root"], 0, false, [], false⟩, [⟨"forcepho/postprocess.py", 390, 1, false, [], false⟩]⟩,
  ⟨"write_sourcereg", ⟨["root", "slist", "showid", "isophote"], 3, false, [], false⟩, [⟨"forcepho/postprocess.py",
    664, 1, false, ["showid"], false⟩]⟩,
  ⟨"write_patchreg", ⟨["patchlist", "plist"], 1, false, [], false⟩, [⟨"forcepho/postprocess.py", 663, 1, false, [],
    false⟩]⟩,
  ⟨"write_images", ⟨["root", "subdir", "metafile", "show_model", "show_chi"], 4, false, [], false⟩,
    [⟨"forcepho/postprocess.py", 662, 1, false, ["metafile", "show_model"], false⟩]⟩,
  ⟨"residual_pdf", ⟨["root", "n", "e"], 3, false, [], false⟩, [⟨"forcepho/postprocess.py", 667, 0, false, ["root",
    "e"], false⟩]⟩,
  ⟨"chain_pdf", ⟨["samples", "fn", "dh"], 2, false, [], false⟩, [⟨"forcepho/postprocess.py", 672, 2, false, [],
    false⟩]⟩,
  ⟨"show_exp", ⟨["xpix", "ypix", "value", "ax"], 1, false, [], true⟩, [⟨"forcepho/postprocess.py", 72, 3, false,
    ["ax"], true⟩, ⟨"forcepho/postprocess.py", 73, 3, false, ["ax"], true⟩, ⟨"forcepho/postprocess.py", 74, 3, false,
    ["ax"], true⟩]⟩,
  ⟨"forcepho_slow_model", ⟨["cat", "stamp", "band", "psf", "splinedata"], 2, false, [], false⟩,
    [⟨"forcepho/postprocess.py", 600, 3, false, [], false⟩]⟩]

/-- forcepho/priors.py:1-205, the functions and constructors that are called by name. -/
def forcephoPriorsCalled : List Callee := [
  ⟨"LogPrior._scale", ⟨["q"], 0, false, [], false⟩, [⟨"forcepho/priors.py", 20, 1, false, [], false⟩]⟩,
  ⟨"LogPrior._lnprior", ⟨["x"], 0, false, [], false⟩, [⟨"forcepho/priors.py", 21, 1, false, [], false⟩]⟩,
  ⟨"LogPrior._lnprior_grad", ⟨["x"], 0, false, [], false⟩, [⟨"forcepho/priors.py", 22, 1, false, [], false⟩]⟩,
  ⟨"ExpBeta.__init__", ⟨["min", "max", "alpha"], 1, false, [], false⟩, [⟨"demo/demo_optimize/optimize.py", 158, 2,
    false, [], false⟩, ⟨"forcepho/tasks.py", 37, 2, false, [], false⟩]⟩,
  ⟨"ExpBeta._lnprior", ⟨["x"], 0, false, [], false⟩, [⟨"forcepho/priors.py", 21, 1, false, [], false⟩]⟩,
  ⟨"ExpBeta._lnprior_grad", ⟨["x"], 0, false, [], false⟩, [⟨"forcepho/priors.py", 22, 1, false, [], false⟩]⟩,
  ⟨"Barrier._lnprior", ⟨["x"], 0, false, [], false⟩, [⟨"forcepho/priors.py", 21, 1, false, [], false⟩]⟩,
  ⟨"Barrier._lnprior_grad", ⟨["x"], 0, false, [], false⟩, [⟨"forcepho/priors.py", 22, 1, false, [], false⟩]⟩,
  ⟨"test_min_with_prior.nll", ⟨["z"], 0, false, [], false⟩, [⟨"forcepho/priors.py", 179, 1, false, [], false⟩]⟩]

/-- forcepho/proposal.py:1-244, the functions and constructors that are called by name. -/
def forcephoProposalCalled : List Callee := [
  ⟨"ProposerBase.unpack_residuals", ⟨["residuals_flat", "patch", "reshape"], 1, false, [], false⟩,
    [⟨"forcepho/proposal.py", 147, 2, false, [], false⟩, ⟨"forcepho/proposal.py", 221, 2, false, [], false⟩]⟩,
  ⟨"GPUProposer.__init__", ⟨["patch", "thread_block", "shared_size", "max_registers", "show_ptxas", "debug",
    "kernel_name", "chi_dtype", "kernel_fn"], 9, false, [], false⟩, [⟨"forcepho/patches/device_patch.py", 266, 0,
    false, [], false⟩]⟩,
  ⟨"CPUProposer.__init__", ⟨["patch", "debug", "ptr_dtype", "chi_dtype"], 4, false, [], false⟩,
    [⟨"forcepho/patches/device_patch.py", 447, 0, false, [], false⟩]⟩,
  ⟨"CPUProposer.send_to_device", ⟨["proposal"], 0, false, [], false⟩, [⟨"forcepho/proposal.py", 202, 1, false, [],
    false⟩]⟩]

/-- forcepho/region.py:1-302, the functions and constructors that are called by name. -/
def forcephoRegionCalled : List Callee := [
  ⟨"CircularRegion.__init__", ⟨["ra", "dec", "radius"], 0, false, [], false⟩, [⟨"demo/demo_basic/basic.py", 104, 3,
    false, [], false⟩, ⟨"demo/demo_psf/psf_one_fit.py", 88, 3, false, [], false⟩, ⟨"forcepho/fitting.py", 226, 3,
    false, [], false⟩, ⟨"forcepho/superscene.py", 260, 3, false, [], false⟩, ⟨"forcepho/superscene.py", 616, 3,
    false, [], false⟩]⟩,
  ⟨"RectangularRegion.__init__", ⟨["ra_min", "ra_max", "dec_min", "dec_max"], 0, false, [], false⟩,
    [⟨"forcepho/region.py", 59, 4, false, [], false⟩]⟩,
  ⟨"polygons_overlap", ⟨["a", "b"], 0, false, [], false⟩, [⟨"forcepho/region.py", 60, 2, false, [], false⟩]⟩,
  ⟨"polygon_contains", ⟨["poly", "points"], 0, false, [], false⟩, [⟨"forcepho/patches/storage.py", 448, 2, false,
    [], false⟩, ⟨"forcepho/patches/storage.py", 475, 2, false, [], false⟩]⟩]

/-- forcepho/slow/gaussmodel.py:1-646, the functions and constructors that are called by name. -/
def forcephoSlowGaussmodelCalled : List Callee := [
  ⟨"ImageGaussian.__init__", ⟨[], 0, false, [], false⟩, [⟨"forcepho/slow/gaussmodel.py", 157, 0, false, [], false⟩,
    ⟨"forcepho/slow/gaussmodel.py", 162, 0, false, [], false⟩]⟩,
  ⟨"GaussianImageGalaxy.__init__", ⟨["ngalaxy", "npsf", "id"], 1, false, [], false⟩,
    [⟨"forcepho/slow/gaussmodel.py", 136, 2, false, ["id"], false⟩]⟩,
  ⟨"convert_to_gaussians", ⟨["source", "stamp", "compute_deriv"], 1, false, [], false⟩,
    [⟨"forcepho/slow/likelihood.py", 155, 2, false, [], false⟩, ⟨"forcepho/sources.py", 491, 2, false,
    ["compute_deriv"], false⟩, ⟨"forcepho/sources.py", 1012, 2, false, ["compute_deriv"], false⟩]⟩,
  ⟨"_convert_to_gaussians", ⟨["source_n_gauss", "stamp_psf_n_gauss", "scovar", "pcovar", "smean", "samps",
    "pmeans", "pamps", "flux"], 0, false, [], false⟩, [⟨"forcepho/slow/gaussmodel.py", 139, 9, false, [], false⟩]⟩,
  ⟨"get_gaussian_gradients", ⟨["source", "stamp", "gig"], 0, false, [], false⟩, [⟨"forcepho/slow/gaussmodel.py",
    145, 3, false, [], false⟩, ⟨"forcepho/slow/likelihood.py", 162, 3, false, [], false⟩]⟩,
  ⟨"_get_gaussian_gradients", ⟨["source_n_gauss", "stamp_psf_n_gauss", "scovars", "pcovar", "samps", "pamps",
    "flux", "G", "T", "dT_dq", "dT_dpa", "da_dn", "da_dr", "CW"], 0, false, [], false⟩,
    [⟨"forcepho/slow/gaussmodel.py", 259, 14, false, [], false⟩]⟩,
  ⟨"compute_gaussian", ⟨[], 0, true, [], true⟩, [⟨"forcepho/slow/gaussmodel.py", 521, 3, false, ["compute_deriv"],
    true⟩, ⟨"forcepho/slow/likelihood.py", 226, 3, false, [], true⟩, ⟨"forcepho/slow/likelihood.py", 291, 3, false,
    [], true⟩, ⟨"forcepho/slow/likelihood.py", 301, 3, false, [], true⟩]⟩,
  ⟨"_compute_gaussian", ⟨["g", "xpix", "ypix", "second_order", "compute_deriv", "use_det", "oversample"], 4, false,
    [], false⟩, [⟨"forcepho/slow/gaussmodel.py", 342, 0, true, [], true⟩]⟩,
  ⟨"compute_gig", ⟨["gig", "xpix", "ypix", "compute_deriv"], 1, false, [], true⟩, [⟨"forcepho/sources.py", 492, 3,
    false, ["compute_deriv"], true⟩, ⟨"forcepho/sources.py", 1013, 3, false, ["compute_deriv"], true⟩]⟩,
  ⟨"scale_matrix", ⟨["q"], 0, false, [], false⟩, [⟨"forcepho/slow/gaussmodel.py", 108, 1, false, [], false⟩,
    ⟨"forcepho/slow/gaussmodel.py", 228, 1, false, [], false⟩]⟩,
  ⟨"rotation_matrix", ⟨["theta"], 0, false, [], false⟩, [⟨"forcepho/slow/gaussmodel.py", 107, 1, false, [], false⟩,
    ⟨"forcepho/slow/gaussmodel.py", 227, 1, false, [], false⟩]⟩,
  ⟨"scale_matrix_deriv", ⟨["q"], 0, false, [], false⟩, [⟨"forcepho/slow/gaussmodel.py", 232, 1, false, [],
    false⟩]⟩,
  ⟨"rotation_matrix_deriv", ⟨["theta"], 0, false, [], false⟩, [⟨"forcepho/slow/gaussmodel.py", 233, 1, false, [],
    false⟩]⟩,
  ⟨"fast_inv_2x2", ⟨["A"], 0, false, [], false⟩, [⟨"forcepho/slow/gaussmodel.py", 170, 1, false, [], false⟩,
    ⟨"forcepho/slow/gaussmodel.py", 290, 1, false, [], false⟩]⟩,
  ⟨"fast_det_2x2", ⟨["A"], 0, false, [], false⟩, [⟨"forcepho/slow/gaussmodel.py", 178, 1, false, [], false⟩,
    ⟨"forcepho/slow/gaussmodel.py", 291, 1, false, [], false⟩]⟩,
  ⟨"fast_trace_2x2", ⟨["A"], 0, false, [], false⟩, [⟨"forcepho/slow/gaussmodel.py", 303, 1, false, [], false⟩,
    ⟨"forcepho/slow/gaussmodel.py", 304, 1, false, [], false⟩]⟩,
  ⟨"fast_dot_dot_2x2", ⟨["a", "b", "c"], 0, false, [], false⟩, [⟨"forcepho/slow/gaussmodel.py", 109, 3, false, [],
    false⟩, ⟨"forcepho/slow/gaussmodel.py", 229, 3, false, [], false⟩, ⟨"forcepho/slow/gaussmodel.py", 234, 3, false,
    [], false⟩, ⟨"forcepho/slow/gaussmodel.py", 235, 3, false, [], false⟩, ⟨"forcepho/slow/gaussmodel.py", 284, 3,
    false, [], false⟩, ⟨"forcepho/slow/gaussmodel.py", 297, 3, false, [], false⟩, ⟨"forcepho/slow/gaussmodel.py",
    298, 3, false, [], false⟩, ⟨"forcepho/slow/gaussmodel.py", 299, 3, false, [], false⟩,
    ⟨"forcepho/slow/gaussmodel.py", 300, 3, false, [], false⟩, ⟨"forcepho/slow/gaussmodel.py", 301, 3, false, [],
    false⟩, ⟨"forcepho/slow/gaussmodel.py", 302, 3, false, [], false⟩]⟩,
  ⟨"fast_matmul_matmul_2x2", ⟨["A", "B", "C"], 0, false, [], false⟩, [⟨"forcepho/slow/gaussmodel.py", 112, 3,
    false, [], false⟩, ⟨"forcepho/slow/gaussmodel.py", 127, 3, false, [], false⟩, ⟨"forcepho/slow/gaussmodel.py",
    252, 3, false, [], false⟩]⟩]

/-- forcepho/slow/likelihood.py:1-316, the functions and constructors that are called by name. -/
def forcephoSlowLikelihoodCalled : List Callee := [
  ⟨"lnlike_multi", ⟨["Theta", "scene", "plans", "grad", "source_meta"], 2, false, [], false⟩,
    [⟨"forcepho/slow/likelihood.py", 78, 1, false, ["scene", "plans"], false⟩]⟩,
  ⟨"make_image", ⟨["scene", "stamp", "Theta", "use_sources", "compute_kwargs", "stamp_index"], 4, false, [],
    false⟩, [⟨"forcepho/model.py", 472, 2, false, [], false⟩, ⟨"tests/slow_tests/test_undersample.py", 29, 2, false,
    ["Theta"], true⟩]⟩,
  ⟨"plan_sources", ⟨["plan", "scene", "stamp_index"], 1, false, [], false⟩, [⟨"forcepho/slow/likelihood.py", 63, 2,
    false, ["stamp_index"], false⟩, ⟨"forcepho/slow/likelihood.py", 101, 2, false, ["stamp_index"], false⟩]⟩,
  ⟨"WorkPlan.__init__", ⟨["stamp", "active", "fixed"], 2, false, [], false⟩, [⟨"forcepho/model.py", 425, 1, false,
    [], false⟩, ⟨"forcepho/slow/likelihood.py", 99, 1, false, [], false⟩]⟩,
  ⟨"WorkPlan.reset", ⟨[], 0, false, [], false⟩, [⟨"forcepho/slow/likelihood.py", 210, 0, false, [], false⟩,
    ⟨"forcepho/slow/likelihood.py", 247, 0, false, [], false⟩, ⟨"forcepho/slow/likelihood.py", 255, 0, false, [],
    false⟩]⟩,
  ⟨"WorkPlan.process_pixels", ⟨["blockID", "threadID"], 2, false, [], false⟩, [⟨"forcepho/slow/likelihood.py", 248,
    0, false, [], false⟩, ⟨"forcepho/slow/likelihood.py", 256, 0, false, [], false⟩]⟩,
  ⟨"FastWorkPlan.reset", ⟨[], 0, false, [], false⟩, [⟨"forcepho/slow/likelihood.py", 210, 0, false, [], false⟩,
    ⟨"forcepho/slow/likelihood.py", 247, 0, false, [], false⟩, ⟨"forcepho/slow/likelihood.py", 255, 0, false, [],
    false⟩, ⟨"forcepho/slow/likelihood.py", 313, 0, false, [], false⟩]⟩,
  ⟨"FastWorkPlan.process_pixels", ⟨["blockID", "threadID"], 2, false, [], false⟩, [⟨"forcepho/slow/likelihood.py",
    248, 0, false, [], false⟩, ⟨"forcepho/slow/likelihood.py", 256, 0, false, [], false⟩,
    ⟨"forcepho/slow/likelihood.py", 314, 0, false, [], false⟩]⟩]

/-- forcepho/slow/psf.py:1-195, the functions and constructors that are called by name. -/
def forcephoSlowPsfCalled : List Callee := [
  ⟨"PointSpreadFunction.__init__", ⟨["parameters", "units"], 2, false, [], false⟩,
    [⟨"demo/demo_psf/make_jwst_psf/radial_profile.py", 44, 0, false, ["parameters"], false⟩,
    ⟨"forcepho/postprocess.py", 622, 0, false, [], false⟩, ⟨"forcepho/slow/psf.py", 109, 1, false, [], false⟩,
    ⟨"forcepho/slow/psf.py", 112, 0, false, [], false⟩, ⟨"forcepho/slow/psf.py", 120, 0, false, [], false⟩,
    ⟨"tests/slow_tests/test_undersample.py", 23, 0, false, [], false⟩, ⟨"tests/slow_tests/undersample_figure.py", 21,
    0, false, [], false⟩, ⟨"tests/verification/make_reference.py", 41, 0, false, [], false⟩,
    ⟨"tests/verification/make_reference.py", 129, 0, false, ["parameters"], false⟩]⟩,
  ⟨"PointSpreadFunction.make_from_parameters", ⟨["parameters"], 0, false, [], false⟩, [⟨"forcepho/slow/psf.py", 32,
    1, false, [], false⟩]⟩,
  ⟨"make_psf", ⟨["answer"], 0, false, [], true⟩, [⟨"forcepho/slow/psf.py", 103, 1, false, ["oversample", "center"],
    false⟩]⟩,
  ⟨"params_to_gauss", ⟨["answer", "oversample", "start", "center"], 3, false, [], false⟩,
    [⟨"forcepho/mixtures/utils_em.py", 109, 1, false, ["oversample", "start", "center"], false⟩,
    ⟨"forcepho/slow/psf.py", 121, 1, false, [], true⟩]⟩,
  ⟨"mvn_pdf", ⟨["pos_x", "pos_y", "params"], 0, false, [], false⟩, [⟨"forcepho/slow/psf.py", 185, 3, false, [],
    false⟩]⟩,
  ⟨"mvn_pdf_2d", ⟨["params", "x_max", "y_max"], 0, false, [], false⟩, [⟨"forcepho/slow/psf.py", 193, 3, false, [],
    false⟩]⟩]

/-- forcepho/slow/stamp.py:1-337, the functions and constructors that are called by name. -/
def forcephoSlowStampCalled : List Callee := [
  ⟨"PostageStamp.__init__", ⟨["nx", "ny", "filtername"], 3, false, [], false⟩, [⟨"demo/demo_utils.py", 69, 2,
    false, [], false⟩, ⟨"forcepho/slow/stamp.py", 297, 0, false, [], false⟩, ⟨"tests/galsim_tests/test_utils.py", 94,
    2, false, [], false⟩, ⟨"tests/slow_tests/test_undersample.py", 13, 0, false, [], false⟩,
    ⟨"tests/slow_tests/undersample_figure.py", 11, 0, false, [], false⟩, ⟨"tests/verification/make_reference.py", 93,
    2, false, [], false⟩]⟩,
  ⟨"scale_at_sky", ⟨["sky", "wcs", "dpix", "origin", "make_approx"], 3, false, [], false⟩,
    [⟨"forcepho/slow/stamp.py", 158, 2, false, [], false⟩]⟩]

/-- forcepho/sources.py:1-1067, the functions and constructors that are called by name. -/
def forcephoSourcesCalled : List Callee := [
  ⟨"Scene.__init__", ⟨["sources", "catalog"], 2, false, [], true⟩, [⟨"forcepho/patches/patch.py", 417, 0, false,
    ["catalog", "filternames", "source_type", "splinedata", "spline_smoothing"], false⟩,
    ⟨"tests/slow_tests/create_test_data.py", 60, 1, false, [], false⟩, ⟨"tests/slow_tests/patch_conversion.py", 98,
    1, false, [], false⟩, ⟨"tests/slow_tests/patch_conversion.py", 174, 1, false, [], false⟩,
    ⟨"tests/slow_tests/run_patch_cpu_test_simple.py", 45, 1, false, [], false⟩,
    ⟨"tests/slow_tests/test_photocounts.py", 69, 1, false, [], false⟩, ⟨"tests/slow_tests/test_simple.py", 83, 1,
    false, [], false⟩, ⟨"tests/slow_tests/test_undersample.py", 89, 1, false, [], false⟩,
    ⟨"tests/slow_tests/timing.py", 50, 1, false, [], false⟩, ⟨"tests/slow_tests/undersample_figure.py", 38, 1, false,
    [], false⟩]⟩,
  ⟨"Scene.identify_sources", ⟨[], 0, false, [], false⟩, [⟨"forcepho/sources.py", 37, 0, false, [], false⟩,
    ⟨"forcepho/sources.py", 183, 0, false, [], false⟩]⟩,
  ⟨"Scene.from_catalog", ⟨["catalog", "filternames", "extra_parameters", "source_type"], 3, false, [], true⟩,
    [⟨"forcepho/sources.py", 36, 1, false, [], true⟩]⟩,
  ⟨"Source.__init__", ⟨["filters", "radii"], 2, false, [], false⟩, [⟨"tests/slow_tests/test_undersample.py", 87, 0,
    false, [], false⟩, ⟨"tests/slow_tests/undersample_figure.py", 36, 0, false, [], false⟩]⟩,
  ⟨"Source.get_param_vector", ⟨["filtername"], 1, false, [], false⟩, [⟨"forcepho/sources.py", 272, 0, false, [],
    false⟩]⟩,
  ⟨"Source.filter_index", ⟨["filtername"], 0, false, [], false⟩, [⟨"forcepho/sources.py", 357, 1, false, [],
    false⟩, ⟨"forcepho/sources.py", 377, 1, false, [], false⟩, ⟨"forcepho/sources.py", 579, 1, false, [], false⟩,
    ⟨"forcepho/sources.py", 598, 1, false, [], false⟩, ⟨"forcepho/sources.py", 723, 1, false, [], false⟩,
    ⟨"forcepho/sources.py", 764, 1, false, [], false⟩, ⟨"forcepho/sources.py", 778, 1, false, [], false⟩,
    ⟨"forcepho/sources.py", 835, 1, false, [], false⟩, ⟨"forcepho/sources.py", 851, 1, false, [], false⟩,
    ⟨"forcepho/sources.py", 919, 1, false, [], false⟩, ⟨"forcepho/sources.py", 938, 1, false, [], false⟩]⟩,
  ⟨"Source.cat_dtype", ⟨["extra_cols"], 1, false, [], false⟩, [⟨"forcepho/sources.py", 445, 0, false,
    ["extra_cols"], false⟩]⟩,
  ⟨"Galaxy.__init__", ⟨["filters", "filternames", "radii", "free_sersic", "splinedata", "spline_smoothing",
    "spline_type"], 7, false, [], false⟩, [⟨"forcepho/postprocess.py", 630, 0, false, ["splinedata"], false⟩,
    ⟨"tests/slow_tests/create_test_data.py", 50, 0, false, ["splinedata", "filters"], false⟩,
    ⟨"tests/slow_tests/patch_conversion.py", 86, 0, false, ["filters", "splinedata", "free_sersic"], false⟩,
    ⟨"tests/slow_tests/test_photocounts.py", 59, 0, false, ["splinedata", "filters"], false⟩,
    ⟨"tests/slow_tests/test_shear.py", 50, 0, false, ["splinedata"], false⟩, ⟨"tests/slow_tests/test_simple.py", 73,
    0, false, ["splinedata", "filters"], false⟩, ⟨"tests/slow_tests/timing.py", 40, 0, false, ["splinedata",
    "filters"], false⟩, ⟨"tests/verification/make_reference.py", 37, 0, false, ["splinedata"], false⟩]⟩,
  ⟨"Galaxy.get_param_vector", ⟨["filtername"], 1, false, [], false⟩, [⟨"forcepho/sources.py", 272, 0, false, [],
    false⟩]⟩,
  ⟨"Galaxy.initialize_splines", ⟨["splinedata", "spline_smoothing", "spline_type"], 2, false, [], false⟩,
    [⟨"forcepho/sources.py", 542, 1, false, ["spline_smoothing", "spline_type"], false⟩]⟩,
  ⟨"Star.get_param_vector", ⟨["filtername"], 1, false, [], false⟩, [⟨"forcepho/sources.py", 272, 0, false, [],
    false⟩]⟩,
  ⟨"SimpleGalaxy.get_param_vector", ⟨["filtername"], 1, false, [], false⟩, [⟨"forcepho/sources.py", 272, 0, false,
    [], false⟩]⟩,
  ⟨"ConformalShearGalaxy.get_param_vector", ⟨["filtername"], 1, false, [], false⟩, [⟨"forcepho/sources.py", 272, 0,
    false, [], false⟩]⟩,
  ⟨"gauss", ⟨["x", "mu", "sigma", "ndim"], 1, false, [], false⟩, [⟨"forcepho/sources.py", 720, 3, false, [],
    false⟩]⟩]

/-- forcepho/superscene.py:1-1059, the functions and constructors that are called by name. -/
def forcephoSupersceneCalled : List Callee := [
  ⟨"SuperScene.__init__", ⟨["sourcecat", "bands", "statefile", "target_niter", "maxactive_fraction",
    "maxactive_per_patch", "nscale", "boundary_radius", "maxradius", "minradius", "bounds_kwargs"], 11, false, [],
    false⟩, [⟨"forcepho/dispatcher.py", 175, 0, false, ["sourcecat", "bands", "maxactive_per_patch", "maxradius",
    "target_niter", "statefile", "bounds_kwargs", "maxactive_fraction"], false⟩, ⟨"forcepho/superscene.py", 518, 0,
    true, [], true⟩]⟩,
  ⟨"SuperScene.writeout", ⟨["filename"], 1, false, [], false⟩, [⟨"forcepho/superscene.py", 88, 0, false, [],
    false⟩, ⟨"forcepho/superscene.py", 349, 0, false, [], false⟩]⟩,
  ⟨"SuperScene.ingest", ⟨["sourcecat"], 0, false, [], true⟩, [⟨"forcepho/superscene.py", 70, 1, false, [], true⟩]⟩,
  ⟨"SuperScene.set_catalog", ⟨["sourcecat"], 0, false, [], false⟩, [⟨"forcepho/superscene.py", 118, 1, false, [],
    false⟩]⟩,
  ⟨"SuperScene.sky_to_scene", ⟨["ra", "dec"], 0, false, [], false⟩, [⟨"forcepho/superscene.py", 224, 2, false, [],
    false⟩, ⟨"forcepho/superscene.py", 255, 2, false, [], false⟩, ⟨"forcepho/superscene.py", 612, 2, false, [],
    false⟩, ⟨"forcepho/superscene.py", 726, 2, false, [], false⟩]⟩,
  ⟨"SuperScene.get_circular_scene", ⟨["center"], 0, false, [], false⟩, [⟨"forcepho/superscene.py", 256, 1, false,
    [], false⟩]⟩,
  ⟨"SuperScene.draw_center", ⟨["seed_index"], 1, false, [], false⟩, [⟨"forcepho/superscene.py", 254, 0, false,
    ["seed_index"], false⟩]⟩,
  ⟨"SuperScene.seed_weight", ⟨[], 0, false, [], false⟩, [⟨"forcepho/superscene.py", 463, 0, false, [], false⟩,
    ⟨"forcepho/superscene.py", 659, 0, false, [], false⟩]⟩,
  ⟨"SuperScene.exp_weight", ⟨[], 0, false, [], false⟩, [⟨"forcepho/superscene.py", 468, 0, false, [], false⟩]⟩,
  ⟨"LinkedSuperScene.__init__", ⟨[], 0, true, [("buffer", true), ("roi", true), ("strict", true)], true⟩,
    [⟨"demo/demo_basic/basic_sceneDB.py", 93, 0, false, ["sourcecat", "bands", "statefile", "roi", "bounds_kwargs",
    "target_niter"], false⟩, ⟨"demo/demo_color/color_fit.py", 55, 0, false, ["sourcecat", "bands", "statefile",
    "roi", "bounds_kwargs", "target_niter"], false⟩, ⟨"demo/demo_mosaic/mosaic_fit.py", 59, 0, false, ["sourcecat",
    "bands", "statefile", "roi", "bounds_kwargs", "target_niter"], false⟩, ⟨"demo/demo_optimize/optimize.py", 125, 0,
    false, ["sourcecat", "bands", "statefile", "roi", "bounds_kwargs", "target_niter"], false⟩,
    ⟨"demo/demo_pair/pair_fit.py", 54, 0, false, ["sourcecat", "bands", "statefile", "roi", "bounds_kwargs",
    "target_niter"], false⟩, ⟨"demo/demo_scene/scene_plot.py", 65, 0, false, ["sourcecat", "bands",
    "maxactive_per_patch", "strict", "minradius", "maxradius", "buffer"], false⟩, ⟨"demo/demo_snr/single_fit.py", 53,
    0, false, ["sourcecat", "bands", "statefile", "roi", "bounds_kwargs", "target_niter"], false⟩,
    ⟨"forcepho/superscene.py", 1052, 2, false, ["roi", "buffer"], false⟩, ⟨"tests/cswap_test.py", 33, 0, false,
    ["sourcecat", "bands", "statefile", "roi", "bounds_kwargs", "target_niter"], false⟩,
    ⟨"tests/galsim_tests/test_psf/test_psf_mixture.py", 101, 0, false, ["sourcecat", "bands", "statefile", "roi",
    "bounds_kwargs", "target_niter"], false⟩, ⟨"tests/galsim_tests/test_sersic/test_sersic_mixture.py", 105, 0,
    false, ["sourcecat", "bands", "statefile", "roi", "bounds_kwargs", "target_niter"], false⟩]⟩,
  ⟨"LinkedSuperScene.grow_source", ⟨["index"], 0, false, [], false⟩, [⟨"forcepho/superscene.py", 601, 1, false, [],
    false⟩, ⟨"forcepho/superscene.py", 745, 1, false, [], false⟩]⟩,
  ⟨"LinkedSuperScene.grow_scene", ⟨["seed_index", "max_fixed"], 1, false, [], false⟩, [⟨"forcepho/superscene.py",
    661, 2, false, [], false⟩]⟩,
  ⟨"LinkedSuperScene.find_overlaps", ⟨["center", "radius", "seed_index", "sort"], 2, false, [], false⟩,
    [⟨"forcepho/superscene.py", 555, 2, false, ["seed_index"], false⟩, ⟨"forcepho/superscene.py", 590, 2, false,
    ["sort"], false⟩, ⟨"forcepho/superscene.py", 621, 2, false, ["sort"], false⟩, ⟨"forcepho/superscene.py", 727, 2,
    false, [], false⟩]⟩,
  ⟨"sourcecat_dtype", ⟨["source_type", "bands"], 2, false, [], false⟩, [⟨"demo/demo_scene/scene_plot.py", 24, 0,
    false, ["bands"], false⟩, ⟨"demo/demo_utils.py", 106, 0, false, ["bands"], false⟩, ⟨"forcepho/superscene.py",
    781, 0, false, ["bands"], false⟩, ⟨"tests/galsim_tests/test_utils.py", 131, 0, false, ["bands"], false⟩,
    ⟨"tests/verification/make_reference.py", 72, 0, false, ["bands"], false⟩]⟩,
  ⟨"rectify_catalog", ⟨["sourcecatfile", "rhalf_range", "sqrtq_range", "sersic_range", "pa_range", "rotate",
    "reverse", "shapenames"], 7, false, [], false⟩, [⟨"demo/demo_scene/scene_plot.py", 64, 1, false, [], false⟩,
    ⟨"forcepho/dispatcher.py", 174, 1, false, [], false⟩, ⟨"forcepho/superscene.py", 1049, 1, false, [], false⟩]⟩,
  ⟨"make_bounds", ⟨["active", "filternames", "shapenames", "unccat", "n_sig_flux", "dpos", "n_pix", "pixscale",
    "sqrtq_range", "pa_range", "rhalf_range", "sersic_range"], 10, false, [], false⟩, [⟨"demo/demo_basic/basic.py",
    98, 2, false, ["shapenames"], true⟩, ⟨"demo/demo_psf/psf_one_fit.py", 82, 2, false, ["shapenames"], true⟩,
    ⟨"forcepho/superscene.py", 124, 2, false, ["shapenames"], true⟩]⟩,
  ⟨"bounds_vectors", ⟨["bounds_cat", "filternames", "shapenames", "reference_coordinates"], 2, false, [], false⟩,
    [⟨"forcepho/patches/device_patch.py", 67, 2, false, ["shapenames", "reference_coordinates"], false⟩]⟩,
  ⟨"check_bounds", ⟨["sourcecat", "boundscat"], 0, false, [], false⟩, [⟨"forcepho/superscene.py", 137, 2, false,
    [], false⟩]⟩,
  ⟨"flux_bounds", ⟨["flux", "unc1", "snr_max", "precisions"], 2, false, [], false⟩,
    [⟨"demo/demo_optimize/optimize.py", 186, 2, false, ["precisions"], false⟩, ⟨"forcepho/postprocess.py", 336, 2,
    false, [], false⟩, ⟨"forcepho/postprocess.py", 585, 2, false, [], false⟩, ⟨"forcepho/superscene.py", 876, 2,
    false, [], false⟩, ⟨"forcepho/tasks.py", 69, 2, false, ["precisions"], false⟩]⟩,
  ⟨"convert_pa", ⟨["pa_in", "from_deg", "rotate", "reverse", "max_try"], 4, false, [], false⟩,
    [⟨"demo/demo_scene/scene_plot.py", 29, 1, false, ["from_deg", "reverse"], false⟩]⟩]

/-- forcepho/utils/__init__.py:1-102, the functions and constructors that are called by name. -/
def forcephoUtilsInitCalled : List Callee := [
  ⟨"extract_block_diag", ⟨["a", "n", "k"], 1, false, [], false⟩, [⟨"forcepho/fitting.py", 131, 2, false, [],
    false⟩]⟩,
  ⟨"populate_image", ⟨["xpix", "ypix", "data"], 0, false, [], false⟩, [⟨"forcepho/postprocess.py", 51, 3, false,
    [], false⟩, ⟨"forcepho/postprocess.py", 571, 3, false, [], false⟩, ⟨"tests/cswap_test.py", 93, 3, false, [],
    false⟩]⟩]

/-- forcepho/utils/catalog.py:1-169, the functions and constructors that are called by name. -/
def forcephoUtilsCatalogCalled : List Callee := [
  ⟨"write_table", ⟨["out", "cats", "extnames"], 1, false, [], true⟩, [⟨"forcepho/utils/catalog.py", 57, 2, false,
    ["extnames"], true⟩]⟩,
  ⟨"out_dtype", ⟨["npoint", "shapes", "bands"], 3, false, [], false⟩, [⟨"forcepho/utils/catalog.py", 67, 1, false,
    ["shapes", "bands"], false⟩]⟩]

/-- forcepho/utils/chain.py:1-94, the functions and constructors that are called by name. -/
def forcephoUtilsChainCalled : List Callee := [
  ⟨"make_statscat", ⟨["stats", "step"], 0, false, [], false⟩, [⟨"forcepho/fitting.py", 126, 2, false, [], false⟩]⟩,
  ⟨"make_chaincat", ⟨["chain", "bands", "active", "ref", "shapes"], 1, false, [], false⟩,
    [⟨"demo/demo_optimize/optimize.py", 169, 4, false, [], false⟩, ⟨"forcepho/fitting.py", 116, 4, false, ["shapes"],
    false⟩, ⟨"forcepho/fitting.py", 228, 4, false, ["shapes"], false⟩, ⟨"forcepho/tasks.py", 51, 4, false, [],
    false⟩]⟩,
  ⟨"get_sample_cat", ⟨["chaincat", "iteration", "active"], 0, false, [], false⟩,
    [⟨"demo/demo_optimize/optimize.py", 171, 3, false, [], false⟩, ⟨"forcepho/fitting.py", 167, 3, false, [], false⟩,
    ⟨"forcepho/tasks.py", 53, 3, false, [], false⟩]⟩]

/-- forcepho/utils/corner.py:1-667, the functions and constructors that are called by name. -/
def forcephoUtilsCornerCalled : List Callee := [
  ⟨"allcorner", ⟨["samples", "labels", "axes", "weights", "span", "smooth", "color", "qcolor", "show_titles",
    "hist_kwargs", "prettify", "upper", "hist2d_kwargs", "max_n_ticks", "label_kwargs", "tick_kwargs", "psamples",
    "samples_kwargs"], 15, false, [], false⟩, [⟨"demo/demo_basic/basic_plot.py", 51, 3, false, ["color", "psamples",
    "smooth", "hist_kwargs", "samples_kwargs"], false⟩, ⟨"demo/demo_color/color_plot_separate.py", 22, 3, false,
    ["color", "psamples", "smooth", "hist_kwargs", "samples_kwargs"], false⟩,
    ⟨"demo/demo_color/color_plot_separate.py", 53, 3, false, ["upper", "color", "psamples", "smooth", "hist_kwargs",
    "samples_kwargs"], false⟩, ⟨"demo/demo_color/color_plot_together.py", 26, 3, false, ["color", "psamples",
    "smooth", "hist_kwargs", "samples_kwargs"], false⟩, ⟨"demo/demo_color/color_plot_together.py", 46, 3, false,
    ["color", "psamples", "smooth", "hist_kwargs", "samples_kwargs"], false⟩, ⟨"demo/demo_optimize/optimize_plot.py",
    24, 3, false, ["color", "smooth", "hist_kwargs", "samples_kwargs"], false⟩, ⟨"demo/demo_pair/pair_plot.py", 21,
    3, false, ["color", "psamples", "smooth", "hist_kwargs", "samples_kwargs"], false⟩, ⟨"demo/demo_psf/psf_plot.py",
    50, 3, false, ["color", "psamples", "smooth", "hist_kwargs", "samples_kwargs"], false⟩,
    ⟨"forcepho/utils/corner.py", 664, 3, false, ["show_titles", "psamples"], false⟩]⟩,
  ⟨"show_extras", ⟨["samples", "labels", "paxes", "weights", "quantiles", "qcolor", "truths", "show_titles",
    "title_fmt", "truth_kwargs", "title_kwargs"], 8, false, [], false⟩, [⟨"forcepho/utils/corner.py", 104, 3, false,
    ["weights", "qcolor", "show_titles"], false⟩]⟩,
  ⟨"prettify_axes", ⟨["paxes", "labels", "label_kwargs", "tick_kwargs", "upper", "max_n_ticks", "top_ticks",
    "use_math_text"], 7, false, [], false⟩, [⟨"demo/demo_mosaic/mosaic_plot.py", 43, 2, false, ["label_kwargs",
    "tick_kwargs"], false⟩, ⟨"demo/demo_snr/single_plot.py", 47, 2, false, ["label_kwargs", "tick_kwargs"], false⟩,
    ⟨"forcepho/utils/corner.py", 97, 2, false, ["max_n_ticks", "upper", "label_kwargs", "tick_kwargs"], false⟩]⟩,
  ⟨"corner", ⟨["samples", "paxes", "weights", "span", "smooth", "color", "hist_kwargs", "hist2d_kwargs", "upper"],
    7, false, [], false⟩, [⟨"demo/demo_mosaic/mosaic_plot.py", 40, 2, false, ["span", "color"], true⟩,
    ⟨"demo/demo_mosaic/mosaic_plot.py", 41, 2, false, ["span", "color"], true⟩, ⟨"demo/demo_snr/single_plot.py", 45,
    2, false, ["span", "color"], true⟩, ⟨"forcepho/utils/corner.py", 92, 2, false, ["weights", "span", "smooth",
    "color", "upper", "hist_kwargs", "hist2d_kwargs"], false⟩]⟩,
  ⟨"twodhist", ⟨["x", "y", "ax", "span", "weights", "smooth", "levels", "color", "plot_density", "plot_contours",
    "fill_contours", "contour_kwargs", "contourf_kwargs"], 11, false, [], true⟩, [⟨"forcepho/utils/corner.py", 337,
    2, false, ["weights", "ax", "span", "smooth", "color"], true⟩]⟩,
  ⟨"marginal", ⟨["x", "ax", "weights", "span", "smooth", "color", "peak"], 6, false, [], true⟩,
    [⟨"demo/demo_pair/pair_plot.py", 95, 1, false, ["ax", "color", "alpha"], false⟩, ⟨"forcepho/utils/corner.py",
    324, 2, false, ["weights", "span", "smooth", "color"], true⟩]⟩,
  ⟨"scatter", ⟨["samples", "paxes", "upper"], 1, false, [], true⟩, [⟨"demo/demo_basic/basic_plot.py", 63, 2, false,
    ["zorder", "color", "marker"], false⟩, ⟨"demo/demo_mosaic/mosaic_plot.py", 42, 2, false, ["zorder", "color",
    "edgecolor"], false⟩, ⟨"demo/demo_optimize/optimize_plot.py", 35, 2, false, ["zorder", "color", "marker"],
    false⟩, ⟨"demo/demo_optimize/optimize_plot.py", 86, 2, false, ["color", "label"], true⟩,
    ⟨"demo/demo_optimize/optimize_plot.py", 87, 2, false, ["color", "label"], true⟩,
    ⟨"demo/demo_optimize/optimize_plot.py", 88, 2, false, ["color", "label"], true⟩,
    ⟨"demo/demo_optimize/optimize_plot.py", 90, 2, false, ["color", "label"], true⟩,
    ⟨"demo/demo_optimize/optimize_plot.py", 91, 2, false, ["color", "label"], true⟩, ⟨"demo/demo_pair/pair_movie.py",
    85, 2, false, ["zorder", "color", "marker"], false⟩, ⟨"demo/demo_pair/pair_plot.py", 86, 2, false, ["zorder",
    "color", "marker"], false⟩, ⟨"demo/demo_psf/psf_plot.py", 62, 2, false, ["zorder", "color", "marker"], false⟩,
    ⟨"demo/demo_snr/single_plot.py", 46, 2, false, ["zorder", "marker", "color", "edgecolor"], false⟩,
    ⟨"forcepho/utils/corner.py", 101, 2, false, ["zorder", "upper"], true⟩]⟩,
  ⟨"get_spans", ⟨["span", "samples", "weights"], 1, false, [], false⟩, [⟨"demo/demo_mosaic/mosaic_plot.py", 14, 2,
    false, ["weights"], false⟩, ⟨"demo/demo_snr/single_plot.py", 16, 2, false, ["weights"], false⟩,
    ⟨"forcepho/utils/corner.py", 312, 2, false, ["weights"], false⟩, ⟨"forcepho/utils/corner.py", 399, 2, false,
    ["weights"], false⟩, ⟨"forcepho/utils/corner.py", 506, 2, false, ["weights"], false⟩]⟩,
  ⟨"_quantile", ⟨["x", "q", "weights"], 1, false, [], false⟩, [⟨"forcepho/utils/corner.py", 131, 2, false,
    ["weights"], false⟩, ⟨"forcepho/utils/corner.py", 146, 2, false, ["weights"], false⟩,
    ⟨"forcepho/utils/corner.py", 575, 2, false, ["weights"], false⟩, ⟨"forcepho/utils/corner.py", 592, 2, false,
    ["weights"], false⟩]⟩,
  ⟨"get_cmap", ⟨["color", "levels"], 0, false, [], false⟩, [⟨"forcepho/utils/corner.py", 410, 2, false, [],
    false⟩]⟩]

/-- forcepho/utils/ds9.py:1-61, the functions and constructors that are called by name. -/
def forcephoUtilsDs9Called : List Callee := [
  ⟨"annotate_regions", ⟨["regions", "ids", "colors"], 2, false, [], false⟩, [⟨"forcepho/utils/ds9.py", 46, 1,
    false, ["ids"], false⟩]⟩]

/-- forcepho/utils/io.py:1-94, the functions and constructors that are called by name. -/
def forcephoUtilsIoCalled : List Callee := [
  ⟨"write_to_disk", ⟨["out", "outroot", "model", "config", "residual"], 1, false, [], false⟩,
    [⟨"demo/demo_basic/basic.py", 129, 4, false, [], false⟩, ⟨"demo/demo_basic/basic_sceneDB.py", 126, 4, false, [],
    false⟩, ⟨"demo/demo_color/color_fit.py", 92, 4, false, [], false⟩, ⟨"demo/demo_mosaic/mosaic_fit.py", 96, 4,
    false, [], false⟩, ⟨"demo/demo_optimize/optimize.py", 218, 4, false, [], false⟩, ⟨"demo/demo_pair/pair_fit.py",
    91, 4, false, [], false⟩, ⟨"demo/demo_psf/psf_one_fit.py", 115, 4, false, [], false⟩,
    ⟨"demo/demo_snr/single_fit.py", 90, 4, false, [], false⟩, ⟨"tests/galsim_tests/test_psf/test_psf_mixture.py",
    135, 4, false, [], false⟩, ⟨"tests/galsim_tests/test_sersic/test_sersic_mixture.py", 137, 4, false, [], false⟩]⟩,
  ⟨"write_residuals", ⟨["patcher", "filename", "residuals"], 1, false, [], false⟩, [⟨"forcepho/utils/io.py", 51, 2,
    false, ["residuals"], false⟩, ⟨"tests/verification/verify_reference.py", 229, 2, false, ["residuals"], false⟩]⟩,
  ⟨"make_imset", ⟨["out", "paths", "name", "arrs"], 0, false, [], false⟩, [⟨"forcepho/utils/io.py", 73, 4, false,
    [], false⟩, ⟨"forcepho/utils/io.py", 77, 4, false, [], false⟩, ⟨"forcepho/utils/io.py", 81, 4, false, [],
    false⟩]⟩]

/-- forcepho/utils/profile.py:1-54, the functions and constructors that are called by name. -/
def forcephoUtilsProfileCalled : List Callee := [
  ⟨"frac_sersic", ⟨["radius", "rhalf", "sersic"], 2, false, [], false⟩, [⟨"demo/demo_color/color_plot_separate.py",
    69, 1, false, ["sersic", "rhalf"], false⟩, ⟨"demo/demo_psf/psf_grid_plot.py", 163, 1, false, ["sersic", "rhalf"],
    false⟩, ⟨"tests/galsim_tests/test_plot.py", 236, 1, false, ["sersic", "rhalf"], false⟩]⟩,
  ⟨"isophotal_radius", ⟨["iso", "flux", "r_half", "flux_radius", "sersic"], 2, false, [], false⟩,
    [⟨"forcepho/postprocess.py", 415, 3, false, ["sersic"], false⟩]⟩,
  ⟨"I_eff", ⟨["lum", "rhalf", "flux_radius", "sersic"], 2, false, [], false⟩, [⟨"forcepho/utils/profile.py", 36, 2,
    false, ["flux_radius", "sersic"], false⟩]⟩]

/-- forcepho/utils/wcs.py:1-177, the functions and constructors that are called by name. -/
def forcephoUtilsWcsCalled : List Callee := [
  ⟨"FWCS.pixel_to_world_values", ⟨["x", "y"], 0, false, [], true⟩, [⟨"forcepho/utils/wcs.py", 41, 0, true, [],
    true⟩]⟩,
  ⟨"FWCS.world_to_pixel_values", ⟨["ra", "dec"], 0, false, [], true⟩, [⟨"forcepho/utils/wcs.py", 44, 0, true, [],
    true⟩]⟩,
  ⟨"scale_at_sky", ⟨["sky", "wcs", "dpix", "make_approx"], 2, false, [], false⟩, [⟨"forcepho/patches/patch.py",
    333, 2, false, [], false⟩, ⟨"forcepho/utils/wcs.py", 88, 2, false, [], true⟩]⟩,
  ⟨"sky_to_pix", ⟨["ra", "dec", "exp", "ref_coords"], 2, false, [], false⟩, [⟨"forcepho/postprocess.py", 121, 3,
    false, ["ref_coords"], false⟩]⟩]

/-- setup.py:1-78, the functions and constructors that are called by name. -/
def setupCalled : List Callee := [
  ⟨"get_gitvers", ⟨["version"], 1, false, [], false⟩, [⟨"setup.py", 59, 0, false, [], false⟩]⟩]

/-- tests/galsim_tests/test_plot.py:1-266, the functions and constructors that are called by name. -/
def testsGalsimTestsTestPlotCalled : List Callee := [
  ⟨"plot_trace", ⟨["patchname", "title_fmt", "fsize"], 2, false, [], false⟩, [⟨"tests/galsim_tests/test_plot.py",
    251, 1, false, [], false⟩, ⟨"tests/galsim_tests/test_psf/test_psf_mixture.py", 230, 1, false, [], false⟩,
    ⟨"tests/galsim_tests/test_sersic/test_sersic_mixture.py", 222, 1, false, [], false⟩]⟩,
  ⟨"plot_corner", ⟨["patchname", "smooth", "hkwargs", "dkwargs", "fsize"], 4, false, [], false⟩,
    [⟨"tests/galsim_tests/test_plot.py", 257, 1, false, [], false⟩,
    ⟨"tests/galsim_tests/test_psf/test_psf_mixture.py", 236, 1, false, [], false⟩,
    ⟨"tests/galsim_tests/test_sersic/test_sersic_mixture.py", 228, 1, false, [], false⟩]⟩,
  ⟨"plot_residual", ⟨["patchname", "vmin", "vmax", "rfig", "raxes"], 4, false, [], false⟩,
    [⟨"tests/galsim_tests/test_plot.py", 262, 1, false, [], false⟩,
    ⟨"tests/galsim_tests/test_psf/test_psf_mixture.py", 241, 1, false, [], false⟩,
    ⟨"tests/galsim_tests/test_sersic/test_sersic_mixture.py", 233, 1, false, [], false⟩]⟩,
  ⟨"get_map", ⟨["s"], 0, false, [], false⟩, [⟨"tests/galsim_tests/test_plot.py", 64, 1, false, [], false⟩]⟩,
  ⟨"make_catalog", ⟨["tagnames", "n_full", "bands"], 2, false, [], false⟩,
    [⟨"tests/galsim_tests/test_psf/make_summary.py", 77, 1, false, ["bands"], false⟩,
    ⟨"tests/galsim_tests/test_psf/test_psf_mixture.py", 251, 1, false, ["bands"], false⟩,
    ⟨"tests/galsim_tests/test_sersic/test_sersic_mixture.py", 241, 1, false, ["bands"], false⟩]⟩,
  ⟨"compare_parameters", ⟨["scat", "tcat", "parname", "add_jitter", "point_type", "colorby", "splitby", "as_delta",
    "dfax", "onlymax"], 7, false, [], false⟩, [⟨"tests/galsim_tests/test_psf/make_summary.py", 81, 3, false, ["dfax",
    "colorby"], false⟩, ⟨"tests/galsim_tests/test_psf/make_summary.py", 82, 3, false, ["dfax", "colorby", "as_delta",
    "add_jitter"], false⟩, ⟨"tests/galsim_tests/test_psf/test_psf_mixture.py", 257, 3, false, ["dfax", "splitby",
    "colorby"], false⟩, ⟨"tests/galsim_tests/test_psf/test_psf_mixture.py", 259, 3, false, ["dfax", "as_delta",
    "splitby", "colorby"], false⟩, ⟨"tests/galsim_tests/test_sersic/test_sersic_mixture.py", 246, 3, false,
    ["colorby"], false⟩]⟩,
  ⟨"compare_apflux", ⟨["scat", "tcat", "band", "colorby"], 2, false, [], false⟩,
    [⟨"tests/galsim_tests/test_psf/make_summary.py", 88, 2, false, ["band", "colorby"], false⟩,
    ⟨"tests/galsim_tests/test_psf/test_psf_mixture.py", 266, 2, false, ["band", "colorby"], false⟩,
    ⟨"tests/galsim_tests/test_sersic/test_sersic_mixture.py", 251, 2, false, ["bands"], false⟩]⟩,
  ⟨"aperture_flux", ⟨["scat", "truths", "band"], 1, false, [], false⟩, [⟨"tests/galsim_tests/test_plot.py", 207, 2,
    false, ["band"], false⟩]⟩]

/-- tests/galsim_tests/test_psf/make_summary.py:1-90, the functions and constructors that are called by name. -/
def testsGalsimTestsTestPsfMakeSummaryCalled : List Callee := [
  ⟨"make_tag", ⟨["config"], 0, false, [], false⟩, [⟨"tests/galsim_tests/test_psf/make_summary.py", 41, 1, false,
    [], false⟩]⟩,
  ⟨"make_all_tags", ⟨["grid", "config"], 0, false, [], false⟩, [⟨"tests/galsim_tests/test_psf/make_summary.py", 75,
    2, false, [], false⟩]⟩]

/-- tests/galsim_tests/test_psf/test_psf_mixture.py:1-268, the functions and constructors that are called by name. -/
def testsGalsimTestsTestPsfTestPsfMixtureCalled : List Callee := [
  ⟨"make_tag", ⟨["config"], 0, false, [], false⟩, [⟨"tests/galsim_tests/test_psf/test_psf_mixture.py", 61, 1,
    false, [], false⟩, ⟨"tests/galsim_tests/test_psf/test_psf_mixture.py", 208, 1, false, [], false⟩]⟩,
  ⟨"make_all_tags", ⟨["grid", "config"], 0, false, [], false⟩, [⟨"tests/galsim_tests/test_psf/test_psf_mixture.py",
    249, 2, false, [], false⟩]⟩,
  ⟨"make_image", ⟨["config"], 0, false, [], false⟩, [⟨"tests/galsim_tests/test_psf/test_psf_mixture.py", 217, 1,
    false, [], false⟩]⟩,
  ⟨"fit_image", ⟨["config"], 0, false, [], false⟩, [⟨"tests/galsim_tests/test_psf/test_psf_mixture.py", 223, 1,
    false, [], false⟩]⟩]

/-- tests/galsim_tests/test_sersic/test_sersic_mixture.py:1-252, the functions and constructors that are called by name. -/
def testsGalsimTestsTestSersicTestSersicMixtureCalled : List Callee := [
  ⟨"make_tag", ⟨["config"], 0, false, [], false⟩, [⟨"tests/galsim_tests/test_sersic/test_sersic_mixture.py", 62, 1,
    false, [], false⟩, ⟨"tests/galsim_tests/test_sersic/test_sersic_mixture.py", 198, 1, false, [], false⟩]⟩,
  ⟨"make_all_tags", ⟨["grid", "config"], 0, false, [], false⟩,
    [⟨"tests/galsim_tests/test_sersic/test_sersic_mixture.py", 239, 2, false, [], false⟩]⟩,
  ⟨"make_image", ⟨["config"], 0, false, [], false⟩, [⟨"tests/galsim_tests/test_sersic/test_sersic_mixture.py", 208,
    1, false, [], false⟩]⟩,
  ⟨"fit_image", ⟨["config"], 0, false, [], false⟩, [⟨"tests/galsim_tests/test_sersic/test_sersic_mixture.py", 215,
    1, false, [], false⟩]⟩]

/-- tests/galsim_tests/test_utils.py:1-295, the functions and constructors that are called by name. -/
def testsGalsimTestsTestUtilsCalled : List Callee := [
  ⟨"get_parser", ⟨[], 0, false, [], false⟩, [⟨"tests/galsim_tests/test_psf/make_summary.py", 52, 0, false, [],
    false⟩, ⟨"tests/galsim_tests/test_psf/test_psf_mixture.py", 147, 0, false, [], false⟩,
    ⟨"tests/galsim_tests/test_sersic/test_sersic_mixture.py", 149, 0, false, [], false⟩,
    ⟨"tests/galsim_tests/test_utils.py", 294, 0, false, [], false⟩]⟩,
  ⟨"get_grid_params", ⟨["config", "start", "stop"], 2, false, [], false⟩,
    [⟨"tests/galsim_tests/test_psf/test_psf_mixture.py", 187, 1, false, ["start"], false⟩,
    ⟨"tests/galsim_tests/test_sersic/test_sersic_mixture.py", 175, 1, false, ["start"], false⟩]⟩,
  ⟨"make_stamp", ⟨["band", "scale", "nx", "ny", "dither"], 4, false, [], false⟩,
    [⟨"tests/galsim_tests/test_psf/test_psf_mixture.py", 68, 1, false, ["scale", "nx", "ny"], false⟩,
    ⟨"tests/galsim_tests/test_sersic/test_sersic_mixture.py", 69, 1, false, ["scale", "nx", "ny"], false⟩]⟩,
  ⟨"make_scene", ⟨["stamps", "nsource", "dist_frac", "rhalf", "sersic", "flux", "q", "pa"], 7, false, [], false⟩,
    [⟨"tests/galsim_tests/test_psf/test_psf_mixture.py", 69, 1, false, ["dist_frac", "q", "pa", "rhalf", "sersic"],
    false⟩, ⟨"tests/galsim_tests/test_sersic/test_sersic_mixture.py", 70, 1, false, ["dist_frac", "q", "pa", "rhalf",
    "sersic"], false⟩]⟩,
  ⟨"galsim_model", ⟨["scene", "stamp", "psf", "verbose"], 2, false, [], false⟩,
    [⟨"tests/galsim_tests/test_psf/test_psf_mixture.py", 74, 2, false, ["psf"], false⟩,
    ⟨"tests/galsim_tests/test_sersic/test_sersic_mixture.py", 79, 2, false, ["psf"], false⟩]⟩,
  ⟨"get_galsim_psf", ⟨["scale", "psfimage", "sigma_psf", "psfmixture"], 3, false, [], false⟩,
    [⟨"tests/galsim_tests/test_psf/test_psf_mixture.py", 73, 1, false, ["psfimage", "sigma_psf"], false⟩,
    ⟨"tests/galsim_tests/test_sersic/test_sersic_mixture.py", 74, 1, false, ["sigma_psf"], false⟩]⟩,
  ⟨"make_psfstore", ⟨["psfstore", "band", "sigma", "nradii"], 1, false, [], false⟩,
    [⟨"tests/galsim_tests/test_sersic/test_sersic_mixture.py", 76, 3, false, ["nradii"], false⟩]⟩,
  ⟨"compute_noise_level", ⟨["scene", "config"], 0, false, [], false⟩,
    [⟨"tests/galsim_tests/test_psf/test_psf_mixture.py", 77, 2, false, [], false⟩,
    ⟨"tests/galsim_tests/test_sersic/test_sersic_mixture.py", 82, 2, false, [], false⟩]⟩,
  ⟨"write_fits_to", ⟨["out", "im", "unc", "hdr", "bands", "noise", "scene"], 3, false, [], false⟩,
    [⟨"tests/galsim_tests/test_psf/test_psf_mixture.py", 90, 5, false, ["noise", "scene"], false⟩,
    ⟨"tests/galsim_tests/test_sersic/test_sersic_mixture.py", 94, 5, false, ["noise", "scene"], false⟩]⟩]

/-- tests/slow_tests/create_test_data.py:1-155, the functions and constructors that are called by name. -/
def testsSlowTestsCreateTestDataCalled : List Callee := [
  ⟨"make_scene", ⟨["ngal", "ralims", "dec", "bands", "splinedata"], 2, false, [], false⟩,
    [⟨"tests/slow_tests/create_test_data.py", 30, 3, false, [], false⟩]⟩,
  ⟨"make_exposures", ⟨["scene", "bands", "NEXPOSURE", "EXPOSURE_SIZE"], 3, false, [], false⟩,
    [⟨"tests/slow_tests/create_test_data.py", 31, 2, false, [], false⟩]⟩,
  ⟨"make_exposure", ⟨["scene", "npix", "band", "snr_max", "pixscale", "PA", "crval", "npsf"], 5, false, [], true⟩,
    [⟨"tests/slow_tests/create_test_data.py", 78, 3, false, ["crval", "pixscale", "PA"], false⟩]⟩,
  ⟨"get_psf", ⟨["npsf"], 0, false, [], false⟩, [⟨"tests/slow_tests/create_test_data.py", 99, 1, false, [],
    false⟩]⟩,
  ⟨"write_exposures", ⟨["exps", "base"], 1, false, [], false⟩, [⟨"tests/slow_tests/create_test_data.py", 32, 1,
    false, [], false⟩]⟩]

/-- tests/slow_tests/patch_conversion.py:1-312, the functions and constructors that are called by name. -/
def testsSlowTestsPatchConversionCalled : List Callee := [
  ⟨"make_individual_stamp", ⟨["hdf5_file", "filter_name", "exp_name", "psfpath", "background"], 2, false, [],
    false⟩, [⟨"tests/slow_tests/patch_conversion.py", 235, 3, false, ["psfpath", "background"], false⟩]⟩,
  ⟨"set_scene", ⟨["sourcepars", "fluxpars", "filters", "splinedata", "free_sersic"], 2, false, [], false⟩,
    [⟨"tests/slow_tests/patch_conversion.py", 226, 3, false, ["splinedata"], false⟩]⟩,
  ⟨"get_transform_mats", ⟨["source", "wcs"], 0, false, [], false⟩, [⟨"tests/slow_tests/patch_conversion.py", 257,
    2, false, [], false⟩]⟩,
  ⟨"zerocoords", ⟨["stamps", "scene", "sky_zero"], 1, false, [], false⟩,
    [⟨"tests/slow_tests/run_patch_cpu_test_simple.py", 24, 2, false, [], false⟩]⟩,
  ⟨"patch_conversion", ⟨["patch_name", "splinedata", "psfpath", "nradii", "use_bands"], 2, false, [], false⟩,
    [⟨"tests/slow_tests/run_patch_cpu_test_simple.py", 23, 3, false, ["nradii"], false⟩,
    ⟨"tests/slow_tests/test_grad_patch.py", 65, 3, false, ["nradii"], false⟩]⟩]

/-- tests/slow_tests/test_grad_patch.py:1-79, the functions and constructors that are called by name. -/
def testsSlowTestsTestGradPatchCalled : List Callee := [
  ⟨"numerical_image_gradients", ⟨["theta0", "delta", "scene", "stamp"], 2, false, [], false⟩,
    [⟨"tests/slow_tests/test_grad_patch.py", 37, 4, false, [], false⟩]⟩,
  ⟨"test_image_gradients", ⟨["ptrue", "delta", "scene", "stamp"], 3, false, [], false⟩,
    [⟨"tests/slow_tests/test_grad_patch.py", 69, 1, false, ["delta", "scene", "stamp"], false⟩]⟩]

/-- tests/slow_tests/test_gradients.py:1-180, the functions and constructors that are called by name. -/
def testsSlowTestsTestGradientsCalled : List Callee := [
  ⟨"set_params", ⟨["g", "theta"], 0, false, [], false⟩, [⟨"tests/slow_tests/test_gradients.py", 22, 2, false, [],
    false⟩, ⟨"tests/slow_tests/test_gradients.py", 27, 2, false, [], false⟩]⟩,
  ⟨"numerical_gaussian_gradients", ⟨["g", "xpix", "ypix", "theta0", "delta"], 0, false, [], false⟩,
    [⟨"tests/slow_tests/test_gradients.py", 83, 5, false, [], false⟩]⟩,
  ⟨"test_image_gaussian_gradients", ⟨["dp"], 1, false, [], false⟩, [⟨"tests/slow_tests/test_gradients.py", 180, 1,
    false, [], false⟩]⟩,
  ⟨"numerical_image_gradients", ⟨["theta0", "delta", "scene", "stamp"], 2, false, [], false⟩,
    [⟨"tests/slow_tests/test_gradients.py", 118, 4, false, [], false⟩]⟩]

/-- tests/slow_tests/test_photocounts.py:1-116, the functions and constructors that are called by name. -/
def testsSlowTestsTestPhotocountsCalled : List Callee := [
  ⟨"numerical_image_gradients", ⟨["theta0", "delta", "scene", "stamp"], 2, false, [], false⟩,
    [⟨"tests/slow_tests/test_photocounts.py", 38, 4, false, [], false⟩]⟩,
  ⟨"test_image_gradients", ⟨["ptrue", "delta", "scene", "stamp"], 3, false, [], false⟩,
    [⟨"tests/slow_tests/test_photocounts.py", 114, 1, false, ["delta", "scene", "stamp"], false⟩]⟩,
  ⟨"get_scene", ⟨["ngal", "nx", "bands"], 1, false, [], true⟩, [⟨"tests/slow_tests/test_photocounts.py", 110, 2,
    false, ["bands"], false⟩]⟩,
  ⟨"get_stamps", ⟨["nstamp", "nx", "npsf", "bands", "scene", "pixscale"], 3, false, [], true⟩,
    [⟨"tests/slow_tests/test_photocounts.py", 111, 3, false, ["bands", "scene"], false⟩]⟩,
  ⟨"get_psf", ⟨["npsf"], 0, false, [], false⟩, [⟨"tests/slow_tests/test_photocounts.py", 83, 1, false, [],
    false⟩]⟩]

/-- tests/slow_tests/test_shear.py:1-119, the functions and constructors that are called by name. -/
def testsSlowTestsTestShearCalled : List Callee := [
  ⟨"numerical_image_gradients", ⟨["theta0", "delta", "source", "stamp"], 2, false, [], false⟩,
    [⟨"tests/slow_tests/test_shear.py", 64, 4, false, [], false⟩]⟩,
  ⟨"dograd", ⟨["q", "phi", "conformal", "plot"], 2, false, [], false⟩, [⟨"tests/slow_tests/test_shear.py", 14, 2,
    false, ["conformal"], false⟩, ⟨"tests/slow_tests/test_shear.py", 15, 2, false, ["conformal"], false⟩]⟩,
  ⟨"show", ⟨["grad", "grad_num", "stamp"], 0, false, [], false⟩, [⟨"tests/slow_tests/test_shear.py", 69, 3, false,
    [], false⟩]⟩]

/-- tests/slow_tests/test_simple.py:1-192, the functions and constructors that are called by name. -/
def testsSlowTestsTestSimpleCalled : List Callee := [
  ⟨"test_lnlike_and_grads", ⟨[], 0, false, [], false⟩, [⟨"tests/slow_tests/test_simple.py", 192, 0, false, [],
    false⟩]⟩,
  ⟨"make_scene", ⟨["ngal", "ralims", "dec", "bands", "splinedata"], 2, false, [], false⟩,
    [⟨"tests/slow_tests/test_simple.py", 39, 3, false, ["bands"], false⟩]⟩,
  ⟨"read_patch", ⟨["test_pattern", "ralims", "declims"], 3, false, [], false⟩, [⟨"tests/slow_tests/test_simple.py",
    32, 0, false, [], false⟩]⟩,
  ⟨"read_exposure", ⟨["fname", "patchralims", "patchdeclims", "mask"], 1, false, [], false⟩,
    [⟨"tests/slow_tests/test_simple.py", 100, 3, false, ["mask"], false⟩]⟩,
  ⟨"get_psf", ⟨["npsf"], 0, false, [], false⟩, [⟨"tests/slow_tests/test_simple.py", 142, 1, false, [], false⟩]⟩,
  ⟨"pixelcoords_to_skycoords", ⟨["stamp"], 0, false, [], false⟩, [⟨"tests/slow_tests/test_simple.py", 150, 1,
    false, [], false⟩]⟩]

/-- tests/slow_tests/test_undersample.py:1-158, the functions and constructors that are called by name. -/
def testsSlowTestsTestUndersampleCalled : List Callee := [
  ⟨"get_stamp", ⟨["n", "dx", "filtername"], 2, false, [], false⟩, [⟨"tests/slow_tests/test_undersample.py", 93, 1,
    false, [], false⟩, ⟨"tests/slow_tests/test_undersample.py", 99, 2, false, [], false⟩]⟩,
  ⟨"get_image", ⟨["x", "y", "scene", "stamp"], 0, false, [], true⟩, [⟨"tests/slow_tests/test_undersample.py", 43,
    4, false, [], false⟩, ⟨"tests/slow_tests/test_undersample.py", 44, 4, false, [], false⟩]⟩,
  ⟨"rebin", ⟨["a", "new_shape"], 0, false, [], false⟩, [⟨"tests/slow_tests/test_undersample.py", 45, 2, false, [],
    false⟩, ⟨"tests/slow_tests/test_undersample.py", 126, 2, false, [], false⟩]⟩,
  ⟨"display", ⟨["ims", "labels", "radius"], 1, false, [], false⟩, [⟨"tests/slow_tests/test_undersample.py", 133, 2,
    false, ["radius"], false⟩]⟩]

/-- tests/slow_tests/timing.py:1-213, the functions and constructors that are called by name. -/
def testsSlowTestsTimingCalled : List Callee := [
  ⟨"get_scene", ⟨["ngal", "nx", "nband"], 1, false, [], true⟩, [⟨"tests/slow_tests/timing.py", 103, 2, false,
    ["nband"], false⟩, ⟨"tests/slow_tests/timing.py", 111, 2, false, ["nband"], false⟩,
    ⟨"tests/slow_tests/timing.py", 119, 2, false, ["nband"], false⟩, ⟨"tests/slow_tests/timing.py", 126, 2, false,
    ["nband"], false⟩, ⟨"tests/slow_tests/timing.py", 134, 2, false, ["nband"], false⟩]⟩,
  ⟨"get_stamps", ⟨["nstamp", "nx", "npsf", "nband", "pixscale"], 2, false, [], true⟩,
    [⟨"tests/slow_tests/timing.py", 104, 3, false, ["nband"], false⟩, ⟨"tests/slow_tests/timing.py", 112, 3, false,
    ["nband"], false⟩, ⟨"tests/slow_tests/timing.py", 120, 3, false, ["nband"], false⟩,
    ⟨"tests/slow_tests/timing.py", 127, 3, false, ["nband"], false⟩, ⟨"tests/slow_tests/timing.py", 135, 3, false,
    ["nband"], false⟩]⟩,
  ⟨"get_psf", ⟨["npsf"], 0, false, [], false⟩, [⟨"tests/slow_tests/timing.py", 64, 1, false, [], false⟩]⟩,
  ⟨"time_call", ⟨["stmt", "reps"], 1, false, [], false⟩, [⟨"tests/slow_tests/timing.py", 107, 1, false, [], false⟩,
    ⟨"tests/slow_tests/timing.py", 114, 1, false, [], false⟩, ⟨"tests/slow_tests/timing.py", 121, 1, false, [],
    false⟩, ⟨"tests/slow_tests/timing.py", 129, 1, false, [], false⟩, ⟨"tests/slow_tests/timing.py", 137, 1, false,
    [], false⟩]⟩,
  ⟨"lnlike_test", ⟨["nband", "nx", "ngal", "nstamp", "npsf"], 5, false, [], false⟩, [⟨"tests/slow_tests/timing.py",
    156, 0, false, ["nx"], false⟩, ⟨"tests/slow_tests/timing.py", 157, 0, false, ["nx", "nstamp"], false⟩,
    ⟨"tests/slow_tests/timing.py", 158, 0, false, ["nx", "ngal"], false⟩, ⟨"tests/slow_tests/timing.py", 159, 0,
    false, ["nx", "npsf"], false⟩]⟩,
  ⟨"convert_test", ⟨["npsf", "nx"], 2, false, [], true⟩, [⟨"tests/slow_tests/timing.py", 210, 2, false, [], false⟩,
    ⟨"tests/slow_tests/timing.py", 212, 2, false, [], false⟩]⟩,
  ⟨"convert_grad_test", ⟨["npsf", "nx"], 2, false, [], true⟩, [⟨"tests/slow_tests/timing.py", 210, 2, false, [],
    false⟩]⟩,
  ⟨"compute_test", ⟨["npsf", "nx"], 2, false, [], true⟩, [⟨"tests/slow_tests/timing.py", 210, 2, false,
    ["compute_deriv"], false⟩, ⟨"tests/slow_tests/timing.py", 212, 2, false, ["compute_deriv"], false⟩]⟩]

/-- tests/slow_tests/undersample_figure.py:1-138, the functions and constructors that are called by name. -/
def testsSlowTestsUndersampleFigureCalled : List Callee := [
  ⟨"get_stamp", ⟨["n", "dx", "filtername"], 2, false, [], false⟩, [⟨"tests/slow_tests/undersample_figure.py", 42,
    1, false, [], false⟩, ⟨"tests/slow_tests/undersample_figure.py", 48, 2, false, [], false⟩]⟩,
  ⟨"rebin", ⟨["a", "new_shape"], 0, false, [], false⟩, [⟨"tests/slow_tests/undersample_figure.py", 77, 2, false,
    [], false⟩]⟩]

/-- tests/verification/make_reference.py:1-161, the functions and constructors that are called by name. -/
def testsVerificationMakeReferenceCalled : List Callee := [
  ⟨"get_githash", ⟨[], 0, false, [], false⟩, [⟨"tests/verification/make_reference.py", 141, 0, false, [], false⟩]⟩,
  ⟨"forcepho_slow_model", ⟨["catrow", "stamp", "band", "psf", "splinedata"], 2, false, [], false⟩,
    [⟨"tests/verification/make_reference.py", 133, 3, false, ["psf"], false⟩]⟩,
  ⟨"config_to_cat", ⟨["config", "stamp", "origin"], 1, false, [], false⟩, [⟨"tests/verification/make_reference.py",
    132, 2, false, ["origin"], false⟩]⟩,
  ⟨"make_stamp", ⟨["band", "scale", "nx", "ny"], 3, false, [], false⟩, [⟨"tests/verification/make_reference.py",
    131, 1, false, ["scale", "nx", "ny"], false⟩]⟩]

/-- tests/verification/verify_reference.py:1-238, the functions and constructors that are called by name. -/
def testsVerificationVerifyReferenceCalled : List Callee := [
  ⟨"test_ingredients", ⟨["config_file", "reference_image", "bandlist", "kernel_type"], 4, false, [], false⟩,
    [⟨"tests/verification/verify_reference.py", 98, 0, false, [], false⟩, ⟨"tests/verification/verify_reference.py",
    121, 0, false, [], false⟩, ⟨"tests/verification/verify_reference.py", 152, 0, false, [], false⟩,
    ⟨"tests/verification/verify_reference.py", 190, 0, false, [], false⟩, ⟨"tests/verification/verify_reference.py",
    215, 0, false, [], true⟩]⟩]

/-- All of them. -/
def called : List Callee :=
  approxPsfMakePsfCalled ++
  demoDemoBasicBasicCalled ++
  demoDemoBasicBasicPlotCalled ++
  demoDemoBasicBasicSceneDBCalled ++
  demoDemoColorColorPlotSeparateCalled ++
  demoDemoColorColorPlotTogetherCalled ++
  demoDemoMosaicMosaicCombineDithersCalled ++
  demoDemoMosaicMosaicPlotCalled ++
  demoDemoOptimizeOptimizeCalled ++
  demoDemoOptimizeOptimizePlotCalled ++
  demoDemoPairPairPlotCalled ++
  demoDemoPsfMakeJwstPsfMakePsfCalled ++
  demoDemoPsfMakeJwstPsfWebbpsfOpdCalled ++
  demoDemoPsfPsfGridFitCalled ++
  demoDemoPsfPsfGridPlotCalled ++
  demoDemoPsfPsfOneFitCalled ++
  demoDemoPsfPsfPlotCalled ++
  demoDemoSceneScenePlotCalled ++
  demoDemoSnrSinglePlotCalled ++
  demoDemoUtilsCalled ++
  forcephoConfigCalled ++
  forcephoDispatcherCalled ++
  forcephoFittingCalled ++
  forcephoMixturesPsfMixEmCalled ++
  forcephoMixturesPsfMixHmcCalled ++
  forcephoMixturesSersicMixOnedCalled ++
  forcephoMixturesSersicMixTwodCalled ++
  forcephoMixturesTestSplinesCalled ++
  forcephoMixturesUtilsEmCalled ++
  forcephoMixturesUtilsHmcCalled ++
  forcephoModelCalled ++
  forcephoPatchesDevicePatchCalled ++
  forcephoPatchesPatchCalled ++
  forcephoPatchesPixelPatchCalled ++
  forcephoPatchesStaticPatchCalled ++
  forcephoPatchesStorageCalled ++
  forcephoPostprocessCalled ++
  forcephoPriorsCalled ++
  forcephoProposalCalled ++
  forcephoRegionCalled ++
  forcephoSlowGaussmodelCalled ++
  forcephoSlowLikelihoodCalled ++
  forcephoSlowPsfCalled ++
  forcephoSlowStampCalled ++
  forcephoSourcesCalled ++
  forcephoSupersceneCalled ++
  forcephoUtilsInitCalled ++
  forcephoUtilsCatalogCalled ++
  forcephoUtilsChainCalled ++
  forcephoUtilsCornerCalled ++
  forcephoUtilsDs9Called ++
  forcephoUtilsIoCalled ++
  forcephoUtilsProfileCalled ++
  forcephoUtilsWcsCalled ++
  setupCalled ++
  testsGalsimTestsTestPlotCalled ++
  testsGalsimTestsTestPsfMakeSummaryCalled ++
  testsGalsimTestsTestPsfTestPsfMixtureCalled ++
  testsGalsimTestsTestSersicTestSersicMixtureCalled ++
  testsGalsimTestsTestUtilsCalled ++
  testsSlowTestsCreateTestDataCalled ++
  testsSlowTestsPatchConversionCalled ++
  testsSlowTestsTestGradPatchCalled ++
  testsSlowTestsTestGradientsCalled ++
  testsSlowTestsTestPhotocountsCalled ++
  testsSlowTestsTestShearCalled ++
  testsSlowTestsTestSimpleCalled ++
  testsSlowTestsTestUndersampleCalled ++
  testsSlowTestsTimingCalled ++
  testsSlowTestsUndersampleFigureCalled ++
  testsVerificationMakeReferenceCalled ++
  testsVerificationVerifyReferenceCalled

end Forcepho.Calls
