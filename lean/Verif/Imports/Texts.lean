import Verif.Imports.Model

/-!
# C159: the top level of the modules and scripts

The statements executed when each module of forcepho is imported, and those of the scripts of tests/verification,
tests/slow_tests and util up to their bodies, transcribed from the sources: imports, `__all__`, and the names bound by `def`, `class`,
assignments, loops and `with`.  What stands under `if __name__ == "__main__"` or `if False` is not executed.
-/

set_option autoImplicit false

namespace Forcepho.Imports

/-- forcepho/__init__.py:1-6, the top level. -/
def forcephoText : Text := [
  .frm ["forcepho"] [("mixtures", "mixtures")],
  .frm ["forcepho", "_version"] [("__version__", "__version__")],
  .ext "os" ["os"],
  .bind ["source_dir"]]

/-- forcepho/config.py:1-303, the top level. -/
def forcephoConfigText : Text := [
  .ext "os" ["os"],
  .ext "argparse" ["argparse"],
  .ext "argparse" ["Namespace", "ArgumentParser"],
  .ext "numpy" ["np"],
  .setAll ["main_config_parser", "preprocess_config_parser", "default_config_file", "parse_all", "read_config",
    "make_bounds_kwargs", "new_args", "yaml_to_namespace", "update_config", "rectify_config"],
  .bind ["main_config_parser", "preprocess_config_parser", "default_config_file", "parse_all", "make_bounds_kwargs",
    "yaml_to_namespace", "update_config", "rectify_config", "new_args", "read_config"]]

/-- forcepho/dispatcher.py:1-356, the top level. -/
def forcephoDispatcherText : Text := [
  .ext "os" ["os"],
  .ext "json" ["json"],
  .ext "logging" ["logging"],
  .ext "argparse" ["argparse"],
  .ext "time" ["time"],
  .ext "argparse" ["Namespace"],
  .ext "socket" ["socket"],
  .ext "numpy" ["np"],
  .ext "astropy.io" ["fits"],
  .frm ["forcepho", "superscene"] [("SuperScene", "SuperScene"), ("LinkedSuperScene", "LinkedSuperScene"),
    ("rectify_catalog", "rectify_catalog")],
  .frm ["forcepho", "utils"] [("read_config", "read_config")],
  .setAll ["MPIQueue", "do_child", "do_parent"],
  .bind ["MPIQueue", "do_parent", "do_child", "dummy_work", "main", "ArgParseFormatter"]]

/-- forcepho/fitting.py:1-674, the top level. -/
def forcephoFittingText : Text := [
  .ext "sys" ["sys"],
  .ext "os" ["os"],
  .ext "time" ["time"],
  .ext "functools" ["argfix"],
  .ext "numpy" ["np"],
  .frm ["forcepho", "model"] [("ConstrainedTransformedPosterior", "Posterior")],
  .frm ["forcepho", "utils"] [("make_statscat", "make_statscat"), ("make_chaincat", "make_chaincat"),
    ("get_sample_cat", "get_sample_cat"), ("extract_block_diag", "extract_block_diag")],
  .frm ["forcepho", "region"] [("CircularRegion", "CircularRegion")],
  .setAll ["Result", "run_lmc", "run_opt", "run_pymc3", "run_dynesty", "optimize_fluxes", "optimize_one_band"],
  .bind ["Result", "run_lmc", "warmup_rounds", "get_pot", "run_opt", "run_opt_bounded", "run_pymc3", "run_dynesty",
    "optimize_one_band", "optimize_fluxes"]]

/-- forcepho/kernel_limits.py:1-40, the top level. -/
def forcephoKernelLimitsText : Text := [
  .ext "re" ["re"],
  .ext "os.path" ["os"],
  .frm ["forcepho"] [("source_dir", "source_dir")],
  .bind ["fn", "fp", "lines", "regexp", "macros", "line", "match", "name", "value", "MAXBANDS", "MAXSOURCES",
    "NPARAMS", "MAX_EXP_ARG", "NUMACCUMS", "MAXRADII"],
  .setAll ["MAXBANDS", "MAXSOURCES", "NPARAMS", "MAX_EXP_ARG", "NUMACCUMS", "MAXRADII"]]

/-- forcepho/mixtures/__init__.py:1-3, the top level. -/
def forcephoMixturesText : Text := [
  .frm ["forcepho", "mixtures"] [("psf_mix_hmc", "psf_mix_hmc")],
  .frm ["forcepho", "mixtures"] [("sersic_mix_twod", "sersic_mix_twod")],
  .frm ["forcepho", "mixtures"] [("utils_hmc", "utils_hmc")]]

/-- forcepho/mixtures/psf_mix_em.py:1-209, the top level. -/
def forcephoMixturesPsfMixEmText : Text := [
  .ext "numpy" ["np"],
  .ext "scipy.optimize" ["least_squares"],
  .bind ["noncentral_moment", "central_moment", "mean_params", "cov_params", "easy_init", "random_init", "mvn_pdf",
    "mvn_pdf_2d", "mvn_pdf_2d_mix_fn", "normalized", "fit_mvn_mix"]]

/-- forcepho/mixtures/psf_mix_hmc.py:1-207, the top level. -/
def forcephoMixturesPsfMixHmcText : Text := [
  .ext "numpy" ["np"],
  .attempt [("jax.numpy", ["jnp"]), ("numpyro", ["numpyro"]), ("numpyro.distributions", ["dist"])] [],
  .setAll ["psf_model", "psf_prediction", "smooth_psf"],
  .bind ["smooth_psf", "psf_prediction", "psf_model"]]

/-- forcepho/mixtures/sersic_mix_oned.py:1-475, the top level. -/
def forcephoMixturesSersicMixOnedText : Text := [
  .ext "itertools" ["product"],
  .ext "scipy.special" ["factorial"],
  .ext "numpy" ["np"],
  .ext "functools" ["partial"],
  .attempt [("matplotlib.pyplot", ["pl"]), ("matplotlib.backends.backend_pdf", ["PdfPages"])] [],
  .ext "h5py" ["h5py"],
  .ext "scipy.special" ["gamma", "gammainc", "gammaincinv"],
  .ext "scipy.special" ["hyper"],
  .ext "scipy.optimize" ["minimize"],
  .bind ["rgrid", "fit_gaussians", "chisq", "sersic_profile", "normal_oned", "normal", "plot_profiles",
    "rfrac_from_halfn", "plot_cfd", "gauss_cfd", "amplitude_table", "plot_amps", "fit_profiles"]]

/-- forcepho/mixtures/sersic_mix_twod.py:1-248, the top level. -/
def forcephoMixturesSersicMixTwodText : Text := [
  .ext "numpy" ["np"],
  .attempt [("jax.numpy", ["jnp"]), ("jax", ["random", "lax"]), ("numpyro", ["numpyro"]), ("numpyro.distributions",
    ["dist"]), ("", ["AUTOGRAD"])] ["AUTOGRAD"],
  .setAll ["sersic_prediction", "sersic_model", "get_kernel"],
  .bind ["sersic_prediction", "sersic_model", "get_kernel", "free_sersic_prediction"]]

/-- forcepho/mixtures/test_splines.py:1-92, the top level. -/
def forcephoMixturesTestSplinesText : Text := [
  .ext "numpy" ["np"],
  .ext "matplotlib.pyplot" ["pl"],
  .ext "matplotlib.backends.backend_pdf" ["PdfPages"],
  .ext "h5py" ["h5py"],
  .ext "sys" ["sys"],
  .ext "scipy.interpolate" ["SmoothBivariateSpline"],
  .ext "scipy.special" ["gamma", "gammainc"],
  .ext "gaussian_galaxy" ["sersic_profile", "normal_oned"],
  .ext "gaussian_galaxy" ["plot_profiles", "plot_cfd"],
  .bind ["gauss_sersic_profile", "fn", "data", "n", "r", "A", "smoothing", "radii", "xx", "nm", "ng", "splines",
    "show_splines"]]

/-- forcepho/mixtures/utils_em.py:1-208, the top level. -/
def forcephoMixturesUtilsEmText : Text := [
  .ext "numpy" ["np"],
  .attempt [("matplotlib.pyplot", ["pl"]), ("matplotlib.cm", ["get_cmap"]), ("matplotlib.backends.backend_pdf",
    ["PdfPages"])] [],
  .attempt [("cPickle", ["pickle"])] ["pickle"],
  .ext "astropy.io" ["fits"],
  .ext "h5py" ["h5py"],
  .ext "json" ["json"],
  .frm ["forcepho", "mixtures", "psf_mix_em"] [("fit_mvn_mix", "fit_mvn_mix")],
  .frm ["forcepho", "slow", "psf"] [("params_to_gauss", "params_to_gauss")],
  .setAll ["psf_mixture"],
  .bind ["radial_profile", "psf_mixture", "plot_model", "draw_ellipses"]]

/-- forcepho/mixtures/utils_hmc.py:1-252, the top level. -/
def forcephoMixturesUtilsHmcText : Text := [
  .ext "collections" ["namedtuple"],
  .ext "numpy" ["np"],
  .attempt [("jax", ["random"]), ("numpyro.infer", ["MCMC", "NUTS", "SVI", "Trace_ELBO"]),
    ("numpyro.infer.autoguide", ["AutoLaplaceApproximation", "AutoDelta"]), ("numpyro.optim", ["optim"])] [],
  .bind ["Image", "infer", "show_exp", "display", "radial_plot", "ee_plot", "draw_ellipses"]]

/-- forcepho/model.py:1-637, the top level. -/
def forcephoModelText : Text := [
  .ext "numpy" ["np"],
  .ext "scipy.special" ["expit"],
  .attempt [("theano", ["theano"]), ("theano.tensor", ["tt"]), ("", ["Op"])] ["Op", "tt"],
  .attempt [("pycuda", ["pycuda"]), ("pycuda.autoinit", ["pycuda"])] [],
  .frm ["forcepho", "kernel_limits"] [("MAXBANDS", "MAXBANDS"), ("MAXRADII", "MAXRADII"), ("MAXSOURCES",
    "MAXSOURCES"), ("NPARAMS", "NPARAMS")],
  .frm ["forcepho", "slow", "likelihood"] [("lnlike_multi", "lnlike_multi"), ("make_image", "make_image"),
    ("WorkPlan", "WorkPlan")],
  .setAll ["Posterior", "FastPosterior", "SlowPosterior", "LogLikeWithGrad", "Transform", "BoundedTransform"],
  .bind ["Posterior", "FastPosterior", "GPUPosterior", "SlowPosterior", "ConstrainedTransformedPosterior",
    "ModelGradOp", "LogLikeWithGrad", "sigmoid", "logit", "sigmoid_grad", "Transform", "BoundedTransform"]]

/-- forcepho/patches/__init__.py:1-17, the top level. -/
def forcephoPatchesText : Text := [
  .frm ["forcepho", "patches", "patch"] [("Patch", "Patch")],
  .frm ["forcepho", "patches", "device_patch"] [("GPUPatchMixin", "GPUPatchMixin"), ("CPUPatchMixin",
    "CPUPatchMixin")],
  .frm ["forcepho", "patches", "pixel_patch"] [("PixelPatch", "PixelPatch"), ("StorePatch", "StorePatch"),
    ("FITSPatch", "FITSPatch"), ("DirectPatch", "DirectPatch")],
  .setAll ["Patch", "PixelPatch", "StorePatch", "FITSPatch", "DirectPatch", "JadesPatch", "SimplePatch"],
  .bind ["JadesPatch", "SimplePatch"]]

/-- forcepho/patches/device_patch.py:1-555, the top level. -/
def forcephoPatchesDevicePatchText : Text := [
  .ext "numpy" ["np"],
  .frm ["forcepho", "sources"] [("Scene", "Scene"), ("Galaxy", "Galaxy")],
  .frm ["forcepho", "proposal"] [("GPUProposer", "GPUProposer"), ("CPUProposer", "CPUProposer")],
  .frm ["forcepho", "model"] [("FastPosterior", "FastPosterior"), ("Transform", "Transform")],
  .frm ["forcepho", "superscene"] [("bounds_vectors", "bounds_vectors")],
  .frm ["forcepho"] [("source_dir", "source_dir")],
  .attempt [("pycuda", ["pycuda"]), ("pycuda.driver", ["cuda"])] [],
  .setAll ["GPUPatchMixin", "CPUPatchMixin"],
  .bind ["DevicePatchMixin", "GPUPatchMixin", "CPUPatchMixin"]]

/-- forcepho/patches/patch.py:1-499, the top level. -/
def forcephoPatchesPatchText : Text := [
  .ext "numpy" ["np"],
  .frm ["forcepho", "sources"] [("Scene", "Scene"), ("Galaxy", "Galaxy")],
  .frm ["forcepho", "patches", "storage"] [("PSF_COLS", "PSF_COLS"), ("PSFStore", "PSFStore")],
  .frm ["forcepho", "utils"] [("scale_at_sky", "scale_at_sky")],
  .setAll ["PatchBase", "Patch"],
  .bind ["PatchBase", "Patch"]]

/-- forcepho/patches/pixel_patch.py:1-550, the top level. -/
def forcephoPatchesPixelPatchText : Text := [
  .ext "numpy" ["np"],
  .ext "astropy.io" ["fits"],
  .ext "astropy.wcs" ["WCS"],
  .frm ["forcepho", "patches", "storage"] [("MetaStore", "MetaStore"), ("PixelStore", "PixelStore")],
  .frm ["forcepho", "patches", "patch"] [("Patch", "Patch")],
  .setAll ["PixelPatch", "StorePatch", "FITSPatch", "DirectPatch", "JWST_BANDS"],
  .bind ["JWST_BANDS", "PixelPatch", "StorePatch", "FITSPatch", "DirectPatch"]]

/-- forcepho/patches/static_patch.py:1-337, the top level. -/
def forcephoPatchesStaticPatchText : Text := [
  .ext "numpy" ["np"],
  .frm ["forcepho", "patches", "patch"] [("PatchBase", "PatchBase")],
  .setAll ["StaticPatch", "patch_to_stamps"],
  .bind ["StaticPatch", "patch_to_stamps"]]

/-- forcepho/patches/storage.py:1-578, the top level. -/
def forcephoPatchesStorageText : Text := [
  .ext "os" ["os"],
  .ext "collections" ["namedtuple"],
  .ext "numpy" ["np"],
  .ext "h5py" ["h5py"],
  .ext "astropy.io" ["fits"],
  .ext "astropy.wcs" ["WCS"],
  .frm ["forcepho", "region"] [("polygon_contains", "polygon_contains")],
  .ext "warnings" ["warnings"],
  .ext "astropy.utils.exceptions" ["AstropyWarning"],
  .setAll ["PixelStore", "MetaStore", "PSFStore", "ImageNameSet", "ImageSet", "header_to_id"],
  .bind ["ImageNameSet", "ImageSet", "EXP_FMT", "PSF_COLS", "PSF_DTYPE", "header_to_id", "PixelStore", "MetaStore",
    "PSFStore"]]

/-- forcepho/postprocess.py:1-683, the top level. -/
def forcephoPostprocessText : Text := [
  .ext "os" ["os"],
  .ext "glob" ["glob"],
  .ext "numpy" ["np"],
  .attempt [("matplotlib.pyplot", ["pl"]), ("matplotlib.backends.backend_pdf", ["PdfPages"])] [],
  .ext "json" ["json"],
  .ext "astropy.io" ["fits"],
  .ext "h5py" ["h5py"],
  .frm ["forcepho", "fitting"] [("Result", "Result")],
  .frm ["forcepho", "utils"] [("sky_to_pix", "sky_to_pix"), ("populate_image", "populate_image"),
    ("isophotal_radius", "isophotal_radius")],
  .frm ["forcepho", "patches", "storage"] [("MetaStore", "MetaStore")],
  .frm ["forcepho", "superscene"] [("flux_bounds", "flux_bounds")],
  .setAll ["Residuals", "Samples", "run_metadata", "postop_catalog", "postsample_catalog", "make_errorbars",
    "flux_unc_linear", "write_sourcereg", "write_patchreg", "write_images", "show_exp", "residual_pdf", "chain_pdf",
    "combined_rhalf"],
  .bind ["Residuals", "Samples", "run_metadata", "postop_catalog", "postsample_catalog", "flux_unc_linear",
    "find_multipatch", "check_multipatch", "write_sourcereg", "write_patchreg", "write_images", "residual_pdf",
    "chain_pdf", "show_exp", "show_precision", "combined_rhalf", "forcepho_slow_model"]]

/-- forcepho/priors.py:1-205, the top level. -/
def forcephoPriorsText : Text := [
  .ext "numpy" ["np"],
  .setAll ["LogPrior", "ExpBeta", "Barrier"],
  .bind ["LogPrior", "ExpBeta", "Barrier", "Beta", "Normal", "GenNormal", "HalfNormal", "StudentT", "LogUniform",
    "TruncatedCauchy", "test_grad", "test_min_with_prior"]]

/-- forcepho/proposal.py:1-244, the top level. -/
def forcephoProposalText : Text := [
  .ext "sys" ["sys"],
  .ext "os.path" ["os"],
  .ext "numpy" ["np"],
  .frm ["forcepho"] [("source_dir", "source_dir")],
  .frm ["forcepho", "kernel_limits"] [("MAXBANDS", "MAXBANDS"), ("MAXRADII", "MAXRADII"), ("MAXSOURCES",
    "MAXSOURCES"), ("NPARAMS", "NPARAMS")],
  .attempt [("pycuda", ["pycuda"]), ("pycuda.driver", ["cuda"]), ("pycuda.compiler", ["SourceModule"])] [],
  .setAll ["ProposerBase", "Proposer", "GPUProposer", "CPUProposer"],
  .bind ["ProposerBase", "GPUProposer", "Proposer", "CPUProposer", "source_float_dt", "source_struct_dtype",
    "response_float_dt", "response_struct_dtype"]]

/-- forcepho/region.py:1-302, the top level. -/
def forcephoRegionText : Text := [
  .ext "numpy" ["np"],
  .ext "astropy.wcs" ["WCS"],
  .setAll ["Region", "CircularRegion", "RectangularRegion", "polygons_overlap", "polygon_contains"],
  .bind ["Region", "CircularRegion", "RectangularRegion", "polygons_overlap", "polygon_contains"]]

/-- forcepho/slow/__init__.py:1-3, the top level. -/
def forcephoSlowText : Text := []

/-- forcepho/slow/gaussmodel.py:1-646, the top level. -/
def forcephoSlowGaussmodelText : Text := [
  .ext "numpy" ["np"],
  .setAll ["ImageGaussian", "GaussianImageGalaxy", "convert_to_gaussians", "get_gaussian_gradients",
    "compute_gaussian"],
  .bind ["ImageGaussian", "GaussianImageGalaxy", "convert_to_gaussians", "_convert_to_gaussians",
    "get_gaussian_gradients", "_get_gaussian_gradients", "compute_gaussian", "_compute_gaussian", "compute_gig",
    "scale_matrix", "rotation_matrix", "scale_matrix_deriv", "rotation_matrix_deriv", "fast_inv_2x2", "fast_det_2x2",
    "fast_trace_2x2", "fast_dot_dot_2x2", "fast_matmul_matmul_2x2"]]

/-- forcepho/slow/likelihood.py:1-316, the top level. -/
def forcephoSlowLikelihoodText : Text := [
  .ext "numpy" ["np"],
  .frm ["forcepho", "slow", "gaussmodel"] [("convert_to_gaussians", "convert_to_gaussians"),
    ("get_gaussian_gradients", "get_gaussian_gradients"), ("compute_gaussian", "compute_gaussian")],
  .setAll ["lnlike_multi", "negative_lnlike_multi", "make_image", "plan_sources", "WorkPlan", "FastWorkPlan"],
  .bind ["NDERIV", "lnlike_multi", "negative_lnlike_multi", "make_image", "plan_sources", "WorkPlan", "FastWorkPlan"]]

/-- forcepho/slow/psf.py:1-195, the top level. -/
def forcephoSlowPsfText : Text := [
  .ext "numpy" ["np"],
  .setAll ["PointSpreadFunction", "get_psf", "make_psf", "params_to_gauss"],
  .bind ["PointSpreadFunction", "get_psf", "make_psf", "params_to_gauss", "mvn_pdf", "mvn_pdf_2d",
    "mvn_pdf_2d_mix_fn"]]

/-- forcepho/slow/stamp.py:1-337, the top level. -/
def forcephoSlowStampText : Text := [
  .ext "numpy" ["np"],
  .setAll ["PostageStamp", "scale_at_sky"],
  .bind ["PostageStamp", "scale_at_sky", "extract_stamp", "test_astrometry"]]

/-- forcepho/sources.py:1-1067, the top level. -/
def forcephoSourcesText : Text := [
  .ext "numpy" ["np"],
  .ext "scipy.interpolate" ["SmoothBivariateSpline", "RectBivariateSpline"],
  .ext "warnings" ["warnings"],
  .attempt [("h5py", ["h5py"])] [],
  .frm ["forcepho", "slow", "gaussmodel"] [("convert_to_gaussians", "convert_to_gaussians"), ("compute_gig",
    "compute_gig")],
  .setAll ["Scene", "Source", "Star", "SimpleGalaxy", "Galaxy", "ConformalShearGalaxy"],
  .bind ["Scene", "Source", "Galaxy", "Star", "SimpleGalaxy", "ConformalShearGalaxy", "scale_matrix",
    "rotation_matrix", "scale_matrix_deriv", "rotation_matrix_deriv", "dummy_spline", "gauss"]]

/-- forcepho/superscene.py:1-1059, the top level. -/
def forcephoSupersceneText : Text := [
  .ext "os" ["os"],
  .ext "sys" ["sys"],
  .ext "json" ["json"],
  .ext "numpy" ["np"],
  .ext "scipy.spatial" ["cKDTree"],
  .ext "scipy.linalg" ["block_diag"],
  .ext "astropy.io" ["fits"],
  .ext "astropy.coordinates" ["SkyCoord"],
  .frm ["forcepho", "region"] [("CircularRegion", "CircularRegion")],
  .frm ["forcepho", "sources"] [("Galaxy", "Galaxy")],
  .setAll ["REQUIRED_COLUMNS", "SuperScene", "LinkedSuperScene", "sourcecat_dtype", "rectify_catalog", "convert_pa",
    "make_bounds", "bounds_vectors", "check_bounds", "flux_bounds", "adjust_bounds"],
  .bind ["REQUIRED_COLUMNS", "SuperScene", "LinkedSuperScene", "sourcecat_dtype", "rectify_catalog", "make_bounds",
    "bounds_vectors", "check_bounds", "flux_bounds", "adjust_bounds", "convert_pa"]]

/-- forcepho/tasks.py:1-106, the top level. -/
def forcephoTasksText : Text := [
  .ext "argparse" ["argparse"],
  .ext "numpy" ["np"],
  .frm ["forcepho", "fitting"] [("run_lmc", "run_lmc"), ("run_opt", "run_opt"), ("optimize_fluxes",
    "optimize_fluxes")],
  .frm ["forcepho", "utils"] [("make_chaincat", "make_chaincat"), ("get_sample_cat", "get_sample_cat")],
  .frm ["forcepho", "superscene"] [("flux_bounds", "flux_bounds")],
  .bind ["optimize", "sample"]]

/-- forcepho/utils/__init__.py:1-102, the top level. -/
def forcephoUtilsText : Text := [
  .ext "time" ["time"],
  .ext "json" ["json"],
  .ext "numpy" ["np"],
  .star ["forcepho", "utils", "wcs"],
  .star ["forcepho", "utils", "chain"],
  .star ["forcepho", "utils", "ds9"],
  .star ["forcepho", "utils", "io"],
  .star ["forcepho", "utils", "profile"],
  .star ["forcepho", "utils", "catalog"],
  .bind ["Logger", "NumpyEncoder", "extract_block_diag", "populate_image"]]

/-- forcepho/utils/catalog.py:1-169, the top level. -/
def forcephoUtilsCatalogText : Text := [
  .ext "os" ["os"],
  .ext "numpy" ["np"],
  .ext "astropy.io" ["fits"],
  .setAll ["write_table", "out_dtype", "append_catalogs", "combine_chains", "pctile_cat"],
  .bind ["SHAPES", "write_table", "out_dtype", "append_catalogs", "combine_chains", "pctile_cat", "rectify_jades"]]

/-- forcepho/utils/chain.py:1-94, the top level. -/
def forcephoUtilsChainText : Text := [
  .ext "numpy" ["np"],
  .frm ["forcepho", "sources"] [("Galaxy", "Galaxy")],
  .setAll ["make_statscat", "make_chaincat", "get_sample_cat"],
  .bind ["make_statscat", "make_chaincat", "get_sample_cat"]]

/-- forcepho/utils/corner.py:1-667, the top level. -/
def forcephoUtilsCornerText : Text := [
  .ext "numpy" ["np"],
  .ext "scipy.ndimage" ["norm_kde"],
  .attempt [("matplotlib.pyplot", ["pl"]), ("matplotlib.ticker", ["MaxNLocator", "NullLocator"]),
    ("matplotlib.ticker", ["ScalarFormatter"]), ("matplotlib.colors", ["LinearSegmentedColormap",
    "colorConverter"])] [],
  .setAll ["allcorner", "show_extras", "prettify_axes", "corner", "twodhist", "marginal", "scatter", "get_spans",
    "quantile", "_quantile", "get_cmap"],
  .bind ["allcorner", "show_extras", "prettify_axes", "corner", "twodhist", "marginal", "scatter", "get_spans",
    "quantile", "_quantile", "get_cmap", "demo"]]

/-- forcepho/utils/ds9.py:1-61, the top level. -/
def forcephoUtilsDs9Text : Text := [
  .ext "os" ["os"],
  .ext "glob" ["glob"],
  .ext "numpy" ["np"],
  .ext "astropy.io" ["fits"],
  .ext "astropy" ["u"],
  .ext "astropy.coordinates" ["SkyCoord"],
  .setAll ["cat_to_regions", "annotate_regions"],
  .bind ["cat_to_regions", "annotate_regions"]]

/-- forcepho/utils/io.py:1-94, the top level. -/
def forcephoUtilsIoText : Text := [
  .ext "numpy" ["np"],
  .ext "json" ["json"],
  .ext "h5py" ["h5py"],
  .setAll ["write_to_disk", "write_residuals"],
  .bind ["write_to_disk", "write_residuals", "make_imset"]]

/-- forcepho/utils/profile.py:1-54, the top level. -/
def forcephoUtilsProfileText : Text := [
  .ext "numpy" ["np"],
  .ext "scipy.special" ["gamma", "gammainc", "gammaincinv"],
  .setAll ["frac_sersic", "kron_radius", "isophotal_radius"],
  .bind ["frac_sersic", "kron_radius", "isophotal_radius", "I_eff"]]

/-- forcepho/utils/wcs.py:1-177, the top level. -/
def forcephoUtilsWcsText : Text := [
  .ext "numpy" ["np"],
  .ext "astropy.wcs" ["AWCS"],
  .ext "astropy.io" ["fits"],
  .setAll ["scale_at_sky", "sky_to_pix"],
  .bind ["FWCS", "scale_at_sky", "sky_to_pix"]]

/-- The file written when the package is installed (setup.py:50-51). -/
def forcephoVersionText : Text := [
  .bind ["__version__"]]

/-- tests/verification/verify_reference.py:1-238, the top level. -/
def scriptVerifyReferenceText : Text := [
  .ext "os" ["os"],
  .ext "sys" ["sys"],
  .ext "glob" ["glob"],
  .ext "shutil" ["shutil"],
  .ext "time" ["time"],
  .ext "argparse" ["argparse"],
  .ext "logging" ["logging"],
  .ext "json" ["json"],
  .ext "numpy" ["np"],
  .ext "astropy.io" ["fits"],
  .frm ["forcepho"] [],
  .bind ["forcepho"],
  .frm ["forcepho", "patches"] [("FITSPatch", "FITSPatch"), ("CPUPatchMixin", "CPUPatchMixin"), ("SimplePatch",
    "SimplePatch")],
  .frm ["forcepho", "utils"] [("NumpyEncoder", "NumpyEncoder"), ("read_config", "read_config"), ("write_residuals",
    "write_residuals")],
  .frm ["forcepho", "sources"] [("Galaxy", "Galaxy")],
  .attempt [("pycuda", ["pycuda"]), ("pycuda.autoinit", ["pycuda"]), ("", ["HASGPU"])] ["HASGPU"],
  .bind ["SimpleCPUPatch", "test_ingredients", "validate", "test_chi2", "test_gradients", "display"]]

/-- tests/verification/make_reference.py:1-161, the top level. -/
def scriptMakeReferenceText : Text := [
  .ext "argparse" ["argparse"],
  .ext "time" ["time"],
  .ext "numpy" ["np"],
  .ext "h5py" ["h5py"],
  .ext "astropy.io" ["fits"],
  .ext "astropy.wcs" ["WCS"],
  .frm ["forcepho"] [],
  .bind ["forcepho"],
  .frm ["forcepho", "slow", "stamp"] [("PostageStamp", "PostageStamp"), ("scale_at_sky", "scale_at_sky")],
  .frm ["forcepho", "slow", "psf"] [("PointSpreadFunction", "PointSpreadFunction")],
  .frm ["forcepho", "sources"] [("Galaxy", "Galaxy")],
  .frm ["forcepho", "superscene"] [("sourcecat_dtype", "sourcecat_dtype")],
  .bind ["get_githash", "forcepho_slow_model", "config_to_cat", "make_stamp"]]

/-- util/make_psf_mixture.py:1-18, the top level. -/
def scriptMakePsfMixtureText : Text := [
  .ext "sys" ["sys"],
  .frm ["forcepho", "mixtures"] [("fit_jwst_psfs", "fit_jwst_psfs")],
  .frm ["forcepho", "paths"] [("psfims", "psfims")],
  .attempt [("", ["band"])] ["band"],
  .bind ["pname", "start", "stop", "nmix", "ans"],
  .ext "cPickle" ["pickle"],
  .bind ["out"]]

/-- tests/slow_tests/create_test_data.py:1-155, the top level. -/
def scriptCreateTestDataText : Text := [
  .ext "sys" ["sys"],
  .ext "os" ["os"],
  .ext "time" ["time"],
  .ext "numpy" ["np"],
  .frm ["forcepho"] [("paths", "paths")],
  .frm ["forcepho", "data"] [("PostageStamp", "PostageStamp")],
  .frm ["forcepho", "psf"] [("PointSpreadFunction", "PointSpreadFunction")],
  .frm ["forcepho", "sources"] [("Galaxy", "Galaxy"), ("Scene", "Scene")],
  .frm ["forcepho", "gaussmodel"] [("rotation_matrix", "rotation_matrix")],
  .bind ["NFILTER", "NEXPOSURE", "PATCH_SIZE", "EXPOSURE_SIZE", "NGALAXIES", "BANDS", "splinedata", "rapadding",
    "SCENE_DEC", "SCENE_RA_RANGE", "SCENE_DEC_RANGE", "make_test_dataset", "make_scene", "make_exposures",
    "make_exposure", "get_psf", "write_exposures"]]

/-- tests/slow_tests/patch_conversion.py:1-312, the top level. -/
def scriptPatchConversionText : Text := [
  .ext "os" ["os"],
  .ext "numpy" ["np"],
  .ext "h5py" ["h5py"],
  .ext "json" ["json"],
  .frm ["forcepho", "sources"] [("Galaxy", "Galaxy"), ("Scene", "Scene")],
  .frm ["forcepho", "stamp"] [("PostageStamp", "PostageStamp")],
  .frm ["forcepho"] [("psf", "pointspread")],
  .ext "astropy.wcs" ["WCS"],
  .setAll ["make_individual_stamp", "set_scene", "get_transform_mats", "patch_conversion", "zerocoords",
    "set_inactive"],
  .bind ["make_individual_stamp", "set_scene", "get_transform_mats", "zerocoords", "set_inactive", "patch_conversion"]]

/-- tests/slow_tests/run_patch_cpu_test_simple.py:1-59, the top level. -/
def scriptRunPatchCpuTestSimpleText : Text := [
  .ext "time" ["time"],
  .ext "os" ["os"],
  .ext "sys" ["sys"],
  .ext "numpy" ["np"],
  .frm ["forcepho", "sources"] [("Scene", "Scene")],
  .frm ["forcepho", "likelihood"] [("WorkPlan", "WorkPlan"), ("lnlike_multi", "lnlike_multi"), ("make_image",
    "make_image")],
  .frm ["patch_conversion"] [("patch_conversion", "patch_conversion"), ("zerocoords", "zerocoords")]]

/-- tests/slow_tests/test_grad_patch.py:1-79, the top level. -/
def scriptTestGradPatchText : Text := [
  .ext "os" ["os"],
  .ext "numpy" ["np"],
  .ext "matplotlib.pyplot" ["pl"],
  .frm ["forcepho"] [("gaussmodel", "gm")],
  .frm ["forcepho", "sources"] [("Galaxy", "Galaxy"), ("Scene", "Scene")],
  .frm ["forcepho", "stamp"] [("PostageStamp", "PostageStamp")],
  .frm ["forcepho", "psf"] [("PointSpreadFunction", "PointSpreadFunction")],
  .frm ["forcepho", "likelihood"] [("lnlike_multi", "lnlike_multi"), ("make_image", "make_image"), ("WorkPlan",
    "WorkPlan")],
  .frm ["patch_conversion"] [("patch_conversion", "patch_conversion")],
  .frm ["forcepho", "gaussmodel"] [("convert_to_gaussians", "convert_to_gaussians")],
  .bind ["splinedata", "numerical_image_gradients", "test_image_gradients"]]

/-- tests/slow_tests/test_gradients.py:1-180, the top level. -/
def scriptTestGradientsText : Text := [
  .ext "numpy" ["np"],
  .ext "matplotlib.pyplot" ["pl"],
  .frm ["forcepho"] [("gaussmodel", "gm")],
  .frm ["demo_utils"] [("Scene", "Scene"), ("make_stamp", "make_stamp"), ("negative_lnlike_stamp",
    "negative_lnlike_stamp"), ("negative_lnlike_nograd", "negative_lnlike_nograd"), ("make_image", "make_image")],
  .bind ["set_params", "numerical_gaussian_gradients", "test_image_gaussian_gradients", "numerical_image_gradients",
    "test_image_gradients", "gradient_slices"]]

/-- tests/slow_tests/test_photocounts.py:1-116, the top level. -/
def scriptTestPhotocountsText : Text := [
  .ext "numpy" ["np"],
  .ext "matplotlib.pyplot" ["pl"],
  .frm ["forcepho"] [("gaussmodel", "gm")],
  .frm ["forcepho", "sources"] [("Galaxy", "Galaxy"), ("Scene", "Scene")],
  .frm ["forcepho", "stamp"] [("PostageStamp", "PostageStamp")],
  .frm ["forcepho", "psf"] [("PointSpreadFunction", "PointSpreadFunction")],
  .frm ["forcepho", "likelihood"] [("lnlike_multi", "lnlike_multi"), ("make_image", "make_image"), ("WorkPlan",
    "WorkPlan")],
  .bind ["splinedata", "set_params", "numerical_image_gradients", "test_image_gradients", "get_scene", "get_stamps",
    "get_psf"]]

/-- tests/slow_tests/test_shear.py:1-119, the top level. -/
def scriptTestShearText : Text := [
  .ext "sys" ["sys"],
  .ext "numpy" ["np"],
  .ext "matplotlib.pyplot" ["pl"],
  .frm ["forcepho"] [("paths", "paths")],
  .frm ["forcepho", "stamp"] [("PostageStamp", "PostageStamp")],
  .frm ["forcepho", "psf"] [("PointSpreadFunction", "PointSpreadFunction")],
  .frm ["forcepho", "sources"] [("Scene", "Scene"), ("ConformalGalaxy", "ConformalGalaxy"), ("Galaxy", "Galaxy")],
  .bind ["test_shear", "numerical_image_gradients", "dograd", "show", "junk"]]

/-- tests/slow_tests/test_simple.py:1-192, the top level. -/
def scriptTestSimpleText : Text := [
  .ext "sys" ["sys"],
  .ext "os" ["os"],
  .ext "time" ["time"],
  .ext "copy" ["deepcopy"],
  .ext "numpy" ["np"],
  .frm ["forcepho", "stamp"] [("PostageStamp", "PostageStamp")],
  .frm ["forcepho", "psf"] [("PointSpreadFunction", "PointSpreadFunction")],
  .frm ["forcepho", "sources"] [("Galaxy", "Galaxy"), ("Scene", "Scene")],
  .frm ["forcepho", "likelihood"] [("WorkPlan", "WorkPlan"), ("lnlike_multi", "lnlike_multi")],
  .frm ["forcepho", "gaussmodel"] [("rotation_matrix", "rotation_matrix")],
  .bind ["NFILTER", "NEXPOSURE", "PATCH_SIZE", "EXPOSURE_SIZE", "NGALAXIES", "BANDS", "splinedata", "TEST_PATTERN",
    "rapadding", "SCENE_DEC", "SCENE_RA_RANGE", "SCENE_DEC_RANGE", "test_lnlike_and_grads", "make_scene",
    "read_patch", "read_exposure", "get_psf", "pixelcoords_to_skycoords"]]

/-- tests/slow_tests/test_undersample.py:1-158, the top level. -/
def scriptTestUndersampleText : Text := [
  .ext "itertools" ["product"],
  .ext "numpy" ["np"],
  .ext "matplotlib.pyplot" ["pl"],
  .ext "matplotlib.backends.backend_pdf" ["PdfPages"],
  .frm ["forcepho", "sources"] [("Star", "Star"), ("Scene", "Scene")],
  .frm ["forcepho", "slow", "stamp"] [("PostageStamp", "PostageStamp")],
  .frm ["forcepho", "slow", "psf"] [("PointSpreadFunction", "PointSpreadFunction")],
  .frm ["forcepho", "slow", "likelihood"] [("make_image", "make_image"), ("plan_sources", "plan_sources"),
    ("WorkPlan", "WorkPlan")],
  .bind ["get_stamp", "get_image", "rebin", "compare", "display"]]

/-- tests/slow_tests/timing.py:1-213, the top level. -/
def scriptTimingText : Text := [
  .ext "sys" ["sys"],
  .ext "os" ["os"],
  .ext "time" ["time"],
  .ext "copy" ["deepcopy"],
  .ext "numpy" ["np"],
  .ext "os.path" ["pjoin"],
  .ext "inspect" ["inspect"],
  .ext "timeit" ["timeit"],
  .frm ["forcepho"] [("paths", "paths")],
  .frm ["forcepho", "stamp"] [("PostageStamp", "PostageStamp")],
  .frm ["forcepho", "psf"] [("PointSpreadFunction", "PointSpreadFunction")],
  .frm ["forcepho", "sources"] [("Galaxy", "Galaxy"), ("Scene", "Scene")],
  .frm ["forcepho", "likelihood"] [("WorkPlan", "WorkPlan"), ("lnlike_multi", "lnlike_multi"), ("make_image",
    "make_image"), ("plan_sources", "plan_sources")],
  .frm ["forcepho", "gaussmodel"] [("convert_to_gaussians", "convert_to_gaussians"), ("get_gaussian_gradients",
    "get_gaussian_gradients"), ("compute_gaussian", "compute_gaussian")],
  .bind ["bands", "splinedata", "get_scene", "get_stamps", "get_psf", "time_call", "lnlike_test", "plan_test",
    "convert_test", "convert_grad_test", "compute_test"]]

/-- tests/slow_tests/undersample_figure.py:1-138, the top level. -/
def scriptUndersampleFigureText : Text := [
  .ext "itertools" ["product"],
  .ext "numpy" ["np"],
  .ext "matplotlib.pyplot" ["pl"],
  .frm ["forcepho", "sources"] [("Star", "Star"), ("Scene", "Scene")],
  .frm ["forcepho", "slow", "stamp"] [("PostageStamp", "PostageStamp")],
  .frm ["forcepho", "slow", "psf"] [("PointSpreadFunction", "PointSpreadFunction")],
  .bind ["get_stamp", "rebin"]]

/-- The modules of the package as installed, without mixtures/test_splines.py, which is a script. -/
def package : Table := [
  (["forcepho"], forcephoText),
  (["forcepho", "config"], forcephoConfigText),
  (["forcepho", "dispatcher"], forcephoDispatcherText),
  (["forcepho", "fitting"], forcephoFittingText),
  (["forcepho", "kernel_limits"], forcephoKernelLimitsText),
  (["forcepho", "mixtures"], forcephoMixturesText),
  (["forcepho", "mixtures", "psf_mix_em"], forcephoMixturesPsfMixEmText),
  (["forcepho", "mixtures", "psf_mix_hmc"], forcephoMixturesPsfMixHmcText),
  (["forcepho", "mixtures", "sersic_mix_oned"], forcephoMixturesSersicMixOnedText),
  (["forcepho", "mixtures", "sersic_mix_twod"], forcephoMixturesSersicMixTwodText),
  (["forcepho", "mixtures", "utils_em"], forcephoMixturesUtilsEmText),
  (["forcepho", "mixtures", "utils_hmc"], forcephoMixturesUtilsHmcText),
  (["forcepho", "model"], forcephoModelText),
  (["forcepho", "patches"], forcephoPatchesText),
  (["forcepho", "patches", "device_patch"], forcephoPatchesDevicePatchText),
  (["forcepho", "patches", "patch"], forcephoPatchesPatchText),
  (["forcepho", "patches", "pixel_patch"], forcephoPatchesPixelPatchText),
  (["forcepho", "patches", "static_patch"], forcephoPatchesStaticPatchText),
  (["forcepho", "patches", "storage"], forcephoPatchesStorageText),
  (["forcepho", "postprocess"], forcephoPostprocessText),
  (["forcepho", "priors"], forcephoPriorsText),
  (["forcepho", "proposal"], forcephoProposalText),
  (["forcepho", "region"], forcephoRegionText),
  (["forcepho", "slow"], forcephoSlowText),
  (["forcepho", "slow", "gaussmodel"], forcephoSlowGaussmodelText),
  (["forcepho", "slow", "likelihood"], forcephoSlowLikelihoodText),
  (["forcepho", "slow", "psf"], forcephoSlowPsfText),
  (["forcepho", "slow", "stamp"], forcephoSlowStampText),
  (["forcepho", "sources"], forcephoSourcesText),
  (["forcepho", "superscene"], forcephoSupersceneText),
  (["forcepho", "tasks"], forcephoTasksText),
  (["forcepho", "utils"], forcephoUtilsText),
  (["forcepho", "utils", "catalog"], forcephoUtilsCatalogText),
  (["forcepho", "utils", "chain"], forcephoUtilsChainText),
  (["forcepho", "utils", "corner"], forcephoUtilsCornerText),
  (["forcepho", "utils", "ds9"], forcephoUtilsDs9Text),
  (["forcepho", "utils", "io"], forcephoUtilsIoText),
  (["forcepho", "utils", "profile"], forcephoUtilsProfileText),
  (["forcepho", "utils", "wcs"], forcephoUtilsWcsText),
  (["forcepho", "_version"], forcephoVersionText)]

/-- The package together with the scripts, each importable by its own name. -/
def everything : Table := package ++ [
  (["forcepho", "mixtures", "test_splines"], forcephoMixturesTestSplinesText),
  (["verify_reference"], scriptVerifyReferenceText),
  (["make_reference"], scriptMakeReferenceText),
  (["make_psf_mixture"], scriptMakePsfMixtureText),
  (["create_test_data"], scriptCreateTestDataText),
  (["patch_conversion"], scriptPatchConversionText),
  (["run_patch_cpu_test_simple"], scriptRunPatchCpuTestSimpleText),
  (["test_grad_patch"], scriptTestGradPatchText),
  (["test_gradients"], scriptTestGradientsText),
  (["test_photocounts"], scriptTestPhotocountsText),
  (["test_shear"], scriptTestShearText),
  (["test_simple"], scriptTestSimpleText),
  (["test_undersample"], scriptTestUndersampleText),
  (["timing"], scriptTimingText),
  (["undersample_figure"], scriptUndersampleFigureText)]

end Forcepho.Imports
