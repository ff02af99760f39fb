import Verif.Imports.DemoTexts

/-!
# C164: the names that functions look up

For each function and method of the package, the demonstrations and the tests with GalSim, the global names in its text
(with those of the functions and comprehensions inside it), without Python's own.  `__main__` stands for what is executed when
the file is run as a script, with the names that it does not bind itself.
-/

set_option autoImplicit false

namespace Forcepho.Imports

/-- Functions with the global names in their texts. -/
abbrev Funcs := List (String × List String)

/-- forcepho/config.py:1-303, the functions. -/
def forcephoConfigFuncs : Funcs := [
  ("main_config_parser", ["ArgumentParser"]), ("preprocess_config_parser", ["ArgumentParser"]),
  ("default_config_file", ["ctext", "main_config_parser"]),
  ("parse_all", ["new_args", "rectify_config", "update_config", "yaml_to_namespace"]), ("make_bounds_kwargs", []),
  ("yaml_to_namespace", ["Namespace"]), ("update_config", []),
  ("rectify_config", ["make_bounds_kwargs", "np", "os"]), ("new_args", ["Namespace"]),
  ("read_config", ["rectify_config", "update_config", "yaml_to_namespace"])]

/-- forcepho/dispatcher.py:1-356, the functions. -/
def forcephoDispatcherFuncs : Funcs := [
  ("MPIQueue.__init__", []), ("MPIQueue.collect", ["MPI", "logger"]), ("MPIQueue.submit", ["MPI", "logger"]),
  ("MPIQueue.closeout", ["logger"]),
  ("do_parent", ["MPIQueue", "SuperScene", "json", "logger", "logging", "rectify_catalog", "socket", "time"]),
  ("do_child", ["MPI", "dummy_work", "logging"]), ("dummy_work", ["Namespace", "time"]),
  ("main", ["MPI", "do_child", "do_parent", "logger"]),
  ("__main__", ["ArgParseFormatter", "argparse", "main", "read_config"])]

/-- forcepho/fitting.py:1-674, the functions. -/
def forcephoFittingFuncs : Funcs := [
  ("Result.__init__", []), ("Result.fill", ["extract_block_diag", "make_chaincat", "make_statscat", "np"]),
  ("Result.get_sample_cat", ["get_sample_cat"]), ("Result.get_map", ["np"]), ("Result.dump_to_h5", ["np", "os"]),
  ("Result.read_from_h5", []), ("Result._reconstruct", ["CircularRegion", "make_chaincat"]),
  ("Result.show_chain", ["np"]), ("run_lmc", ["Result", "get_pot", "time"]), ("warmup_rounds", []),
  ("get_pot", ["np"]), ("run_opt", ["Result", "np", "time"]), ("run_opt_bounded", ["Result", "np", "time"]),
  ("run_pymc3", ["Result", "np", "time"]), ("run_dynesty", ["Result", "time"]), ("optimize_one_band", ["np"]),
  ("optimize_fluxes", ["np", "optimize_one_band"]), ("lnlike_gauss", ["np"]), ("__main__", ["np", "run_lmc"])]

/-- forcepho/mixtures/psf_mix_em.py:1-209, the functions. -/
def forcephoMixturesPsfMixEmFuncs : Funcs := [
  ("noncentral_moment", ["np"]), ("central_moment", ["np"]), ("mean_params", ["noncentral_moment", "np"]),
  ("cov_params", ["mean_params", "np"]), ("easy_init", ["cov_params", "mean_params", "np"]),
  ("random_init", ["mean_params", "np"]), ("mvn_pdf", ["np"]), ("mvn_pdf_2d", ["mvn_pdf", "np"]),
  ("mvn_pdf_2d_mix_fn", ["mvn_pdf_2d", "np"]), ("normalized", ["np"]),
  ("fit_mvn_mix", ["easy_init", "least_squares", "mvn_pdf_2d", "mvn_pdf_2d_mix_fn", "normalized", "np",
    "random_init"])]

/-- forcepho/mixtures/psf_mix_hmc.py:1-207, the functions. -/
def forcephoMixturesPsfMixHmcFuncs : Funcs := [
  ("smooth_psf", []), ("psf_prediction", ["jnp", "np"]),
  ("psf_model", ["dist", "jnp", "np", "numpyro", "psf_prediction"]),
  ("__main__", ["np", "psf_model", "psf_prediction"])]

/-- forcepho/mixtures/sersic_mix_oned.py:1-475, the functions. -/
def forcephoMixturesSersicMixOnedFuncs : Funcs := [
  ("fit_gaussians", ["chisq", "gammaincinv", "minimize", "np", "partial", "sersic_profile"]),
  ("chisq", ["normal_oned", "np"]), ("sersic_profile", ["factorial", "gamma", "gammaincinv", "hyper", "np"]),
  ("normal_oned", ["np"]), ("normal", ["np"]), ("plot_profiles", ["normal_oned", "np", "pl", "plot_cfd"]),
  ("rfrac_from_halfn", ["gammaincinv"]), ("plot_cfd", ["gammainc", "gammaincinv", "gauss_cfd", "np", "pl"]),
  ("gauss_cfd", ["gamma", "gammainc", "np"]), ("amplitude_table", ["h5py", "np"]), ("plot_amps", ["pl"]),
  ("fit_profiles", ["PdfPages", "chisq", "fit_gaussians", "gammaincinv", "h5py", "np", "pl", "plot_amps",
    "plot_cfd", "plot_profiles", "product", "sersic_profile"]),
  ("__main__", ["fit_profiles", "np", "rfrac_from_halfn"])]

/-- forcepho/mixtures/sersic_mix_twod.py:1-248, the functions. -/
def forcephoMixturesSersicMixTwodFuncs : Funcs := [
  ("sersic_prediction", ["jnp", "np"]),
  ("sersic_model", ["dist", "get_kernel", "jnp", "maxg", "numpyro", "sersic_prediction"]), ("get_kernel", ["np"]),
  ("free_sersic_prediction", ["jnp"])]

/-- forcepho/mixtures/utils_em.py:1-208, the functions. -/
def forcephoMixturesUtilsEmFuncs : Funcs := [
  ("radial_profile", []), ("psf_mixture", ["fit_mvn_mix", "fits", "h5py", "np", "params_to_gauss", "plot_model"]),
  ("plot_model", ["PdfPages", "draw_ellipses", "get_cmap", "np", "pl"]), ("draw_ellipses", ["np"])]

/-- forcepho/mixtures/utils_hmc.py:1-252, the functions. -/
def forcephoMixturesUtilsHmcFuncs : Funcs := [
  ("infer", ["AutoDelta", "AutoLaplaceApproximation", "MCMC", "NUTS", "SVI", "Trace_ELBO", "optim", "random"]),
  ("show_exp", ["np"]), ("display", ["np", "show_exp"]), ("radial_plot", ["np"]), ("ee_plot", ["np"]),
  ("draw_ellipses", ["np"]), ("__main__", [])]

/-- forcepho/model.py:1-637, the functions. -/
def forcephoModelFuncs : Funcs := [
  ("Posterior.__init__", ["BoundedTransform", "np"]), ("Posterior.evaluate", []), ("Posterior.lnprob", ["np"]),
  ("Posterior.lnprob_grad", ["np"]), ("Posterior.lnprior", []), ("Posterior.make_transform", ["np"]),
  ("Posterior.nll", ["np"]), ("Posterior.nll_nograd", ["np"]), ("Posterior.lnprob_and_grad", ["np"]),
  ("Posterior.residuals", []), ("Posterior.check_grad", ["np"]), ("FastPosterior.__init__", ["np"]),
  ("FastPosterior.evaluate", ["np"]), ("FastPosterior.stack_grad", ["NPARAMS", "np"]),
  ("FastPosterior.residuals", []), ("SlowPosterior.__init__", ["WorkPlan"]), ("SlowPosterior.evaluate", []),
  ("SlowPosterior.residuals", ["make_image"]), ("ConstrainedTransformedPosterior.check_constrained", ["np"]),
  ("ModelGradOp.__init__", []), ("ModelGradOp.perform", []), ("LogLikeWithGrad.__init__", ["ModelGradOp"]),
  ("LogLikeWithGrad.perform", ["np"]), ("LogLikeWithGrad.grad", []), ("sigmoid", ["expit"]), ("logit", ["np"]),
  ("sigmoid_grad", ["np"]), ("Transform.__init__", []), ("Transform.transform", ["np"]),
  ("Transform.jacobian", ["np"]), ("Transform.lndetjac", ["np"]), ("Transform.lndetjac_grad", ["np"]),
  ("Transform.inverse_transform", ["np"]), ("BoundedTransform.__init__", ["np"]), ("BoundedTransform.range", []),
  ("BoundedTransform.transform", ["sigmoid"]), ("BoundedTransform.jacobian", ["sigmoid_grad"]),
  ("BoundedTransform.lndetjac_grad", ["sigmoid"]), ("BoundedTransform.inverse_transform", ["logit"])]

/-- forcepho/patches/device_patch.py:1-555, the functions. -/
def forcephoPatchesDevicePatchFuncs : Funcs := [
  ("DevicePatchMixin.prepare_model", ["FastPosterior", "Galaxy", "Transform", "bounds_vectors"]),
  ("DevicePatchMixin.send_to_device", []), ("DevicePatchMixin.swap_on_device", []),
  ("DevicePatchMixin.replace_device_meta_ptrs", []), ("DevicePatchMixin.send_patchstruct_to_device", []),
  ("DevicePatchMixin.retrieve_array", []), ("DevicePatchMixin.get_proposer", []),
  ("DevicePatchMixin.subtract_fixed", ["np"]), ("DevicePatchMixin.design_matrix", ["np"]),
  ("DevicePatchMixin.render", []), ("DevicePatchMixin.free", []), ("GPUPatchMixin.get_proposer", ["GPUProposer"]),
  ("GPUPatchMixin.send_to_device", ["cuda"]), ("GPUPatchMixin.replace_device_meta_ptrs", ["cuda"]),
  ("GPUPatchMixin.send_patchstruct_to_device", ["cuda", "np"]), ("GPUPatchMixin.swap_on_device", []),
  ("GPUPatchMixin.retrieve_array", ["cuda"]), ("GPUPatchMixin.free", []),
  ("GPUPatchMixin.test_struct_transfer", ["source_dir"]), ("CPUPatchMixin.get_proposer", ["CPUProposer"]),
  ("CPUPatchMixin.send_to_device", ["np"]), ("CPUPatchMixin.replace_device_meta_ptrs", []),
  ("CPUPatchMixin.send_patchstruct_to_device", ["np"]), ("CPUPatchMixin.swap_on_device", []),
  ("CPUPatchMixin.retrieve_array", [])]

/-- forcepho/patches/patch.py:1-499, the functions. -/
def forcephoPatchesPatchFuncs : Funcs := [
  ("PatchBase.__init__", []), ("PatchBase.npix", []), ("PatchBase.size", []), ("PatchBase.clear", []),
  ("PatchBase.free", []), ("PatchBase.__del__", []), ("PatchBase.build_patch", ["np"]),
  ("Patch.__init__", ["PSFStore", "np"]), ("Patch.pack_meta", []), ("Patch._pack_source_metadata", ["np"]),
  ("Patch._pack_astrometry", ["np", "scale_at_sky"]), ("Patch._pack_fluxcal", ["np"]),
  ("Patch._pack_psf", ["PSF_COLS", "np"]), ("Patch.set_scene", ["Galaxy", "Scene"]), ("Patch.zerocoords", ["np"]),
  ("Patch.unzerocoords", []), ("Patch.split_pix", ["np"]), ("Patch.split_band", ["np"])]

/-- forcepho/patches/pixel_patch.py:1-550, the functions. -/
def forcephoPatchesPixelPatchFuncs : Funcs := [
  ("PixelPatch.__init__", []), ("PixelPatch.build_patch", ["np"]), ("PixelPatch.pack_pix", ["np"]),
  ("PixelPatch._cap_snr", []), ("PixelPatch.find_exposures", []), ("PixelPatch.find_pixels", []),
  ("StorePatch.__init__", ["MetaStore", "PixelStore"]), ("StorePatch.find_exposures", ["np"]),
  ("StorePatch.find_pixels", []), ("FITSPatch.__init__", []), ("FITSPatch.find_exposures", ["WCS", "fits", "np"]),
  ("FITSPatch.find_pixels", ["fits", "np"]), ("DirectPatch.__init__", []), ("DirectPatch.find_exposures", ["WCS"]),
  ("DirectPatch.find_pixels", [])]

/-- forcepho/patches/static_patch.py:1-337, the functions. -/
def forcephoPatchesStaticPatchFuncs : Funcs := [
  ("StaticPatch.__init__", ["np"]), ("StaticPatch.build_patch", ["np"]), ("StaticPatch.pack_psf", ["np"]),
  ("StaticPatch.pack_source_metadata", ["np"]), ("StaticPatch.pack_astrometry", ["np"]),
  ("StaticPatch.pack_pix", ["np"]), ("patch_to_stamps", ["PostageStamp", "np"])]

/-- forcepho/patches/storage.py:1-578, the functions. -/
def forcephoPatchesStorageFuncs : Funcs := [
  ("header_to_id", ["os"]), ("PixelStore.__init__", ["h5py", "np"]), ("PixelStore.superpixel_corners", ["np"]),
  ("PixelStore.pixel_coordinates", ["np"]), ("PixelStore.add_exposure", ["h5py", "np"]),
  ("PixelStore.superpixelize", ["np"]), ("PixelStore.flux_calibration", []), ("PixelStore.data", ["h5py"]),
  ("PixelStore.close", []), ("MetaStore.__init__", ["os"]), ("MetaStore.populate_wcs", ["WCS"]),
  ("MetaStore.add_exposure", []), ("MetaStore.write_to_file", []), ("MetaStore.read_from_file", ["fits"]),
  ("MetaStore.find_exposures", ["WCS", "np", "polygon_contains"]), ("MetaStore.to_table", ["fits", "np"]),
  ("MetaStore.nexp", []), ("PSFStore.__init__", []), ("PSFStore.lookup", ["np"]), ("PSFStore.get_local_psf", []),
  ("PSFStore.data", ["h5py"])]

/-- forcepho/postprocess.py:1-683, the functions. -/
def forcephoPostprocessFuncs : Funcs := [
  ("Residuals.__init__", ["h5py"]), ("Residuals.make_exp", ["populate_image"]),
  ("Residuals.show", ["np", "show_exp"]), ("Residuals.mark_sources", ["np"]),
  ("Residuals.write_cutouts", ["fits", "hdr", "pl"]), ("Residuals.sky_to_pix", ["sky_to_pix"]),
  ("Residuals.fill_images", ["fits", "np", "os"]), ("Samples.__init__", ["Samples"]),
  ("Samples.summary_dtype", ["np"]), ("run_metadata", ["fits", "json"]),
  ("postop_catalog", ["Samples", "fits", "flux_unc_linear", "glob", "json"]),
  ("postsample_catalog", ["Samples", "fits", "np", "run_metadata"]),
  ("flux_unc_linear", ["Samples", "flux_bounds", "np", "run_metadata"]),
  ("find_multipatch", ["Samples", "np", "run_metadata"]), ("check_multipatch", ["find_multipatch", "vcols"]),
  ("write_sourcereg", ["cat_to_reg", "fits", "glob", "isophotal_radius", "np", "os"]),
  ("write_patchreg", ["Samples"]), ("write_images", ["MetaStore", "Residuals", "fits", "glob", "os"]),
  ("residual_pdf", ["PdfPages", "Residuals", "Samples", "glob", "os", "pl"]),
  ("chain_pdf", ["PdfPages", "np", "pl"]), ("show_exp", ["populate_image"]), ("show_precision", ["np"]),
  ("combined_rhalf", ["forcepho_slow_model", "np"]), ("forcepho_slow_model", ["np"]),
  ("__main__", ["Samples", "chain_pdf", "glob", "postop_catalog", "postsample_catalog", "residual_pdf",
    "write_images", "write_patchreg", "write_sourcereg"])]

/-- forcepho/priors.py:1-205, the functions. -/
def forcephoPriorsFuncs : Funcs := [
  ("LogPrior.__init__", []), ("LogPrior.__call__", ["np"]), ("LogPrior._scale", []), ("LogPrior._lnprior", []),
  ("LogPrior._lnprior_grad", ["np"]), ("ExpBeta.__init__", []), ("ExpBeta._lnprior", []),
  ("ExpBeta._lnprior_grad", []), ("Barrier.__init__", []), ("Barrier._lnprior", ["np"]),
  ("Barrier._lnprior_grad", ["np"]), ("TruncatedCauchy.sample", ["np"]), ("test_grad", ["np"]),
  ("test_min_with_prior", ["np"])]

/-- forcepho/proposal.py:1-244, the functions. -/
def forcephoProposalFuncs : Funcs := [
  ("ProposerBase.__init__", []), ("ProposerBase.evaluate_proposal", []), ("ProposerBase.unpack_residuals", ["np"]),
  ("GPUProposer.__init__", ["SourceModule", "os", "source_dir"]),
  ("GPUProposer.evaluate_proposal", ["MAXSOURCES", "NPARAMS", "cuda", "np", "response_struct_dtype", "sys"]),
  ("CPUProposer.__init__", []), ("CPUProposer.send_to_device", []),
  ("CPUProposer.evaluate_proposal", ["MAXSOURCES", "NPARAMS", "np"])]

/-- forcepho/region.py:1-302, the functions. -/
def forcephoRegionFuncs : Funcs := [
  ("Region.__init__", []), ("Region.contains", ["np"]), ("Region.bounding_box", []),
  ("Region.overlaps", ["RectangularRegion", "WCS", "np", "polygons_overlap"]), ("CircularRegion.__init__", []),
  ("CircularRegion.contains", ["np"]), ("CircularRegion.bounding_box", ["np"]), ("RectangularRegion.__init__", []),
  ("RectangularRegion.contains", ["np"]), ("RectangularRegion.bounding_box", ["np"]), ("polygons_overlap", ["np"]),
  ("polygon_contains", ["np"])]

/-- forcepho/slow/gaussmodel.py:1-646, the functions. -/
def forcephoSlowGaussmodelFuncs : Funcs := [
  ("ImageGaussian.__init__", []), ("GaussianImageGalaxy.__init__", []),
  ("convert_to_gaussians", ["GaussianImageGalaxy", "_convert_to_gaussians", "fast_dot_dot_2x2",
    "fast_matmul_matmul_2x2", "get_gaussian_gradients", "np", "rotation_matrix", "scale_matrix"]),
  ("_convert_to_gaussians", ["ImageGaussian", "fast_det_2x2", "fast_inv_2x2", "np"]),
  ("get_gaussian_gradients", ["_get_gaussian_gradients", "fast_dot_dot_2x2", "fast_matmul_matmul_2x2", "np",
    "rotation_matrix", "rotation_matrix_deriv", "scale_matrix", "scale_matrix_deriv"]),
  ("_get_gaussian_gradients", ["fast_det_2x2", "fast_dot_dot_2x2", "fast_inv_2x2", "fast_trace_2x2", "np"]),
  ("compute_gaussian", ["_compute_gaussian"]), ("_compute_gaussian", ["np"]),
  ("compute_gig", ["compute_gaussian", "np"]), ("scale_matrix", ["np"]), ("rotation_matrix", ["np"]),
  ("scale_matrix_deriv", ["np"]), ("rotation_matrix_deriv", ["np"]), ("fast_inv_2x2", ["np"]), ("fast_det_2x2", []),
  ("fast_trace_2x2", []), ("fast_dot_dot_2x2", ["np"]), ("fast_matmul_matmul_2x2", ["np"])]

/-- forcepho/slow/likelihood.py:1-316, the functions. -/
def forcephoSlowLikelihoodFuncs : Funcs := [
  ("lnlike_multi", ["np", "plan_sources"]), ("negative_lnlike_multi", ["lnlike_multi"]),
  ("make_image", ["WorkPlan", "plan_sources"]),
  ("plan_sources", ["NDERIV", "convert_to_gaussians", "get_gaussian_gradients", "np"]), ("WorkPlan.__init__", []),
  ("WorkPlan.reset", ["np"]), ("WorkPlan.process_pixels", ["compute_gaussian", "np"]), ("WorkPlan.lnlike", ["np"]),
  ("WorkPlan.make_image", []), ("WorkPlan.nactive", []), ("WorkPlan.nfixed", []), ("WorkPlan.ierr", []),
  ("FastWorkPlan.reset", ["np"]), ("FastWorkPlan.process_pixels", ["compute_gaussian", "np"]),
  ("FastWorkPlan.lnlike", ["np"])]

/-- forcepho/slow/psf.py:1-195, the functions. -/
def forcephoSlowPsfFuncs : Funcs := [
  ("PointSpreadFunction.__init__", ["np"]), ("PointSpreadFunction.make_from_parameters", ["np"]),
  ("PointSpreadFunction.as_tuplelist", []), ("get_psf", ["PointSpreadFunction", "make_psf"]),
  ("make_psf", ["PointSpreadFunction", "np", "params_to_gauss"]), ("params_to_gauss", []), ("mvn_pdf", ["np"]),
  ("mvn_pdf_2d", ["mvn_pdf", "np"]), ("mvn_pdf_2d_mix_fn", ["mvn_pdf_2d", "np"])]

/-- forcepho/slow/stamp.py:1-337, the functions. -/
def forcephoSlowStampFuncs : Funcs := [
  ("PostageStamp.__init__", ["np"]), ("PostageStamp.sky_to_pix", ["np"]), ("PostageStamp.pix_to_sky", ["np"]),
  ("PostageStamp.coverage", []), ("PostageStamp.npix", []), ("PostageStamp.shape", ["np"]),
  ("PostageStamp.render", []), ("PostageStamp.wcs", ["np", "scale_at_sky"]), ("PostageStamp.to_fits", ["np"]),
  ("scale_at_sky", ["np"]), ("extract_stamp", ["PostageStamp", "np"]), ("test_astrometry", ["SimpleWCS", "np"])]

/-- forcepho/sources.py:1-1067, the functions. -/
def forcephoSourcesFuncs : Funcs := [
  ("Scene.__init__", []), ("Scene.__repr__", []), ("Scene.__len__", []), ("Scene.set_all_source_params", []),
  ("Scene.get_all_source_params", ["np"]), ("Scene.get_proposal", ["np"]), ("Scene.identify_sources", []),
  ("Scene.parameter_names", ["np"]), ("Scene.active_sources", []), ("Scene.fixed_sources", []),
  ("Scene.n_active", []), ("Scene.n_fixed", []), ("Scene.to_catalog", ["np"]), ("Scene.from_catalog", []),
  ("Scene.param_indices", ["np"]), ("Source.__init__", ["np"]), ("Source.__repr__", []), ("Source.n_bands", []),
  ("Source.n_params", []), ("Source.parameter_names", []), ("Source.n_gauss", []), ("Source.covariances", []),
  ("Source.amplitudes", ["np"]), ("Source.damplitude_dsersic", ["np"]), ("Source.damplitude_drh", ["np"]),
  ("Source.use_gradients", []), ("Source.set_params", []), ("Source.get_param_vector", ["np"]),
  ("Source.filter_index", []), ("Source.psfgauss", ["np"]), ("Source.cat_dtype", ["np"]),
  ("Source.to_catalog_row", ["np"]), ("Source.from_catalog_row", ["np"]),
  ("Source.render", ["compute_gig", "convert_to_gaussians"]), ("Galaxy.__init__", ["np", "warnings"]),
  ("Galaxy.set_params", []), ("Galaxy.get_param_vector", ["np"]), ("Galaxy.proposal", []),
  ("Galaxy.initialize_splines", ["RectBivariateSpline", "SmoothBivariateSpline", "h5py", "np"]),
  ("Galaxy.covariances", ["np"]), ("Galaxy.amplitudes", ["np"]), ("Galaxy.damplitude_dsersic", ["np"]),
  ("Galaxy.damplitude_drh", ["np"]), ("Galaxy.profile", ["gauss", "np"]), ("Star.set_params", []),
  ("Star.get_param_vector", ["np"]), ("Star.covariances", ["np"]), ("SimpleGalaxy.set_params", []),
  ("SimpleGalaxy.get_param_vector", ["np"]), ("SimpleGalaxy.covariances", ["np"]),
  ("ConformalShearGalaxy.set_params", []), ("ConformalShearGalaxy.get_param_vector", ["np"]),
  ("ConformalShearGalaxy.etas_from_qphi", ["np"]), ("ConformalShearGalaxy.parameter_names", []),
  ("ConformalShearGalaxy.q", ["np"]), ("ConformalShearGalaxy.pa", ["np"]), ("ConformalShearGalaxy.ds_deta", ["np"]),
  ("ConformalShearGalaxy.render", ["compute_gig", "convert_to_gaussians", "np"]), ("scale_matrix", ["np"]),
  ("rotation_matrix", ["np"]), ("scale_matrix_deriv", ["np"]), ("rotation_matrix_deriv", ["np"]),
  ("dummy_spline", []), ("gauss", ["np"])]

/-- forcepho/superscene.py:1-1059, the functions. -/
def forcephoSupersceneFuncs : Funcs := [
  ("SuperScene.__init__", ["Galaxy"]), ("SuperScene.__enter__", []), ("SuperScene.__exit__", []),
  ("SuperScene.writeout", ["fits", "json"]), ("SuperScene.sparse", []), ("SuperScene.undone", ["np"]),
  ("SuperScene.parameter_columns", []), ("SuperScene.cat_dtype", []),
  ("SuperScene.ingest", ["cKDTree", "make_bounds", "np"]), ("SuperScene.check_bounds", ["check_bounds"]),
  ("SuperScene.set_catalog", ["REQUIRED_COLUMNS", "np"]), ("SuperScene.sky_to_scene", ["SkyCoord"]),
  ("SuperScene.scene_frame", ["SkyCoord", "np"]), ("SuperScene.scene_coordinates", ["np"]),
  ("SuperScene.checkout_region", ["CircularRegion"]), ("SuperScene.checkin_region", []),
  ("SuperScene.bounds_and_covs", ["block_diag"]), ("SuperScene.reset", []),
  ("SuperScene.get_circular_scene", ["np"]), ("SuperScene.draw_center", ["np"]), ("SuperScene.seed_weight", []),
  ("SuperScene.exp_weight", ["np"]), ("SuperScene.sigmoid_weight", ["np"]), ("LinkedSuperScene.__init__", []),
  ("LinkedSuperScene.grow_source", []), ("LinkedSuperScene.grow_scene", ["CircularRegion", "np"]),
  ("LinkedSuperScene.checkout_region", ["np"]), ("LinkedSuperScene.find_overlaps", ["np"]),
  ("LinkedSuperScene.overlap_circle", []), ("LinkedSuperScene.make_group_catalog", ["np"]),
  ("sourcecat_dtype", ["Galaxy", "np"]), ("rectify_catalog", ["fits", "np", "sourcecat_dtype"]),
  ("make_bounds", ["flux_bounds", "np"]), ("bounds_vectors", ["np"]), ("check_bounds", ["np"]),
  ("flux_bounds", ["np"]), ("adjust_bounds", ["np"]), ("convert_pa", ["np"]),
  ("__main__", ["LinkedSuperScene", "fits", "np", "rectify_catalog", "sys"])]

/-- forcepho/tasks.py:1-106, the functions. -/
def forcephoTasksFuncs : Funcs := [
  ("optimize", ["flux_bounds", "get_sample_cat", "make_chaincat", "np", "optimize_fluxes", "run_opt"]),
  ("sample", ["np", "run_lmc"])]

/-- forcepho/utils/__init__.py:1-102, the functions. -/
def forcephoUtilsFuncs : Funcs := [
  ("Logger.__init__", []), ("Logger.info", ["time"]), ("Logger.serialize", []),
  ("NumpyEncoder.default", ["json", "np"]), ("extract_block_diag", ["np"]), ("populate_image", ["np"])]

/-- forcepho/utils/catalog.py:1-169, the functions. -/
def forcephoUtilsCatalogFuncs : Funcs := [
  ("write_table", ["fits"]), ("out_dtype", ["np"]), ("append_catalogs", ["fits", "np", "write_table"]),
  ("combine_chains", ["np", "out_dtype"]), ("pctile_cat", ["fits", "np"]),
  ("rectify_jades", ["fits", "np", "sourcecat_dtype"])]

/-- forcepho/utils/chain.py:1-94, the functions. -/
def forcephoUtilsChainFuncs : Funcs := [
  ("make_statscat", ["np"]), ("make_chaincat", ["np"]), ("get_sample_cat", [])]

/-- forcepho/utils/corner.py:1-667, the functions. -/
def forcephoUtilsCornerFuncs : Funcs := [
  ("allcorner", ["corner", "prettify_axes", "scatter", "show_extras"]), ("show_extras", ["_quantile"]),
  ("prettify_axes", ["MaxNLocator", "NullLocator", "ScalarFormatter"]),
  ("corner", ["get_spans", "marginal", "np", "twodhist"]), ("twodhist", ["get_cmap", "get_spans", "norm_kde", "np"]),
  ("marginal", ["get_spans", "norm_kde", "np"]), ("scatter", []), ("get_spans", ["_quantile"]),
  ("quantile", ["_quantile", "np"]), ("_quantile", ["np"]), ("get_cmap", []), ("demo", ["allcorner", "np", "pl"])]

/-- forcepho/utils/ds9.py:1-61, the functions. -/
def forcephoUtilsDs9Funcs : Funcs := [
  ("cat_to_regions", ["SkyCoord", "annotate_regions", "fits", "np", "u"]), ("annotate_regions", ["np"])]

/-- forcepho/utils/io.py:1-94, the functions. -/
def forcephoUtilsIoFuncs : Funcs := [
  ("write_to_disk", ["json", "write_residuals"]), ("write_residuals", ["h5py", "make_imset", "np"]),
  ("make_imset", ["np"])]

/-- forcepho/utils/profile.py:1-54, the functions. -/
def forcephoUtilsProfileFuncs : Funcs := [
  ("frac_sersic", ["gamma", "gammainc", "gammaincinv"]), ("kron_radius", ["gamma", "gammainc", "gammaincinv"]),
  ("isophotal_radius", ["I_eff", "gammaincinv", "np"]), ("I_eff", ["gamma", "gammainc", "gammaincinv", "np"])]

/-- forcepho/utils/wcs.py:1-177, the functions. -/
def forcephoUtilsWcsFuncs : Funcs := [
  ("FWCS.__init__", []), ("FWCS.is_normal", ["AWCS"]), ("FWCS.has_distortion", []), ("FWCS.pixel_scale_matrix", []),
  ("FWCS.all_pix2world", []), ("FWCS.all_world2pix", []), ("FWCS.pixel_to_world_values", []),
  ("FWCS.world_to_pixel_values", []), ("FWCS.from_image", ["AWCS", "fits"]), ("FWCS.scale_at_sky", ["scale_at_sky"]),
  ("scale_at_sky", ["np"]), ("sky_to_pix", ["np"])]

/-- demo/demo_utils.py:1-317, the functions. -/
def demoUtilsFuncs : Funcs := [
  ("get_parser", ["argparse", "np"]), ("make_stamp", ["np"]), ("make_scene", ["np"]), ("galsim_model", ["np"]),
  ("galsim_star", ["np"]), ("get_galsim_psf", ["fits", "galsim", "np"]), ("make_psfstore", ["h5py", "np"]),
  ("compute_noise_level", ["np"]), ("write_fits_to", ["fits"]), ("__main__", ["get_parser"])]

/-- demo/demo_basic/basic.py:1-129, the functions. -/
def basicFuncs : Funcs := [
  ("make_tag", []),
  ("__main__", ["CircularRegion", "Galaxy", "Patcher", "WCS", "compute_noise_level", "fits", "galsim_model",
    "get_galsim_psf", "get_parser", "make_bounds", "make_psfstore", "make_scene", "make_stamp", "make_tag", "np",
    "os", "run_lmc", "write_fits_to", "write_to_disk"])]

/-- demo/demo_basic/basic_plot.py:1-127, the functions. -/
def basicPlotFuncs : Funcs := [
  ("plot_trace", ["Samples", "np", "pl"]), ("plot_corner", ["FormatStrFormatter", "Samples", "get_map", "np", "pl"]),
  ("plot_residual", ["Residuals", "Samples", "pl"]), ("get_map", ["np"]),
  ("__main__", ["argparse", "os", "pl", "plot_corner", "plot_residual", "plot_trace", "sys"])]

/-- demo/demo_basic/basic_sceneDB.py:1-129, the functions. -/
def basicSceneDBFuncs : Funcs := [
  ("make_tag", []),
  ("__main__", ["LinkedSuperScene", "Patcher", "compute_noise_level", "fits", "galsim_model", "get_galsim_psf",
    "get_parser", "make_psfstore", "make_scene", "make_stamp", "make_tag", "np", "os", "run_lmc", "write_fits_to",
    "write_to_disk"])]

/-- demo/demo_color/color_fit.py:1-98, the functions. -/
def colorFitFuncs : Funcs := [
  ("__main__", ["LinkedSuperScene", "NumpyEncoder", "Patcher", "argparse", "fits", "json", "logging", "np", "os",
    "run_lmc", "write_to_disk"])]

/-- demo/demo_color/color_make.py:1-74, the functions. -/
def colorMakeFuncs : Funcs := [
  ("__main__", ["compute_noise_level", "galsim_model", "get_galsim_psf", "get_parser", "make_psfstore",
    "make_scene", "make_stamp", "np", "os", "write_fits_to"])]

/-- demo/demo_color/color_plot_separate.py:1-155, the functions. -/
def colorPlotSeparateFuncs : Funcs := [
  ("plot_corner", ["FormatStrFormatter", "Samples", "allcorner", "np"]),
  ("color_corner", ["allcorner", "apflux", "np"]), ("apflux", ["frac_sersic", "np"]),
  ("plot_residual", ["Residuals", "Samples", "nexp", "pl"]),
  ("plot_both", ["GridSpec", "GridSpecFromSubplotSpec", "Samples", "color_corner", "np", "pl", "plot_residual"]),
  ("__main__", ["argparse", "plot_both"])]

/-- demo/demo_color/color_plot_together.py:1-135, the functions. -/
def colorPlotTogetherFuncs : Funcs := [
  ("total_corner", ["allcorner", "np"]), ("color_corner", ["allcorner", "np"]),
  ("plot_residual", ["Residuals", "Samples", "nexp", "pl"]),
  ("plot_both", ["GridSpec", "GridSpecFromSubplotSpec", "Samples", "color_corner", "np", "pl", "plot_residual",
    "total_corner"]), ("__main__", ["argparse", "plot_both"])]

/-- demo/demo_mosaic/mosaic_combine_dithers.py:1-84, the functions. -/
def mosaicCombineDithersFuncs : Funcs := [
  ("drizzle_combine", ["adrizzle", "fits", "np", "os", "stwcs", "write_fits_to"]),
  ("__main__", ["argparse", "drizzle_combine", "glob", "os"])]

/-- demo/demo_mosaic/mosaic_fit.py:1-102, the functions. -/
def mosaicFitFuncs : Funcs := [
  ("__main__", ["LinkedSuperScene", "NumpyEncoder", "Patcher", "argparse", "fits", "glob", "json", "logging", "os",
    "run_lmc", "write_to_disk"])]

/-- demo/demo_mosaic/mosaic_make_dithers.py:1-95, the functions. -/
def mosaicMakeDithersFuncs : Funcs := [
  ("__main__", ["compute_noise_level", "galsim_model", "get_galsim_psf", "get_parser", "make_psfstore",
    "make_scene", "make_stamp", "np", "os", "write_fits_to"])]

/-- demo/demo_mosaic/mosaic_plot.py:1-53, the functions. -/
def mosaicPlotFuncs : Funcs := [
  ("multispan", ["get_spans", "np"]),
  ("__main__", ["Samples", "corner", "multispan", "np", "pl", "prettify_axes", "scatter"])]

/-- demo/demo_optimize/optimize.py:1-222, the functions. -/
def optimizeFuncs : Funcs := [
  ("make_tag", []),
  ("__main__", ["HASGPU", "LinkedSuperScene", "Patcher", "argparse", "compute_noise_level", "fits", "flux_bounds",
    "galsim_model", "get_galsim_psf", "get_parser", "get_sample_cat", "make_chaincat", "make_psfstore",
    "make_scene", "make_stamp", "make_tag", "np", "optimize_fluxes", "os", "run_lmc", "run_opt", "write_fits_to",
    "write_to_disk"])]

/-- demo/demo_optimize/optimize_plot.py:1-106, the functions. -/
def optimizePlotFuncs : Funcs := [
  ("plot_corner", ["FormatStrFormatter", "allcorner", "get_map", "np", "pl", "scatter"]),
  ("plot_residual", ["Residuals", "Samples", "pl"]), ("get_map", ["np"]),
  ("__main__", ["Samples", "get_map", "np", "os", "pl", "plot_corner", "plot_residual", "scatter", "sys"])]

/-- demo/demo_pair/pair_fit.py:1-98, the functions. -/
def pairFitFuncs : Funcs := [
  ("__main__", ["LinkedSuperScene", "NumpyEncoder", "Patcher", "argparse", "fits", "json", "logging", "os",
    "run_lmc", "write_to_disk"])]

/-- demo/demo_pair/pair_make.py:1-57, the functions. -/
def pairMakeFuncs : Funcs := [
  ("__main__", ["compute_noise_level", "galsim_model", "get_galsim_psf", "get_parser", "make_psfstore",
    "make_scene", "make_stamp", "np", "os", "write_fits_to"])]

/-- demo/demo_pair/pair_movie.py:1-92, the functions. -/
def pairMovieFuncs : Funcs := [
  ("__main__", ["Patcher", "Residuals", "Samples", "argparse", "json", "manimation", "np", "os", "plot_both",
    "scatter"])]

/-- demo/demo_pair/pair_plot.py:1-112, the functions. -/
def pairPlotFuncs : Funcs := [
  ("plot_corner", ["FormatStrFormatter", "Samples", "allcorner", "np"]),
  ("plot_residual", ["Residuals", "Samples", "pl"]),
  ("plot_both", ["GridSpec", "Samples", "marginal", "np", "pl", "plot_corner", "plot_residual", "scatter"]),
  ("__main__", ["argparse", "plot_both"])]

/-- demo/demo_psf/make_jwst_psf/make_psf.py:1-462, the functions. -/
def makePsfFuncs : Funcs := [
  ("read_image", ["Image", "fits", "np"]), ("fit_image", ["infer", "np", "psf_model"]),
  ("rectify", ["np", "psf_prediction"]), ("convert_psf_data", ["np"]), ("package_output", ["h5py", "time"]),
  ("combine_psfdatasets", ["h5py"]), ("fitsify_output", ["fits"]), ("scale_psf_data", ["np"]), ("blur_psf_data", []),
  ("__main__", ["argparse", "convert_psf_data", "display", "draw_ellipses", "ee_plot", "fit_image",
    "fitsify_output", "logging", "os", "package_output", "radial_plot", "read_image", "rectify"])]

/-- demo/demo_psf/make_jwst_psf/radial_profile.py:1-89, the functions. -/
def radialProfileFuncs : Funcs := [
  ("gaussian", []), ("__main__", ["PointSpreadFunction", "fits", "h5py", "multivariate_normal", "np", "pl"])]

/-- demo/demo_psf/make_jwst_psf/webbpsf_opd.py:1-81, the functions. -/
def webbpsfOpdFuncs : Funcs := [
  ("trend", ["webbpsf"]), ("__main__", ["JWST_BANDS", "argparse", "charge_diff", "os", "pl", "trend", "webbpsf"])]

/-- demo/demo_psf/make_jwst_psf/webbpsf_to_fpho.py:1-28, the functions. -/
def webbpsfToFphoFuncs : Funcs := [
  ("__main__", ["JWST_BANDS", "argparse", "fits", "glob", "os"])]

/-- demo/demo_psf/psf_grid_fit.py:1-144, the functions. -/
def psfGridFitFuncs : Funcs := [
  ("make_tag", []), ("make_grid", ["fits", "np", "yaml"]),
  ("__main__", ["NumpyEncoder", "fit_image", "fits", "get_parser", "json", "make_grid", "make_image", "make_tag",
    "np", "os", "pl", "plot_corner", "plot_residual", "plot_trace", "shutil"])]

/-- demo/demo_psf/psf_grid_plot.py:1-198, the functions. -/
def psfGridPlotFuncs : Funcs := [
  ("get_map", ["np"]), ("make_catalog", ["Samples", "np", "os"]), ("compare_parameters", ["np", "pl"]),
  ("compare_apflux", ["aperture_flux", "np", "pl"]), ("aperture_flux", ["np"]),
  ("__main__", ["argparse", "compare_apflux", "compare_parameters", "fits", "make_all_tags", "make_catalog", "os",
    "pl"])]

/-- demo/demo_psf/psf_one_fit.py:1-192, the functions. -/
def psfOneFitFuncs : Funcs := [
  ("make_tag", []),
  ("make_image", ["compute_noise_level", "galsim_model", "get_galsim_psf", "make_scene", "make_stamp", "np",
    "write_fits_to"]),
  ("fit_image", ["CircularRegion", "Patcher", "WCS", "fits", "make_bounds", "np", "run_lmc", "write_to_disk"]),
  ("__main__", ["fit_image", "get_parser", "make_image", "make_tag", "np", "os", "pl", "plot_corner",
    "plot_residual", "plot_trace"])]

/-- demo/demo_psf/psf_plot.py:1-121, the functions. -/
def psfPlotFuncs : Funcs := [
  ("plot_trace", ["Samples", "np", "pl"]), ("plot_corner", ["FormatStrFormatter", "Samples", "get_map", "np", "pl"]),
  ("plot_residual", ["Residuals", "Samples", "pl"]), ("get_map", ["np"]),
  ("__main__", ["os", "pl", "plot_corner", "plot_residual", "plot_trace", "sys"])]

/-- demo/demo_scene/scene_plot.py:1-117, the functions. -/
def scenePlotFuncs : Funcs := [
  ("convert_3dhst", ["convert_pa", "fits", "np", "sourcecat_dtype"]), ("show_reg", ["Ellipse"]),
  ("__main__", ["Line2D", "LinkedSuperScene", "convert_3dhst", "os", "pl", "rectify_catalog", "show_reg"])]

/-- demo/demo_snr/single_fit.py:1-96, the functions. -/
def singleFitFuncs : Funcs := [
  ("__main__", ["LinkedSuperScene", "NumpyEncoder", "Patcher", "argparse", "fits", "json", "logging", "os",
    "run_lmc", "write_to_disk"])]

/-- demo/demo_snr/single_make.py:1-64, the functions. -/
def singleMakeFuncs : Funcs := [
  ("__main__", ["compute_noise_level", "galsim_model", "get_galsim_psf", "get_parser", "make_psfstore",
    "make_scene", "make_stamp", "np", "os", "write_fits_to"])]

/-- demo/demo_snr/single_plot.py:1-123, the functions. -/
def singlePlotFuncs : Funcs := [
  ("multispan", ["get_spans", "np"]),
  ("plot_corner", ["Samples", "corner", "multispan", "np", "pl", "prettify_axes", "scatter"]),
  ("plot_residual", ["Residuals", "Samples", "pl"]), ("plot_traces", ["Samples", "np", "pl"]),
  ("__main__", ["argparse", "pl", "plot_corner", "plot_residual", "plot_traces"])]

/-- tests/galsim_tests/test_plot.py:1-266, the functions. -/
def testPlotFuncs : Funcs := [
  ("plot_trace", ["Samples", "np", "pl"]), ("plot_corner", ["FormatStrFormatter", "Samples", "get_map", "np", "pl"]),
  ("plot_residual", ["Residuals", "Samples", "pl"]), ("get_map", ["np"]), ("make_catalog", ["Samples", "np", "os"]),
  ("compare_parameters", ["np", "pl"]), ("compare_apflux", ["aperture_flux", "np", "pl"]), ("aperture_flux", ["np"]),
  ("__main__", ["os", "pl", "plot_corner", "plot_residual", "plot_trace", "sys"])]

/-- tests/galsim_tests/test_utils.py:1-295, the functions. -/
def testUtilsFuncs : Funcs := [
  ("get_parser", ["argparse", "np"]), ("get_grid_params", ["fits", "np", "product"]), ("make_stamp", ["np"]),
  ("make_scene", ["np"]), ("galsim_model", ["np"]), ("get_galsim_psf", ["fits", "galsim", "np"]),
  ("make_psfstore", ["h5py", "np"]), ("compute_noise_level", ["np"]), ("write_fits_to", ["fits"]),
  ("__main__", ["get_parser"])]

/-- tests/galsim_tests/test_psf/test_psf_mixture.py:1-268, the functions. -/
def testPsfMixtureFuncs : Funcs := [
  ("make_tag", []), ("make_all_tags", ["make_tag"]),
  ("make_image", ["compute_noise_level", "galsim_model", "get_galsim_psf", "make_scene", "make_stamp", "np",
    "write_fits_to"]), ("fit_image", ["LinkedSuperScene", "Patcher", "fits", "os", "run_lmc", "write_to_disk"]),
  ("__main__", ["HASGPU", "NumpyEncoder", "compare_apflux", "compare_parameters", "fit_image", "fits",
    "get_grid_params", "get_parser", "json", "make_all_tags", "make_catalog", "make_image", "make_tag", "np", "os",
    "pl", "plot_corner", "plot_residual", "plot_trace", "shutil"])]

/-- tests/galsim_tests/test_psf/make_summary.py:1-90, the functions. -/
def makeSummaryFuncs : Funcs := [
  ("make_tag", []), ("make_all_tags", ["make_tag"]),
  ("__main__", ["HASGPU", "compare_apflux", "compare_parameters", "fits", "get_parser", "glob", "make_all_tags",
    "make_catalog", "os", "pl"])]

/-- tests/galsim_tests/test_sersic/test_sersic_mixture.py:1-252, the functions. -/
def testSersicMixtureFuncs : Funcs := [
  ("make_tag", []), ("make_all_tags", ["make_tag"]),
  ("make_image", ["compute_noise_level", "galsim_model", "get_galsim_psf", "make_psfstore", "make_scene",
    "make_stamp", "np", "write_fits_to"]),
  ("fit_image", ["LinkedSuperScene", "Patcher", "fits", "os", "run_lmc", "write_to_disk"]),
  ("__main__", ["HASGPU", "NumpyEncoder", "compare_apflux", "compare_parameters", "fit_image", "fits",
    "get_grid_params", "get_parser", "json", "make_all_tags", "make_catalog", "make_image", "make_tag", "np", "os",
    "pl", "plot_corner", "plot_residual", "plot_trace"])]

/-- All functions by module. -/
def functions : List (Path × Funcs) := [
  (["forcepho", "config"], forcephoConfigFuncs),
  (["forcepho", "dispatcher"], forcephoDispatcherFuncs),
  (["forcepho", "fitting"], forcephoFittingFuncs),
  (["forcepho", "mixtures", "psf_mix_em"], forcephoMixturesPsfMixEmFuncs),
  (["forcepho", "mixtures", "psf_mix_hmc"], forcephoMixturesPsfMixHmcFuncs),
  (["forcepho", "mixtures", "sersic_mix_oned"], forcephoMixturesSersicMixOnedFuncs),
  (["forcepho", "mixtures", "sersic_mix_twod"], forcephoMixturesSersicMixTwodFuncs),
  (["forcepho", "mixtures", "utils_em"], forcephoMixturesUtilsEmFuncs),
  (["forcepho", "mixtures", "utils_hmc"], forcephoMixturesUtilsHmcFuncs),
  (["forcepho", "model"], forcephoModelFuncs),
  (["forcepho", "patches", "device_patch"], forcephoPatchesDevicePatchFuncs),
  (["forcepho", "patches", "patch"], forcephoPatchesPatchFuncs),
  (["forcepho", "patches", "pixel_patch"], forcephoPatchesPixelPatchFuncs),
  (["forcepho", "patches", "static_patch"], forcephoPatchesStaticPatchFuncs),
  (["forcepho", "patches", "storage"], forcephoPatchesStorageFuncs),
  (["forcepho", "postprocess"], forcephoPostprocessFuncs),
  (["forcepho", "priors"], forcephoPriorsFuncs),
  (["forcepho", "proposal"], forcephoProposalFuncs),
  (["forcepho", "region"], forcephoRegionFuncs),
  (["forcepho", "slow", "gaussmodel"], forcephoSlowGaussmodelFuncs),
  (["forcepho", "slow", "likelihood"], forcephoSlowLikelihoodFuncs),
  (["forcepho", "slow", "psf"], forcephoSlowPsfFuncs),
  (["forcepho", "slow", "stamp"], forcephoSlowStampFuncs),
  (["forcepho", "sources"], forcephoSourcesFuncs),
  (["forcepho", "superscene"], forcephoSupersceneFuncs),
  (["forcepho", "tasks"], forcephoTasksFuncs),
  (["forcepho", "utils"], forcephoUtilsFuncs),
  (["forcepho", "utils", "catalog"], forcephoUtilsCatalogFuncs),
  (["forcepho", "utils", "chain"], forcephoUtilsChainFuncs),
  (["forcepho", "utils", "corner"], forcephoUtilsCornerFuncs),
  (["forcepho", "utils", "ds9"], forcephoUtilsDs9Funcs),
  (["forcepho", "utils", "io"], forcephoUtilsIoFuncs),
  (["forcepho", "utils", "profile"], forcephoUtilsProfileFuncs),
  (["forcepho", "utils", "wcs"], forcephoUtilsWcsFuncs),
  (["demo_utils"], demoUtilsFuncs),
  (["basic"], basicFuncs),
  (["basic_plot"], basicPlotFuncs),
  (["basic_sceneDB"], basicSceneDBFuncs),
  (["color_fit"], colorFitFuncs),
  (["color_make"], colorMakeFuncs),
  (["color_plot_separate"], colorPlotSeparateFuncs),
  (["color_plot_together"], colorPlotTogetherFuncs),
  (["mosaic_combine_dithers"], mosaicCombineDithersFuncs),
  (["mosaic_fit"], mosaicFitFuncs),
  (["mosaic_make_dithers"], mosaicMakeDithersFuncs),
  (["mosaic_plot"], mosaicPlotFuncs),
  (["optimize"], optimizeFuncs),
  (["optimize_plot"], optimizePlotFuncs),
  (["pair_fit"], pairFitFuncs),
  (["pair_make"], pairMakeFuncs),
  (["pair_movie"], pairMovieFuncs),
  (["pair_plot"], pairPlotFuncs),
  (["make_psf"], makePsfFuncs),
  (["radial_profile"], radialProfileFuncs),
  (["webbpsf_opd"], webbpsfOpdFuncs),
  (["webbpsf_to_fpho"], webbpsfToFphoFuncs),
  (["psf_grid_fit"], psfGridFitFuncs),
  (["psf_grid_plot"], psfGridPlotFuncs),
  (["psf_one_fit"], psfOneFitFuncs),
  (["psf_plot"], psfPlotFuncs),
  (["scene_plot"], scenePlotFuncs),
  (["single_fit"], singleFitFuncs),
  (["single_make"], singleMakeFuncs),
  (["single_plot"], singlePlotFuncs),
  (["test_plot"], testPlotFuncs),
  (["test_utils"], testUtilsFuncs),
  (["test_psf_mixture"], testPsfMixtureFuncs),
  (["make_summary"], makeSummaryFuncs),
  (["test_sersic_mixture"], testSersicMixtureFuncs)]

end Forcepho.Imports
