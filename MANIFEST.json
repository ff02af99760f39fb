{
 "claims": [
  {
   "property": "C01",
   "status": "proved",
   "theorems": [
    "Forcepho.SuperScene.C01_counts"
   ],
   "note": ""
  },
  {
   "property": "C02",
   "status": "proved",
   "theorems": [
    "Forcepho.SuperScene.C02_exclusive"
   ],
   "note": ""
  },
  {
   "property": "C03",
   "status": "partial",
   "theorems": [
    "Forcepho.SuperScene.C03_partial",
    "Forcepho.SuperScene.C03_refuted_shared",
    "Forcepho.SuperScene.C03_refuted_valid"
   ],
   "note": "The claim is false of the code for fixed sources (checkout only tests is_active); negation proved with a concrete history. The part for active sources, and 'invalid implies held', is proved."
  },
  {
   "property": "C04",
   "status": "proved",
   "theorems": [
    "Forcepho.SuperScene.C04_failed_checkout"
   ],
   "note": ""
  },
  {
   "property": "C05",
   "status": "proved",
   "theorems": [
    "Forcepho.SuperScene.C05_checkin_rows",
    "Forcepho.SuperScene.C05_checkin_bounds_covs",
    "Forcepho.SuperScene.C05_checkin_out_of_range"
   ],
   "note": ""
  },
  {
   "property": "C06",
   "status": "proved",
   "theorems": [
    "Forcepho.SuperScene.C06_counters"
   ],
   "note": ""
  },
  {
   "property": "C07",
   "status": "proved",
   "theorems": [
    "Forcepho.SuperScene.C07_logs"
   ],
   "note": ""
  },
  {
   "property": "C08",
   "status": "proved",
   "theorems": [
    "Forcepho.SuperScene.C08_sizes",
    "Forcepho.SuperScene.C08_checkout_rows"
   ],
   "note": ""
  },
  {
   "property": "C09",
   "status": "proved",
   "theorems": [
    "Forcepho.SuperScene.C09_radius"
   ],
   "note": ""
  },
  {
   "property": "C10",
   "status": "proved",
   "theorems": [
    "Forcepho.SuperScene.C10_when"
   ],
   "note": ""
  },
  {
   "property": "C11",
   "status": "proved",
   "theorems": [
    "Forcepho.SuperScene.C11_done_iff",
    "Forcepho.SuperScene.C11_stable"
   ],
   "note": ""
  },
  {
   "property": "C12",
   "status": "proved",
   "theorems": [
    "Forcepho.SuperScene.C12_reset",
    "Forcepho.SuperScene.C12_reset_midflight"
   ],
   "note": ""
  },
  {
   "property": "C13",
   "status": "partial",
   "theorems": [
    "Forcepho.Weights.C13_distribution_partial",
    "Forcepho.Weights.C13_monotone",
    "Forcepho.Weights.C13_ratio",
    "Forcepho.Weights.C13_refuted_positive",
    "Forcepho.Weights.C13_valid_twice_invalid",
    "Forcepho.Weights.C13_sigmoid_refuted",
    "Forcepho.Weights.C13_sigmoid_monotone"
   ],
   "note": "Normalisation and monotonicity proved; the exclusion of checked-out sources is false of the code (numpy ~ on an int32 column gives -2/-1, not a boolean mask) and the negation is proved."
  },
  {
   "property": "C14",
   "status": "proved",
   "theorems": [
    "Forcepho.Linked.C14_grow",
    "Forcepho.Linked.C14_grow_overlap"
   ],
   "note": ""
  },
  {
   "property": "C15",
   "status": "partial",
   "theorems": [
    "Forcepho.Linked.C15_partial",
    "Forcepho.Linked.C15_refuted",
    "Forcepho.Linked.C15_refuted_strict"
   ],
   "note": "False in general: a group larger than the active slots is truncated and two regions can share a source; negation proved. Proved when filling is strict, radii of influence are fixed and at most the boundary radius, and every overlap group fits."
  },
  {
   "property": "C16",
   "status": "proved",
   "theorems": [
    "Forcepho.Linked.C16_groups"
   ],
   "note": ""
  },
  {
   "property": "C68",
   "status": "proved",
   "theorems": [
    "Forcepho.Linked.C68_linked_region"
   ],
   "note": ""
  },
  {
   "property": "C17",
   "status": "proved",
   "theorems": [
    "Forcepho.Dispatcher.C17_workers"
   ],
   "note": ""
  },
  {
   "property": "C18",
   "status": "proved",
   "theorems": [
    "Forcepho.Dispatcher.C18_tasks"
   ],
   "note": ""
  },
  {
   "property": "C19",
   "status": "proved",
   "theorems": [
    "Forcepho.Dispatcher.C19_submit",
    "Forcepho.Dispatcher.C19_collect",
    "Forcepho.Dispatcher.C19_closeout"
   ],
   "note": "Additionally: a non-blocking collect with nothing outstanding raises TypeError (mpi4py answers None)."
  },
  {
   "property": "C20",
   "status": "partial",
   "theorems": [
    "Forcepho.Dispatcher.C20_partial",
    "Forcepho.Dispatcher.C20_one_worker",
    "Forcepho.Dispatcher.C20_wait",
    "Forcepho.Dispatcher.C20_refuted_straggler",
    "Forcepho.Dispatcher.C20_refuted_taskid"
   ],
   "note": "Holds in full with one worker. With more workers the code drops stragglers and logs results under the newest task id; both negations proved. Everything else (accounting, no queue failure, progress, clean shutdown) proved for all schedules."
  },
  {
   "property": "C21",
   "status": "proved",
   "theorems": [
    "Forcepho.Sources.C21_set_get",
    "Forcepho.Sources.C21_get_set",
    "Forcepho.Sources.C21_filter",
    "Forcepho.Sources.C21_nparams"
   ],
   "note": "All classes. Side finding: n_params of the base class is two short of its vector length."
  },
  {
   "property": "C22",
   "status": "proved",
   "theorems": [
    "Forcepho.Sources.C22_scene",
    "Forcepho.Sources.C22_base_class"
   ],
   "note": "For every scene of concrete source classes; the abstract base class always raises (C22_base_class). A vector longer than needed is accepted and its tail ignored."
  },
  {
   "property": "C23",
   "status": "partial",
   "theorems": [
    "Forcepho.Sources.C23_indices_partial",
    "Forcepho.Sources.C23_disjoint",
    "Forcepho.Sources.C23_refuted",
    "Forcepho.Sources.C23_default_raises"
   ],
   "note": "Correct when no fixed source precedes; refuted otherwise. The documented default (all bands) always raises."
  },
  {
   "property": "C24",
   "status": "partial",
   "theorems": [
    "Forcepho.Sources.C24_rows_partial",
    "Forcepho.Sources.C24_scene",
    "Forcepho.Sources.C24_refuted_id",
    "Forcepho.Sources.C24_other_classes",
    "Forcepho.Sources.C24_conformal_error"
   ],
   "note": "Band and shape columns and row order round-trip; the id column is replaced by the position (refuted); stars, simple galaxies and fixed-shape shear galaxies cannot be built from a catalog at all."
  },
  {
   "property": "C25",
   "status": "partial",
   "theorems": [
    "Forcepho.Sources.C25_proposal_partial",
    "Forcepho.Sources.C25_refuted_zero"
   ],
   "note": "Everything but the zero fill: unused slots keep uninitialised memory (refuted)."
  },
  {
   "property": "C26",
   "status": "proved",
   "theorems": [
    "Forcepho.Posterior.C26_transparent",
    "Forcepho.Posterior.C26_C27_partial",
    "Forcepho.Posterior.C26_ncall",
    "Forcepho.Posterior.C26_sentinel"
   ],
   "note": "The sentinel restriction of the statement is necessary (C26_sentinel: a first query at the all -99 vector raises)."
  },
  {
   "property": "C27",
   "status": "partial",
   "theorems": [
    "Forcepho.Posterior.C26_C27_partial",
    "Forcepho.Posterior.C27_refuted",
    "Forcepho.Posterior.C27_refuted_gradient"
   ],
   "note": "False of the code: the cache keeps a reference to the caller's array (and hands out its own gradient array); both negations proved. Proved: safe for histories that never write to an array after querying it."
  },
  {
   "property": "C28",
   "status": "partial",
   "theorems": [
    "Forcepho.Posterior.Stack.C28_layout",
    "Forcepho.Posterior.Stack.C28_matches_scene",
    "Forcepho.Posterior.Stack.C28_refuted_fixed_profile"
   ],
   "note": "Layout proved for all sizes and agreement with the scene vector for galaxies with free profile; for galaxies without free profile the gradient is longer than the parameter vector (refuted)."
  },
  {
   "property": "C69",
   "status": "partial",
   "theorems": [
    "Forcepho.Posterior.C69_switch_partial",
    "Forcepho.Posterior.C69_refuted"
   ],
   "note": "True at every other point; false at the point queried last (stale value), negation proved."
  },
  {
   "property": "C29",
   "status": "proved",
   "theorems": [
    "Forcepho.Transform.C29_bijection"
   ],
   "note": "Over the reals; floating-point saturation of the sigmoid is not modelled."
  },
  {
   "property": "C30",
   "status": "proved",
   "theorems": [
    "Forcepho.Transform.C30_jacobian",
    "Forcepho.Transform.C30_lndetjac_grad",
    "Forcepho.Transform.C30_plain"
   ],
   "note": ""
  },
  {
   "property": "C31",
   "status": "proved",
   "theorems": [
    "Forcepho.Transform.C31_gradient",
    "Forcepho.Transform.C31_object",
    "Forcepho.Transform.C31_stacked"
   ],
   "note": "Chain rule through transform, prior and volume term, and the stacking of per-band kernel derivatives; the kernel's own derivatives are C50."
  },
  {
   "property": "C32",
   "status": "proved",
   "theorems": [
    "Forcepho.Transform.Bounce.C32_reflection",
    "Forcepho.Transform.Bounce.C32_degenerate"
   ],
   "note": "Also: for a zero-width interval the loop never terminates."
  },
  {
   "property": "C33",
   "status": "proved",
   "theorems": [
    "Forcepho.Bounds.C33_contain",
    "Forcepho.Bounds.C33_widen",
    "Forcepho.Bounds.C33_allow_sign",
    "Forcepho.Bounds.C33_prec_contain",
    "Forcepho.Bounds.C33_prec_width",
    "Forcepho.Bounds.C33_refuted_zero",
    "Forcepho.Bounds.C33_all_zero",
    "Forcepho.Bounds.C33_zero_upper"
   ],
   "note": "The restriction to non-zero flux is necessary (C33_refuted_zero); if all fluxes are zero the upper bound is NaN."
  },
  {
   "property": "C34",
   "status": "proved",
   "theorems": [
    "Forcepho.Bounds.C34_ok_iff",
    "Forcepho.Bounds.C34_shape",
    "Forcepho.Bounds.C34_flux",
    "Forcepho.Bounds.C34_check",
    "Forcepho.Bounds.C34_vectors",
    "Forcepho.Bounds.C34_made_pass",
    "Forcepho.Bounds.C34_degenerate"
   ],
   "note": "Also: made bounds pass the check for interior catalogs; a zero flux with zero uncertainty gives an empty interval that the check rejects."
  },
  {
   "property": "C35",
   "status": "partial",
   "theorems": [
    "Forcepho.Bounds.C35_bounds_partial",
    "Forcepho.Bounds.C35_refuted",
    "Forcepho.Bounds.C35_errors"
   ],
   "note": "False of the code: the clip uses the lower bound twice, so every flux ends strictly below its lower bound (C35_refuted). Proved: bounds only widen and contain what they contained."
  },
  {
   "property": "C36",
   "status": "partial",
   "theorems": [
    "Forcepho.Bounds.C36_same_axis",
    "Forcepho.Bounds.C36_in_range_partial",
    "Forcepho.Bounds.C36_refuted",
    "Forcepho.Bounds.C36_refuted_odd",
    "Forcepho.Bounds.C36_rotate",
    "Forcepho.Bounds.C36_options"
   ],
   "note": "The multiple-of-pi half holds for all inputs; the range half holds only for inputs already in range (sign error in the test); negation proved."
  },
  {
   "property": "C37",
   "status": "proved",
   "theorems": [
    "Forcepho.Bounds.C37_in_range",
    "Forcepho.Bounds.C37_rotated",
    "Forcepho.Bounds.C37_copies",
    "Forcepho.Bounds.C37_idempotent",
    "Forcepho.Bounds.C37_fails"
   ],
   "note": "Position-angle range for the unrotated, unreversed case; with rotation the result is in [-pi/2, pi/2]."
  },
  {
   "property": "C38",
   "status": "proved",
   "theorems": [
    "Forcepho.Storage.C38_every_pixel_once",
    "Forcepho.Storage.C38_labels",
    "Forcepho.Storage.C38_sizes",
    "Forcepho.Storage.C38_corners",
    "Forcepho.Storage.C38_refuted_large"
   ],
   "note": "For sides up to 32768 pixels (coordinates are stored as int16; beyond that refuted)."
  },
  {
   "property": "C39",
   "status": "partial",
   "theorems": [
    "Forcepho.Storage.C39_weights_partial",
    "Forcepho.Storage.C39_sizes",
    "Forcepho.Storage.C39_refuted_integer_mask",
    "Forcepho.Storage.C39_integer_mask_image",
    "Forcepho.Storage.C39_integer_mask_fails"
   ],
   "note": "Proved for boolean masks and for integer masks with a bit mask; an integer mask without a bit mask is used as row numbers (refuted)."
  },
  {
   "property": "C40",
   "status": "partial",
   "theorems": [
    "Forcepho.Storage.C40_pixels_partial",
    "Forcepho.Storage.C40_metadata",
    "Forcepho.Storage.C40_count",
    "Forcepho.Storage.C40_json",
    "Forcepho.Storage.C40_refuted_nested",
    "Forcepho.Storage.C40_below_dataset"
   ],
   "note": "Metadata: in full. Pixel file: for exposure names none of which is a directory of another; otherwise an exposure can delete another (refuted)."
  },
  {
   "property": "C67",
   "status": "proved",
   "theorems": [
    "Forcepho.Storage.C67_nearest",
    "Forcepho.Storage.C67_fallback"
   ],
   "note": "The patch packer never passes an astrometric solution, so in practice entry 0 is always used (C67_fallback; see C45)."
  },
  {
   "property": "C70",
   "status": "partial",
   "theorems": [
    "Forcepho.Storage.C70_again_partial",
    "Forcepho.Storage.C70_refuted"
   ],
   "note": "False of the code with a background (subtracted again); true without background and calibration."
  },
  {
   "property": "C71",
   "status": "partial",
   "theorems": [
    "Forcepho.Storage.C71_fresh_partial",
    "Forcepho.Storage.C71_refuted"
   ],
   "note": "False of the code: the cached solution of the old header stays in use."
  },
  {
   "property": "C72",
   "status": "proved",
   "theorems": [
    "Forcepho.Storage.C72_layout"
   ],
   "note": ""
  },
  {
   "property": "C41",
   "status": "proved",
   "theorems": [
    "Forcepho.Patch.C41_exposures",
    "Forcepho.Patch.C41_bands",
    "Forcepho.Patch.C41_bandPixels",
    "Forcepho.Patch.C41_succeeds_iff"
   ],
   "note": "Index arrays as natural numbers (int16/int32 idealised)."
  },
  {
   "property": "C42",
   "status": "proved",
   "theorems": [
    "Forcepho.Patch.C42_splitPix",
    "Forcepho.Patch.C42_splitBand",
    "Forcepho.Patch.C42_residuals",
    "Forcepho.Patch.C42_reshape"
   ],
   "note": ""
  },
  {
   "property": "C43",
   "status": "proved",
   "theorems": [
    "Forcepho.Patch.C43_fits",
    "Forcepho.Patch.C43_static",
    "Forcepho.Patch.C43_staticPack",
    "Forcepho.Kernel.C43_inert"
   ],
   "note": "Inertness of the padding for chi-square and every gradient is proved on the kernel model."
  },
  {
   "property": "C44",
   "status": "partial",
   "theorems": [
    "Forcepho.Patch.C44_cap_partial",
    "Forcepho.Patch.C44_order",
    "Forcepho.Patch.C44_off",
    "Forcepho.Patch.C44_refuted"
   ],
   "note": "Signal to noise is capped from above; for negative values the absolute value is not capped (refuted)."
  },
  {
   "property": "C45",
   "status": "partial",
   "theorems": [
    "Forcepho.Patch.C45_blocks",
    "Forcepho.Patch.C45_succeeds",
    "Forcepho.Patch.C45_component",
    "Forcepho.Patch.C45_kernel_partial",
    "Forcepho.Patch.C45_first",
    "Forcepho.Patch.C45_refuted",
    "Forcepho.Patch.C45_static",
    "Forcepho.Patch.C45_static_refuted"
   ],
   "note": "Packing offsets proved. The kernel's index ignores the source, so it is right only when all sources of an exposure share a PSF (which the shipped lookup guarantees); refuted in general. The static PSF array is larger than its contents (refuted)."
  },
  {
   "property": "C46",
   "status": "partial",
   "theorems": [
    "Forcepho.Patch.C46_roundtrip",
    "Forcepho.Patch.C46_reference",
    "Forcepho.Patch.C46_positions",
    "Forcepho.Patch.C46_central",
    "Forcepho.Patch.C46_repack",
    "Forcepho.Patch.C46_refuted"
   ],
   "note": "Proved for one packing; repacking an already packed scene always loses the reference (refuted)."
  },
  {
   "property": "C49",
   "status": "proved",
   "theorems": [
    "Forcepho.Kernel.C49_matrix",
    "Forcepho.Kernel.C49_positive_definite",
    "Forcepho.Kernel.C49_gaussian",
    "Forcepho.Kernel.C49_total_flux",
    "Forcepho.Kernel.C49_layout"
   ],
   "note": "Over the reals. The normalisation is the integral of the gaussian over the image plane; the second-order pixel correction is part of C50_chi2."
  },
  {
   "property": "C50",
   "status": "proved",
   "theorems": [
    "Forcepho.Kernel.C50_gradient_flux",
    "Forcepho.Kernel.C50_gradient_ra",
    "Forcepho.Kernel.C50_gradient_dec",
    "Forcepho.Kernel.C50_gradient_q",
    "Forcepho.Kernel.C50_gradient_pa",
    "Forcepho.Kernel.C50_gradient_sersic",
    "Forcepho.Kernel.C50_gradient_rh",
    "Forcepho.Kernel.C50_chi2"
   ],
   "note": "Over the reals. The profile parameters act through the mixture amplitudes, whose supplied derivatives are assumed to be derivatives. C50_chi2 ties the reported chi-square and residual image to an independent gaussian mixture model."
  },
  {
   "property": "C51",
   "status": "proved",
   "theorems": [
    "Forcepho.Kernel.C51_zero_weight",
    "Forcepho.Kernel.C51_one_pixel"
   ],
   "note": ""
  },
  {
   "property": "C52",
   "status": "partial",
   "theorems": [
    "Forcepho.Kernel.C52_visits",
    "Forcepho.Kernel.C52_warp",
    "Forcepho.Kernel.C52_accumulate",
    "Forcepho.Kernel.C52_gaussians",
    "Forcepho.Kernel.C52_agree_partial",
    "Forcepho.Kernel.C52_run_exists",
    "Forcepho.Kernel.C52_accumulator",
    "Forcepho.Kernel.C52_unpadded_refuted"
   ],
   "note": "Visits, reduction and gaussians: for all thread counts. Agreement of the sums needs block and exposures to be multiples of the warp size; otherwise inactive lanes enter the sum (refuted) and some thread indexes past the accumulators."
  },
  {
   "property": "C53",
   "status": "proved",
   "theorems": [
    "Forcepho.Kernel.C53_writes",
    "Forcepho.Kernel.C53_rows",
    "Forcepho.Kernel.C53_beyond",
    "Forcepho.Kernel.C53_shared",
    "Forcepho.Kernel.C53_shared_refuted"
   ],
   "note": "Also: the shared memory requested at launch holds at most 561 gaussians, so the limit on sources alone does not protect it."
  },
  {
   "property": "C47",
   "status": "partial",
   "theorems": [
    "Forcepho.Device.C47_gpu",
    "Forcepho.Device.C47_image",
    "Forcepho.Device.C47_retrieve",
    "Forcepho.Device.C47_cpu",
    "Forcepho.Device.C47_blocks_add",
    "Forcepho.Kernel.C47_kernel_blocks",
    "Forcepho.Kernel.C47_kernel_sum",
    "Forcepho.Device.C47_no_active",
    "Forcepho.Device.C47_cpu_twice",
    "Forcepho.Device.C47_gpu_twice",
    "Forcepho.Device.C47_gpu_dirty",
    "Forcepho.Device.C47_degenerate"
   ],
   "note": "One preparation of a packed patch: in full, on both devices, for every block size. Preparing the same CPU patch again subtracts again (C47_cpu_twice) while the GPU refuses; an empty fixed catalog raises IndexError (C47_degenerate)."
  },
  {
   "property": "C48",
   "status": "partial",
   "theorems": [
    "Forcepho.Device.C48_at_most_once",
    "Forcepho.Device.C48_final_free_partial",
    "Forcepho.Device.C48_explicit_partial",
    "Forcepho.Device.C48_resend_unfreed",
    "Forcepho.Device.C48_no_invalid_access",
    "Forcepho.Device.C48_failed_send",
    "Forcepho.Device.Classes.C149_free_refuted"
   ],
   "note": "Stated for the free of the GPU mixin, which is the one that runs only when the mixin is written before the storage class; JadesPatch, SimplePatch and the examples write it after, and their free does nothing (C149_free_refuted). Under that restriction: each buffer is released at most once and after free exactly once, counting handle destruction. Explicit frees alone suffice when sends only happen with nothing on the device (C48_explicit_partial), otherwise the destructor is needed (C48_resend_unfreed). No access to released memory while nothing raised; a failed send breaks that (C48_failed_send)."
  },
  {
   "property": "C54",
   "status": "proved",
   "theorems": [
    "Forcepho.Shear.C54_roundtrip",
    "Forcepho.Shear.C54_shear_roundtrip",
    "Forcepho.Shear.C54_round",
    "Forcepho.Shear.C54_shape",
    "Forcepho.Shear.C54_jacobian",
    "Forcepho.Shear.C54_gradient",
    "Forcepho.Shear.C54_round_singular"
   ],
   "note": "Over the reals. At a round source the jacobian does not exist (C54_round_singular)."
  },
  {
   "property": "C55",
   "status": "proved",
   "theorems": [
    "Forcepho.Region.C55_sound",
    "Forcepho.Region.C55_rectangles",
    "Forcepho.Region.C55_convex",
    "Forcepho.Region.C55_image",
    "Forcepho.Region.C55_no_miss",
    "Forcepho.Region.C55_degenerate"
   ],
   "note": "Exact for every pair of convex polygons with non-empty interior (separating axis theorem); for polygons of no area the answer can be wrong (C55_degenerate)."
  },
  {
   "property": "C56",
   "status": "proved",
   "theorems": [
    "Forcepho.Region.C56_interior",
    "Forcepho.Region.C56_accepted",
    "Forcepho.Region.C56_flat"
   ],
   "note": "Exact for convex polygons; a flat polygon accepts its whole line (C56_flat)."
  },
  {
   "property": "C73",
   "status": "partial",
   "theorems": [
    "Forcepho.Region.C73_frame",
    "Forcepho.Region.C73_square_partial",
    "Forcepho.Region.C73_refuted"
   ],
   "note": "Exact for square images with affine solutions; the tested outline has the first axis length as both coordinates of the far corner, so for other shapes it is wrong in both directions (refuted)."
  },
  {
   "property": "C74",
   "status": "partial",
   "theorems": [
    "Forcepho.Region.C74_flat_partial",
    "Forcepho.Region.C74_refuted"
   ],
   "note": "Holds on a flat sky. On the sphere the box is too narrow for every circle off the equator (refuted, in general)."
  },
  {
   "property": "C75",
   "status": "partial",
   "theorems": [
    "Forcepho.Region.C75_listed",
    "Forcepho.Region.C75_refuted"
   ],
   "note": "Exact characterisation of what is listed; an image inside or crossed by the region is not found although it has pixels in it (refuted)."
  },
  {
   "property": "C76",
   "status": "partial",
   "theorems": [
    "Forcepho.Region.C76_nodup",
    "Forcepho.Region.C76_inside_partial",
    "Forcepho.Region.C76_near",
    "Forcepho.Region.C76_corners",
    "Forcepho.Region.C76_rectangle",
    "Forcepho.Region.C76_refuted"
   ],
   "note": "No pixel twice, all within one super-pixel diagonal of the region, and all pixels inside it by half a diagonal; a circle between the corners of a super-pixel selects nothing (refuted)."
  },
  {
   "property": "C57",
   "status": "proved",
   "theorems": [
    "Forcepho.Wcs.C57_secant",
    "Forcepho.Wcs.C57_affine",
    "Forcepho.Wcs.C57_limit",
    "Forcepho.Wcs.C57_consistent",
    "Forcepho.Wcs.C57_origin",
    "Forcepho.Wcs.C57_stamp",
    "Forcepho.Wcs.C57_tangent",
    "Forcepho.Wcs.C57_tangent_refuted"
   ],
   "note": "Over the reals, for the astrometric solution as an arbitrary or affine function. The branch that uses the header matrix is the derivative of the tangent projection at the reference point only (C57_tangent_refuted)."
  },
  {
   "property": "C58",
   "status": "proved",
   "theorems": [
    "Forcepho.Wcs.C58_inverse",
    "Forcepho.Wcs.C58_singular",
    "Forcepho.Wcs.C58_kernel",
    "Forcepho.Wcs.C58_markers",
    "Forcepho.Wcs.C58_markers_scene",
    "Forcepho.Wcs.C58_markers_refuted"
   ],
   "note": "Stamp conversions: in full. The plotting helper uses the first source's astrometry when the number of positions differs from the number of sources (C58_markers_refuted)."
  },
  {
   "property": "C59",
   "status": "proved",
   "theorems": [
    "Forcepho.Chain.C59_cells",
    "Forcepho.Chain.C59_accepts",
    "Forcepho.Chain.C59_scene",
    "Forcepho.Chain.C59_sample",
    "Forcepho.Chain.C59_roundtrip",
    "Forcepho.Chain.C59_out_of_range"
   ],
   "note": "With one source and one iteration every iteration number is accepted (C59_out_of_range)."
  },
  {
   "property": "C60",
   "status": "proved",
   "theorems": [
    "Forcepho.Chain.C60_addresses",
    "Forcepho.Chain.C60_roundtrip",
    "Forcepho.Chain.C60_zero"
   ],
   "note": ""
  },
  {
   "property": "C61",
   "status": "partial",
   "theorems": [
    "Forcepho.Config.C61_precedence_partial",
    "Forcepho.Config.C61_merge",
    "Forcepho.Config.C61_refuted",
    "Forcepho.Config.C61_witness",
    "Forcepho.Config.C61_null",
    "Forcepho.Config.C61_read_config"
   ],
   "note": "Holds when every option is written `--name values`. An option given as `--name=value` or abbreviated is silently ignored (C61_refuted, in general), and read_config lets parser defaults override the file (C61_read_config). C61_merge says exactly what happens in all cases."
  },
  {
   "property": "C77",
   "status": "proved",
   "theorems": [
    "Forcepho.Config.C77_values",
    "Forcepho.Config.C77_store",
    "Forcepho.Config.C77_directory",
    "Forcepho.Config.C77_store_none"
   ],
   "note": "A store directory together with a store file left at None raises TypeError (C77_store_none)."
  },
  {
   "property": "C63",
   "status": "proved",
   "theorems": [
    "Forcepho.Priors.C63_gradient",
    "Forcepho.Priors.C63_barrier",
    "Forcepho.Priors.C63_accepts",
    "Forcepho.Priors.C63_cauchy_interval",
    "Forcepho.Priors.C63_cauchy_distribution"
   ],
   "note": "Over the reals. The Barrier class can never be constructed."
  },
  {
   "property": "C62",
   "status": "proved",
   "theorems": [
    "Forcepho.Fluxes.C62_minimum",
    "Forcepho.Fluxes.C62_solvable",
    "Forcepho.Fluxes.C62_chi2",
    "Forcepho.Fluxes.C62_bands",
    "Forcepho.Fluxes.C62_bounds",
    "Forcepho.Fluxes.C62_fixed_refuted",
    "Forcepho.Fluxes.C62_witness"
   ],
   "note": "Over the reals, also end to end with the kernel's chi-square (C62_chi2). Passing fixed sources in the documented shape always raises (C62_fixed_refuted)."
  },
  {
   "property": "C78",
   "status": "proved",
   "theorems": [
    "Forcepho.Fluxes.C78_design"
   ],
   "note": "Over the reals; a zero flux makes the matrix undefined."
  },
  {
   "property": "C64",
   "status": "partial",
   "theorems": [
    "Forcepho.Slow.C64_agree_partial",
    "Forcepho.Slow.C64_fixed",
    "Forcepho.Slow.C64_refuted",
    "Forcepho.Slow.C64_gradient",
    "Forcepho.Slow.C64_counts",
    "Forcepho.Slow.C64_helpers",
    "Forcepho.Slow.C64_nan",
    "Forcepho.Slow.C64_arcsec",
    "Forcepho.Slow.C64_arcsec_offsets",
    "Forcepho.Slow.C64_arcsec_refuted",
    "Forcepho.Slow.C64_history_partial",
    "Forcepho.Slow.C64_history_refuted",
    "Forcepho.Slow.C64_witness"
   ],
   "note": "Plans agree and the gradient is the derivative without fixed sources. The plain plan ignores fixed sources (C64_refuted); a zero flux or amplitude gives a NaN gradient (C64_nan); a PSF in arcsec raises unless it has exactly two gaussians, and then its offsets are mixed up (C64_arcsec_refuted); plans share a class-level dictionary so one plan's setting leaks into others (C64_history_refuted)."
  },
  {
   "property": "C79",
   "status": "proved",
   "theorems": [
    "Forcepho.Slow.C79_gaussian",
    "Forcepho.Slow.C79_agree",
    "Forcepho.Slow.C79_witness"
   ],
   "note": "For round source gaussians, a PSF in pixel units, no exponent beyond the kernel's cutoff and non-zero fluxes."
  },
  {
   "property": "C65",
   "status": "partial",
   "theorems": [
    "Forcepho.Postprocess.C65_exact_partial",
    "Forcepho.Postprocess.C65_written",
    "Forcepho.Postprocess.C65_succeeds",
    "Forcepho.Postprocess.C65_padding",
    "Forcepho.Postprocess.C65_refuted",
    "Forcepho.Postprocess.C65_shape",
    "Forcepho.Postprocess.C65_shape_refuted",
    "Forcepho.Postprocess.C65_shared",
    "Forcepho.Postprocess.C65_default_shape",
    "Forcepho.Postprocess.C65_cutout"
   ],
   "note": "Exactly the stored pixels change when the stored coordinates are pixels of the image. Padding (coordinate -1) overwrites the last pixel (C65_padding, C65_refuted), the shape of one exposure leaks to the next without a header, and calls that leave out the dictionaries share them. Cutouts ignore padding (C65_cutout, in full)."
  },
  {
   "property": "C66",
   "status": "partial",
   "theorems": [
    "Forcepho.Postprocess.C66_rows",
    "Forcepho.Postprocess.C66_succeeds",
    "Forcepho.Postprocess.C66_explicit_refuted"
   ],
   "note": "In full for the patches of the run's log. With an explicit list of patches the catalog has one row per patch instead of per source (C66_explicit_refuted)."
  },
  {
   "property": "C82",
   "status": "proved",
   "theorems": [
    "Forcepho.Postprocess.C82_images"
   ],
   "note": ""
  },
  {
   "property": "C83",
   "status": "partial",
   "theorems": [
    "Forcepho.Postprocess.C83_sigma",
    "Forcepho.Postprocess.C83_snr",
    "Forcepho.Postprocess.C83_default",
    "Forcepho.Postprocess.C83_unlisted",
    "Forcepho.Postprocess.C83_succeeds",
    "Forcepho.Postprocess.C83_unknown",
    "Forcepho.Postprocess.C83_missing_refuted"
   ],
   "note": "Over the reals; numpy's pseudo-inverse is assumed to be the inverse on positive definite matrices. The documented default for patches without precision matrices never applies: an exception is raised (C83_missing_refuted)."
  },
  {
   "property": "C84",
   "status": "partial",
   "theorems": [
    "Forcepho.Postprocess.C84_returned",
    "Forcepho.Postprocess.C84_ordered_partial",
    "Forcepho.Postprocess.C84_refuted"
   ],
   "note": "Right when patch i was logged at position i. Otherwise chains of other patches are returned (C84_refuted)."
  },
  {
   "property": "C80",
   "status": "partial",
   "theorems": [
    "Forcepho.Multi.C80_gradient_partial",
    "Forcepho.Multi.C80_slow_partial",
    "Forcepho.Multi.C80_plans",
    "Forcepho.Multi.C80_numbers",
    "Forcepho.Multi.C80_negative",
    "Forcepho.Multi.C80_witness",
    "Forcepho.Multi.C80_shear_refuted",
    "Forcepho.Multi.C80_fixed_refuted",
    "Forcepho.Multi.C80_fixed_source_refuted"
   ],
   "note": "Holds for scenes of sources whose parameters are in the kernel's order and none of which is fixed, end to end with the Python plans (C80_slow_partial). The shear class gets derivatives of other parameters; sources outside the stamp coverage get zero; fixed sources shift the indices past the vector."
  },
  {
   "property": "C81",
   "status": "partial",
   "theorems": [
    "Forcepho.Psf.C81_half",
    "Forcepho.Psf.C81_width_partial",
    "Forcepho.Psf.C81_refuted"
   ],
   "note": "The variance is the width over 2.355 instead of its square, so the width is right for one value only."
  },
  {
   "property": "C85",
   "status": "proved",
   "theorems": [
    "Forcepho.Psf.C85_density",
    "Forcepho.Psf.C85_posdef",
    "Forcepho.Psf.C85_tuples"
   ],
   "note": "Over the reals."
  },
  {
   "property": "C86",
   "status": "proved",
   "theorems": [
    "Forcepho.Fitting.C86_samples",
    "Forcepho.Fitting.C86_start",
    "Forcepho.Fitting.C86_final",
    "Forcepho.Fitting.C86_linear",
    "Forcepho.Fitting.C86_rejected"
   ],
   "note": "Over the reals, for bounds with lower below upper (checked by the code path that makes them, C34). Bounds whose lower or upper limits are all zero are rejected by the model constructor (C86_rejected)."
  },
  {
   "property": "C87",
   "status": "partial",
   "theorems": [
    "Forcepho.Fitting.C87_map_partial",
    "Forcepho.Fitting.C87_structured_partial",
    "Forcepho.Fitting.C87_nan_refuted"
   ],
   "note": "Holds when no log-probability is NaN; a NaN sample is returned first otherwise."
  },
  {
   "property": "C88",
   "status": "partial",
   "theorems": [
    "Forcepho.Fitting.C88_repair",
    "Forcepho.Fitting.C88_mass_partial",
    "Forcepho.Fitting.C88_refuted",
    "Forcepho.Fitting.C88_weight",
    "Forcepho.Fitting.C88_lower"
   ],
   "note": "Holds for positive semidefinite matrices and traces of two or more points. An indefinite matrix is passed on after five attempts, silently (C88_refuted)."
  },
  {
   "property": "C89",
   "status": "partial",
   "theorems": [
    "Forcepho.Fitting.C89_point_partial",
    "Forcepho.Fitting.C89_lnp_refuted"
   ],
   "note": "The point and the function value are right; the reported log-probability is half the true one."
  },
  {
   "property": "C90",
   "status": "partial",
   "theorems": [
    "Forcepho.Saved.C90_roundtrip_partial",
    "Forcepho.Saved.C90_refuted"
   ],
   "note": "For arrays of numbers or bytes with at least one dimension and a file name with a directory. HDF5 is modelled by which values it accepts."
  },
  {
   "property": "C91",
   "status": "partial",
   "theorems": [
    "Forcepho.Quantile.C91_combine_partial",
    "Forcepho.Quantile.C91_bands",
    "Forcepho.Quantile.C91_refuted"
   ],
   "note": "Holds for catalogs with distinct string ids and distinct bands that are no names of other columns; other bands raise (C91_bands). The catalogs the package writes have integer ids or none, and the call then always raises (C91_refuted)."
  },
  {
   "property": "C92",
   "status": "proved",
   "theorems": [
    "Forcepho.Quantile.C92_value",
    "Forcepho.Quantile.C92_range",
    "Forcepho.Quantile.C92_coverage",
    "Forcepho.Quantile.C92_catalog"
   ],
   "note": "Over any linearly ordered field with floor; NaN samples are not modelled."
  },
  {
   "property": "C93",
   "status": "partial",
   "theorems": [
    "Forcepho.Quantile.C93_range_partial",
    "Forcepho.Quantile.C93_equal",
    "Forcepho.Quantile.C93_span",
    "Forcepho.Quantile.C93_refuted"
   ],
   "note": "The weight of the largest sample is never used (C93_refuted)."
  },
  {
   "property": "C94",
   "status": "proved",
   "theorems": [
    "Forcepho.Em.C94_density",
    "Forcepho.Em.C94_step",
    "Forcepho.Em.C94_iterates",
    "Forcepho.Em.C94_moments",
    "Forcepho.Em.C94_single",
    "Forcepho.Em.C94_image_moments"
   ],
   "note": "Exact arithmetic over the reals."
  },
  {
   "property": "C95",
   "status": "partial",
   "theorems": [
    "Forcepho.Em.C95_likelihood",
    "Forcepho.Em.C95_step",
    "Forcepho.Em.C95_monotone_partial",
    "Forcepho.Em.C95_single_best",
    "Forcepho.Em.C95_first_pass_refuted"
   ],
   "note": "Holds from the first pass on (the amplitudes then sum to one). The first pass lowers the likelihood when the starting amplitudes sum to more than one (C95_first_pass_refuted)."
  },
  {
   "property": "C96",
   "status": "partial",
   "theorems": [
    "Forcepho.Em.C96_answer",
    "Forcepho.Em.C96_converged_partial",
    "Forcepho.Em.C96_best",
    "Forcepho.Em.C96_em",
    "Forcepho.Em.C96_scipy_refuted",
    "Forcepho.Em.C96_unsettled_refuted",
    "Forcepho.Em.C96_alias_refuted",
    "Forcepho.Em.C96_greedy_refuted"
   ],
   "note": "Holds for EM answers whose likelihood is a number. The least-squares branch always raises, an unsettled repeat gives no answer, parameters stored after a first-pass nan are overwritten by the next repeat, and the greedy start adds instead of subtracting."
  },
  {
   "property": "C97",
   "status": "proved",
   "theorems": [
    "Forcepho.Psfdata.C97_rectify",
    "Forcepho.Psfdata.C97_convert",
    "Forcepho.Psfdata.C97_layout",
    "Forcepho.Psfdata.C97_sorted",
    "Forcepho.Psfdata.C97_roundtrip",
    "Forcepho.Psfdata.C97_blur"
   ],
   "note": "For the demo version of the script. The older copy in approx/psf reads the key sy, which the current mixture model no longer produces. float32 storage not modelled."
  },
  {
   "property": "C98",
   "status": "proved",
   "theorems": [
    "Forcepho.Profile.C98_fraction",
    "Forcepho.Profile.C98_fraction_shape",
    "Forcepho.Profile.C98_intensity",
    "Forcepho.Profile.C98_isophote",
    "Forcepho.Profile.gammaincinv_spec"
   ],
   "note": "scipy's incomplete gamma function is defined by its integral and its inverse is proved to exist."
  },
  {
   "property": "C99",
   "status": "partial",
   "theorems": [
    "Forcepho.Profile.C99_kron_partial",
    "Forcepho.Profile.C99_limited",
    "Forcepho.Profile.C99_limited_refuted"
   ],
   "note": "Holds without a limit. With a limit the value lacks the factor Gamma(3n)/Gamma(2n)."
  },
  {
   "property": "C100",
   "status": "partial",
   "theorems": [
    "Forcepho.Profile.C100_profile",
    "Forcepho.Profile.C100_total",
    "Forcepho.Profile.C100_cumulative",
    "Forcepho.Profile.C100_cumulative_point",
    "Forcepho.Profile.C100_fitted",
    "Forcepho.Profile.C100_prediction",
    "Forcepho.Profile.C100_sersic",
    "Forcepho.Profile.C100_rfrac",
    "Forcepho.Profile.C100_normal_refuted",
    "Forcepho.Profile.C100_shear_refuted"
   ],
   "note": "The profile, cumulative curve, fitted mixture, target, radius of a fraction and round image model are proved. The helper normal lacks a factor 1/sqrt(2 pi), and the shear arguments of the image model have no effect. The smoothed Sersic target is the subject of C157."
  },
  {
   "property": "C101",
   "status": "partial",
   "theorems": [
    "Forcepho.SuperScene.Disk.C101_files_partial",
    "Forcepho.SuperScene.Disk.C101_metadata_partial",
    "Forcepho.SuperScene.Disk.C101_errors",
    "Forcepho.SuperScene.Disk.C101_exit",
    "Forcepho.SuperScene.Disk.C101_overwrite_refuted",
    "Forcepho.SuperScene.Disk.C101_directory_refuted"
   ],
   "note": "Holds for names that end in .fits with no other .fits in the path. Without .fits in the name the log overwrites the catalog; with .fits in the directory the log is not found. FITS and JSON encodings are taken to read back what was written."
  },
  {
   "property": "C102",
   "status": "partial",
   "theorems": [
    "Forcepho.Dispatcher.Child.C102_answers_partial",
    "Forcepho.Dispatcher.Child.C102_answer",
    "Forcepho.Dispatcher.Child.C102_exception",
    "Forcepho.Dispatcher.Child.C102_dummy_refuted"
   ],
   "note": "Holds for a work function that does not raise; an exception ends the child, and the shipped dummy_work raises on every task."
  },
  {
   "property": "C103",
   "status": "partial",
   "theorems": [
    "Forcepho.Catalog.C103_write",
    "Forcepho.Catalog.C103_append_partial",
    "Forcepho.Catalog.C103_primary_refuted",
    "Forcepho.Catalog.C103_shift_refuted",
    "Forcepho.Catalog.C103_empty",
    "Forcepho.Catalog.C103_names"
   ],
   "note": "Holds when every input has all four names. Otherwise the fallback by position reads the primary HDU (raises) or the table before the right one."
  },
  {
   "property": "C104",
   "status": "partial",
   "theorems": [
    "Forcepho.Profile.C104_exp_squared",
    "Forcepho.Profile.C104_valid_partial",
    "Forcepho.Profile.C104_triangular_refuted",
    "Forcepho.Profile.C104_unknown"
   ],
   "note": "The default kernel is always valid, the finite-difference kernel whenever its operator is invertible, the triangular kernel for scales below one; above two (the default is three) the triangular kernel is not positive definite."
  },
  {
   "property": "C105",
   "status": "partial",
   "theorems": [
    "Forcepho.Linked.C105_order",
    "Forcepho.Linked.C105_fixed",
    "Forcepho.Linked.C105_seed_partial",
    "Forcepho.Linked.C105_seed_refuted",
    "Forcepho.Linked.C105_distance_refuted"
   ],
   "note": "Proved with separation measured as distance over the sum of the radii of influence, and for the seed when no other source is at the same place. With plain distance (as the docstrings say) and for coincident sources the claim is false."
  },
  {
   "property": "C106",
   "status": "partial",
   "theorems": [
    "Forcepho.Region.C106_listed",
    "Forcepho.Region.C106_complete_partial",
    "Forcepho.Region.C106_sorted",
    "Forcepho.Region.C106_refuted",
    "Forcepho.Region.C106_direct"
   ],
   "note": "The order is proved in full and the rule for listing characterised; that overlapping images are listed is proved for boxes aligned with the pixels and no larger than the image, and refuted for regions crossing the image. Patches from dictionaries read an attribute that is never set."
  },
  {
   "property": "C107",
   "status": "partial",
   "theorems": [
    "Forcepho.Region.C107_values",
    "Forcepho.Region.C107_fixed",
    "Forcepho.Region.C107_selection",
    "Forcepho.Region.C107_all",
    "Forcepho.Region.C107_corner_refuted"
   ],
   "note": "Proved with the corners the code uses; with pixel centres at whole coordinates these are half a pixel off, for which a witness is given."
  },
  {
   "property": "C108",
   "status": "partial",
   "theorems": [
    "Forcepho.Fitting.C108_scene",
    "Forcepho.Fitting.C108_covs",
    "Forcepho.Fitting.C108_missing_band_refuted"
   ],
   "note": "Parameters: proved in full. Mass matrices: proved when the patch has all bands; otherwise the matrix is silently not stored and the next one has the wrong size (proved)."
  },
  {
   "property": "C109",
   "status": "partial",
   "theorems": [
    "Forcepho.SuperScene.C109_never_short",
    "Forcepho.SuperScene.C109_close_partial",
    "Forcepho.SuperScene.C109_axes",
    "Forcepho.SuperScene.C109_cached",
    "Forcepho.SuperScene.C109_reingest_refuted",
    "Forcepho.SuperScene.C109_wrap_refuted"
   ],
   "note": "Frame, lower bound and cache proved; the upper bound needs the longitudes to be close in the frame, which fails for catalogs across right ascension zero (proved); a second ingest keeps the old coordinates (proved)."
  },
  {
   "property": "C110",
   "status": "proved",
   "theorems": [
    "Forcepho.Posterior.C110_values",
    "Forcepho.Posterior.C110_quadratic",
    "Forcepho.Posterior.C110_limit"
   ],
   "note": "Any careful earlier use of the object (its cache is fresh); exact arithmetic."
  },
  {
   "property": "C111",
   "status": "partial",
   "theorems": [
    "Forcepho.Fitting.C111_sample",
    "Forcepho.Fitting.C111_optimize_partial",
    "Forcepho.Fitting.C111_linear_refuted"
   ],
   "note": "sample, and optimize without linear optimisation: proved. With linear optimisation a result filled afterwards has all positions off by the offset of the last source (proved)."
  },
  {
   "property": "C112",
   "status": "partial",
   "theorems": [
    "Forcepho.Storage.C112_zero_point",
    "Forcepho.Storage.C112_factor",
    "Forcepho.Storage.C112_refuted_no_zero_point"
   ],
   "note": "Proved for exposures with ABMAG. An exposure without it is stored in counts with no error, which agrees only at zero point 31.4 (proved)."
  },
  {
   "property": "C113",
   "status": "partial",
   "theorems": [
    "Forcepho.Storage.C113_load_all_partial",
    "Forcepho.Storage.C113_gwcs_refuted",
    "Forcepho.Storage.C113_table"
   ],
   "note": "Proved for header astrometry. With a file of solutions and use_gwcs but without load_all (the default) the header solution is used (proved). Storing a keyword in a typed column is a parameter."
  },
  {
   "property": "C114",
   "status": "partial",
   "theorems": [
    "Forcepho.Device.C114_gpu",
    "Forcepho.Device.C114_cpu",
    "Forcepho.Device.C114_render_refuted",
    "Forcepho.Device.C114_render_gpu",
    "Forcepho.Device.C114_render_cpu",
    "Forcepho.Device.C114_failures",
    "Forcepho.Device.C114_negate"
   ],
   "note": "Residuals: proved on both devices for all sequences of calls. render is refuted: it negates a list, so it never returns; it also does not send the new metadata to the device (stale on a GPU, dangling pointers on a CPU)."
  },
  {
   "property": "C115",
   "status": "partial",
   "theorems": [
    "Forcepho.Postprocess.Saved.C115_first",
    "Forcepho.Postprocess.Saved.C115_roundtrip_partial",
    "Forcepho.Postprocess.Saved.C115_cutout_partial",
    "Forcepho.Postprocess.Saved.C115_files",
    "Forcepho.Postprocess.Saved.C115_twice_refuted"
   ],
   "note": "Proved for exposures with distinct names that do not lie inside one another. An exposure given twice is refuted: the second one is read back with the data and residuals of the first, without an error."
  },
  {
   "property": "C116",
   "status": "partial",
   "theorems": [
    "Forcepho.Postprocess.Reports.C116_pages",
    "Forcepho.Postprocess.Reports.C116_all_partial",
    "Forcepho.Postprocess.Reports.C116_all_refuted",
    "Forcepho.Postprocess.Reports.C116_regions",
    "Forcepho.Postprocess.Reports.C116_labels_partial",
    "Forcepho.Postprocess.Reports.C116_labels_refuted",
    "Forcepho.Postprocess.Reports.C116_string_refuted"
   ],
   "note": "All patches are shown if their number is a multiple of the patches per page, else the last ones are left out. Labels are the patch numbers for up to ten patches; with eleven, label 1 is patch 10. The call on the command line passes a string and fails."
  },
  {
   "property": "C118",
   "status": "partial",
   "theorems": [
    "Forcepho.Postprocess.Reports.C118_pages_partial",
    "Forcepho.Postprocess.Reports.C118_one_band_refuted",
    "Forcepho.Postprocess.Reports.C118_no_tuning_refuted",
    "Forcepho.Postprocess.Reports.C118_panels"
   ],
   "note": "Proved for two or more bands and a chain with tuning samples; with one band, or without tuning samples (the default of run_lmc), no report is made."
  },
  {
   "property": "C119",
   "status": "partial",
   "theorems": [
    "Forcepho.Postprocess.Reports.C119_options",
    "Forcepho.Postprocess.Reports.C119_independent_partial",
    "Forcepho.Postprocess.Reports.C119_leak_refuted"
   ],
   "note": "Refuted: options of a call stay for later calls, since the default dictionary is updated in place. The options used are characterised for all sequences of calls."
  },
  {
   "property": "C117",
   "status": "partial",
   "theorems": [
    "Forcepho.Postprocess.Postop.C117_written",
    "Forcepho.Postprocess.Postop.C117_name_partial",
    "Forcepho.Postprocess.Postop.C117_name_refuted",
    "Forcepho.Postprocess.Postop.C117_bands",
    "Forcepho.Postprocess.Postop.C117_next_partial",
    "Forcepho.Postprocess.Postop.C117_bands_refuted",
    "Forcepho.Postprocess.Postop.C117_shape_refuted",
    "Forcepho.Postprocess.Postop.C117_listing_refuted"
   ],
   "note": "Proved for a list of bands given, one catalog in the directory, a raw catalog named .fits, and shapes in the ranges the reader accepts. Otherwise refuted: bands missing in patch 0 are lost, shapes are clipped to ranges narrower than the prior, the catalog taken depends on the order of the listing, and a raw catalog of another name is overwritten."
  },
  {
   "property": "C120",
   "status": "partial",
   "theorems": [
    "Forcepho.Profile.Spline.C120_nodes_partial",
    "Forcepho.Profile.Spline.C120_nodes_refuted",
    "Forcepho.Profile.Spline.C120_repeated_refuted",
    "Forcepho.Profile.Spline.C120_flux",
    "Forcepho.Profile.Spline.C120_below",
    "Forcepho.Profile.Spline.C120_negative",
    "Forcepho.Profile.Spline.C120_gradient_partial",
    "Forcepho.Profile.Spline.C120_gradient_refuted"
   ],
   "note": "Flux conservation is proved everywhere for increasing grids of at least four values. Amplitudes at nodes need increasing grids: a decreasing one is read without an error and exchanges the amplitudes, one with a repeated value cannot be read. Derivatives are proved inside the table; below it the derivative by radius is reported as zero where the amplitudes jump. The splines of scipy are a parameter with stated properties, met by polynomial interpolation."
  },
  {
   "property": "C121",
   "status": "partial",
   "theorems": [
    "Forcepho.Linked.C121_linked_turn_partial",
    "Forcepho.Linked.C121_linked_finish_partial",
    "Forcepho.SuperScene.C121_circular_turn_partial",
    "Forcepho.SuperScene.C121_circular_finish_partial",
    "Forcepho.SuperScene.C121_starved_refuted",
    "Forcepho.SuperScene.C121_crowded_refuted"
   ],
   "note": "Linked regions: proved for sources at distinct places, the second part for radii of influence that do not change and are no larger than the boundary radius, for every worker and every order of seeds. Circular regions: false. A source with nscale times rhalf at least maxradius (rhalf of 2 arcsec with the defaults) is never active in any history, so a run that contains one never stops; a source with as many smaller neighbours as active slots is not active in its own region. For catalogs without such sources a finishing history exists."
  },
  {
   "property": "C122",
   "status": "partial",
   "theorems": [
    "Forcepho.Posterior.Init.C122_transform",
    "Forcepho.Posterior.Init.C122_exclusive",
    "Forcepho.Posterior.Init.C122_bounds_partial",
    "Forcepho.Posterior.Init.C122_zero_refuted",
    "Forcepho.Posterior.Init.C122_incomplete",
    "Forcepho.Posterior.Init.C122_sound",
    "Forcepho.Posterior.Init.C122_fast_flat",
    "Forcepho.Posterior.Init.C122_fast_prior",
    "Forcepho.Posterior.Init.C122_fast_nll",
    "Forcepho.Posterior.Init.C122_slow_partial",
    "Forcepho.Posterior.Init.C122_slow_refuted",
    "Forcepho.Posterior.Init.C122_residuals_partial",
    "Forcepho.Posterior.Init.C122_residuals_refuted",
    "Forcepho.Posterior.Init.C122_residuals_zero_refuted"
   ],
   "note": "Proved except where the code fails: bounds of which one vector is zero everywhere are refused; a SlowPosterior made without a prior raises at every evaluation, its nll always raises, and its residuals raise for arrays of two or more parameters."
  },
  {
   "property": "C123",
   "status": "partial",
   "theorems": [
    "Forcepho.Patch.Static.C123_bands",
    "Forcepho.Patch.Static.C123_build",
    "Forcepho.Patch.Static.C123_built",
    "Forcepho.Patch.Static.C123_build_refuted",
    "Forcepho.Patch.Static.C123_unordered",
    "Forcepho.Patch.Static.C123_no_sources",
    "Forcepho.Patch.Static.C123_stamps_partial",
    "Forcepho.Patch.Static.C123_stamps_refuted",
    "Forcepho.Patch.Static.C123_crpix_refuted",
    "Forcepho.Patch.Static.C123_psf",
    "Forcepho.Patch.Static.C123_psfgauss"
   ],
   "note": "Building: proved, with the reference points and calibrations of the first source for all sources, and with the failures stated: no patch is built when a mask is passed or the scene has inactive sources. Taking apart: always raises because the class of stamps is not known to the module; with it known, the pixels come back with their padding and the sky coordinates are stored as reference pixels."
  },
  {
   "property": "C124",
   "status": "partial",
   "theorems": [
    "Forcepho.Fitting.C124_bounded_partial",
    "Forcepho.Fitting.C124_bounds_refuted",
    "Forcepho.Fitting.C124_prior",
    "Forcepho.Fitting.C124_dynesty_refuted",
    "Forcepho.Fitting.C124_dynesty_partial"
   ],
   "note": "The bounded optimiser obeys the caller's bounds only for models without a transform; with one the bounds have no effect. Nested sampling maps the unit cube onto the box, but evaluates the likelihood of the transformed point; right for the identity transform."
  },
  {
   "property": "C125",
   "status": "partial",
   "theorems": [
    "Forcepho.Bounds.C125_default_partial",
    "Forcepho.Bounds.C125_config_partial",
    "Forcepho.Bounds.C125_wide",
    "Forcepho.Bounds.C125_limits",
    "Forcepho.Bounds.C125_position",
    "Forcepho.Bounds.C125_refuted",
    "Forcepho.Bounds.C125_configured_refuted"
   ],
   "note": "Holds exactly when the input axis ratios exceed 0.4 (square root) and the angles are strictly within 0.6 pi; always for limits wider than the ranges of rectification. The parent process ignores the limits of the configuration."
  },
  {
   "property": "C126",
   "status": "partial",
   "theorems": [
    "Forcepho.Shapes.C126_axes",
    "Forcepho.Shapes.C126_extremes",
    "Forcepho.Shapes.C126_derivs",
    "Forcepho.Shapes.C126_ratio_refuted",
    "Forcepho.Shapes.C126_angle_refuted",
    "Forcepho.Shapes.C126_jades_refuted",
    "Forcepho.Shapes.C126_jades_partial",
    "Forcepho.Shapes.C126_jades_shape_refuted",
    "Forcepho.Shapes.C126_regions",
    "Forcepho.Shapes.C126_drawn_partial",
    "Forcepho.Shapes.C126_drawn_refuted",
    "Forcepho.Shapes.C126_sourcereg_refuted",
    "Forcepho.Shapes.C126_sourcereg_partial"
   ],
   "note": "The description of the output is right, that of input catalogs (q = b/a, pa east of north) is not. The table conversion always raises; repaired, its two errors cancel in the drawn ellipse but the radius is too large by a/b. Region files: right up to a factor of two in size when the angle is read east of north, turned by a right angle when read from the longitude axis; write_sourcereg always raises."
  },
  {
   "property": "C127",
   "status": "partial",
   "theorems": [
    "Forcepho.Wcs.C127_transparent",
    "Forcepho.Wcs.C127_gwcs",
    "Forcepho.Wcs.C127_origin_refuted",
    "Forcepho.Wcs.C127_image"
   ],
   "note": "Proved for calls with two numbers; calls with astropy's origin argument raise, and an origin given as keyword is ignored."
  },
  {
   "property": "C128",
   "status": "partial",
   "theorems": [
    "Forcepho.Wcs.C128_handles",
    "Forcepho.Wcs.C128_psf_refuted"
   ],
   "note": "Proved for pixel stores; a PSF store opens its file at every access and never closes one."
  },
  {
   "property": "C129",
   "status": "partial",
   "theorems": [
    "Forcepho.Slow.Render.C129_image",
    "Forcepho.Slow.Render.C129_gradient",
    "Forcepho.Slow.Render.C129_rows",
    "Forcepho.Slow.Render.C129_no_flux",
    "Forcepho.Slow.Render.C129_round",
    "Forcepho.Slow.Render.C129_errors",
    "Forcepho.Slow.Render.C129_witness"
   ],
   "note": "The image is proved in general, the gradients wherever they are numbers; without flux in the filter, or for the shears of a round galaxy, the code gives none although the derivatives exist."
  },
  {
   "property": "C130",
   "status": "partial",
   "theorems": [
    "Forcepho.Float.C130_rounding",
    "Forcepho.Float.C130_position",
    "Forcepho.Float.C130_offset",
    "Forcepho.Float.C130_pixels",
    "Forcepho.Float.C130_unzeroed_refuted",
    "Forcepho.Float.C130_roundtrip",
    "Forcepho.Float.C130_roundtrip_refuted",
    "Forcepho.Float.C130_witness"
   ],
   "note": "Proved with explicit error bounds; exact return of shifted coordinates only for those within a factor of two of the reference, others return up to 2^-42 degrees."
  },
  {
   "property": "C131",
   "status": "partial",
   "theorems": [
    "Forcepho.Float.C131_agree",
    "Forcepho.Float.C131_runs",
    "Forcepho.Float.C131_stagnation",
    "Forcepho.Float.C131_large_refuted"
   ],
   "note": "Proved up to 2^p pixels for p bits; for gradients in single precision the bound is not small for very many pixels, and the CPU sum then stagnates."
  },
  {
   "property": "C132",
   "status": "proved",
   "theorems": [
    "Forcepho.Dispatcher.Serial.C132_serial",
    "Forcepho.Dispatcher.Serial.C132_arrival",
    "Forcepho.Dispatcher.Serial.C132_parent",
    "Forcepho.Dispatcher.Serial.C132_not_arrival_order"
   ],
   "note": "Conflict serialisability of the event loop; the equivalent order is that of the checkouts, and a run shows that the order of arrival is not one (a source fixed in one region may be active in a later one, see C03)."
  },
  {
   "property": "C133",
   "status": "partial",
   "theorems": [
    "Forcepho.Dispatcher.Net.C133_order",
    "Forcepho.Dispatcher.Net.C133_no_deadlock",
    "Forcepho.Dispatcher.Net.C133_progress",
    "Forcepho.Dispatcher.Net.C133_shutdown",
    "Forcepho.Dispatcher.Net.C133_refuted_exception",
    "Forcepho.Dispatcher.Net.C133_refuted_dummy"
   ],
   "note": "Proved for work functions that do not raise. False of the code if a process raises: after an exception in the parent no child stops, and with the work function that the code uses (it always raises) every run gets stuck without checking in anything."
  },
  {
   "property": "C134",
   "status": "proved",
   "theorems": [
    "Forcepho.Dispatcher.System.C134_single",
    "Forcepho.Dispatcher.System.C134_children"
   ],
   "note": "Joins C132 and C133: the history of regions is built along the steps of the composed system. Answers received after the targets are met are thrown away by the code (C20); they are the regions missing from the sequential run."
  },
  {
   "property": "C135",
   "status": "partial",
   "theorems": [
    "Forcepho.Float.C135_general",
    "Forcepho.Float.C135_value",
    "Forcepho.Float.C135_residual",
    "Forcepho.Float.C135_chi2",
    "Forcepho.Float.C135_elongated_refuted",
    "Forcepho.Float.C135_fused",
    "Forcepho.Float.C135_witness"
   ],
   "note": "Rounding to 24 and 53 bits without overflow and underflow. The gaussians are taken as they are in memory, so errors made when they are built are not included. Partial because the bound fails for elongated gaussians, see C135_elongated_refuted; C135_general holds for all shapes."
  },
  {
   "property": "C136",
   "status": "proved",
   "theorems": [
    "Forcepho.Fit.C136_answers",
    "Forcepho.Fit.C136_value",
    "Forcepho.Fit.C136_gradient",
    "Forcepho.Fit.C136_history",
    "Forcepho.Fit.C136_chain",
    "Forcepho.Fit.C136_witness"
   ],
   "note": "Real arithmetic. The composition of the models of C22, C25, C28-C31, C49-C53. The conditions are those of a fit as forcepho sets it up (Good), nonsingular geometry (Regular), and for the gradient the differentiability of the parts at the point (Smooth); C120 gives the differentiability of the mixture inside the spline table."
  },
  {
   "property": "C137",
   "status": "partial",
   "theorems": [
    "Forcepho.Postprocess.HalfLight.C137_chain",
    "Forcepho.Postprocess.HalfLight.C137_half",
    "Forcepho.Postprocess.HalfLight.C137_image",
    "Forcepho.Postprocess.HalfLight.C137_filter",
    "Forcepho.Postprocess.HalfLight.C137_order",
    "Forcepho.Postprocess.HalfLight.C137_order_refuted",
    "Forcepho.Postprocess.HalfLight.C137_invariant",
    "Forcepho.Postprocess.HalfLight.C137_witness"
   ],
   "note": "All of it holds (C137_chain, C137_half, C137_invariant) except the independence of the sort: four pixels with fluxes 3, 1, 1, 1 give 2/3 or 1 (C137_order_refuted); without equal distances it holds (C137_order). Not covered: images with negative pixels, for which np.interp is given abscissae out of order; selections of sources."
  },
  {
   "property": "C138",
   "status": "partial",
   "theorems": [
    "Forcepho.Float.C138_shape",
    "Forcepho.Float.C138_amplitude",
    "Forcepho.Float.C138_pixel",
    "Forcepho.Float.C138_residual",
    "Forcepho.Float.C138_square_pixels",
    "Forcepho.Float.C138_width",
    "Forcepho.Float.C138_fused",
    "Forcepho.Float.C138_elongated_refuted",
    "Forcepho.Float.C138_witness"
   ],
   "note": "Shape, amplitude, pixel values and residuals are right to a tolerance proportional to K, a bound on cancellation (C138_shape, C138_amplitude, C138_pixel, C138_residual); K is 2/q^4+2 or that of the PSF for square pixels (C138_square_pixels). The last sentence fails: for an axis ratio of 1/4096 the exponent is three times too large (C138_elongated_refuted). Overflow and underflow are left out; the centre is the one in memory, bounded by C130."
  },
  {
   "property": "C139",
   "status": "partial",
   "theorems": [
    "Forcepho.Fitting.Pymc.C139_names",
    "Forcepho.Fitting.Pymc.C139_run",
    "Forcepho.Fitting.Pymc.C139_scene",
    "Forcepho.Fitting.Pymc.C139_gradient",
    "Forcepho.Fitting.Pymc.C139_duplicate",
    "Forcepho.Fitting.Pymc.C139_default_refuted",
    "Forcepho.Fitting.Pymc.C139_start_refuted",
    "Forcepho.Fitting.Pymc.C139_fixed_refuted",
    "Forcepho.Fitting.Pymc.C139_transform_refuted",
    "Forcepho.Fitting.Pymc.C139_witness"
   ],
   "note": "Names are different and line up with the parameter vector when no source is fixed (C139_names, C139_scene); the box, target and gradient reach the sampler and its points come back in columns that follow the names (C139_run); the gradient obeys the chain rule (C139_gradient). Fails: the default bounds raise (C139_default_refuted), the starting position is ignored (C139_start_refuted), fixed sources shift the names (C139_fixed_refuted), box and chain are in sampling parameters, not scene parameters (C139_transform_refuted)."
  },
  {
   "property": "C140",
   "status": "proved",
   "theorems": [
    "Forcepho.Float.C140_center",
    "Forcepho.Float.C140_pixel",
    "Forcepho.Float.C140_residual",
    "Forcepho.Float.C140_chi2",
    "Forcepho.Float.C140_witness"
   ],
   "note": "Composes C130 (positions), C138 (gaussians), C135 (pixels) and C131 (accumulation): the centre (C140_center), one gaussian in a pixel (C140_pixel), the residual of a pixel (C140_residual), the chi-square of a band on the CPU (C140_chi2). Overflow and underflow are left out."
  },
  {
   "property": "C141",
   "status": "proved",
   "theorems": [
    "Forcepho.Float.C141_term",
    "Forcepho.Float.C141_source",
    "Forcepho.Float.C141_band",
    "Forcepho.Float.C141_band_gpu",
    "Forcepho.Float.C141_witness"
   ],
   "note": "One gaussian in one pixel (C141_term), the gaussians of a source (C141_source), a band on the CPU (C141_band) and on the GPU (C141_band_gpu). The Jacobian is taken as it is in memory: that its exact value is the derivative of the gaussian is C50. Overflow and underflow are left out."
  },
  {
   "property": "C142",
   "status": "partial",
   "theorems": [
    "Forcepho.Patch.C142_pack_partial",
    "Forcepho.Patch.C142_fixed",
    "Forcepho.Patch.C142_restore",
    "Forcepho.Patch.C142_new",
    "Forcepho.Patch.C142_empty",
    "Forcepho.Patch.C142_fluxcal",
    "Forcepho.Patch.C142_refuted"
   ],
   "note": "Holds for scenes without fixed sources (C142_pack_partial). Fails in the code: with one fixed source and one exposure packing raises IndexError after it has moved all sources (C142_fixed, C142_refuted), because the arrays are allocated for the free sources and filled for all; the shift can be undone (C142_restore). Packing never passes the header key, so all flux calibration factors are one (C142_pack_partial, against C142_fluxcal)."
  },
  {
   "property": "C143",
   "status": "partial",
   "theorems": [
    "Forcepho.Config.C143_back",
    "Forcepho.Config.C143_encoder",
    "Forcepho.Config.C143_dumps",
    "Forcepho.Config.C143_roundtrip_partial",
    "Forcepho.Config.C143_lost",
    "Forcepho.Config.C143_written",
    "Forcepho.Config.C143_dtype_refuted",
    "Forcepho.Config.C143_witness"
   ],
   "note": "What is written is read back as expected (C143_back), exactly which values can be written (C143_encoder, C143_dumps), values without numpy objects come back unchanged (C143_roundtrip_partial), and with the encoder all configurations can be written (C143_written). Fails in the code: a configuration with a data type or a list is never stored with the samples (C143_lost), and a stored data type is refused when read again (C143_dtype_refuted)."
  },
  {
   "property": "C144",
   "status": "partial",
   "theorems": [
    "Forcepho.Config.C144_collect",
    "Forcepho.Config.C144_lines_partial",
    "Forcepho.Config.C144_refuted",
    "Forcepho.Config.C144_witness"
   ],
   "note": "Messages with line breaks, and a single empty message, can not be told apart in the text (C144_refuted)."
  },
  {
   "property": "C145",
   "status": "proved",
   "theorems": [
    "Forcepho.Float.C145_axis",
    "Forcepho.Float.C145_angle",
    "Forcepho.Float.C145_flux",
    "Forcepho.Float.C145_weight",
    "Forcepho.Float.C145_centre",
    "Forcepho.Float.C145_size",
    "Forcepho.Float.C145_witness"
   ],
   "note": "Derivatives by HasDerivAt of the exact inverse covariance and amplitude of C138. Shape entries to 3 K / 2^19 and amplitude to 11 K / 2^20 of the terms that are added up, whose size C145_size bounds by K and the axis ratio; flux, index and radius to 3 K / 2^20. The derivatives of the spline weights are inputs here (C120). Overflow and underflow are left out."
  },
  {
   "property": "C146",
   "status": "proved",
   "theorems": [
    "Forcepho.Float.C146_gradient",
    "Forcepho.Float.C146_source",
    "Forcepho.Float.C146_band",
    "Forcepho.Float.C146_band_gpu",
    "Forcepho.Float.C146_witness"
   ],
   "note": "Joins C138 (gaussian), C145 (Jacobian), C141 (accumulation) and C131 (sums). For gaussians whose inverse covariance has diagonal entries up to 3.9 and correlation up to 1/sqrt 5, and cancellation K up to 1024, each term is right to K / 2^10 of the size of the change. The centres are those in memory (C140 bounds their rounding); the derivatives of the spline weights are inputs (C120). Overflow and underflow are left out."
  },
  {
   "property": "C147",
   "status": "partial",
   "theorems": [
    "Forcepho.Layout.C147_abi",
    "Forcepho.Layout.C147_sizeof",
    "Forcepho.Layout.C147_layout",
    "Forcepho.Layout.C147_declarations",
    "Forcepho.Layout.C147_pointees",
    "Forcepho.Layout.C147_pixels_partial",
    "Forcepho.Layout.C147_metadata_partial",
    "Forcepho.Layout.C147_send",
    "Forcepho.Layout.C147_proposal",
    "Forcepho.Layout.C147_no_residual",
    "Forcepho.Layout.C147_residual_partial",
    "Forcepho.Layout.C147_retrieve_partial",
    "Forcepho.Layout.C147_derivative",
    "Forcepho.Layout.C147_derivative_cpu",
    "Forcepho.Layout.C147_chi2",
    "Forcepho.Layout.C147_double_refuted",
    "Forcepho.Layout.C147_exposures_refuted",
    "Forcepho.Layout.C147_witness"
   ],
   "note": "Proved for the default types: with pix_dtype or meta_dtype other than float32 it fails (C147_double_refuted: pixel 2 i and 2 i + 1 are the halves of element i), and with 32768 exposures in a band or before one the 16 bit counts wrap (C147_exposures_refuted). The platform is little endian with 8 byte pointers and natural alignment; floats are carried as their bit patterns."
  },
  {
   "property": "C148",
   "status": "partial",
   "theorems": [
    "Forcepho.Limits.C148_literal",
    "Forcepho.Limits.C148_number",
    "Forcepho.Limits.C148_agree_partial",
    "Forcepho.Limits.C148_import",
    "Forcepho.Limits.C148_comment",
    "Forcepho.Limits.C148_header",
    "Forcepho.Limits.C148_witness",
    "Forcepho.Limits.C148_octal_refuted",
    "Forcepho.Limits.C148_shape_refuted",
    "Forcepho.Limits.C148_raises",
    "Forcepho.Limits.C148_line",
    "Forcepho.Limits.C148_underscore",
    "Forcepho.Limits.C148_special",
    "Forcepho.Limits.C148_block"
   ],
   "note": "Proved for all headers of plain lines (no block comments, continued lines, other directives, blank after #); left out are integers with a leading zero, which C reads as octal (C148_octal_refuted), and underscores or inf/nan, which are no constants of C. C148_shape_refuted shows that the restrictions to plain lines are needed. Decimal fractions are compared exactly, before rounding; conditional compilation is not modelled."
  },
  {
   "property": "C149",
   "status": "partial",
   "theorems": [
    "Forcepho.Device.Classes.C149_order",
    "Forcepho.Device.Classes.C149_compose",
    "Forcepho.Device.Classes.C149_methods",
    "Forcepho.Device.Classes.C149_free_empty",
    "Forcepho.Device.Classes.C149_free_refuted",
    "Forcepho.Device.Classes.C149_free_partial",
    "Forcepho.Device.Classes.C149_destroy",
    "Forcepho.Device.Classes.C149_size",
    "Forcepho.Device.Classes.C149_clear"
   ],
   "note": "Every method but one resolves as intended. free() of JadesPatch, SimplePatch and every class with the storage class first is the empty one of PatchBase and releases nothing (C149_free_empty, C149_free_refuted); with the GPU mixin first it releases everything (C149_free_partial). Destruction of the patch releases everything in both cases (C149_destroy), assuming PyCUDA handles release their buffer when destroyed and nothing else holds the patch. object and overrides of free by a user are not modelled."
  },
  {
   "property": "C150",
   "status": "partial",
   "theorems": [
    "Forcepho.Contour.C150_share",
    "Forcepho.Contour.C150_monotone",
    "Forcepho.Contour.C150_ends",
    "Forcepho.Contour.C150_levels_partial",
    "Forcepho.Contour.C150_increasing_refuted",
    "Forcepho.Contour.C150_hang_refuted",
    "Forcepho.Contour.C150_bins",
    "Forcepho.Contour.C150_smoothings",
    "Forcepho.Contour.C150_padding",
    "Forcepho.Contour.C150_positions",
    "Forcepho.Contour.C150_fill"
   ],
   "note": "The share, the order, the end of the loop for a histogram with samples and fractions below one, the padding and the colours are proved. Not true: strictly increasing levels when separating equal ones meets another (C150_increasing_refuted), and an end when no sample lies in the span (C150_hang_refuted); a smoothing between one and two raises (C150_bins), and so do zero and negative ones, the latter with a message about the samples (C150_smoothings). Exact arithmetic; the histogram and its smoothing are inputs."
  },
  {
   "property": "C151",
   "status": "partial",
   "theorems": [
    "Forcepho.Psf.C151_section",
    "Forcepho.Psf.C151_centre_refuted",
    "Forcepho.Psf.C151_flux",
    "Forcepho.Psf.C151_square_partial",
    "Forcepho.Psf.C151_position",
    "Forcepho.Psf.C151_position_refuted"
   ],
   "note": "The section lies in the image, the flux share and the normalisation are right, and for a square image the gaussians give the model image. Not true: the section is centred (C151_centre_refuted: half a pixel low for odd, one pixel for even sizes), and the positions for an image with different numbers of rows and columns (C151_position_refuted). Exact arithmetic; the fit is an input."
  },
  {
   "property": "C152",
   "status": "partial",
   "theorems": [
    "Forcepho.Corner.C152_panels",
    "Forcepho.Corner.C152_points",
    "Forcepho.Corner.C152_labels",
    "Forcepho.Corner.C152_labels_refuted",
    "Forcepho.Corner.C152_marks",
    "Forcepho.Corner.C152_truths_refuted",
    "Forcepho.Corner.C152_inside",
    "Forcepho.Corner.C152_peak",
    "Forcepho.Corner.C152_peak_refuted"
   ],
   "note": "Panels, points, labels, quantiles and the peak with weights are proved. Not true: true values are drawn in the histograms of later parameters and in no panel off the diagonal (C152_truths_refuted); labels are not optional (C152_labels_refuted); a peak for a histogram without weights raises (C152_peak_refuted). The drawing itself is not modelled."
  },
  {
   "property": "C153",
   "status": "partial",
   "theorems": [
    "Forcepho.Docs.C153_mask_refuted",
    "Forcepho.Docs.C153_trace_refuted",
    "Forcepho.Docs.C153_loop_refuted",
    "Forcepho.Docs.C153_sourcelog",
    "Forcepho.Docs.C153_numbered",
    "Forcepho.Docs.C153_catalog_refuted"
   ],
   "note": "None of the three recipes does what it says: the mask is used the other way round (C153_mask_refuted), the trace is one sample of every source (C153_trace_refuted), the loop overwrites the samples of all but the last round and logs every patch as 0 (C153_loop_refuted), so that the catalog of samples marks the other sources as never fitted (C153_catalog_refuted). With a numbered file and log entry per round every chain is found again (C153_numbered)."
  },
  {
   "property": "C154",
   "status": "partial",
   "theorems": [
    "Forcepho.Float.Special.C154_shape",
    "Forcepho.Float.Special.C154_amplitude",
    "Forcepho.Float.Special.C154_data",
    "Forcepho.Float.Special.C154_chi2",
    "Forcepho.Float.Special.C154_masked",
    "Forcepho.Float.Special.C154_source",
    "Forcepho.Float.Special.C154_flux",
    "Forcepho.Float.Special.C154_axis",
    "Forcepho.Float.Special.C154_far",
    "Forcepho.Float.Special.C154_silent_refuted",
    "Forcepho.Float.Special.C154_value",
    "Forcepho.Float.Special.C154_range",
    "Forcepho.Float.Special.C154_finite",
    "Forcepho.Float.Special.C154_rounding",
    "Forcepho.Float.Special.C154_operations",
    "Forcepho.Float.Special.C154_same",
    "Forcepho.Float.Special.C154_same_witness",
    "Forcepho.Float.Special.C154_finite_witness",
    "Forcepho.Float.Special.C154_far_witness"
   ],
   "note": "Positions, axis ratios and position angles that are not a number give no residual in any pixel, hence no chi-square (C154_source, C154_axis, C154_chi2); a flux that is not a number is noticed only in pixels where the source is not cut off (C154_flux, C154_silent_refuted), and an infinite position on half of the pixels is treated as a source far away (C154_far). Finite chi-square in range: C154_value, C154_range, C154_finite. The arithmetic with overflow, underflow and special values is tied to IEEE 754 by C154_rounding and C154_operations, and to the arithmetic without them of C135-C138 by C154_same. Signed zeros are not modelled: division by zero gives an infinity of the sign of the numerator."
  },
  {
   "property": "C155",
   "status": "partial",
   "theorems": [
    "Forcepho.Demo.C155_scene",
    "Forcepho.Demo.C155_pair",
    "Forcepho.Demo.C155_separation_refuted",
    "Forcepho.Demo.C155_options_refuted",
    "Forcepho.Demo.C155_shape",
    "Forcepho.Demo.C155_frame",
    "Forcepho.Demo.C155_place",
    "Forcepho.Demo.C155_dither",
    "Forcepho.Demo.C155_noise",
    "Forcepho.Demo.C155_deep",
    "Forcepho.Demo.C155_psf",
    "Forcepho.Demo.C155_psf_refuted",
    "Forcepho.Demo.C155_files",
    "Forcepho.Demo.C155_color_refuted",
    "Forcepho.Demo.C155_color",
    "Forcepho.Demo.C155_dithers_refuted",
    "Forcepho.Demo.C155_dithers_partial",
    "Forcepho.Demo.C155_mosaic",
    "Forcepho.Demo.C155_mosaic_refuted",
    "Forcepho.Demo.C155_tag_refuted",
    "Forcepho.Demo.C155_mean",
    "Forcepho.Demo.C155_edges_refuted",
    "Forcepho.Demo.C155_region",
    "Forcepho.Demo.C155_region_refuted",
    "Forcepho.Demo.C155_region_witness"
   ],
   "note": "Shapes, positions, noise, PSF tables and the weighted mean of dithers are as the fit assumes (C155_shape, C155_place, C155_dither, C155_noise, C155_deep, C155_psf, C155_mean). Violated: the separation of pairs is in units of the second radius and not the first, fluxes, axis ratios and angles asked for are ignored, PSFs of several gaussians have too much flux, the dithers cannot be written, mosaics have no filter and are not a number where one dither is missing, the fit of colours cannot find the filters, the script for one PSF fails without --snr, and the region misses images at least twice as high as wide."
  },
  {
   "property": "C156",
   "status": "partial",
   "theorems": [
    "Forcepho.Kernel.C156_sky",
    "Forcepho.Kernel.C156_blur",
    "Forcepho.Kernel.C156_pixel",
    "Forcepho.Kernel.C156_image",
    "Forcepho.Kernel.C156_common",
    "Forcepho.Kernel.C156_point",
    "Forcepho.Kernel.C156_narrow",
    "Forcepho.Kernel.C156_narrow_refuted"
   ],
   "note": "The specification is written with integrals: brightness on the sky with unit flux, its convolution with the PSF over the plane, and the integral over the pixel. The gaussian of the kernel is the convolution, exactly (C156_blur, C156_common for all components together, C156_point for stars); the pixel is the integral with error at most height times 7/1440 of the squared trace plus the cut (C156_pixel, C156_image). Violated when gaussians are narrow: with a trace above 24, a standard deviation below 0.29 pixels, the pixel at the centre of a source of positive flux gets negative counts."
  },
  {
   "property": "C157",
   "status": "partial",
   "theorems": [
    "Forcepho.Profile.C157_mixture",
    "Forcepho.Profile.C157_deviation",
    "Forcepho.Profile.C157_scale",
    "Forcepho.Profile.C157_minimum",
    "Forcepho.Profile.C157_stationary",
    "Forcepho.Profile.C157_wings",
    "Forcepho.Profile.C157_roughness",
    "Forcepho.Profile.C157_roughness_refuted",
    "Forcepho.Profile.C157_start",
    "Forcepho.Profile.C157_halves",
    "Forcepho.Profile.C157_free_refuted",
    "Forcepho.Profile.C157_smoothing",
    "Forcepho.Profile.C157_convergence",
    "Forcepho.Profile.C157_profile"
   ],
   "note": "The mixture is a convolution of normal densities in the plane (C157_mixture), the objective a weighted mean square (C157_deviation, C157_scale), and it has only global minima without the smoothness penalty (C157_minimum, C157_stationary). The series of the target is within its first omitted term of the convolution of the profile in the plane (C157_smoothing), and tends to it for indices over one half (C157_convergence). Violated: the smoothness penalty is zero only when every height is one, so equal amplitudes are penalised and the penalty depends on the unit of brightness; a fit with free radii always raises. Overflow of the series is not modelled."
  },
  {
   "property": "C158",
   "status": "partial",
   "theorems": [
    "Forcepho.Verification.C158_close",
    "Forcepho.Verification.C158_image",
    "Forcepho.Verification.C158_chi2",
    "Forcepho.Verification.C158_nan",
    "Forcepho.Verification.C158_gradients",
    "Forcepho.Verification.C158_offset",
    "Forcepho.Verification.C158_kernel",
    "Forcepho.Verification.C158_patch",
    "Forcepho.Verification.C158_error",
    "Forcepho.Verification.C158_names_refuted",
    "Forcepho.Verification.C158_names_partial"
   ],
   "note": "What each comparison accepts is proved exactly (C158_image, C158_chi2, C158_nan), and for gradients with the error of the central difference (C158_gradients). Violated: the functions that validate and display the residuals, and the making of a reference image, always stop at a name that is never bound (C158_names_refuted). Rounding is not modelled."
  },
  {
   "property": "C159",
   "status": "partial",
   "theorems": [
    "Forcepho.Imports.C159_session",
    "Forcepho.Imports.C159_statements",
    "Forcepho.Imports.C159_needs",
    "Forcepho.Imports.C159_optional",
    "Forcepho.Imports.C159_imports_partial",
    "Forcepho.Imports.C159_demos_partial",
    "Forcepho.Imports.C159_exports_partial",
    "Forcepho.Imports.C159_dispatcher_refuted",
    "Forcepho.Imports.C159_exports_refuted",
    "Forcepho.Imports.C159_scripts_refuted",
    "Forcepho.Imports.C159_grid_refuted"
   ],
   "note": "All modules of the package but the dispatcher are imported for every set of optional packages (C159_imports_partial, by C159_optional), and export what they list (C159_exports_partial). Violated: the dispatcher asks for a name that its module cannot have, so no session can import it (C159_dispatcher_refuted); the public names of postprocess include an undefined one (C159_exports_refuted); many tests and scripts import modules and names that do not exist (C159_scripts_refuted). Modules from outside are taken to have the names asked of them."
  },
  {
   "property": "C160",
   "status": "partial",
   "theorems": [
    "Forcepho.Galsim.C160_grid",
    "Forcepho.Galsim.C160_reader",
    "Forcepho.Galsim.C160_tag",
    "Forcepho.Galsim.C160_text",
    "Forcepho.Galsim.C160_first",
    "Forcepho.Galsim.C160_catalog",
    "Forcepho.Galsim.C160_summary_partial",
    "Forcepho.Galsim.C160_width_partial",
    "Forcepho.Galsim.C160_run",
    "Forcepho.Galsim.C160_run_partial",
    "Forcepho.Galsim.C160_run_restart",
    "Forcepho.Galsim.C160_noise",
    "Forcepho.Galsim.C160_size",
    "Forcepho.Galsim.C160_scene",
    "Forcepho.Galsim.C160_separation_partial",
    "Forcepho.Galsim.C160_shape",
    "Forcepho.Galsim.C160_position",
    "Forcepho.Galsim.C160_psf_partial",
    "Forcepho.Galsim.C160_aperture",
    "Forcepho.Galsim.C160_bands",
    "Forcepho.Galsim.C160_yaml_refuted",
    "Forcepho.Galsim.C160_collision_refuted",
    "Forcepho.Galsim.C160_width_refuted",
    "Forcepho.Galsim.C160_restart_refuted",
    "Forcepho.Galsim.C160_rerun_refuted",
    "Forcepho.Galsim.C160_figure_refuted",
    "Forcepho.Galsim.C160_separation_refuted",
    "Forcepho.Galsim.C160_flux_refuted",
    "Forcepho.Galsim.C160_psf_refuted"
   ],
   "note": "The grid, the tags, the loops, the catalog and the images are proved for all grids and points. Violated: the summary over Sersic profiles uses the PSF width of the last point for all points (C160_width_refuted); points that round to the same tag share one fit (C160_collision_refuted); over PSFs an interrupted fit is never redone (C160_restart_refuted); a second run in a directory writes its grid over the first but cannot write its summary (C160_rerun_refuted); the configured flux is ignored (C160_flux_refuted); sources of different radii can coincide (C160_separation_refuted); a PSF of several gaussians has a flux above one (C160_psf_refuted); grids named *.yaml are never read (C160_yaml_refuted); the last figure always raises (C160_figure_refuted). The drawing by galsim and the sampler are not modelled."
  },
  {
   "property": "C161",
   "status": "partial",
   "theorems": [
    "Forcepho.Psfdata.C161_prediction",
    "Forcepho.Psfdata.C161_calls",
    "Forcepho.Psfdata.C161_best_partial",
    "Forcepho.Psfdata.C161_argmin",
    "Forcepho.Psfdata.C161_rectify_partial",
    "Forcepho.Psfdata.C161_ellipse",
    "Forcepho.Psfdata.C161_ellipse_partial",
    "Forcepho.Psfdata.C161_ellipse_sy",
    "Forcepho.Psfdata.C161_limits",
    "Forcepho.Psfdata.C161_growth",
    "Forcepho.Psfdata.C161_growth_fails",
    "Forcepho.Psfdata.C161_sersic_prediction",
    "Forcepho.Psfdata.C161_sersic_sites",
    "Forcepho.Psfdata.C161_sersic_fails",
    "Forcepho.Psfdata.C161_sersic_partial",
    "Forcepho.Psfdata.C161_demo_refuted",
    "Forcepho.Psfdata.C161_amplitude_refuted",
    "Forcepho.Psfdata.C161_negative_refuted",
    "Forcepho.Psfdata.C161_single_refuted",
    "Forcepho.Psfdata.C161_ellipse_refuted",
    "Forcepho.Psfdata.C161_ellipse_single_refuted",
    "Forcepho.Psfdata.C161_growth_refuted",
    "Forcepho.Psfdata.C161_sersic_centre_refuted",
    "Forcepho.Psfdata.C161_sersic_amplitude_refuted"
   ],
   "note": "Proved for any values of the sampler. The PSF made by make_psf.py predicts the fitted image for two gaussians or more. Violated: a fixed amplitude or centre is not among the returned parameters, so the prediction has amplitude one about the origin (C161_amplitude_refuted, C161_sersic_amplitude_refuted, C161_sersic_centre_refuted); with negative gaussians the prediction raises (C161_negative_refuted); a fit of one gaussian never becomes a PSF and is not drawn (C161_single_refuted, C161_ellipse_single_refuted); ellipses have their axes swapped (C161_ellipse_refuted); the curve of the model is divided by the flux of the image (C161_growth_refuted); the demonstration calls the prediction with an unknown keyword (C161_demo_refuted). The sampler and the drawing are not modelled."
  },
  {
   "property": "C162",
   "status": "partial",
   "theorems": [
    "Forcepho.Demo.Figures.C162_movie",
    "Forcepho.Demo.Figures.C162_movie_thin",
    "Forcepho.Demo.Figures.C162_movie_partial",
    "Forcepho.Demo.Figures.C162_truth",
    "Forcepho.Demo.Figures.C162_warmup",
    "Forcepho.Demo.Figures.C162_legend",
    "Forcepho.Demo.Figures.C162_second",
    "Forcepho.Demo.Figures.C162_labels",
    "Forcepho.Demo.Figures.C162_span",
    "Forcepho.Demo.Figures.C162_rows",
    "Forcepho.Demo.Figures.C162_total",
    "Forcepho.Demo.Figures.C162_color",
    "Forcepho.Demo.Figures.C162_aperture",
    "Forcepho.Demo.Figures.C162_separate",
    "Forcepho.Demo.Figures.C162_text",
    "Forcepho.Demo.Figures.C162_scale_partial",
    "Forcepho.Demo.Figures.C162_scale_masked",
    "Forcepho.Demo.Figures.C162_movie_refuted",
    "Forcepho.Demo.Figures.C162_truth_refuted",
    "Forcepho.Demo.Figures.C162_warmup_refuted",
    "Forcepho.Demo.Figures.C162_rows_refuted",
    "Forcepho.Demo.Figures.C162_text_refuted",
    "Forcepho.Demo.Figures.C162_scale_refuted"
   ],
   "note": "Violated: the movie shows the residual of one draw and marks another, later by the warm-up (C162_movie_refuted); the first draw is marked as the truth (C162_truth_refuted); the warm-up of the last fit is dropped from all (C162_warmup_refuted); two sources shown as one are mixed (C162_rows_refuted); the digits of the text are those of a number near one (C162_text_refuted); with a masked pixel the scale leaves out the residuals (C162_scale_refuted). Drawing itself is not modelled."
  },
  {
   "property": "C163",
   "status": "partial",
   "theorems": [
    "Forcepho.Demo.Flow.C163_residuals_partial",
    "Forcepho.Demo.Flow.C163_snr",
    "Forcepho.Demo.Flow.C163_snr_names",
    "Forcepho.Demo.Flow.C163_color_order",
    "Forcepho.Demo.Flow.C163_color_partial",
    "Forcepho.Demo.Flow.C163_files",
    "Forcepho.Demo.Flow.C163_mosaic",
    "Forcepho.Demo.Flow.C163_mosaic_names",
    "Forcepho.Demo.Flow.C163_combine",
    "Forcepho.Demo.Flow.C163_drizzle_partial",
    "Forcepho.Demo.Flow.C163_mosaic_out",
    "Forcepho.Demo.Flow.C163_pair_partial",
    "Forcepho.Demo.Flow.C163_pair_root",
    "Forcepho.Demo.Flow.C163_basic_partial",
    "Forcepho.Demo.Flow.C163_basic_root",
    "Forcepho.Demo.Flow.C163_basic_tag",
    "Forcepho.Demo.Flow.C163_residuals_refuted",
    "Forcepho.Demo.Flow.C163_snr_refuted",
    "Forcepho.Demo.Flow.C163_color_refuted",
    "Forcepho.Demo.Flow.C163_drizzle_refuted",
    "Forcepho.Demo.Flow.C163_pair_refuted",
    "Forcepho.Demo.Flow.C163_basic_refuted"
   ],
   "note": "Violated: residuals are looked for in another directory if the path says samples (C163_residuals_refuted); S/N that round alike share their files (C163_snr_refuted); none of the fits of the readme is where the figure of separate colours looks (C163_color_refuted); drizzled copies go to a directory that nobody makes if the directory says dither (C163_drizzle_refuted); a pair image needs a directory in its name (C163_pair_refuted); figures of a chain without a directory go to the root (C163_basic_refuted)."
  },
  {
   "property": "C164",
   "status": "partial",
   "theorems": [
    "Forcepho.Imports.C164_bound",
    "Forcepho.Imports.C164_names_partial",
    "Forcepho.Imports.C164_bare",
    "Forcepho.Imports.C164_names_refuted"
   ],
   "note": "Violated: thirteen functions name something that their modules never have: default_config_file ctext, sersic_model maxg, patch_to_stamps PostageStamp, check_multipatch vcols, write_sourcereg cat_to_reg, rectify_jades sourcecat_dtype, test_astrometry SimpleWCS, write_cutouts hdr (after a raise), the figures of the colour and pair demonstrations FormatStrFormatter and nexp, psf_grid_plot.py make_all_tags (C164_names_refuted). The names of each function are read from its text; which branch looks up which is not modelled, so that a name is covered in whatever order it is met."
  },
  {
   "property": "C165",
   "status": "partial",
   "theorems": [
    "Forcepho.Postprocess.Shown.C165_exposure_partial",
    "Forcepho.Postprocess.Shown.C165_mixture_partial",
    "Forcepho.Postprocess.Shown.C165_axes_refuted",
    "Forcepho.Postprocess.Shown.C165_fraction_refuted",
    "Forcepho.Postprocess.Shown.C165_percent",
    "Forcepho.Postprocess.Shown.C165_radial_partial",
    "Forcepho.Postprocess.Shown.C165_radial_refuted",
    "Forcepho.Postprocess.Shown.C165_limits_partial",
    "Forcepho.Postprocess.Shown.C165_limits_refuted"
   ],
   "note": "Proved for integer pixel coordinates on given axes, and for the residual panel. Violated: without axes, the default, neither show_exp returns (C165_axes_refuted); fractional coordinates may index out of bounds (C165_fraction_refuted); in the radial plot the line labelled 1% of max pixel is compared with residuals multiplied by the radius (C165_radial_refuted) and faint values are cut off (C165_limits_refuted)."
  },
  {
   "property": "C166",
   "status": "partial",
   "theorems": [
    "Forcepho.Psfdata.Output.C166_combine",
    "Forcepho.Psfdata.Output.C166_combine_refuted",
    "Forcepho.Psfdata.Output.C166_fits",
    "Forcepho.Psfdata.Output.C166_save_partial",
    "Forcepho.Psfdata.Output.C166_save_refuted",
    "Forcepho.Psfdata.Output.C166_filter_refuted"
   ],
   "note": "Combining: proved when it works and what it gives; files with the same band, e.g. an updated fit, cannot be combined (C166_combine_refuted). Violated: if the output name has no .h5 in it, e.g. psf.hdf5, the FITS file overwrites the PSF data just saved (C166_save_refuted); the script does not hand over the band, so that the header of every FITS file says F090W (C166_filter_refuted). Position and scale keywords are not modelled."
  },
  {
   "property": "C167",
   "status": "partial",
   "theorems": [
    "Forcepho.Calls.C167_bind",
    "Forcepho.Calls.C167_calls_partial",
    "Forcepho.Calls.C167_calls_refuted"
   ],
   "note": "848 calls of 391 functions are tabulated from the texts; all bind but three, which fail for all values: create_ans without original_dict in fit_mvn_mix (so method_opt=scipy_ls never returns), psf_prediction with sy in the self-test of psf_mix_hmc.py, compare_apflux with bands in test_sersic_mixture.py (C167_calls_refuted). Which function a name refers to is resolved when the table is made; calls of methods of other objects, and what *args and **kwargs hand on, are not covered."
  },
  {
   "property": "C168",
   "status": "partial",
   "theorems": [
    "Forcepho.Galsim.Compare.C168_points",
    "Forcepho.Galsim.Compare.C168_map",
    "Forcepho.Galsim.Compare.C168_map_refuted",
    "Forcepho.Galsim.Compare.C168_onlymax_refuted",
    "Forcepho.Galsim.Compare.C168_jitter"
   ],
   "note": "With medians the figure is proved right for all catalogs. Refuted: with point_type=map there is no figure when the most probable sample of a fit is outside its central 68 percent (negative bar, C168_map_refuted); by default only the largest split value has a panel (C168_onlymax_refuted). Colours, axes and labels are not modelled."
  },
  {
   "property": "C169",
   "status": "partial",
   "theorems": [
    "Forcepho.Chain.Stats.C169_table",
    "Forcepho.Chain.Stats.C169_counts",
    "Forcepho.Chain.Stats.C169_samples_partial",
    "Forcepho.Chain.Stats.C169_stored",
    "Forcepho.Chain.Stats.C169_empty_refuted",
    "Forcepho.Chain.Stats.C169_warmup_refuted"
   ],
   "note": "The last n_sample draws are the samples exactly if warm-up comes first and there is at least one sample; for a first patch of warm-up only, x[-0:] is everything and the catalog fails (C169_empty_refuted); a patch with fewer samples than the first has warm-up draws stored as samples (C169_warmup_refuted). littlemcmc itself is not modelled."
  },
  {
   "property": "C170",
   "status": "partial",
   "theorems": [
    "Forcepho.Demo.Scene.C170_catalog",
    "Forcepho.Demo.Scene.C170_flux_refuted",
    "Forcepho.Demo.Scene.C170_circle_partial",
    "Forcepho.Demo.Scene.C170_circle_refuted",
    "Forcepho.Demo.Scene.C170_colours",
    "Forcepho.Demo.Scene.C170_numbers"
   ],
   "note": "Catalog, colours and numbers are proved (colours for regions whose active sources are fixed in none). Violated: fluxes that were not measured become measured fluxes of 1e-5 (C170_flux_refuted); the circle is drawn without the cosine of the declination, so that it can leave out active sources of the region (C170_circle_refuted). The square root and pi are parameters."
  },
  {
   "property": "C171",
   "status": "partial",
   "theorems": [
    "Forcepho.Em.Ellipses.C171_ellipse",
    "Forcepho.Em.Ellipses.C171_colour_refuted",
    "Forcepho.Em.Ellipses.C171_panels"
   ],
   "note": "Ellipses and residuals are proved, with the specification of numpy's eigenvectors as hypothesis. Violated: the colour bar runs to 0.5 while the colours of the ellipses run to 1, so that amplitudes are read too low, with a scale from 0 to 0.5 by a factor of two (C171_colour_refuted)."
  },
  {
   "property": "C172",
   "status": "partial",
   "theorems": [
    "Forcepho.Profile.Files.C172_model_partial",
    "Forcepho.Profile.Files.C172_model_refuted",
    "Forcepho.Profile.Files.C172_dotted",
    "Forcepho.Profile.Files.C172_residual",
    "Forcepho.Profile.Files.C172_cumulative",
    "Forcepho.Profile.Files.C172_truth",
    "Forcepho.Profile.Files.C172_table"
   ],
   "note": "Violated: the model in the file is not that of the amplitudes in the file but larger by the sum of the amplitudes before scaling, which is not stored (C172_model_refuted). Number formats of the text table and the optimisers are not modelled; the smoothed profile is in C157."
  },
  {
   "property": "C173",
   "status": "partial",
   "theorems": [
    "Forcepho.Slow.Rebin.C173_rebin",
    "Forcepho.Slow.Rebin.C173_flux",
    "Forcepho.Slow.Rebin.C173_rebin_refuted",
    "Forcepho.Slow.Rebin.C173_grids",
    "Forcepho.Slow.Rebin.C173_psf",
    "Forcepho.Slow.Rebin.C173_deviation"
   ],
   "note": "Proved for the sizes the test uses. Violated: the branch of the binning function for sizes that are not smaller never gives an image, because the numbers of repeats are floats; sizes that do not divide are refused (C173_rebin_refuted). Rounding is not modelled."
  },
  {
   "property": "C174",
   "status": "partial",
   "theorems": [
    "Forcepho.Catalog.Columns.C174_ids_partial",
    "Forcepho.Catalog.Columns.C174_float_ids_partial",
    "Forcepho.Catalog.Columns.C174_ids_refuted",
    "Forcepho.Catalog.Columns.C174_scene_partial",
    "Forcepho.Catalog.Columns.C174_scene_refuted",
    "Forcepho.Catalog.Columns.C174_position"
   ],
   "note": "Proved for integers of 32 bits. Violated: larger identifiers wrap around silently, so that sources collide exactly if they differ by a multiple of 2^32, and fractions are cut (C174_ids_refuted); the catalog of a scene is in single precision, where identifiers collide above 2^24 and positions move by up to 0.08 arcsec (C174_scene_refuted). The casts of numpy are part of the model; floats outside the range of the integer column have no specified value."
  },
  {
   "property": "C175",
   "status": "partial",
   "theorems": [
    "Forcepho.Slow.Fixture.C175_square_partial",
    "Forcepho.Slow.Fixture.C175_fails",
    "Forcepho.Slow.Fixture.C175_shape_refuted",
    "Forcepho.Slow.Fixture.C175_make_refuted",
    "Forcepho.Slow.Fixture.C175_exposures",
    "Forcepho.Slow.Fixture.C175_positions",
    "Forcepho.Slow.Fixture.C175_psf"
   ],
   "note": "Proved for exposures with as many rows as columns. Violated: with other sizes values are read into pixels they were not made for (C175_shape_refuted), and the script that makes the data cannot be run: the number of exposures is taken for the bands, python 3 has no iteritems, and more than six bands have no pixel scale (C175_make_refuted). Rendering and noise are not modelled; that the headers keep floats is part of the model."
  },
  {
   "property": "C176",
   "status": "partial",
   "theorems": [
    "Forcepho.Config.Switches.C176_int",
    "Forcepho.Config.Switches.C176_int_texts",
    "Forcepho.Config.Switches.C176_flag",
    "Forcepho.Config.Switches.C176_bool_refuted",
    "Forcepho.Config.Switches.C176_store",
    "Forcepho.Config.Switches.C176_store_refuted",
    "Forcepho.Config.Switches.C176_dict_refuted"
   ],
   "note": "Proved for the switches of the main configuration, which are integers, and for flags. Violated by --fitsout and --overwrite of the PSF scripts, which any text turns on (C176_bool_refuted), so that --overwrite 0 loses the stored PSF (C176_store_refuted), and by configurations given as dictionaries (C176_dict_refuted). int() is modelled for texts in ASCII."
  },
  {
   "property": "C177",
   "status": "partial",
   "theorems": [
    "Forcepho.Commands.C177_int",
    "Forcepho.Commands.C177_float",
    "Forcepho.Commands.C177_text",
    "Forcepho.Commands.C177_option",
    "Forcepho.Commands.C177_resolve",
    "Forcepho.Commands.C177_resolve_refused",
    "Forcepho.Commands.C177_parse",
    "Forcepho.Commands.C177_refusals",
    "Forcepho.Commands.C177_start",
    "Forcepho.Commands.C177_declared",
    "Forcepho.Commands.C177_commands_partial",
    "Forcepho.Commands.C177_yml",
    "Forcepho.Commands.C177_commands_refuted",
    "Forcepho.Commands.C177_save",
    "Forcepho.Commands.C177_given",
    "Forcepho.Commands.C177_save_refuted",
    "Forcepho.Commands.C177_loop",
    "Forcepho.Commands.C177_scales",
    "Forcepho.Commands.C177_loop_refuted",
    "Forcepho.Commands.C177_channel",
    "Forcepho.Commands.C177_channel_scales",
    "Forcepho.Commands.C177_gpu",
    "Forcepho.Commands.C177_gpus_even",
    "Forcepho.Commands.C177_gpus_alone"
   ],
   "note": "Proved of argparse for all command lines, and of 38 of the 41 commands. Violated by the command of demo_psf/readme.md (an option the program lacks), by the last program of run_psf_approximation.sh (missing), by the grid of test_sersic_cannon.sh (missing) (C177_commands_refuted), by the command of approx/psf/readme.md, which fails after storing (C177_save_refuted), and by run_psf_test.sh, which leaves out six of its bands (C177_loop_refuted). Signs, exponents and blanks of numbers and words with = are not modelled."
  },
  {
   "property": "C178",
   "status": "partial",
   "theorems": [
    "Forcepho.Slow.Cutout.C178_extract_refuted",
    "Forcepho.Slow.Cutout.C178_assigned",
    "Forcepho.Slow.Cutout.C178_pixels_partial",
    "Forcepho.Slow.Cutout.C178_size",
    "Forcepho.Slow.Cutout.C178_reference",
    "Forcepho.Slow.Cutout.C178_transposed_refuted",
    "Forcepho.Slow.Cutout.C178_edge_refuted"
   ],
   "note": "Violated: the function fails for every input, since it sets a read-only attribute (in pixels) or converts three coordinates with a header of two axes, or calls a method arrays lack (on the sky), and would return nothing (C178_extract_refuted). Of what it computes before that, size, weights and reference pixel are right; rows and columns are exchanged (C178_transposed_refuted), and boxes across the lower edge are empty (C178_edge_refuted). The keywords of the header are taken to be there, image and uncertainties to have the same shape."
  }
 ]
}