{"id": "C01", "title": "Active and fixed counts agree with outstanding regions", "statement": "After any sequence of successful or failed region checkouts and of check-ins of previously checked-out regions, the super-scene's active count equals the number of catalog rows flagged active and the total number of active sources in outstanding regions, and its fixed count equals the total number of fixed sources in outstanding regions.", "quantifier": "for every catalog, every configuration (radii, caps, scale) and every finite history of checkout / check-in / failed checkout in any interleaving", "why_tests_cant": "The claim is about all histories and interleavings of regions; a test sees a few.", "anchors": ["forcepho/superscene.py:SuperScene.checkout_region", "forcepho/superscene.py:SuperScene.checkin_region", "forcepho/superscene.py:SuperScene.get_circular_scene"]}
{"id": "C02", "title": "No source is optimised by two workers at once", "statement": "In any reachable state of a super-scene using circular regions, no source is an active source of two outstanding regions, and within one region the active and fixed sets are disjoint and duplicate free.", "quantifier": "for every catalog, configuration and finite checkout / check-in history", "why_tests_cant": "Needs an inductive invariant over unbounded histories.", "anchors": ["forcepho/superscene.py:SuperScene.checkout_region", "forcepho/superscene.py:SuperScene.get_circular_scene"]}
{"id": "C03", "title": "A source handed out as a fixed neighbour is unavailable until it is returned", "statement": "A source that was returned as fixed (or active) in an outstanding region is not available for further checkouts until that region is checked in; in particular its validity flag stays false until then. (The class documentation promises this; the code checks only activity.)", "quantifier": "for every reachable state and every outstanding region", "why_tests_cant": "A race between several regions; only particular histories expose it.", "anchors": ["forcepho/superscene.py:SuperScene.get_circular_scene", "forcepho/superscene.py:SuperScene.checkin_region"]}
{"id": "C04", "title": "A failed checkout leaves no trace", "statement": "When a checkout returns no active sources (because a nearby source is active) or raises, every catalog row, count, log, bound and covariance of the super-scene is unchanged.", "quantifier": "for every state, centre and configuration", "why_tests_cant": "All states and all failing branches.", "anchors": ["forcepho/superscene.py:SuperScene.checkout_region", "forcepho/superscene.py:SuperScene.get_circular_scene"]}
{"id": "C05", "title": "Check-in writes exactly the checked-in rows", "statement": "After a check-in, each active source's parameters are those supplied, it is inactive and valid; every fixed source supplied is valid; every other row, bound and covariance is untouched. Source indices and row count never change.", "quantifier": "for every state, every list of active and fixed rows with distinct in-range indices and every optional argument combination", "why_tests_cant": "Frame condition: quantifies over all rows that are not mentioned.", "anchors": ["forcepho/superscene.py:SuperScene.checkin_region"]}
{"id": "C06", "title": "Iteration and patch counters are exact history sums", "statement": "At any time the iteration count of a source equals its initial count plus the sum of the iteration counts of all check-ins in which it was active; its patch count equals its initial count plus the number of those check-ins with a positive number of iterations.", "quantifier": "for every finite history", "why_tests_cant": "Sum over unbounded histories.", "anchors": ["forcepho/superscene.py:SuperScene.checkin_region"]}
{"id": "C07", "title": "Logs are complete and ordered", "statement": "The patch log lists, in order, the task ids of all check-ins that carried one; the per-source log of each source lists, in order, the task ids of exactly those check-ins in which it was active.", "quantifier": "for every finite history", "why_tests_cant": "Unbounded histories.", "anchors": ["forcepho/superscene.py:SuperScene.checkin_region"]}
{"id": "C08", "title": "Size limits of a checked-out region", "statement": "A successful checkout returns at least one and at most maxactive active sources, at most max(1,maxactive) fixed sources, all distinct and all within the boundary radius of the centre; if any candidate is left over, at least one fixed source is returned.", "quantifier": "for every catalog, centre and configuration with maxactive >= 1", "why_tests_cant": "All catalogs.", "anchors": ["forcepho/superscene.py:SuperScene.get_circular_scene"]}
{"id": "C09", "title": "The region radius encloses every active source and the fixed set is the right one", "statement": "The returned radius is at least minradius, at least distance + nscale*rhalf of every active source and equal to one of those values; every active source has outer extent below maxradius; no candidate outside the active set has a smaller outer extent than an active one; and if fewer than maxactive fixed sources are returned then every remaining candidate whose inner extent is below the radius is in the fixed set.", "quantifier": "for every catalog, centre and configuration", "why_tests_cant": "All catalogs, all sort orders including ties.", "anchors": ["forcepho/superscene.py:SuperScene.get_circular_scene"]}
{"id": "C10", "title": "Checkout succeeds exactly when it can", "statement": "A checkout around a centre raises an error exactly when no candidate lies within the boundary radius or no candidate's outer extent is below maxradius (or maxactive is zero); it returns no region exactly when some candidate is active; otherwise it succeeds.", "quantifier": "for every state, centre, configuration", "why_tests_cant": "Totality / error characterisation for all inputs.", "anchors": ["forcepho/superscene.py:SuperScene.get_circular_scene"]}
{"id": "C11", "title": "The stopping test is sound and stable", "statement": "The super-scene reports itself done exactly when every source has reached the target number of iterations in absolute value, and once done it stays done under every further checkout and check-in with non-negative iteration counts (given non-negative initial counts).", "quantifier": "for every finite history", "why_tests_cant": "Stability over all futures.", "anchors": ["forcepho/superscene.py:SuperScene.undone", "forcepho/superscene.py:SuperScene.checkin_region"]}
{"id": "C12", "title": "Reset returns the bookkeeping to a fresh scene", "statement": "After a reset no source is active, all are valid, all counters are zero, the counts are zero, and parameters, bounds, covariances and logs are unchanged; a reset while regions are outstanding makes their later check-in drive the counts negative.", "quantifier": "for every state", "why_tests_cant": "All states, plus a history in which the reset happens mid-flight.", "anchors": ["forcepho/superscene.py:SuperScene.reset"]}
{"id": "C13", "title": "Seed weights are a probability distribution that excludes unavailable sources", "statement": "The seed weights are non-negative and sum to one, more-visited sources never weigh more than less-visited ones of the same status, and sources that are checked out have weight zero (documented intent).", "quantifier": "for every non-empty catalog state", "why_tests_cant": "All states; the third clause is false for the integer-typed catalog columns and needs a proof of the negation.", "anchors": ["forcepho/superscene.py:SuperScene.exp_weight", "forcepho/superscene.py:SuperScene.sigmoid_weight", "forcepho/superscene.py:sourcecat_dtype"]}
{"id": "C14", "title": "Friends-of-friends growth returns exactly the connected group", "statement": "Growing a group from a seed returns, without duplicates, exactly the set of sources reachable from the seed through chains of overlaps, and it terminates.", "quantifier": "for every finite catalog and every overlap relation", "why_tests_cant": "Reachability closure over arbitrary graphs.", "anchors": ["forcepho/superscene.py:LinkedSuperScene.grow_source"]}
{"id": "C15", "title": "Linked regions never share active sources", "statement": "With the linked super-scene, no source is active in two outstanding regions and the active count equals the number of active flags.", "quantifier": "for every finite history", "why_tests_cant": "Unbounded histories; fails when overlap is not symmetric.", "anchors": ["forcepho/superscene.py:LinkedSuperScene.checkout_region", "forcepho/superscene.py:LinkedSuperScene.grow_scene", "forcepho/superscene.py:LinkedSuperScene.find_overlaps"]}
{"id": "C16", "title": "The group catalog partitions the sources", "statement": "The group catalog assigns every source to a group, and two sources get the same group exactly when they are connected by overlaps.", "quantifier": "for every finite catalog with a symmetric overlap relation", "why_tests_cant": "All graphs.", "anchors": ["forcepho/superscene.py:LinkedSuperScene.make_group_catalog"]}
{"id": "C17", "title": "Every worker is idle or busy, never both, never lost", "statement": "At any time the idle list and the busy list of the work queue together contain each worker rank 1..n exactly once, and the outstanding receive handles correspond one to one, in order, with the busy workers.", "quantifier": "for every number of workers and every sequence of submit / collect / closeout operations and every subset of completed receives", "why_tests_cant": "All message-arrival schedules.", "anchors": ["forcepho/dispatcher.py:MPIQueue"]}
{"id": "C18", "title": "Each submitted task is collected exactly once and attributed to its worker", "statement": "Over any history, the multiset of tasks submitted equals the multiset of results collected plus the tasks still outstanding; a result is attributed to the worker it was submitted to.", "quantifier": "for every history and arrival schedule", "why_tests_cant": "All schedules.", "anchors": ["forcepho/dispatcher.py:MPIQueue.submit", "forcepho/dispatcher.py:MPIQueue.collect"]}
{"id": "C19", "title": "Queue operations fail only when they should and without side effects", "statement": "Submitting fails exactly when no worker is idle; blocking collection fails exactly when nothing is outstanding (and not in collect-all mode); closing out fails exactly when some worker is busy, and otherwise sends one stop message to each worker; failing operations leave the queue unchanged.", "quantifier": "for every reachable queue state", "why_tests_cant": "Totality over all states.", "anchors": ["forcepho/dispatcher.py:MPIQueue.submit", "forcepho/dispatcher.py:MPIQueue.collect", "forcepho/dispatcher.py:MPIQueue.closeout"]}
{"id": "C20", "title": "The parent loop hands back every region it checked out", "statement": "When the parent loop terminates normally every region that was checked out has been checked in with the id of the task that produced it, no worker is left busy, and the super-scene has no active source.", "quantifier": "for every schedule of task completions and every catalog", "why_tests_cant": "All schedules; the shipped code discards results that arrive after the stopping test and logs results under the newest task id.", "anchors": ["forcepho/dispatcher.py:do_parent"]}
{"id": "C21", "title": "Source parameter vectors round-trip", "statement": "Setting a source's parameters from a vector of the right length and reading the vector back returns the same vector; a vector of the wrong length is rejected; setting the vector read from a source changes nothing.", "quantifier": "for every source kind, number of bands and parameter vector", "why_tests_cant": "All vectors and lengths.", "anchors": ["forcepho/sources.py:Source.set_params", "forcepho/sources.py:Galaxy.set_params", "forcepho/sources.py:Galaxy.get_param_vector", "forcepho/sources.py:Star", "forcepho/sources.py:SimpleGalaxy"]}
{"id": "C22", "title": "Scene parameter vectors round-trip and touch only their own source", "statement": "Distributing a scene vector over the active sources and collecting it again returns the same vector; each active source receives exactly its own slice; fixed sources are untouched.", "quantifier": "for every scene, with any mixture of source sizes and fixed flags", "why_tests_cant": "All scenes.", "anchors": ["forcepho/sources.py:Scene.set_all_source_params", "forcepho/sources.py:Scene.get_all_source_params"]}
{"id": "C23", "title": "Parameter indices point at the right slots", "statement": "The indices reported for a source and band address, in the scene vector, exactly that source's flux in that band and its shape parameters; indices of different sources never collide.", "quantifier": "for every scene and source", "why_tests_cant": "All scenes; false when fixed sources precede the source.", "anchors": ["forcepho/sources.py:Scene.param_indices"]}
{"id": "C24", "title": "Catalog rows round-trip through sources and scenes", "statement": "Building sources from a catalog and writing them back to a catalog reproduces every parameter column, row order and id.", "quantifier": "for every catalog and band list", "why_tests_cant": "All catalogs.", "anchors": ["forcepho/sources.py:Source.to_catalog_row", "forcepho/sources.py:Source.from_catalog_row", "forcepho/sources.py:Scene.from_catalog", "forcepho/sources.py:Scene.to_catalog"]}
{"id": "C25", "title": "Kernel proposals carry each active source's parameters in order", "statement": "The proposal sent to the kernel has one entry per active source in scene order, with each band's flux in its band slot and zero elsewhere; scenes within the compiled limits always fit.", "quantifier": "for every scene", "why_tests_cant": "All scenes; capacity overflow is outside tests.", "anchors": ["forcepho/sources.py:Galaxy.proposal", "forcepho/sources.py:Scene.get_proposal", "forcepho/proposal.py:source_struct_dtype", "forcepho/src/kernel_limits.h"]}
{"id": "C26", "title": "The posterior cache is transparent", "statement": "Any sequence of queries (log-probability, gradient, both, negated versions) on any sequence of parameter vectors returns, for each query, the value a cache-free evaluation would return, and consecutive queries at the same point evaluate the likelihood only once.", "quantifier": "for every finite sequence of queries on immutable vectors differing from the initial sentinel", "why_tests_cant": "All query interleavings.", "anchors": ["forcepho/model.py:Posterior.lnprob", "forcepho/model.py:Posterior.lnprob_grad", "forcepho/model.py:Posterior.lnprob_and_grad", "forcepho/model.py:Posterior.nll", "forcepho/model.py:FastPosterior.evaluate"]}
{"id": "C27", "title": "The cache is safe under caller mutation", "statement": "If the caller modifies its parameter array in place between queries, the posterior still returns values for the current contents.", "quantifier": "for every interleaving of in-place writes and queries", "why_tests_cant": "Aliasing; refuted by a concrete history.", "anchors": ["forcepho/model.py:FastPosterior.evaluate", "forcepho/model.py:Posterior.lnprob"]}
{"id": "C28", "title": "The stacked gradient follows the parameter-vector layout", "statement": "The gradient vector returned for a scene puts, for each source, the flux derivative of each band from that band's kernel output, followed by the shape derivatives summed over bands, in the same order as the scene's parameter vector.", "quantifier": "for every number of sources and bands and all kernel outputs", "why_tests_cant": "Index arithmetic for all sizes.", "anchors": ["forcepho/model.py:FastPosterior.stack_grad", "forcepho/sources.py:Scene.get_all_source_params"]}
{"id": "C29", "title": "The bounded transform is a bijection onto the open box", "statement": "Transforming any real vector gives values strictly between the lower and upper bounds; inverse-transforming a point strictly inside the box and transforming back returns it, and vice versa; the map is strictly increasing in each coordinate.", "quantifier": "for all real vectors and bounds with lower < upper", "why_tests_cant": "Continuum of inputs.", "anchors": ["forcepho/model.py:BoundedTransform"]}
{"id": "C30", "title": "Jacobian and log-determinant gradient are true derivatives", "statement": "The reported Jacobian is the derivative of the transform, and the reported gradient of the log-determinant is the derivative of the reported log-determinant.", "quantifier": "for all real inputs and bounds with lower < upper", "why_tests_cant": "Calculus over the reals.", "anchors": ["forcepho/model.py:BoundedTransform", "forcepho/model.py:sigmoid", "forcepho/model.py:sigmoid_grad", "forcepho/model.py:logit"]}
{"id": "C31", "title": "The posterior gradient is the derivative of the posterior", "statement": "With a bounded transform, a differentiable likelihood with correct gradient and a differentiable prior, the gradient returned by the posterior in the unconstrained space is the derivative of the returned log-probability, in both sampling and optimising modes.", "quantifier": "for all points, bounds, likelihoods and priors", "why_tests_cant": "Calculus over the reals.", "anchors": ["forcepho/model.py:FastPosterior.evaluate", "forcepho/model.py:Posterior.nll", "forcepho/priors.py:LogPrior"]}
{"id": "C32", "title": "Reflection at the bounds terminates inside the box", "statement": "Bouncing a parameter vector off the bounds terminates and returns values inside [lower, upper], leaves in-bounds values unchanged, and reports sign flips equal to the parity of the number of reflections.", "quantifier": "for all vectors and bounds with lower < upper", "why_tests_cant": "Termination and invariant of a while loop.", "anchors": ["forcepho/model.py:ConstrainedTransformedPosterior.check_constrained"]}
{"id": "C33", "title": "Automatic flux bounds contain the flux", "statement": "For any non-zero flux and positive uncertainty the lower flux bound is strictly below and the upper strictly above the flux, whichever noise model or precision matrix is used; bounds widen with the number of sigmas.", "quantifier": "for all real fluxes, unc1, snr_max, nsigma > 0", "why_tests_cant": "Continuum of inputs; the zero-flux case is a boundary failure.", "anchors": ["forcepho/superscene.py:flux_bounds"]}
{"id": "C34", "title": "Bounds catalog: shape, ordering and containment", "statement": "The bounds made from a catalog have one row per source; shape bounds equal the requested ranges, position bounds are centred on the source position, and the bounds vectors used in fitting list lower and upper values in scene-vector order; the containment check accepts exactly the strictly interior catalogs.", "quantifier": "for all catalogs and options", "why_tests_cant": "All catalogs.", "anchors": ["forcepho/superscene.py:make_bounds", "forcepho/superscene.py:bounds_vectors", "forcepho/superscene.py:check_bounds"]}
{"id": "C35", "title": "Adjusting bounds keeps fluxes inside the bounds", "statement": "After adjusting bounds for new fluxes, every flux lies within its bounds.", "quantifier": "for all fluxes and bounds", "why_tests_cant": "All inputs; refuted for the shipped clip arguments.", "anchors": ["forcepho/superscene.py:adjust_bounds"]}
{"id": "C36", "title": "Position-angle conversion normalises the angle", "statement": "The converted position angle lies in [-pi/2, pi/2] and differs from the input by a multiple of pi.", "quantifier": "for all real angles", "why_tests_cant": "Continuum of inputs; refuted because of a sign error in the test.", "anchors": ["forcepho/superscene.py:convert_pa"]}
{"id": "C37", "title": "Catalog rectification puts shapes in range and is idempotent", "statement": "After rectification q is a square root of an axis ratio in (0,1] range, pa, rhalf and sersic lie within the configured ranges, and in-range values are unchanged.", "quantifier": "for all catalogs and ranges", "why_tests_cant": "Continuum of inputs.", "anchors": ["forcepho/superscene.py:rectify_catalog"]}
{"id": "C38", "title": "Super-pixel storage loses no pixel and mislabels none", "statement": "Every pixel of an image appears exactly once in the super-pixel array, data and inverse errors at the same position, and the pixel coordinates generated for a super-pixel slot are the coordinates of the pixel stored there; the corner list of each super-pixel bounds its pixels.", "quantifier": "for all image sizes divisible by the super-pixel size, up to 32768 pixels a side (coordinates are stored as 16-bit integers)", "why_tests_cant": "Bijection over all sizes.", "anchors": ["forcepho/patches/storage.py:PixelStore.superpixelize", "forcepho/patches/storage.py:PixelStore.pixel_coordinates", "forcepho/patches/storage.py:PixelStore.superpixel_corners"]}
{"id": "C39", "title": "Masked or non-finite pixels carry zero weight and finite values", "statement": "After ingestion every pixel that was masked, had a non-finite or negative inverse error or a non-finite value has inverse error zero and a finite value; every other pixel keeps weight, and values are background subtracted and calibrated.", "quantifier": "for all images, masks and bit masks", "why_tests_cant": "All images.", "anchors": ["forcepho/patches/storage.py:PixelStore.add_exposure"]}
{"id": "C40", "title": "Stores are maps: last write wins, other exposures untouched", "statement": "After any sequence of exposure additions, reading an exposure returns the data most recently added for that band and name, and the listed exposures are exactly those added.", "quantifier": "for every finite sequence of additions", "why_tests_cant": "Unbounded histories.", "anchors": ["forcepho/patches/storage.py:PixelStore.add_exposure", "forcepho/patches/storage.py:MetaStore.add_exposure"]}
{"id": "C41", "title": "Pixel packing partitions the pixel array by exposure and band", "statement": "After packing, exposure ranges are contiguous, disjoint, in order and cover all pixels; band ranges cover all exposures, each exposure falls in the band it belongs to, and the number of pixels per band is the sum over its exposures.", "quantifier": "for every list of exposures with band labels sorted by band", "why_tests_cant": "All lists.", "anchors": ["forcepho/patches/pixel_patch.py:PixelPatch.pack_pix", "forcepho/patches/pixel_patch.py:PixelPatch.build_patch"]}
{"id": "C42", "title": "Splitting inverts packing", "statement": "Splitting a packed pixel array by exposure returns the original per-exposure arrays, and splitting by band returns their concatenations per band; splitting residuals does the same.", "quantifier": "for every list of exposures", "why_tests_cant": "All lists.", "anchors": ["forcepho/patches/patch.py:Patch.split_pix", "forcepho/patches/patch.py:Patch.split_band", "forcepho/proposal.py:ProposerBase.unpack_residuals"]}
{"id": "C43", "title": "Padding to the warp size is inert", "statement": "Padding makes the pixel count a multiple of the warp size by appending fewer than one warp of pixels, all with zero weight; the chi-square and gradients with padding equal those without.", "quantifier": "for every number of pixels", "why_tests_cant": "All sizes.", "anchors": ["forcepho/patches/pixel_patch.py:FITSPatch.find_pixels", "forcepho/patches/static_patch.py:StaticPatch.pack_pix"]}
{"id": "C44", "title": "Capping signal to noise caps it and never raises a weight", "statement": "After capping, |value|*weight never exceeds the cap, no weight increases, and pixels far below the cap keep their order; zero-weight pixels stay at zero weight.", "quantifier": "for all values, weights, caps > 0", "why_tests_cant": "Continuum.", "anchors": ["forcepho/patches/pixel_patch.py:PixelPatch._cap_snr"]}
{"id": "C45", "title": "PSF packing offsets address the right gaussians", "statement": "For every exposure the recorded start offset addresses that exposure's PSF gaussians in the packed array, blocks do not overlap and fill the array; the kernel's index for a source addresses that source's PSF.", "quantifier": "for every number of exposures, sources, gaussians", "why_tests_cant": "All sizes; the kernel ignores the source offset.", "anchors": ["forcepho/patches/patch.py:Patch._pack_psf", "forcepho/patches/static_patch.py:StaticPatch.pack_psf", "forcepho/src/compute_gaussians_kernel.cc:CreateImageGaussians"]}
{"id": "C46", "title": "Zeroing and un-zeroing coordinates round-trips", "statement": "Subtracting the reference coordinates from a scene and the astrometry and adding them back restores the original coordinates, and pixel positions computed with zeroed coordinates equal those computed with the originals.", "quantifier": "for every scene", "why_tests_cant": "All scenes; repeated packing of the same scene loses the reference.", "anchors": ["forcepho/patches/patch.py:Patch.zerocoords", "forcepho/patches/patch.py:Patch.unzerocoords"]}
{"id": "C47", "title": "Subtracting fixed sources leaves data minus all fixed models", "statement": "After preparing a model, the data the likelihood sees are the original pixel data minus the summed model images of every fixed source, whatever the number of blocks they were processed in, and the metadata describe the active scene.", "quantifier": "for every number of fixed sources, block size and device", "why_tests_cant": "All sizes and both device kinds.", "anchors": ["forcepho/patches/device_patch.py:DevicePatchMixin.subtract_fixed", "forcepho/patches/device_patch.py:GPUPatchMixin.swap_on_device", "forcepho/patches/device_patch.py:CPUPatchMixin.swap_on_device"]}
{"id": "C48", "title": "Device memory is neither leaked nor freed twice", "statement": "For every sequence of send / swap / retrieve / free operations that the patch performs, every allocated device buffer is freed at most once and after a final free none is left allocated.", "quantifier": "for every history of patch operations", "why_tests_cant": "All histories; resending without freeing leaks.", "anchors": ["forcepho/patches/device_patch.py:GPUPatchMixin"]}
{"id": "C49", "title": "Image gaussians are well formed", "statement": "For every source with positive axis ratio and every invertible scale matrix, the image-plane covariance of each component is symmetric positive definite when the profile variance is positive, its inverse is the precision used by the kernel, and its amplitude is the flux-weighted normalised one.", "quantifier": "for all real parameters", "why_tests_cant": "Continuum.", "anchors": ["forcepho/src/compute_gaussians_kernel.cc:ConvolveOne", "forcepho/src/matrix22.cc"]}
{"id": "C50", "title": "Kernel gradients are the derivatives of the kernel chi-square", "statement": "The derivatives reported by the likelihood kernel for each source parameter are the derivatives of the reported chi-square with respect to that parameter wherever no exponent sits on the truncation threshold.", "quantifier": "for all scenes and pixels", "why_tests_cant": "Calculus over the reals.", "anchors": ["forcepho/src/common_kernel.cc:ComputeGaussianDerivative", "forcepho/src/common_kernel.cc:ComputeResidualImage", "forcepho/src/compute_gaussians_kernel.cc:ConvolveOne"]}
{"id": "C51", "title": "Zero-weight pixels do not influence the likelihood", "statement": "Changing the value of any pixel with zero inverse error changes neither chi-square nor any gradient.", "quantifier": "for all data", "why_tests_cant": "All data.", "anchors": ["forcepho/src/compute_gaussians_kernel.cc:EvaluateProposal"]}
{"id": "C52", "title": "CPU and GPU kernels accumulate the same sums", "statement": "The strided thread loops of the GPU kernel visit every (component, PSF gaussian) pair and every pixel exactly once for any thread count, and the warp shuffle reduction sums all lanes; so in exact arithmetic GPU and CPU results agree.", "quantifier": "for all thread counts, sizes", "why_tests_cant": "All schedules and sizes.", "anchors": ["forcepho/src/compute_gaussians_kernel.cu", "forcepho/src/compute_gaussians_kernel.cc"]}
{"id": "C53", "title": "Response buffers are never overrun within limits", "statement": "Every derivative written by the kernel for a source and parameter lands at a distinct index below the buffer size provided the number of sources is within the compiled limit; beyond the limit some write is out of range, and the Python layer does not prevent it.", "quantifier": "for all source counts", "why_tests_cant": "All sizes.", "anchors": ["forcepho/src/compute_gaussians_kernel.cc", "forcepho/src/kernel_limits.h", "forcepho/proposal.py"]}
{"id": "C54", "title": "Conformal-shear parametrisation round-trips", "statement": "Converting an axis ratio and position angle to conformal shear and back returns the axis ratio and the position angle modulo pi; the reported Jacobian is the derivative of the map.", "quantifier": "for all real parameters with q in (0,1)", "why_tests_cant": "Continuum.", "anchors": ["forcepho/sources.py:ConformalShearGalaxy"]}
{"id": "C55", "title": "Region overlap test is sound, and exact for rectangles", "statement": "If the overlap test of two regions' bounding polygons says no, the convex hulls share no point; for axis-aligned rectangles it says yes exactly when the closed rectangles intersect.", "quantifier": "for all polygons / rectangles with real vertices", "why_tests_cant": "Continuum.", "anchors": ["forcepho/region.py:polygons_overlap", "forcepho/region.py:RectangularRegion.bounding_box"]}
{"id": "C56", "title": "Point-in-polygon test accepts the interior points of convex polygons", "statement": "For a convex polygon, the containment test accepts a point exactly when it lies strictly on the same side of all edges (or on all edge lines); independent of vertex orientation.", "quantifier": "for all convex polygons and points", "why_tests_cant": "Continuum.", "anchors": ["forcepho/region.py:polygon_contains"]}
{"id": "C57", "title": "Local WCS linearisation is exact for affine maps and self-consistent", "statement": "For an affine sky-to-pixel map the numerical linearisation returns its matrix exactly for any non-zero step; in both branches the scale matrix and the pixel matrix are related by the cos(dec) factor and 3600.", "quantifier": "for all affine maps, steps", "why_tests_cant": "Continuum.", "anchors": ["forcepho/utils/wcs.py:scale_at_sky"]}
{"id": "C58", "title": "Sky/pixel conversions are mutually inverse and match the kernel", "statement": "A stamp's sky-to-pixel and pixel-to-sky conversions are inverse to each other when the matrix is invertible, and agree with the position the kernel uses.", "quantifier": "for all real coordinates", "why_tests_cant": "Continuum.", "anchors": ["forcepho/slow/stamp.py:PostageStamp.sky_to_pix", "forcepho/slow/stamp.py:PostageStamp.pix_to_sky", "forcepho/utils/wcs.py:sky_to_pix"]}
{"id": "C59", "title": "Chain catalogs put every sample in the right cell", "statement": "The chain catalog's value for a source, column and iteration is the chain entry at that source's slot for that column (with reference coordinates added for positions); extracting a sample catalog for an iteration and packing it again gives the chain row; mismatched sizes are rejected.", "quantifier": "for all chains", "why_tests_cant": "Index arithmetic for all sizes.", "anchors": ["forcepho/utils/chain.py:make_chaincat", "forcepho/utils/chain.py:get_sample_cat"]}
{"id": "C60", "title": "Block-diagonal covariance extraction inverts assembly", "statement": "Assembling per-source covariance blocks into a block-diagonal matrix and extracting blocks of the same size returns the original blocks, never reading outside the matrix.", "quantifier": "for all block sizes, counts and offsets", "why_tests_cant": "All sizes.", "anchors": ["forcepho/utils/__init__.py:extract_block_diag", "forcepho/superscene.py:SuperScene.bounds_and_covs"]}
{"id": "C61", "title": "Configuration precedence", "statement": "The final configuration takes each option from the command line if it was given there, else from the configuration file if present, else from the parser default.", "quantifier": "for all option sets", "why_tests_cant": "All combinations; an option given as --name=value is ignored by the shipped detection.", "anchors": ["forcepho/config.py:parse_all", "forcepho/config.py:new_args", "forcepho/config.py:update_config"]}
{"id": "C62", "title": "Linear flux optimisation is the weighted least-squares minimum", "statement": "The fluxes returned by the single-band optimiser minimise the weighted sum of squared residuals over all flux vectors, and the returned precision matrix is the Hessian (half of it) of that objective and positive semidefinite.", "quantifier": "for all design matrices, weights, data", "why_tests_cant": "Continuum.", "anchors": ["forcepho/fitting.py:optimize_one_band"]}
{"id": "C63", "title": "Prior gradients are derivatives of the priors", "statement": "The gradient returned by a prior is the derivative of its log-probability at every interior point; samples of the truncated Cauchy lie in the truncation interval.", "quantifier": "for all interior points and parameters", "why_tests_cant": "Continuum.", "anchors": ["forcepho/priors.py:LogPrior", "forcepho/priors.py:ExpBeta", "forcepho/priors.py:TruncatedCauchy"]}
{"id": "C64", "title": "The two slow likelihood plans agree", "statement": "The plain and the fast pure-Python work plans return the same log-likelihood and gradients for the same active and fixed sources, and the gradient is the derivative of the log-likelihood.", "quantifier": "for all sources and pixels", "why_tests_cant": "All inputs; false when there are fixed sources because the plain plan never subtracts them.", "anchors": ["forcepho/slow/likelihood.py:WorkPlan", "forcepho/slow/likelihood.py:FastWorkPlan"]}
{"id": "C65", "title": "Filling images from residual files writes only stored pixels", "statement": "Filling an image from stored patch pixels changes exactly the pixels stored for that exposure.", "quantifier": "for all patches", "why_tests_cant": "All pixel lists; padded pixels with coordinate -1 overwrite the last pixel.", "anchors": ["forcepho/postprocess.py:Residuals.fill_images", "forcepho/utils/__init__.py:populate_image"]}
{"id": "C66", "title": "The posterior sample catalog holds each source's latest patch", "statement": "The posterior sample catalog's row for a source holds the samples of the last patch in the log in which the source was active, and untouched rows are marked with id -1.", "quantifier": "for all logs", "why_tests_cant": "Unbounded logs.", "anchors": ["forcepho/postprocess.py:postsample_catalog", "forcepho/postprocess.py:find_multipatch"]}
{"id": "C67", "title": "PSF lookup returns the PSF of the nearest tabulated location", "statement": "Looking up the PSF for a detector position returns the tabulated entry with minimal distance, with an existing index.", "quantifier": "for all tables and positions", "why_tests_cant": "All tables.", "anchors": ["forcepho/patches/storage.py:PSFStore.get_local_psf"]}
{"id": "C68", "title": "Linked regions respect capacity and cover their sources", "statement": "A region handed out by the linked super-scene has between one and the maximum number of active sources, at most the requested number of fixed sources, no source both fixed and active, was not granted while a source overlapping the seed boundary was already active, and has a radius covering the influence radius of each of its active sources.", "quantifier": "for every catalog state, seed and setting", "why_tests_cant": "All catalogs and states.", "anchors": ["forcepho/superscene.py:LinkedSuperScene.grow_scene"]}
{"id": "C69", "title": "Switching the volume correction takes effect at once", "statement": "After the caller turns the volume correction on or off, the next query returns the value in the new mode, whatever was queried before.", "quantifier": "for every history of queries and mode switches", "why_tests_cant": "All histories; false at the point queried last.", "anchors": ["forcepho/model.py:FastPosterior.evaluate", "forcepho/model.py:Posterior.lnprob", "forcepho/tasks.py"]}
{"id": "C70", "title": "Ingesting the same image set again stores the same data", "statement": "Adding one and the same image set to the pixel store a second time stores the same pixel values and weights as the first time.", "quantifier": "for all image sets", "why_tests_cant": "All images; the failure depends on in-place mutation of the caller's arrays.", "anchors": ["forcepho/patches/storage.py:PixelStore.add_exposure"]}
{"id": "C71", "title": "Coverage queries use the astrometry of the current header", "statement": "After the metadata of an exposure has been replaced, a coverage query uses the astrometry of the new header.", "quantifier": "for all histories of additions and queries", "why_tests_cant": "Quantifies over histories; a cache is involved.", "anchors": ["forcepho/patches/storage.py:MetaStore.add_exposure", "forcepho/patches/storage.py:MetaStore.find_exposures"]}
{"id": "C72", "title": "An existing pixel store keeps its layout", "statement": "Opening a store that already has a layout uses that layout whatever arguments are given; a store without one takes the arguments and keeps them for every later opening.", "quantifier": "for all stored and requested layouts", "why_tests_cant": "All histories of openings.", "anchors": ["forcepho/patches/storage.py:PixelStore.__init__"]}
{"id": "C73", "title": "A position search lists exactly the exposures whose image covers the position", "statement": "Searching the metadata store for a sky position lists exactly the exposures of the requested bands whose image contains the position.", "quantifier": "for all headers, positions and band lists", "why_tests_cant": "All positions and image shapes; false when the image is not square.", "anchors": ["forcepho/patches/storage.py:MetaStore.find_exposures", "forcepho/region.py:RectangularRegion", "forcepho/patches/storage.py:header_to_id"]}
{"id": "C74", "title": "The bounding box of a circle contains the circle", "statement": "Every point within the radius of the centre is in the bounding box of a circular region.", "quantifier": "for all centres and radii", "why_tests_cant": "All circles; false on the sphere off the equator.", "anchors": ["forcepho/region.py:CircularRegion.bounding_box"]}
{"id": "C75", "title": "A patch finds every exposure that has pixels in its region", "statement": "The exposures listed for a patch are exactly those that would contribute pixels to it.", "quantifier": "for all regions, images and astrometric solutions", "why_tests_cant": "All relative placements of region and image; false when the image is inside the region.", "anchors": ["forcepho/patches/pixel_patch.py:StorePatch.find_exposures"]}
{"id": "C76", "title": "A patch holds every pixel of its region once", "statement": "The pixels packed for an exposure contain every pixel inside the region, none twice, and none farther from it than a super-pixel.", "quantifier": "for all circular regions and images", "why_tests_cant": "All circles and super-pixel sizes; false for circles smaller than a super-pixel.", "anchors": ["forcepho/patches/pixel_patch.py:StorePatch.find_pixels", "forcepho/region.py:CircularRegion.contains", "forcepho/patches/storage.py:PixelStore.superpixel_corners"]}
{"id": "C77", "title": "Configuration values are normalised without loss", "statement": "After reading a configuration, strings have their shell variables expanded, lists are arrays, dtype options are numpy types, store files are under the store directory, every other value is unchanged, no option appears or disappears, and the bounds dictionary holds exactly the non-null bounds options.", "quantifier": "for all configurations", "why_tests_cant": "All option sets and values.", "anchors": ["forcepho/config.py:rectify_config", "forcepho/config.py:make_bounds_kwargs"]}
{"id": "C78", "title": "The design matrix reproduces the kernel's model", "statement": "The rows of the design matrix, weighted by any flux vector and summed, equal the model image the kernel computes at those fluxes, and the matrix does not depend on the (non-zero) fluxes it was computed at.", "quantifier": "for all scenes, exposures and flux vectors", "why_tests_cant": "Continuum of fluxes.", "anchors": ["forcepho/patches/device_patch.py:DevicePatchMixin.design_matrix", "forcepho/fitting.py:optimize_fluxes"]}
{"id": "C79", "title": "The Python likelihood and the compiled kernel agree", "statement": "For the same sources, stamp and PSF mixture the pure-Python log-likelihood and the compiled kernel's chi-square differ only by a constant of the data and the factor -2, and so do their gradients.", "quantifier": "for all scenes of round mixture components and pixels within the exponent cutoff", "why_tests_cant": "Continuum of scenes.", "anchors": ["forcepho/slow/likelihood.py:FastWorkPlan", "forcepho/slow/gaussmodel.py:convert_to_gaussians", "forcepho/src/compute_gaussians_kernel.cc", "forcepho/src/common_kernel.cc"]}
{"id": "C80", "title": "The multi-stamp likelihood gradient lands on the right parameters", "statement": "The total log-likelihood over several stamps is the sum over stamps, and entry k of its gradient is the sum over stamps of the derivative with respect to the parameter held in entry k of the parameter vector.", "quantifier": "for all scenes, source classes, bands and lists of stamps", "why_tests_cant": "All scene shapes; wrong for source classes whose parameters are not in the kernel's order.", "anchors": ["forcepho/slow/likelihood.py:lnlike_multi", "forcepho/slow/likelihood.py:plan_sources"]}
{"id": "C81", "title": "The simple PSF has the requested width", "statement": "The single-gaussian PSF built from a full width at half maximum falls to half its peak at half that width.", "quantifier": "for all widths", "why_tests_cant": "Continuum.", "anchors": ["forcepho/slow/psf.py:get_psf"]}
{"id": "C82", "title": "Written data, residual, model and chi images belong together", "statement": "In the images written for a run every pixel of the data, residual, model and chi image of an exposure comes from one and the same stored pixel, that of the last patch that has it; model is data minus residual, chi is residual times inverse error; the header check never fails.", "quantifier": "for all runs and exposures", "why_tests_cant": "Unbounded numbers of overlapping patches.", "anchors": ["forcepho/postprocess.py:write_images", "forcepho/postprocess.py:Residuals.fill_images"]}
{"id": "C83", "title": "Reported flux uncertainties come from the last fit and cap the signal to noise", "statement": "The linear flux uncertainty of a source in a band is the marginal standard deviation of the last patch that fitted it, but at least flux over the maximal signal to noise; sources without a fit get a default covering their one-sigma flux bounds.", "quantifier": "for all runs, precision matrices and catalogs", "why_tests_cant": "Continuum of precision matrices, unbounded logs; documented fallback for missing precision matrices never works.", "anchors": ["forcepho/postprocess.py:flux_unc_linear"]}
{"id": "C84", "title": "Chains of sources in several patches are listed under the right patches", "statement": "For every source that was active in several patches the chains returned are those of that source in exactly those patches, in order.", "quantifier": "for all logs", "why_tests_cant": "Unbounded logs; false when patches finish out of order.", "anchors": ["forcepho/postprocess.py:find_multipatch"]}
{"id": "C85", "title": "PSF conversions keep the PSF", "statement": "The PSF converted from an old-style fit has, at every detector offset, the value of the fitted function at the corresponding place of the PSF image (axes exchanged) times the square of the oversampling; its covariance is symmetric positive definite; the list of numbers handed to the kernel determines the PSF.", "quantifier": "for all fitted parameters, oversamplings and positions", "why_tests_cant": "Continuum of parameters and positions.", "anchors": ["forcepho/slow/psf.py:make_psf", "forcepho/slow/psf.py:params_to_gauss", "forcepho/slow/psf.py:PointSpreadFunction.as_tuplelist", "forcepho/slow/psf.py:mvn_pdf"]}
{"id": "C86", "title": "Samples and starting point respect the bounds", "statement": "Every value in the chain catalog of a fit is strictly inside the bounds given for that source and parameter whatever the sampler does, sampling starts exactly at the active catalog, the final catalog passes the bounds check again, and after the linear flux optimisation the catalog is inside the new bounds.", "quantifier": "for all catalogs, bounds, chains and iterations", "why_tests_cant": "Continuum of samples, all sampler behaviours.", "anchors": ["forcepho/fitting.py:run_lmc", "forcepho/patches/device_patch.py:DevicePatchMixin.prepare_model", "forcepho/superscene.py:bounds_vectors", "forcepho/utils/chain.py:make_chaincat", "forcepho/tasks.py:optimize", "forcepho/model.py:Posterior"]}
{"id": "C87", "title": "The maximum of the posterior returned is the most probable sample", "statement": "The most probable sample returned for a result is the chain entry (or the catalog of that entry) with the largest log-probability, the first one if there are several.", "quantifier": "for all chains and log-probabilities", "why_tests_cant": "All chains; false if a log-probability is not a number.", "anchors": ["forcepho/fitting.py:Result.get_map"]}
{"id": "C88", "title": "The mass matrix given to the sampler is positive definite", "statement": "Whatever covariance matrix or trace is supplied, the mass matrix given to the sampler is positive definite, equals the supplied matrix if that is positive definite, and differs from it only by a small multiple of the identity otherwise.", "quantifier": "for all matrices, traces and numbers of parameters", "why_tests_cant": "Continuum of matrices of every size; false for indefinite matrices.", "anchors": ["forcepho/fitting.py:get_pot", "forcepho/tasks.py:sample"]}
{"id": "C89", "title": "The optimiser reports its point and log-probability", "statement": "The optimiser's result holds a point inside the bounds and the log-probability of the model at that point.", "quantifier": "for all models, bounds and optimiser outcomes", "why_tests_cant": "Continuum; the reported log-probability is half the true one.", "anchors": ["forcepho/fitting.py:run_opt"]}
{"id": "C90", "title": "A saved result reads back", "statement": "Reading a saved result gives an object with the same value for every attribute, except that lists become arrays; every attribute that could not be saved is named when saving.", "quantifier": "for all attribute dictionaries", "why_tests_cant": "All dictionaries; false for unicode arrays, arrays without dimensions and file names without directory.", "anchors": ["forcepho/fitting.py:Result.dump_to_h5", "forcepho/fitting.py:Result.read_from_h5"]}
{"id": "C91", "title": "Combining chains adds the right sources", "statement": "Combining groups of sources gives one row per group whose flux samples are the sums and whose position samples are the means of those of exactly the sources named in the group.", "quantifier": "for all catalogs and groups", "why_tests_cant": "Unbounded groupings; fails on every catalog the package writes itself.", "anchors": ["forcepho/utils/catalog.py:combine_chains"]}
{"id": "C92", "title": "Percentile catalogs hold the percentiles of the samples", "statement": "Every sample column is replaced by its percentiles, which lie between samples, grow with the percentage, do not depend on the order of the samples and have the stated share of samples on either side; other columns are unchanged.", "quantifier": "for all catalogs, samples and percentages", "why_tests_cant": "All sample sets of every size; continuum of percentages.", "anchors": ["forcepho/utils/catalog.py:pctile_cat"]}
{"id": "C93", "title": "Weighted quantiles use the weights", "statement": "Weighted quantiles lie between samples, equal the unweighted ones for equal weights, and are not influenced by samples of weight zero; a span for a fraction holds that share of the samples.", "quantifier": "for all samples, weights and fractions", "why_tests_cant": "All sample sets; false for the largest sample, whose weight is ignored.", "anchors": ["forcepho/utils/corner.py:_quantile", "forcepho/utils/corner.py:get_spans"]}
{"id": "C94", "title": "An EM pass keeps the mixture well formed and matches the image's moments", "statement": "Fitting a PSF image (no negative pixel, three positive pixels not on a line) by EM from usable gaussians, every pass gives gaussians with positive amplitudes and widths and correlations strictly between -1 and 1, amplitudes that sum to one, centres inside the image, and a mixture whose centroid and second moments are those of the image; one gaussian reaches the moments of the image in one pass.", "quantifier": "for all images of every size, numbers of components and starting parameters", "why_tests_cant": "Continuum of images and parameters, unbounded numbers of passes.", "anchors": ["forcepho/mixtures/psf_mix_em.py:fit_mvn_mix", "forcepho/mixtures/psf_mix_em.py:mvn_pdf", "forcepho/mixtures/psf_mix_em.py:normalized", "forcepho/mixtures/psf_mix_em.py:easy_init", "forcepho/mixtures/psf_mix_em.py:central_moment"]}
{"id": "C95", "title": "EM never lowers the likelihood", "statement": "The log-likelihood of the mixture never decreases from one EM pass to the next.", "quantifier": "for all images, numbers of components, starting parameters and passes", "why_tests_cant": "Continuum of images; unbounded numbers of passes; false for the first pass, which resets the total amplitude.", "anchors": ["forcepho/mixtures/psf_mix_em.py:fit_mvn_mix"]}
{"id": "C96", "title": "Every repeat of a mixture fit gives an answer that describes itself", "statement": "Each repeat of a fit gives one answer whose parameters, model image and reported log-likelihood belong together and which has settled to the requested threshold; the single answer returned has the smallest residual; both optimisers and both initialisations work.", "quantifier": "for all images, starting parameters, thresholds and numbers of repeats", "why_tests_cant": "All behaviours of the iteration; false for the least-squares optimiser, for fits that do not settle, for the first pass giving nan, and for the greedy start.", "anchors": ["forcepho/mixtures/psf_mix_em.py:fit_mvn_mix"]}
{"id": "C97", "title": "PSF data made from a fitted mixture describe the fitted image", "statement": "The PSF data written from a fitted mixture, with negative gaussians folded in, add up to the fitted image without background in science pixels, for every location and radius; rows are in the documented order; scaling back recovers the fitted parameters; blurring adds the kernel's variance and nothing else.", "quantifier": "for all fitted mixtures, centres, oversamplings, numbers of locations and radii", "why_tests_cant": "Continuum of parameters and positions.", "anchors": ["demo/demo_psf/make_jwst_psf/make_psf.py:rectify", "demo/demo_psf/make_jwst_psf/make_psf.py:convert_psf_data", "demo/demo_psf/make_jwst_psf/make_psf.py:scale_psf_data", "demo/demo_psf/make_jwst_psf/make_psf.py:blur_psf_data", "demo/demo_psf/make_jwst_psf/make_psf.py:package_output", "forcepho/mixtures/psf_mix_hmc.py:psf_prediction"]}
{"id": "C98", "title": "Sersic utilities describe the Sersic profile", "statement": "The enclosed fraction is the flux of the Sersic profile inside the radius over the total flux, is one half at the half-light radius, increases and tends to one; the effective intensity gives the profile the requested flux; at the isophotal radius the profile has the isophotal intensity.", "quantifier": "for all radii, half-light radii, indices and fluxes", "why_tests_cant": "Continuum; integrals over the profile.", "anchors": ["forcepho/utils/profile.py:frac_sersic", "forcepho/utils/profile.py:I_eff", "forcepho/utils/profile.py:isophotal_radius"]}
{"id": "C99", "title": "The Kron radius is the flux-weighted mean radius", "statement": "The Kron radius is the flux-weighted mean radius of the Sersic profile, inside the limit if one is given.", "quantifier": "for all half-light radii, indices and limits", "why_tests_cant": "Continuum; false whenever a limit is given, by a factor that depends on the index.", "anchors": ["forcepho/utils/profile.py:kron_radius"]}
{"id": "C100", "title": "Radial profiles of gaussian mixtures carry the stated flux", "statement": "The radial profile of a galaxy, integrated over discs, gives the band flux times the shares of its smoothed gaussians, and the band flux in total; the cumulative curve of a mixture is the share of that flux; the mixture fitted to a Sersic profile is that same profile; the target has intensity one at the half-light radius; the radius of a fraction encloses that fraction; the image model is that profile at the distance from the centre, sheared as asked; the two-dimensional normal helper is a normal density.", "quantifier": "for all amplitudes, radii, smoothings, fluxes, Sersic indices, fractions and positions", "why_tests_cant": "Continuum; integrals over the profile; false for the normal helper and for the shear arguments, which are ignored.", "anchors": ["forcepho/sources.py:Galaxy.profile", "forcepho/sources.py:gauss", "forcepho/mixtures/sersic_mix_oned.py:gauss_cfd", "forcepho/mixtures/sersic_mix_oned.py:chisq", "forcepho/mixtures/sersic_mix_oned.py:sersic_profile", "forcepho/mixtures/sersic_mix_oned.py:rfrac_from_halfn", "forcepho/mixtures/sersic_mix_oned.py:normal", "forcepho/mixtures/sersic_mix_twod.py:sersic_prediction"]}
{"id": "C101", "title": "The state of a run on disk is the state of the scene", "statement": "After the scene is written, reading the run back gives its catalog, its patch log and its source log; leaving the scene's context by an exception writes the state at that moment and raises the exception again; no other file changes.", "quantifier": "for all scene states, file systems, directory and file names, and bodies of the context", "why_tests_cant": "All names and all states at which an exception may occur; false for names without .fits, where the log overwrites the catalog, and for directories with .fits in their name.", "anchors": ["forcepho/superscene.py:SuperScene.writeout", "forcepho/superscene.py:SuperScene.__exit__", "forcepho/postprocess.py:run_metadata"]}
{"id": "C102", "title": "A child answers every task once, in order, under its own tag", "statement": "A child process answers each task it is sent exactly once, in order and with the tag of the task, frees the memory of each, and stops at the shutdown message.", "quantifier": "for all sequences of messages, work functions and tags", "why_tests_cant": "Unbounded message sequences; false for the shipped work function, which raises on the first task.", "anchors": ["forcepho/dispatcher.py:do_child", "forcepho/dispatcher.py:dummy_work"]}
{"id": "C103", "title": "Appending catalogs keeps all rows under their names", "statement": "The file written by appending catalogs holds, under each of the four names, the rows of all inputs for that name in the order of the inputs.", "quantifier": "for all numbers of input files and all tables in them, in any order inside a file", "why_tests_cant": "Unbounded inputs; false when an input lacks one of the names: the fallback by position is off by one.", "anchors": ["forcepho/utils/catalog.py:append_catalogs", "forcepho/utils/catalog.py:write_table"]}
{"id": "C104", "title": "The smoothness prior has a valid covariance", "statement": "The kernel of the smoothness prior on mixture amplitudes is a correlation matrix: symmetric, with ones on the diagonal and positive definite.", "quantifier": "for all numbers of gaussians, kernels and scales", "why_tests_cant": "Every size and a continuum of scales; false for the triangular kernel at the default scale.", "anchors": ["forcepho/mixtures/sersic_mix_twod.py:get_kernel", "forcepho/mixtures/sersic_mix_twod.py:sersic_model"]}
{"id": "C105", "title": "A linked region contains its seed and is filled nearest first", "statement": "A region checked out around a seed source contains that source; the other active sources are added, with their groups, in increasing order of separation from the seed until the active set is full; when not all overlapping sources fit among the fixed ones, the ones kept are the closest.", "quantifier": "for all catalogs, scene states, seeds, radii of influence, numbers of active and fixed slots, with strict or lax filling", "why_tests_cant": "All catalogs and states; the order depends on all pairs of radii. False for sources at the same place, and false for plain distance: the order is by distance over the sum of the radii.", "anchors": ["forcepho/superscene.py:LinkedSuperScene.grow_scene", "forcepho/superscene.py:LinkedSuperScene.find_overlaps", "forcepho/superscene.py:LinkedSuperScene.checkout_region"]}
{"id": "C106", "title": "A patch made from FITS files lists every overlapping exposure, sorted by band", "statement": "The exposures listed for a region are exactly the files in the requested bands whose image overlaps the region; they come out sorted by band, so building the patch does not stop at its own check of the order.", "quantifier": "for all lists of files, astrometric solutions, regions and lists of distinct bands", "why_tests_cant": "All positions of region and image. The order and one direction hold; the overlap test only looks at the corners of the region's box, so regions crossing an image are missed.", "anchors": ["forcepho/patches/pixel_patch.py:FITSPatch.find_exposures", "forcepho/patches/pixel_patch.py:PixelPatch.build_patch", "forcepho/patches/pixel_patch.py:DirectPatch.find_exposures"]}
{"id": "C107", "title": "Pixels read from FITS files are those of the region, and bad pixels carry no weight", "statement": "The pixels handed out for an image are, each once, those whose area has a corner in the region, with their own coordinates and flux and the inverse of their uncertainty as weight. A pixel with a flux or an uncertainty that is not a number, or with an uncertainty that is not positive, has weight zero; weights are finite and never negative. Only weightless padding is added.", "quantifier": "for all images, uncertainty images (including NaN and infinities), fixed uncertainties or signal to noise ratios, regions and warp sizes", "why_tests_cant": "All images and regions. The corners looked at are half a pixel off the true ones.", "anchors": ["forcepho/patches/pixel_patch.py:FITSPatch.find_pixels", "forcepho/region.py:Region.contains"]}
{"id": "C108", "title": "The result of a fit goes back to the right sources", "statement": "After a region is fitted and its result checked in, every active source has the parameters of the last sample of the chain: fluxes of the bands of the patch, position on the sky, shape, each at its own place; bands without data keep their flux; no other source changes. The covariance matrix kept for the source is its own block of the sampler's matrix, and the matrix handed out for the next fit of these sources is the sampler's matrix without the terms between sources.", "quantifier": "for all catalogs, sets of active sources in any order, bands present in the patch, chains and covariance matrices", "why_tests_cant": "All chains and subsets; several packages of code (chain catalogs, blocks, check-in) have to agree on the order of sources and columns. When a band is missing in the patch the matrix is dropped and the next one has the wrong size.", "anchors": ["forcepho/fitting.py:Result.fill", "forcepho/utils/chain.py:make_chaincat", "forcepho/utils/chain.py:get_sample_cat", "forcepho/superscene.py:SuperScene.checkin_region", "forcepho/superscene.py:SuperScene.bounds_and_covs"]}
{"id": "C109", "title": "Scene coordinates measure distances on the sky", "statement": "The scene coordinates of a source are its offsets in seconds of arc from the median position of the catalog, north up and east positive; directions keep their separations, a scene distance is never shorter than the separation on the sky, and near the centre the two agree. The coordinates searched for neighbours are those of the ingested catalog, row for row, and stay the same when sources move.", "quantifier": "for all catalogs, centres and pairs of positions, and all sequences of changes of position", "why_tests_cant": "Real trigonometry over the whole sphere. Catalogs that straddle right ascension zero get a centre on the other side of the sky and distances near a full turn; a second ingest keeps the coordinates of the first catalog.", "anchors": ["forcepho/superscene.py:SuperScene.sky_to_scene", "forcepho/superscene.py:SuperScene.scene_frame", "forcepho/superscene.py:SuperScene.scene_coordinates", "forcepho/superscene.py:SuperScene.ingest"]}
{"id": "C110", "title": "The gradient check compares like with like", "statement": "check_grad returns the analytic gradient at the position asked about and, for every parameter, the central difference of the log-probability over that parameter alone with its own step; as the step goes to zero these differences tend to the analytic gradient if that is the derivative, and for parameters in which the log-probability is quadratic they are equal for every step. The position and the other arrays of the caller are not changed, and the cache of the posterior does not influence the result.", "quantifier": "for all posteriors, positions, scalar or per-parameter steps and earlier uses of the posterior object", "why_tests_cant": "Limit statement over real functions; interference of the one-element cache with a loop of evaluations at nearby points.", "anchors": ["forcepho/model.py:Posterior.check_grad", "forcepho/model.py:Posterior.lnprob", "forcepho/model.py:Posterior.lnprob_grad"]}
{"id": "C111", "title": "A task leaves the patch describing its sources", "statement": "After the tasks optimize and sample, the catalog they hand back and the result filled with the model they hand back give every source the position that was optimised or sampled, and the metadata of the patch belong to the sources of the model.", "quantifier": "for all catalogs, fixed sources, chains and earlier uses of the patch", "why_tests_cant": "The reference coordinates of the patch are an attribute that every packing of metadata overwrites, so the claim is about whole sequences of packings. With linear flux optimisation the claim fails: the patch is left with the metadata and reference of the last source alone.", "anchors": ["forcepho/tasks.py:optimize", "forcepho/tasks.py:sample", "forcepho/patches/device_patch.py:DevicePatchMixin.design_matrix", "forcepho/patches/patch.py:Patch.pack_meta", "forcepho/fitting.py:Result.fill"]}
{"id": "C112", "title": "Calibrated fluxes do not depend on the zero point", "statement": "A source of a given AB magnitude is stored with the same flux in nanojansky from every exposure ingested with flux calibration, whatever the zero point of the exposure, and its signal to noise is that of the image.", "quantifier": "for all images, backgrounds, masks, zero points, magnitudes and pixels", "why_tests_cant": "The flux is a product of the calibration factor with the background subtracted pixel, and the weight is divided by it: equality over all zero points is an identity of powers of ten, and a test on one header cannot see a wrong slope. Exposures without a zero point break the claim silently.", "anchors": ["forcepho/patches/storage.py:PixelStore.flux_calibration", "forcepho/patches/storage.py:PixelStore.add_exposure"]}
{"id": "C113", "title": "Astrometry loaded up front changes no answers, and the table of exposures is a table of the exposures", "statement": "Opening a metadata store with all astrometric solutions loaded gives for every exposure the solution used when they are made on demand. The table of exposures has one row per exposure, in order, with the position and keywords of the header of this exposure.", "quantifier": "for all metadata stores, files of solutions, options, exposures and columns", "why_tests_cant": "The equality concerns two code paths that build the same cache at different times, over all stores. It fails for a file of solutions, which is ignored unless everything is loaded up front, and only a store with both would show it.", "anchors": ["forcepho/patches/storage.py:MetaStore.__init__", "forcepho/patches/storage.py:MetaStore.populate_wcs", "forcepho/patches/storage.py:MetaStore.find_exposures", "forcepho/patches/storage.py:MetaStore.to_table"]}
{"id": "C114", "title": "Residual images are those of the parameters asked for", "statement": "After a patch is prepared, every request for residual images returns for each exposure and pixel the data less the subtracted sources less the model of the requested parameters, whatever likelihoods or residuals were evaluated before, and no request changes the data or the setting that likelihoods carry no residuals. The same holds for rendering a catalog on the patch.", "quantifier": "for all patches, fixed and big catalogs, block sizes, exposures and sequences of calls, on both devices", "why_tests_cant": "The residual buffer is shared by all kernel calls and has changed places with the data buffer once per subtracted block, so correctness is an invariant of arbitrary call sequences. Rendering fails for every catalog, which the code can only show on a device.", "anchors": ["forcepho/model.py:FastPosterior.residuals", "forcepho/proposal.py:GPUProposer.evaluate_proposal", "forcepho/proposal.py:CPUProposer.evaluate_proposal", "forcepho/patches/device_patch.py:DevicePatchMixin.prepare_model", "forcepho/patches/device_patch.py:DevicePatchMixin.render"]}
{"id": "C115", "title": "Residual files give back what was fitted", "statement": "For a patch whose exposures have distinct names, the residual file written after a fit can be opened again, lists the exposures with their bands and reference position, and returns for each exposure the pixel coordinates, data, uncertainties, astrometry and residuals of that exposure; cutout images are made of those pixels. A residual file is written exactly if the configuration asks for it, with the residuals handed over or those of the last sample.", "quantifier": "for all patches, numbers of exposures and bands, names of exposures and arrays", "why_tests_cant": "Groups of exposures and bands share one tree of names, and failures to write are only printed, so whether the file is complete depends on all the names at once; the failing case is silent.", "anchors": ["forcepho/utils/io.py:make_imset", "forcepho/utils/io.py:write_residuals", "forcepho/utils/io.py:write_to_disk", "forcepho/postprocess.py:Residuals.__init__", "forcepho/postprocess.py:Residuals.make_exp"]}
{"id": "C116", "title": "Reports cover every patch and label it by its number", "statement": "The report of residual images shows every patch of the run, each once, in the exposure asked for. The region file of the patches has one circle per patch, labelled with the number of that patch.", "quantifier": "for all numbers of patches, patches per page, exposures and orders of the directory listing", "why_tests_cant": "Which patches are left out depends on a remainder, and labels depend on the order of file names as strings; small runs show neither.", "anchors": ["forcepho/postprocess.py:residual_pdf", "forcepho/postprocess.py:write_patchreg"]}
{"id": "C117", "title": "The catalog of an optimization run starts the next run", "statement": "The catalog made of an optimization run holds the sources, positions, fluxes and shapes of the final catalog of the run with all counters reset, adds flux uncertainties if the run has precision matrices, leaves the raw catalog of the run untouched, and is accepted by the next run, which starts from these values in all bands of the run.", "quantifier": "for all runs, catalogs, bands, names and directory contents", "why_tests_cant": "The composition of writing and reading passes through a header, names of files and clipped ranges; a run works although bands or shapes were silently lost.", "anchors": ["forcepho/postprocess.py:postop_catalog", "forcepho/superscene.py:rectify_catalog", "forcepho/dispatcher.py:do_parent"]}
{"id": "C118", "title": "Chain reports show every parameter of every source", "statement": "The report of a patch has one page per source, in order, and on it exactly one panel for every flux and shape parameter, with the tuning samples shaded.", "quantifier": "for all patches, numbers of sources and bands, and chains", "why_tests_cant": "Panels are assigned by counting bands and shapes into two columns; whether all fit and none is drawn twice depends on the number of bands, and the failing cases are those of one band or a chain without tuning samples.", "anchors": ["forcepho/postprocess.py:chain_pdf", "forcepho/fitting.py:Result.show_chain"]}
{"id": "C119", "title": "Plot options apply to the plot they are given for", "statement": "Marking sources on a plot uses the options of that call and otherwise the documented defaults, whatever calls were made before.", "quantifier": "for all sequences of calls and options", "why_tests_cant": "A default argument shared between calls makes the outcome depend on the whole history of the process.", "anchors": ["forcepho/postprocess.py:Residuals.mark_sources"]}
{"id": "C120", "title": "Galaxies have the gaussian amplitudes that were fitted, and their flux is the flux parameter", "statement": "A galaxy with a Sersic index and half-light radius of the fitted table has the amplitudes of that fit, scaled to sum to one. For every index and radius, also outside the table, the amplitudes sum to one and their reported derivatives to zero; inside the table the reported derivatives are those of the amplitudes.", "quantifier": "for all tables, grids, fits, numbers of gaussians, Sersic indices and radii", "why_tests_cant": "The correspondence of table rows to grid nodes is implicit in a reshape; a wrong order gives smooth profiles of plausible shape. Flux conservation between nodes is a statement about a continuum.", "anchors": ["forcepho/mixtures/sersic_mix_oned.py:fit_profiles", "forcepho/sources.py:Galaxy.initialize_splines", "forcepho/sources.py:Galaxy.amplitudes", "forcepho/sources.py:Galaxy.damplitude_dsersic", "forcepho/sources.py:Galaxy.damplitude_drh"]}
{"id": "C121", "title": "Every source gets its turn and a run can finish", "statement": "When nothing is checked out, a checkout seeded on a source hands out a region in which that source is active. Therefore, whatever the workers return, checking regions out and in with every source as the seed often enough brings every source to the target number of iterations, and the stopping condition of a run can be met.", "quantifier": "for all catalogs, geometries, settings, numbers of draws, targets, worker results and sequences of seeds", "why_tests_cant": "Whether a loop can end depends on all sources at once and on every order of seeds; a test runs one catalog and one order, and a source that is never active only shows as a run that does not stop.", "anchors": ["forcepho/superscene.py:SuperScene.checkout_region", "forcepho/superscene.py:SuperScene.get_circular_scene", "forcepho/superscene.py:SuperScene.checkin_region", "forcepho/superscene.py:SuperScene.undone", "forcepho/superscene.py:LinkedSuperScene.checkout_region", "forcepho/superscene.py:LinkedSuperScene.grow_scene", "forcepho/dispatcher.py:do_parent"]}
{"id": "C122", "title": "A posterior uses exactly the bounds, transform and prior it is given", "statement": "A posterior object made with a transform uses that transform; one made with lower and upper bounds uses these bounds; any other combination of arguments is refused and no argument is ignored. Without a prior the prior is flat, without a transform the parameters are used as they are; log-probability, gradient, the negatives handed to optimizers and the residuals follow from the ingredients by the sum and chain rules.", "quantifier": "for all combinations and orders of arguments, all bounds of any length, all transforms, priors, likelihoods, parameter vectors and stamps, and both behaviours of numpy's any on None", "why_tests_cant": "The argument check looks at the values of the bounds, so whether a call is accepted depends on the numbers passed; tests use bounds that happen to contain a nonzero number and always pass a prior.", "anchors": ["forcepho/model.py:Posterior.__init__", "forcepho/model.py:Posterior.lnprior", "forcepho/model.py:Posterior.make_transform", "forcepho/model.py:FastPosterior.__init__", "forcepho/model.py:SlowPosterior.__init__", "forcepho/model.py:SlowPosterior.evaluate", "forcepho/model.py:SlowPosterior.residuals"]}
{"id": "C123", "title": "A static patch holds its stamps and sources and can be taken apart", "statement": "A patch built from stamps sorted by band holds, for each exposure, the pixels of its stamp and padding without weight; for each band the number and the start of its exposures; for each exposure and source the source's own matrices and PSF gaussians, with the number of the profile radius, at computable places. Taking the patch apart gives back the stamps with their pixels and reference pixels.", "quantifier": "for all lists of stamps of any sizes and band identifiers, all scenes and numbers of gaussians", "why_tests_cant": "The places of all entries depend on the sizes of all stamps and the number of gaussians of all bands before; a test has one layout, and the inverse function is never called by the package.", "anchors": ["forcepho/patches/static_patch.py:StaticPatch.__init__", "forcepho/patches/static_patch.py:StaticPatch.build_patch", "forcepho/patches/static_patch.py:StaticPatch.pack_pix", "forcepho/patches/static_patch.py:StaticPatch.pack_astrometry", "forcepho/patches/static_patch.py:StaticPatch.pack_psf", "forcepho/patches/static_patch.py:patch_to_stamps", "forcepho/sources.py:Source.psfgauss"]}
{"id": "C124", "title": "Bounded optimisation and nested sampling explore the caller's box", "statement": "The bounded optimiser reports a point inside the bounds the caller passes, with the function value of that point; nested sampling between two bounds spreads its draws evenly over the box and uses, at each point of the box, the likelihood and prior of the scene with these parameters.", "quantifier": "for all numbers of parameters, bounds, transforms, priors, likelihoods, start points and minimisers that keep to the box they are given", "why_tests_cant": "A test of one fit sees a plausible optimum; whether the box was used, or replaced, shows only for boxes narrower than the model's own.", "anchors": ["forcepho/fitting.py:run_opt_bounded", "forcepho/fitting.py:run_dynesty", "forcepho/model.py:Posterior.lnprob"]}
{"id": "C125", "title": "A run starts inside its own bounds", "statement": "After the input catalog of a run has been rectified, every source lies strictly inside the bounds made for it, so that there is a sampling position for the initial scene; and the bounds are those the configuration asks for.", "quantifier": "for all input catalogs with any number of rows, bands and columns, without zero fluxes and sources at the poles; for all bounds options", "why_tests_cant": "The ranges to which catalogs are clipped and the ranges of the bounds are default arguments of two different functions; whether a source falls between them depends on its shape, and catalogs used in tests have round galaxies.", "anchors": ["forcepho/superscene.py:rectify_catalog", "forcepho/superscene.py:make_bounds", "forcepho/superscene.py:check_bounds", "forcepho/superscene.py:SuperScene.ingest", "forcepho/superscene.py:SuperScene.check_bounds", "forcepho/dispatcher.py:do_parent", "forcepho/config.py:make_bounds_kwargs"]}
{"id": "C126", "title": "Shape columns of catalogs describe the ellipse that is drawn", "statement": "A source with columns q and pa is rendered with its long axis pa radians north of east, an axis ratio of q squared and an area that does not depend on them, as the description of the output says; input catalogs follow their own description; tables converted from another survey keep the ellipse of each source; region files show each source's ellipse at its place with the requested radius, labelled, and are written into the directory of the run.", "quantifier": "for all axis ratios, angles, radii, directions; all tables and catalogs of any length; both readings of the angle of a region", "why_tests_cant": "An ellipse is symmetric, so errors of a right angle or of the order of the axes cancel or hide for round sources; conventions differ between documents, tables and region files, and no test draws an elongated source at a generic angle.", "anchors": ["forcepho/sources.py:scale_matrix", "forcepho/sources.py:rotation_matrix", "forcepho/sources.py:scale_matrix_deriv", "forcepho/sources.py:rotation_matrix_deriv", "forcepho/utils/catalog.py:rectify_jades", "forcepho/utils/ds9.py:cat_to_regions", "forcepho/utils/ds9.py:annotate_regions", "forcepho/postprocess.py:write_sourcereg", "docs/inputs.rst", "docs/output.md"]}
{"id": "C127", "title": "A wrapped coordinate system behaves like the original", "statement": "Conversions between pixels and sky, the local scale, the distortion flag and the pixel scale of a wrapped WCS are those of the wrapped object; calls written for an astropy WCS work on the wrapper and give the same positions; objects without a pixel scale are always treated numerically.", "quantifier": "for all wrapped objects of both kinds, positions, keywords and steps", "why_tests_cant": "The wrapper's point is to make two libraries interchangeable, so the calls that differ are exactly those a test with one library does not make; an origin that is ignored shifts positions by one pixel only.", "anchors": ["forcepho/utils/wcs.py:FWCS.is_normal", "forcepho/utils/wcs.py:FWCS.has_distortion", "forcepho/utils/wcs.py:FWCS.pixel_scale_matrix", "forcepho/utils/wcs.py:FWCS.all_pix2world", "forcepho/utils/wcs.py:FWCS.all_world2pix", "forcepho/utils/wcs.py:FWCS.pixel_to_world_values", "forcepho/utils/wcs.py:FWCS.from_image", "forcepho/utils/wcs.py:FWCS.scale_at_sky"]}
{"id": "C128", "title": "Stores keep at most one file open", "statement": "Reading from a store opens its file once and reuses it until the store is closed; after closing no file is open; closing twice is harmless and reading after closing opens the file again.", "quantifier": "for all sequences of reads and closes", "why_tests_cant": "A leak of file handles or the use of a closed one depends on the order of many calls; a short test does not reach the limit of open files.", "anchors": ["forcepho/patches/storage.py:PixelStore.data", "forcepho/patches/storage.py:PixelStore.close", "forcepho/patches/storage.py:PSFStore.data"]}
{"id": "C129", "title": "Rendering a source on a stamp gives its pixel integrals and their derivatives", "statement": "The image of a rendered source holds in each pixel the flux in the stamp's filter times the profile blurred by the point-spread function, integrated over the pixel to second order; row r of the gradients is the derivative by the source's r-th parameter, with one row for each parameter of its class; a filter the source does not have is refused.", "quantifier": "for all source classes, profiles with positive covariance, stamps of any size, filters, pixels and parameters", "why_tests_cant": "Images and gradients pass through a dozen helper functions and a change of shape parameters; a test compares some pixels of one source with the same formula.", "anchors": ["forcepho/sources.py:Source.render", "forcepho/sources.py:ConformalShearGalaxy.render", "forcepho/slow/stamp.py:PostageStamp.render", "forcepho/slow/gaussmodel.py:compute_gig", "forcepho/slow/gaussmodel.py:convert_to_gaussians"]}
{"id": "C130", "title": "Positions survive single precision", "statement": "Although the kernel works in single precision, the pixel at which it puts a source is that of the proposed sky position to a small fraction of a pixel, because positions are taken relative to a reference in the patch; shifting the coordinates and shifting them back gives the original catalog coordinates.", "quantifier": "for all affine coordinate systems, references, packed and proposed positions within the patch, with and without fused operations", "why_tests_cant": "Rounding errors depend on the coordinates; a test near the origin passes without any reference, and an error of some hundredths of a pixel is not seen in one image.", "anchors": ["forcepho/patches/patch.py:Patch.zerocoords", "forcepho/patches/patch.py:Patch._pack_astrometry", "forcepho/src/compute_gaussians_kernel.cc:ConvolveOneSource", "forcepho/src/matrix22.cc:Av", "forcepho/proposal.py:source_struct_dtype"]}
{"id": "C131", "title": "The sums of CPU and GPU differ by rounding only", "statement": "For the same pixel values the chi-square and gradient summed by the CPU and by any run of the GPU, with its reductions and unordered atomic additions, agree with the exact sum and each other up to a relative error that grows with the number of pixels and is negligible in double precision.", "quantifier": "for all data, numbers of pixels and exposures, block sizes and orders of the atomic additions", "why_tests_cant": "The order of atomic additions differs from run to run and cannot be forced; comparing two runs shows one difference, not a bound.", "anchors": ["forcepho/src/compute_gaussians_kernel.cc:EvaluateProposal", "forcepho/src/compute_gaussians_kernel.cu:EvaluateProposal", "forcepho/src/compute_gaussians_kernel.cu:Accumulator"]}
{"id": "C132", "title": "A parallel run equals a sequential one", "statement": "Whatever the number of workers and the order in which their answers arrive, the catalog, the bounds, the covariances and the log of every source are at every moment those of a run that fits the regions checked in so far one after the other, in the order in which they were checked out, each with the same neighbours, bounds and covariances. So the order of arrival has no influence on the result. This needs that no source strays further from its catalog position than the boundary radius.", "quantifier": "for all catalogs, geometries, configurations, numbers of workers, seeds, answers and orders of arrival", "why_tests_cant": "Orders of arrival depend on timing; runs of the program that differ in it also differ in their random numbers, so a lost or mixed up update cannot be told from noise.", "anchors": ["forcepho/superscene.py:SuperScene.checkout_region", "forcepho/superscene.py:SuperScene.checkin_region", "forcepho/superscene.py:SuperScene.bounds_and_covs", "forcepho/superscene.py:SuperScene.get_circular_scene", "forcepho/dispatcher.py:do_parent"]}
{"id": "C133", "title": "Parent and children never block each other", "statement": "In a parallel run, whatever the timing and whether or not messages are buffered: no deadlock occurs (as long as a process has not ended, some process can go on); every answer received belongs to the task it is taken for; the number of steps made is bounded by the number of results checked in; and once the targets are met, all children are told to stop, do so within a number of steps proportional to their number, and leave no message behind.", "quantifier": "for all catalogs, configurations, numbers of children, work functions, interleavings of the processes and bufferings of messages", "why_tests_cant": "Deadlocks depend on timing and on the buffering of the MPI library; a test that passes on one machine says nothing about another.", "anchors": ["forcepho/dispatcher.py:MPIQueue.collect", "forcepho/dispatcher.py:MPIQueue.submit", "forcepho/dispatcher.py:MPIQueue.closeout", "forcepho/dispatcher.py:do_parent", "forcepho/dispatcher.py:do_child", "forcepho/dispatcher.py:dummy_work"]}
{"id": "C134", "title": "A distributed run gives the catalog of a single process", "statement": "Take parent and children as they are, exchanging messages in any order, with any number of children and any buffering: the catalog, bounds, covariances and logs of the parent are at every moment those of one process that fits the regions one after the other in the order of their task numbers, each region as it was sent out, each with an answer that the work function gave for it and that was checked in with the configured number of draws. With a work function that gives one answer per region, runs with different numbers of children that try the same seeds give the same catalog. This needs that no source strays further from its catalog position than the boundary radius and that the work function does not raise.", "quantifier": "for all catalogs, geometries, configurations, numbers of children, work functions, interleavings of the processes and bufferings of messages", "why_tests_cant": "A test cannot force the interleavings, and a result attributed to a wrong task changes the catalog by as much as the noise.", "anchors": ["forcepho/dispatcher.py:do_parent", "forcepho/dispatcher.py:do_child", "forcepho/dispatcher.py:MPIQueue.submit", "forcepho/dispatcher.py:MPIQueue.collect", "forcepho/superscene.py:SuperScene.checkout_region", "forcepho/superscene.py:SuperScene.checkin_region"]}
{"id": "C135", "title": "Pixel values in single precision", "statement": "The residual image that comes back for a patch is the data minus the sum of the gaussians (with the second-order correction for the extent of the pixel), up to one 2^18-th of the amplitude of each gaussian and one rounding of the running difference per gaussian; this holds for gaussians at least half a pixel wide with a correlation of at most a half, at any distance, including where the kernel cuts a gaussian off, and whether or not the compiler fuses products and sums. The contribution of a pixel to chi-square is (r^2-d^2)/sigma^2 to three units of 2^-24 of ((|r|+|d|)/sigma)^2. For strongly elongated gaussians the first part fails.", "quantifier": "all pixels, all lists of gaussians of ordinary shape, all data and errors, both ways of compiling, all exponential functions right to two units in the last place", "why_tests_cant": "A test compares a few images with a tolerance found by trial; a bound for all offsets, shapes and counts, and the point where it stops to hold, needs an error analysis", "anchors": ["forcepho/src/common_kernel.cc:ComputeResidualImage", "forcepho/src/compute_gaussians_kernel.cc:EvaluateProposal", "forcepho/src/kernel_limits.h:MAX_EXP_ARG"]}
{"id": "C136", "title": "What the sampler sees is the posterior of the data", "statement": "For a patch with at most 30 sources and bands, every number that comes back from the posterior object for a vector of unbounded parameters is the logarithm of the posterior: minus half the sum over bands, exposures and pixels of the squared weighted residuals (less those of an empty image), plus the log prior at the point between the bounds, plus the log volume of the change of variables when sampling. Every gradient that comes back has the partial derivatives of that function by the entries of the vector, in their order. Evaluations never fail, and each answer depends on its vector only: not on earlier vectors, not on what was in the proposal buffers, not on the order of the GPU threads, and not on whether the CPU or the GPU computes.", "quantifier": "all patches, scenes of free galaxies, bounds, priors, profile mixtures of at most ten gaussians, vectors, sequences of evaluations, thread orders; the gradient at all points where no pixel lies exactly on the ellipse at which a gaussian is cut off", "why_tests_cant": "The claim runs through five modules and two languages; a test can compare finite differences at a few points for one scene, on a machine with the device", "anchors": ["forcepho/model.py:FastPosterior.evaluate", "forcepho/model.py:FastPosterior.stack_grad", "forcepho/model.py:BoundedTransform", "forcepho/sources.py:Scene.set_all_source_params", "forcepho/sources.py:Scene.get_proposal", "forcepho/proposal.py:Proposer.evaluate_proposal", "forcepho/src/compute_gaussians_kernel.cc:EvaluateProposal", "forcepho/src/compute_gaussians_kernel.cu:EvaluateProposal"]}
{"id": "C137", "title": "The combined half-light radius is one", "statement": "For a chain of galaxies with positive fluxes, drawn on a stamp in the band asked for, `combined_rhalf` returns one number for every `step`-th of the last `n_sample` iterations. Each number is a half-light radius of the image of all the galaxies of that iteration, convolved with a gaussian of unit variance: pixels nearer than it to the centroid hold at most half of the flux, and those up to the next pixel outside hold at least half. It does not depend on the units of the fluxes, the origin of the coordinates, or the order in which the sort puts pixels at equal distance.", "quantifier": "all chains, sources, stamps, profiles with non-negative amplitudes, steps, and sorting functions", "why_tests_cant": "The order of ties is an accident of the numpy version; a test that samples images finds some radius and has no second opinion on it", "anchors": ["forcepho/postprocess.py:combined_rhalf", "forcepho/postprocess.py:forcepho_slow_model", "forcepho/sources.py:Source.from_catalog_row", "forcepho/slow/psf.py:PointSpreadFunction"]}
{"id": "C138", "title": "Gaussians built in single precision are the true ones", "statement": "Single precision does not spoil a model: the gaussian that is drawn for a source and a component of the PSF has the shape and amplitude of the exact convolution, to a tolerance that only depends on how elongated source and PSF are (at most 81 units of 2^-16 of the amplitude, in every pixel, where the square root of the axis ratio is at least 0.4 and pixels are square), whichever way the compiler fuses operations. For any axis ratio a shape that is a valid covariance gives a gaussian of that shape.", "quantifier": "all matrices of exposures, axis ratios, position angles, radii, PSF covariances, fluxes, pixels, and admissible sine, cosine and exponential of the library; with and without fused operations", "why_tests_cant": "A test compares some shapes with a double precision model to a tolerance that was chosen by looking at the result; where cancellation sets in is not visible from samples", "anchors": ["forcepho/src/common_kernel.cc:GetGaussianAndJacobian", "forcepho/src/common_kernel.cc:ComputeResidualImage", "forcepho/src/compute_gaussians_kernel.cc:ConvolveOneSource", "forcepho/src/matrix22.cc:matrix22"]}
{"id": "C139", "title": "A pymc3 run samples the named parameters of the scene", "statement": "A run of the pymc3 fitter samples the log-probability of the model within the bounds of the caller, from the starting position on, with the derivative of the log-probability as gradient; the columns of the chain it returns are the parameters of the scene, in the order of the names, names are all different and name the parameter of the source they stand for.", "quantifier": "all scenes, band names and source classes, samplers, bounds, starting positions and log-probabilities", "why_tests_cant": "A test samples one scene with one sampler; which column belongs to which parameter shows only if parameters differ, and no test of a stochastic sampler settles where it started", "anchors": ["forcepho/fitting.py:run_pymc3", "forcepho/model.py:LogLikeWithGrad", "forcepho/model.py:ModelGradOp", "forcepho/sources.py:Scene.parameter_names", "forcepho/sources.py:Source.parameter_names", "forcepho/sources.py:ConformalShearGalaxy.parameter_names"]}
{"id": "C140", "title": "The chi-square of single precision is that of the exact model", "statement": "From a position on the sky, through the astrometry of an exposure, to the chi-square of a band: with all steps before the accumulation in single precision, the centre of every gaussian, every residual and the chi-square that is returned differ from those of the exact model at the exact place by no more than a tolerance that can be stated from the amplitude of the gaussians, the field of view, the pixel scale, the size of the detector and the shape of the sources.", "quantifier": "all lists of exposures, pixels and image gaussians with axis ratios and widths within bounds, all positions within a field, all libm functions accurate to a few units in the last place, with and without fused multiplication", "why_tests_cant": "A test compares one scene with double precision; a bound on the error for all scenes and positions needs the propagation through each step", "anchors": ["forcepho/src/common_kernel.cc:GetGaussianAndJacobian", "forcepho/src/compute_gaussians_kernel.cc:EvaluateProposal", "forcepho/patches/patch.py:pack_astrometry"]}
{"id": "C141", "title": "The single precision gradient is the derivative of chi-square", "statement": "The derivative of chi-square with respect to flux, position, axis ratio, position angle, index and radius of a source that the compiled kernel returns, computed and accumulated in single precision, is the derivative of the exact chi-square of the gaussians in memory when they move along their Jacobians, up to a tolerance that can be stated from residuals, amplitudes and Jacobians, whichever products a compiler fuses, on the CPU and for every order of additions on the GPU.", "quantifier": "all lists of exposures, pixels, sources and gaussians of ordinary shape, all Jacobians, all choices of fused products, all exponentials accurate to two units, all orders of additions of warps", "why_tests_cant": "A finite difference test in single precision can not tell a rounding error from a wrong term, and covers one compilation", "anchors": ["forcepho/src/common_kernel.cc:ComputeGaussianDerivative", "forcepho/src/compute_gaussians_kernel.cc:EvaluateProposal", "forcepho/src/compute_gaussians_kernel.cu:EvaluateProposal"]}
{"id": "C142", "title": "Packing a scene into a patch is complete or has no effect", "statement": "Giving a scene to a patch stores, for every exposure and every source that is fitted, the local matrices and pixel position of its coordinates, the squared radii, the flux calibration factors and the PSF gaussians, replacing what an earlier scene left; a scene with fixed sources is packed for its free sources, and if packing fails the coordinates of the sources are as before.", "quantifier": "all scenes, exposures, bands, world coordinate systems, PSF stores, headers and earlier contents of the patch", "why_tests_cant": "Tests pack one scene of free sources into a fresh patch and never look at the state after an exception", "anchors": ["forcepho/patches/patch.py:Patch.__init__", "forcepho/patches/patch.py:Patch.pack_meta", "forcepho/patches/patch.py:Patch._pack_source_metadata", "forcepho/patches/patch.py:Patch._pack_astrometry", "forcepho/patches/patch.py:Patch._pack_fluxcal", "forcepho/patches/patch.py:Patch._pack_psf", "forcepho/sources.py:Scene.n_active"]}
{"id": "C143", "title": "The configuration saved with a run can be read back", "statement": "The configuration used for a run is stored with its output, every option can be written, and reading the stored text gives the options back, arrays as lists, so that the run can be repeated from it.", "quantifier": "all configurations, values nested to any depth", "why_tests_cant": "A test stores one configuration; which values can not be stored, and what they become, is a statement about all of them", "anchors": ["forcepho/utils/__init__.py:NumpyEncoder", "forcepho/utils/io.py:write_to_disk", "forcepho/config.py:rectify_config"]}
{"id": "C144", "title": "The text of a log gives the messages back", "statement": "A log keeps all messages in order with their time tags, and cutting the saved text at the line breaks gives the messages.", "quantifier": "all sequences of messages", "why_tests_cant": "A test logs a few fixed messages", "anchors": ["forcepho/utils/__init__.py:Logger"]}
{"id": "C145", "title": "The single precision Jacobian is the derivative of the gaussian", "statement": "For a source with any flux, position, shape, index and radius, seen through any PSF gaussian, the derivatives of amplitude, centre and shape of the image gaussian that the compiled kernel stores are those of the exact gaussian, to a few roundings times the amount of cancellation, whichever products the compiler fuses.", "quantifier": "all sources, PSF gaussians, local matrices, library sine and cosine within two units, choices of fused products", "why_tests_cant": "Tests compare one source in double precision with finite differences, with a tolerance that hides a wrong digit", "anchors": ["forcepho/src/common_kernel.cc:GetGaussianAndJacobian", "forcepho/src/matrix22.cc:ABA", "forcepho/src/matrix22.cc:symABt", "forcepho/src/matrix22.cc:scale_matrix_deriv", "forcepho/src/matrix22.cc:rotation_matrix_deriv", "forcepho/src/compute_gaussians_kernel.cc:CreateImageGaussians"]}
{"id": "C146", "title": "The gradient of a band in single precision is the gradient with the source parameters", "statement": "For any sources, exposures and pixels, the derivative of the chi-square of a band with flux, position, axis ratio, position angle, index or radius of a source that the CPU or GPU returns - everything from the parameters on in single precision - is the derivative of the exact chi-square with that parameter, up to an explicit tolerance built from the sizes of the terms.", "quantifier": "all lists of exposures, sources, gaussians and pixels, choices of fused products, orders of addition on the GPU, library functions within two units", "why_tests_cant": "Tests compare the gradient of one source with finite differences of the same single precision kernel, at a tolerance of per cents", "anchors": ["forcepho/src/common_kernel.cc:GetGaussianAndJacobian", "forcepho/src/common_kernel.cc:ComputeGaussianDerivative", "forcepho/src/compute_gaussians_kernel.cc:EvaluateProposal", "forcepho/src/compute_gaussians_kernel.cc:CreateImageGaussians"]}
{"id": "C147", "title": "The kernels read the arrays that Python wrote", "statement": "The arrays and structures that a patch or a proposal hands over as raw memory are read by the compiled kernels as the same values: each structure has the same members at the same byte offsets on both sides, each element of each array of pixels, exposures, bands and sources is found at its place, and residuals, derivatives and chi-square written by a kernel are found by Python at the same indices and nowhere else.", "quantifier": "all patches, memory states, addresses without overlap, indices within the arrays, values that fit the types", "why_tests_cant": "Python and C declare the layout independently; a wrong offset gives plausible numbers, and tests on one platform with the default types cannot tell what other sizes or types do", "anchors": ["forcepho/patches/patch.py:PatchBase", "forcepho/patches/device_patch.py:send_patchstruct_to_device", "forcepho/proposal.py:source_struct_dtype", "forcepho/src/patch.cc:Patch", "forcepho/src/proposal.cu:Source"]}
{"id": "C148", "title": "The limits Python reads from the header are the limits of the compiled kernels", "statement": "The constants that `forcepho.kernel_limits` offers after import (numbers of bands, sources, radii and parameters, the largest exponent) are those which the compiler puts in place of the same names: the same names, with the same values, whatever the header says.", "quantifier": "all texts of the header made of plain lines, all numbers written in it", "why_tests_cant": "The module parses the header at import by a regular expression; a test sees the present header only, while a change of the header must keep the layouts of both sides in step", "anchors": ["forcepho/kernel_limits.py:macros", "forcepho/src/kernel_limits.h:MAXBANDS"]}
{"id": "C149", "title": "A patch class made of a storage class and a device mixin behaves as both, and free() releases the device memory", "statement": "For a patch class made by inheriting from a storage class and a device mixin, as JadesPatch and SimplePatch are: every method for finding and packing pixels is that of the storage class, every method for the device that of the mixin; free() releases all memory the patch holds on the device; clear() leaves no packed array; destroying the patch releases everything once.", "quantifier": "all storage classes of the package and of a user, both mixins and orders, all histories of operations, all device states", "why_tests_cant": "Which function a call runs depends on the whole class graph and the order of the bases; a missing release is not visible in any returned value, and a test without a GPU cannot see it at all", "anchors": ["forcepho/patches/__init__.py:JadesPatch", "forcepho/patches/__init__.py:SimplePatch", "forcepho/patches/patch.py:PatchBase.free", "forcepho/patches/patch.py:PatchBase.__del__", "forcepho/patches/device_patch.py:GPUPatchMixin.free", "forcepho/dispatcher.py:do_child"]}
{"id": "C150", "title": "Contours of a corner plot enclose the stated share of the samples", "statement": "For every histogram and every set of fractions, twodhist returns one contour level for each fraction: the cells denser than the level hold at most the fraction and any lower density would enclose more; larger fractions have lower levels; the levels increase strictly, as the plotting library requires; the function returns; a positive smoothing in each direction gives a histogram with at least one bin each way and any other raises; the padded histogram, its coordinates and the colours fit together.", "quantifier": "all histograms, all fractions, all numbers of bins", "why_tests_cant": "Ties between cells, empty cells and empty histograms depend on the samples; a loop that does not end on some input is not seen by tests on other inputs", "anchors": ["forcepho/utils/corner.py:twodhist", "forcepho/utils/corner.py:get_cmap"]}
{"id": "C151", "title": "A PSF file describes the image it was made from", "statement": "For every PSF image, width and oversampling, the file written by psf_mixture holds the section of the image around its centre, normalised to one with the share of the flux it contains, and gaussians that, evaluated at a pixel position relative to the centre of the full image in detector pixels, give the fitted model image at that pixel.", "quantifier": "all images, all sizes along either axis, all widths, all fitted parameters", "why_tests_cant": "An exchange of the axes is invisible on a square image and a shift of half a pixel on a smooth one; no test covers all sizes and widths", "anchors": ["forcepho/mixtures/utils_em.py:psf_mixture", "forcepho/slow/psf.py:params_to_gauss", "forcepho/mixtures/psf_mix_em.py:mvn_pdf_2d_mix_fn"]}
{"id": "C152", "title": "Every panel of a corner plot shows the parameters its labels name", "statement": "For every number of parameters and both layouts, the panel in row i and column j shows parameter j along x and i along y (on the diagonal the histogram of i), points are put in the same panels, labels name the parameter along their axis, the panels without content are hidden, quantiles and true values are marked in the panels of their parameters, and a histogram drawn with a peak has this peak.", "quantifier": "all numbers of parameters, both layouts, all true values, all samples and weights", "why_tests_cant": "A mark in the wrong panel of a figure is not visible to a test of return values; the loops have to be followed for all panels", "anchors": ["forcepho/utils/corner.py:corner", "forcepho/utils/corner.py:scatter", "forcepho/utils/corner.py:prettify_axes", "forcepho/utils/corner.py:show_extras", "forcepho/utils/corner.py:marginal"]}
{"id": "C153", "title": "The recipes of the documentation do what they say", "statement": "A mask of zeros and ones excludes the pixels marked 0 from the fit and keeps those marked 1; the documented fitting loop leaves the chain of every patch on disk under the number that the log gives for it, so that the catalog of posterior samples has the chains of every source; the documented expression for the trace of a flux of a source gives the samples of that flux.", "quantifier": "all images, masks, weights; all sequences of fits; all chains, bands and sources", "why_tests_cant": "The recipes live in the documentation, which no test runs, and two of them go wrong without an error message", "anchors": ["docs/inputs.rst", "docs/usage.md", "docs/output.md", "forcepho/patches/storage.py:PixelStore.add_exposure", "forcepho/superscene.py:SuperScene.checkin_region", "forcepho/utils/io.py:write_to_disk", "forcepho/utils/chain.py:make_chaincat", "forcepho/postprocess.py:postsample_catalog"]}
{"id": "C154", "title": "A likelihood is never silently computed from what is not a number", "statement": "If a parameter of a source, a pixel or a weight handed to the compiled likelihood is not a number, chi-square is not a number either, so that samplers can reject the point; and for parameters, pixels and weights within wide ranges chi-square is always a finite number, close to the exact one: nothing overflows on the way.", "quantifier": "all gaussians, sources, pixels and weights, finite, infinite or not a number; all numbers of gaussians and pixels; compilation with and without fused multiply-add; every cosine, sine and exponential with the stated accuracy", "why_tests_cant": "tests feed ordinary numbers; the behaviour of comparisons, clamps, sums and divisions at infinities and not-a-numbers depends on how each statement is written (exparg > cut is false for nan), and overflow happens at magnitudes that tests do not reach", "anchors": ["forcepho/src/common_kernel.cc:ComputeResidualImage", "forcepho/src/common_kernel.cc:GetGaussianAndJacobian", "forcepho/src/compute_gaussians_kernel.cc:EvaluateProposal", "forcepho/src/matrix22.cc:matrix22"]}
{"id": "C155", "title": "The demonstrations make and fit the data they describe", "statement": "The scripts of the demonstrations make images of sources with the radii, profiles, fluxes, shapes, separations and signal-to-noise ratio that are asked for on the command line, drawn with the same convention of shapes and positions and the same PSF as the fit assumes; the fit of each demonstration reads the files that the step before it wrote, and its region covers the whole image.", "quantifier": "all lists of radii, profiles, fluxes, axis ratios and angles; all stamp sizes, pixel scales, dithers, widths of the PSF and signal-to-noise ratios; all lists of bands and files; astrometry that is flat to nine percent over the image", "why_tests_cant": "the scripts need GalSim, drizzlepac and compiled kernels and are run by hand with their defaults; other options, dither patterns, shapes of images and the convention of shears hold for all values or not at all", "anchors": ["demo/demo_utils.py:make_scene", "demo/demo_utils.py:make_stamp", "demo/demo_utils.py:galsim_model", "demo/demo_utils.py:compute_noise_level", "demo/demo_utils.py:make_psfstore", "demo/demo_utils.py:write_fits_to", "demo/demo_color/color_fit.py:bands", "demo/demo_mosaic/mosaic_make_dithers.py:to_fits", "demo/demo_mosaic/mosaic_combine_dithers.py:drizzle_combine", "demo/demo_basic/basic.py:radius", "demo/demo_psf/psf_one_fit.py:make_tag"]}
{"id": "C156", "title": "A pixel of the model is the light of the sources, blurred by the PSF and integrated over the pixel", "statement": "The counts that the likelihood subtracts from a pixel are the integral over the pixel of the image of the sources, where the image is the light of every component of every source on the sky, carried to the image by the astrometry and convolved with the PSF. The error has an explicit bound: for each gaussian its height times the square of the trace of its precision matrix, and a rest at six standard deviations.", "quantifier": "all sources with nonzero axis ratio, all invertible scale matrices, all positive profile radii, all PSF mixtures with positive definite covariances, all pixels", "why_tests_cant": "the tests compare the kernel with finite differences of itself, and the demonstrations with images drawn by another program for a few shapes; the integrals over the plane and over the pixel and the size of the error hold for all shapes, positions and PSFs", "anchors": ["forcepho/src/common_kernel.cc:ComputeResidualImage", "forcepho/src/common_kernel.cc:GetGaussianAndJacobian", "forcepho/src/compute_gaussians_kernel.cc:CreateImageGaussians", "forcepho/src/kernel_limits.h:MAX_EXP_ARG"]}
{"id": "C157", "title": "The fit of gaussian mixtures to Sersic profiles has one minimum, and its target is the smoothed profile", "statement": "The mixture compared with a Sersic profile is the sum of normal densities in the plane, convolved with the smoothing gaussian, and the target is the Sersic profile convolved with the same gaussian. The objective is zero exactly when both agree at all radii, does not depend on the unit of brightness, and every local minimum or stationary point in the logarithms of the amplitudes is a global minimum. The smoothness penalty measures gradients between neighbouring amplitudes. The radii may be left to the fit.", "quantifier": "all amplitudes, radii, numbers of gaussians, targets, Sersic indices, half-light radii, smoothing lengths, numbers of terms of the series", "why_tests_cant": "the result of a minimiser is compared by eye with the profile for a few indices; that no other minimum exists, and that the series is the convolution with an error below its next term, are statements on all points of the parameter space", "anchors": ["forcepho/mixtures/sersic_mix_oned.py:chisq", "forcepho/mixtures/sersic_mix_oned.py:fit_gaussians", "forcepho/mixtures/sersic_mix_oned.py:sersic_profile", "forcepho/mixtures/sersic_mix_oned.py:normal_oned"]}
{"id": "C158", "title": "The verification against a stored image accepts exactly what it says", "statement": "The check of a scene against a stored image passes exactly when every pixel that is not padding has a residual of at most 5e-7, whatever the padding contains, and never when a residual is not a number. The check of chi square bounds the chi square of those pixels, and the check of the likelihood passes for the likelihood of the kernels. When the check of gradients passes, every gradient is within a stated distance of the true derivative, and it passes whenever they are close enough. The functions of the scripts find every name they read.", "quantifier": "all pixels, residuals, uncertainties, likelihoods, gradients with a bounded third derivative", "why_tests_cant": "the verification is itself the test; what it lets through is a statement on all images and gradients, and which name is never bound is a statement on all definitions around the functions", "anchors": ["tests/verification/verify_reference.py:test_chi2", "tests/verification/verify_reference.py:test_gradients", "tests/verification/verify_reference.py:validate", "tests/verification/make_reference.py:parser"]}
{"id": "C159", "title": "Every module of the package and every script can be imported, whatever optional packages are installed", "statement": "With numpy, scipy, astropy, h5py and the standard library, importing any module of the package succeeds, in a new session or after any other imports, and the absence of optional packages changes nothing else than the names bound to them. Importing all public names of a module brings exactly the names it lists. Every script and test of the repository finds the names it imports.", "quantifier": "all sets of installed packages, all sequences of imports before, all modules and scripts", "why_tests_cant": "tests import the modules they test, in one environment and one order; that no environment and no order makes an import succeed is a statement on all sessions", "anchors": ["forcepho/dispatcher.py:read_config", "forcepho/utils/__init__.py:import", "forcepho/postprocess.py:make_errorbars", "forcepho/proposal.py:__all__", "forcepho/patches/__init__.py:__all__"]}
{"id": "C160", "title": "The validation on simulated galaxies reports for every point of its grid the fit of that point", "statement": "The grid of a run is all choices of the values in its file, in order. Every point is simulated and fitted once, and the summary gives for every point the chain of that point, also when the run was interrupted and started again. A run leaves in its directory the grid and the summary of that grid, also where an earlier run has ended. The simulated image has the S/N, the shape, the place, the flux and the PSF asked for, so that a perfect fit recovers the truth: the ellipse of the simulated galaxy is that of the model, and the aperture flux at the truth is half of the flux. The bands written in the image file are the bands read.", "quantifier": "all grids, points, directories, interrupted runs, radii, axis ratios, angles, widths, bands", "why_tests_cant": "the validation is itself run once on one grid; that no two points of any grid share their files, and that no restart loses a point, are statements on all grids and all earlier states of the directory", "anchors": ["tests/galsim_tests/test_sersic/test_sersic_mixture.py:make_all_tags", "tests/galsim_tests/test_sersic/test_sersic_mixture.py:make_tag", "tests/galsim_tests/test_psf/test_psf_mixture.py:make_tag", "tests/galsim_tests/test_utils.py:get_grid_params", "tests/galsim_tests/test_utils.py:compute_noise_level", "tests/galsim_tests/test_utils.py:make_scene", "tests/galsim_tests/test_utils.py:make_psfstore", "tests/galsim_tests/test_plot.py:compare_apflux"]}
{"id": "C161", "title": "The best fit of a mixture predicts and shows what was fitted", "statement": "The parameters that a fit of a gaussian mixture returns, passed to the prediction function, give the mean that was compared with the image, with a fixed or free amplitude and centre, with a background and with negative gaussians. The best parameters are those of the most probable sample. The PSF made from a fit predicts the same image. The ellipses drawn are the one-sigma contours of the gaussians, and the curves of growth are the flux within each radius.", "quantifier": "all numbers of gaussians, parameters, samples, images, options", "why_tests_cant": "whether a prediction equals the fitted mean for all parameters and options, and whether an ellipse is a contour, are equations between functions; a test fits one image", "anchors": ["forcepho/mixtures/psf_mix_hmc.py:psf_model", "forcepho/mixtures/psf_mix_hmc.py:psf_prediction", "forcepho/mixtures/sersic_mix_twod.py:sersic_model", "forcepho/mixtures/sersic_mix_twod.py:sersic_prediction", "forcepho/mixtures/utils_hmc.py:infer", "forcepho/mixtures/utils_hmc.py:draw_ellipses", "forcepho/mixtures/utils_hmc.py:ee_plot", "demo/demo_psf/make_jwst_psf/make_psf.py:fit_image", "demo/demo_psf/make_jwst_psf/make_psf.py:rectify"]}
{"id": "C162", "title": "The figures of the demonstrations show what they say", "statement": "A frame of the movie shows the residual of the draw that it marks. The marked truth is the truth. Figures show draws after the warm-up, each fit in the colour of the legend, under the label of its column, in ranges that hold all fits. Total fluxes, aperture fluxes and colours are those of each draw. The text of a trace has the digits that its uncertainty asks for, and the colour scale holds all that is shown.", "quantifier": "all chains, numbers of fits, sources and draws, warm-ups, thinnings, images, masks", "why_tests_cant": "which draw, column or source ends in which panel is a statement about positions for all sizes; a test looks at one figure", "anchors": ["demo/demo_pair/pair_movie.py", "demo/demo_pair/pair_plot.py", "demo/demo_snr/single_plot.py", "demo/demo_basic/basic_plot.py", "demo/demo_mosaic/mosaic_plot.py", "demo/demo_color/color_plot_together.py", "demo/demo_color/color_plot_separate.py", "forcepho/postprocess.py:Residuals.show"]}
{"id": "C163", "title": "The scripts of a demonstration find each other's files", "statement": "The figures of a demonstration read the chains that its fits write, and the fits read the images that were made, for every S/N, band, dither, directory and name that the scripts accept. Different settings have different files. Residuals are found beside their chain, and figures are written beside it.", "quantifier": "all output directories, S/N, bands and their order, numbers of dithers, file names", "why_tests_cant": "whether names made by one script are the names another one looks for, for all directories and numbers, is an equation between text functions; a test runs the defaults", "anchors": ["demo/demo_snr/single_make.py", "demo/demo_snr/single_fit.py", "demo/demo_snr/single_plot.py", "demo/demo_color/color_fit.py", "demo/demo_color/color_plot_separate.py", "demo/demo_color/color_plot_together.py", "demo/demo_mosaic/mosaic_make_dithers.py", "demo/demo_mosaic/mosaic_combine_dithers.py", "demo/demo_mosaic/mosaic_fit.py", "demo/demo_pair/pair_make.py", "demo/demo_pair/pair_fit.py", "demo/demo_basic/basic.py:make_tag", "demo/demo_basic/basic_plot.py"]}
{"id": "C164", "title": "A function never meets a name that its module lacks", "statement": "Whatever modules are imported and in whatever order, each function finds every global name in its text in the module it was written in: calling it never ends in a NameError. What is imported only if it is installed is missing only where it is needed: for figures, sampling of mixtures and the GPU.", "quantifier": "all installations, all sequences of imports, all functions and methods of the package, the demonstrations and the GalSim tests, all orders of lookups", "why_tests_cant": "a missing name shows only when the line is executed; most of these branches have no test, and a test covers one order of imports and one installation", "anchors": ["forcepho (all modules)", "demo (all scripts)", "tests/galsim_tests", "forcepho/config.py:default_config_file", "forcepho/postprocess.py:check_multipatch, write_sourcereg", "forcepho/utils/catalog.py:rectify_jades", "forcepho/patches/static_patch.py:patch_to_stamps", "forcepho/mixtures/sersic_mix_twod.py:sersic_model"]}
{"id": "C165", "title": "A figure of pixel values shows each value at its pixel", "statement": "The pictures of an exposure or of a fitted PSF show each value within half a pixel of where the pixel is, x to the right and y upwards, and nothing where there is no pixel; residual panels show percent of the brightest pixel on a symmetric scale that all values fit into; the radial plot places each pixel at its distance from the centre and its lines mean what their labels say.", "quantifier": "all sets of pixels with coordinates and values, all centres, with and without given axes", "why_tests_cant": "a transposed, shifted or clipped picture raises no error, and nobody compares figures in tests", "anchors": ["forcepho/postprocess.py:show_exp", "forcepho/mixtures/utils_hmc.py:show_exp, display, radial_plot"]}
{"id": "C166", "title": "Files of PSF fits contain what was fitted under the right names", "statement": "Combining PSF files gives one file with every band of every input under its upper case name, with its data and the file it came from, or stops; the FITS file of a fit has the picture of the data, of the model and the table at the numbers that its header says, with rows along y; saving a fit as HDF5 and as FITS leaves both files.", "quantifier": "all lists of files and bands, all image shapes and pixel values, all output names", "why_tests_cant": "the name clash depends on the set of files combined, square test images hide a transposition, and the overwriting depends on how the user names the output", "anchors": ["approx/psf/make_psf.py:combine_psfdatasets, fitsify_output, __main__", "demo/demo_psf/make_jwst_psf/make_psf.py:combine_psfdatasets, fitsify_output"]}
{"id": "C167", "title": "Every call passes arguments that the called function takes", "statement": "No call in the package, the demonstrations or the tests ends in a TypeError because of its arguments: wherever a function, method or constructor is called by name, every value reaches a parameter and every parameter without default gets a value.", "quantifier": "all calls by name in all files, all values", "why_tests_cant": "a wrong keyword or a missing argument shows only when the line is executed; the calls that fail are in branches and scripts without tests", "anchors": ["forcepho (all modules)", "demo (all scripts)", "tests (all files)", "approx (all scripts)", "forcepho/mixtures/psf_mix_em.py:fit_mvn_mix", "forcepho/mixtures/psf_mix_hmc.py:__main__", "tests/galsim_tests/test_sersic/test_sersic_mixture.py:__main__"]}
{"id": "C168", "title": "Comparison figures show every fit against its truth", "statement": "A comparison figure has, for each value of the parameter it is split by, one point for each finished fit with that value and no other: the abscissa is the chosen true value, the ordinate the median of the samples (or its difference from the truth), the bar reaches from the 16th to the 84th percentile. No choice of the point to plot makes the figure fail, and no fit is left out.", "quantifier": "all catalogs of fits with samples, all abscissae, with and without difference, any number of split values", "why_tests_cant": "the plotted numbers never return to the caller; which fits are missing from a figure is not visible in it", "anchors": ["tests/galsim_tests/test_plot.py:compare_parameters", "demo/demo_psf/psf_grid_plot.py:compare_parameters"]}
{"id": "C169", "title": "Statistics of a run are those the sampler reported, and warm-up is not taken for samples", "statement": "The table of statistics has one row for each draw, with exactly the reported value under each declared name. The numbers of warm-up draws and samples add up to the number of draws, and the last n_sample draws, which postprocessing hands out as posterior samples, are those that are not warm-up.", "quantifier": "all lists of statistics, all sequences of warm-up flags, all per-draw quantities", "why_tests_cant": "tests sample with one fixed number of draws; the slice from the end silently means something else at zero", "anchors": ["forcepho/utils/chain.py:make_statscat", "forcepho/fitting.py:Result.fill", "forcepho/postprocess.py:postsample_catalog"]}
{"id": "C170", "title": "The demonstration of the scene shows every source in its state and every region at its place", "statement": "The example catalog holds every object of the field with its position, shape, radii and fluxes. In the panels every source has the colour that the legend gives its state (available, active, fixed, sampled), every region that stays checked out keeps its number, and the circle drawn for a region contains the sources it holds.", "quantifier": "all input catalogs, all sets of regions held, all positions and radii", "why_tests_cant": "the figure is compared with nothing; a source outside the circle of its region looks like a source of another region", "anchors": ["demo/demo_scene/scene_plot.py:convert_3dhst", "demo/demo_scene/scene_plot.py:show_reg", "demo/demo_scene/scene_plot.py:__main__"]}
{"id": "C171", "title": "The figure of a PSF fit shows the fitted gaussians", "statement": "The ellipse drawn for each gaussian of a PSF fit is its contour of one standard deviation, at its place and in its orientation in the image shown beside it; its colour, read off the colour bar, is its amplitude; the residual panel is zero where image and model agree.", "quantifier": "all fitted gaussians of positive width and correlation below one, all points of the panel", "why_tests_cant": "exchanged axes, or a rotation in the wrong sense, still give plausible ellipses; the figure is not compared with anything", "anchors": ["forcepho/mixtures/utils_em.py:draw_ellipses", "forcepho/mixtures/utils_em.py:plot_model", "forcepho/mixtures/psf_mix_em.py:mvn_pdf"]}
{"id": "C172", "title": "Files and figures of fitted Sersic profiles describe the fit", "statement": "The row written for a Sersic index and half-light radius holds the amplitudes of the fit, scaled to unit sum, the model that belongs to them, and the profile that was fitted. In the figures the dotted curves are the gaussians and add up to the mixture, the lower panel is the relative deviation, the cumulative curves are the shares of flux; the text table has the amplitudes of the file.", "quantifier": "all fit results, radii, smoothing lengths, Sersic indices and half-light radii, all radii of the profile", "why_tests_cant": "the file is read for its amplitudes only; that the model beside them has another scale does not show", "anchors": ["forcepho/mixtures/sersic_mix_oned.py:fit_profiles", "forcepho/mixtures/sersic_mix_oned.py:plot_profiles", "forcepho/mixtures/sersic_mix_oned.py:plot_cfd", "forcepho/mixtures/sersic_mix_oned.py:amplitude_table"]}
{"id": "C173", "title": "The test of undersampling compares the same flux in the same pixels", "statement": "In the test of undersampled images, the oversampled pixels averaged into a native pixel are those that tile it on the sky; the average times their number is their flux, so that nothing is lost; the PSF of both images has the same width on the sky; the reported deviation is that of the worst pixel, with its sign, in percent of the brightest.", "quantifier": "all images, sizes and factors of oversampling, all positions of the star", "why_tests_cant": "a shift by half a small pixel, or a block taken along the wrong axis, changes the deviation by amounts like those the test is to measure", "anchors": ["tests/slow_tests/test_undersample.py:rebin", "tests/slow_tests/test_undersample.py:get_stamp", "tests/slow_tests/test_undersample.py:main", "tests/slow_tests/undersample_figure.py:main"]}
{"id": "C174", "title": "Identifiers and positions fit the columns of catalogs", "statement": "A source keeps the identifier and position that the user's catalog gives it, in the catalog of the run, in catalogs of chains, in summaries and in the catalog of a scene; two sources never get the same identifier.", "quantifier": "all identifiers, given as integers of 64 bits or as floats, all positions", "why_tests_cant": "identifiers of tests are small; that large ones wrap around, or that positions are rounded to single precision in one of the catalogs, is not reported", "anchors": ["forcepho/superscene.py:sourcecat_dtype", "forcepho/superscene.py:rectify_catalog", "forcepho/sources.py:cat_dtype", "forcepho/sources.py:to_catalog_row", "forcepho/postprocess.py:postsample_catalog", "forcepho/postprocess.py:summary_dtype"]}
{"id": "C175", "title": "Stored test exposures read back as they were made", "statement": "The exposures that the script for the data of the reference test makes and stores are read by the reference test as they were made: each pixel within the limits of the patch has its own coordinates, value and uncertainty, and no other pixel is read. The scene has the galaxies asked for, evenly spaced within the limits, and the PSF has unit flux. Each band has the exposures asked for, which cover the size asked for, are shifted by three pixels from one to the next, and every second of which is turned by 30 degrees.", "quantifier": "all sizes of exposures, linear maps from sky to pixels, limits, values and uncertainties, numbers of galaxies, gaussians, bands and exposures", "why_tests_cant": "the stored exposures are square, for which a swap of the axes cannot be seen, and the script that makes them is not run", "anchors": ["tests/slow_tests/create_test_data.py:make_exposures", "tests/slow_tests/create_test_data.py:write_exposures", "tests/slow_tests/create_test_data.py:make_scene", "tests/slow_tests/create_test_data.py:get_psf", "tests/slow_tests/test_simple.py:read_exposure", "tests/slow_tests/test_simple.py:pixelcoords_to_skycoords"]}
{"id": "C176", "title": "Switches and configurations act as given", "statement": "A switch on a command line is on or off as the user gives it: a number switches it off exactly if it is zero, and what cannot be understood is refused. A stored PSF is replaced only if the user asks for it. A configuration can be given as the name of a file or as a dictionary.", "quantifier": "all texts given on the command line, all defaults, stores, bands and data, all files and dictionaries", "why_tests_cant": "tests give switches by their defaults; that 0 or False turns a switch on cannot be seen from tests of the value 1", "anchors": ["forcepho/config.py:main_config_parser", "forcepho/config.py:yaml_to_namespace", "demo/demo_psf/make_jwst_psf/make_psf.py:package_output", "demo/demo_psf/make_jwst_psf/make_psf.py:__main__", "approx/psf/make_psf.py:__main__"]}
{"id": "C177", "title": "Commands of the documentation and scripts are understood, and clients share GPUs evenly", "statement": "Every command of the readmes and shell scripts starts a program that exists, gives it only options it declares with values of the declared kind, and names configuration files that exist. A script that lists bands fits all of them, each at the pixel scale of its channel. The PSF script writes what it is asked for. The clients of a node share its GPUs evenly.", "quantifier": "all command lines against all declared options, all commands of the repository, all options of the approximation script, all numbers of clients and GPUs", "why_tests_cant": "no test runs the readmes or the shell scripts; an abbreviation or a loop bound is only wrong for some command lines", "anchors": ["demo/demo_psf/readme.md", "demo/demo_psf/run_psf_test.sh", "demo/demo_psf/make_jwst_psf/run_psf_approximation.sh", "demo/demo_psf/make_jwst_psf/make_psf.py:__main__", "approx/psf/readme.md", "approx/psf/make_psf.py:__main__", "tests/galsim_tests/test_sersic/test_sersic_cannon.sh", "demo/demo_utils.py:get_parser", "tests/galsim_tests/test_utils.py:get_parser", "scripts/client_shim.sh"]}
{"id": "C178", "title": "A stamp cut out of an image holds the pixels around the position", "statement": "Cutting a stamp out of an image gives the pixels of a box of the given size about the given position, with the inverse uncertainties as weights and no weight for bad pixels, the box cut off at the edges of the image, and a reference pixel at the position.", "quantifier": "all images and uncertainties, all positions and sizes, in pixels and on the sky", "why_tests_cant": "a test at one position of a square image can neither tell rows from columns nor see the edges; here the function never returns", "anchors": ["forcepho/slow/stamp.py:extract_stamp", "forcepho/slow/stamp.py:PostageStamp"]}
